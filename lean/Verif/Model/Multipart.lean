import Verif.Model.ImagePage
/-
What a browser sends when a page posts a form with a file: the body of the `fetch` in `uploadImage`
(examples/image-uploader/index.html:57-66), which is also what it sends for an HTML form with `enctype="multipart/form-data"`. From
the "multipart/form-data encoding algorithm" of the HTML Standard.
-/
namespace CSS.ImageUploader

/-- Every line end of a text becomes a carriage return and a line feed. (HTML Standard, for names and values.) -/
def normalizeNewlines : Str → Str
  | [] => []
  | '\r' :: '\n' :: rest => '\r' :: '\n' :: normalizeNewlines rest
  | '\r' :: rest => '\r' :: '\n' :: normalizeNewlines rest
  | '\n' :: rest => '\r' :: '\n' :: normalizeNewlines rest
  | c :: rest => c :: normalizeNewlines rest

/-- "escape a multipart/form-data name" -/
def escapeName (s : Str) : Str :=
  s.flatMap fun c => if c = '\n' then s% "%0A" else if c = '\r' then s% "%0D" else if c = '"' then s% "%22" else [c]

/-- The part of one field: examples/image-uploader/index.html:59-62 -/
def fieldPart (f : Str × Str) : Bytes :=
  utf8 (s% "Content-Disposition: form-data; name=\"" ++ escapeName (normalizeNewlines f.1) ++ s% "\"\r\n\r\n") ++
    utf8 (normalizeNewlines f.2)

/-- The part of the file: `body.set("file", file)`, examples/image-uploader/index.html:63 -/
def filePart (file : ChosenFile) : Bytes :=
  utf8 (s% "Content-Disposition: form-data; name=\"file\"; filename=\"" ++ escapeName file.name ++ s% "\"\r\nContent-Type: " ++
    (if file.type = [] then s% "application/octet-stream" else file.type) ++ s% "\r\n\r\n") ++ file.content

/-- The body of the request: `fetch(url, { body, method })`, examples/image-uploader/index.html:65. The boundary is chosen by the
browser and named in the header `Content-Type`. -/
def multipartBody (boundary : Str) (entries : List (Str × Str)) (file : ChosenFile) : Bytes :=
  ((entries.map fieldPart ++ [filePart file]).flatMap fun part => utf8 (s% "--" ++ boundary ++ s% "\r\n") ++ part ++ utf8 (s% "\r\n")) ++
    utf8 (s% "--" ++ boundary ++ s% "--\r\n")

/-- What `uploadImage` posts: examples/image-uploader/index.html:57-65 -/
def uploadBody (boundary : Str) (fields : List (Str × Str)) (file : ChosenFile) : Bytes :=
  multipartBody boundary (formEntries fields) file

end CSS.ImageUploader
