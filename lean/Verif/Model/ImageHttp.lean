import Verif.Model.ImagePage
import Verif.Model.Serde
/-
What the page and the example server say to each other over HTTP: axum's routes and extractors in front of the handlers, the
bodies that the handlers answer, and how the page writes requests and reads answers. `Model/ImageUploader` and
`Model/ImagePage` describe the same with parsed requests and answers.

Versions: axum 0.7.5, matchit 0.7.3, serde_json 1.0.116 (examples/image-uploader/Cargo.lock).

Not modelled: bodies that are not UTF-8, and which of the statuses 400 and 422 a bad body gets.
-/
namespace CSS.ImageUploader

/-- A request as far as axum looks at it: the path of its target, its `content-type` and its body. -/
structure WebRequest where
  method : Str
  path : Str
  contentType : Option Str
  body : Str

/-- An answer: status and body. -/
structure WebResponse where
  status : Nat
  body : Str

/-- Which values of `content-type` say that the body is JSON: `application/json` and others, like
`application/json; charset=utf-8`, that crate mime decides on. -/
structure MimeTypes where
  isJson : Str → Bool
  json : isJson (s% "application/json") = true

/-- Why a request does not reach a handler, with the status of the answer. -/
inductive Refusal where
  /-- 404 -/
  | notFound
  /-- 405 -/
  | methodNotAllowed
  /-- 400: the id is not UTF-8. -/
  | badPath
  /-- 415 -/
  | unsupportedMediaType
  /-- 413 -/
  | payloadTooLarge
  /-- 400 or 422 -/
  | badBody
  deriving DecidableEq, Repr

/-- What becomes of a request: the page, a handler with its parsed input, or an error. -/
inductive Routed where
  | page
  | api (r : Req)
  | refused (r : Refusal)
  deriving DecidableEq, Repr

/-- The struct at the beginning of a text, read by `serde_json::Deserializer` without `end()`: like `parseStruct`, but what
follows is not looked at. -/
def readStruct (fields : List (Str × Kind)) (s : Str) : Option (List FieldVal) :=
  match skipWs s with
  | '{' :: r =>
    match skipWs r with
    | '"' :: r1 =>
      match structMembers fields (r1.length + 1) [] r1 with
      | none => none
      | some (acc, _) => fields.mapM (fun f => acc.lookup f.1)
    | _ => none
  | '[' :: r =>
    match structSeq fields true r with
    | none => none
    | some (vs, _) => some vs
  | _ => none

/-- `CreateImageRequestBody`: examples/image-uploader/src/main.rs:1-5. (axum 0.7.5 does not look for trailing characters.) -/
def readCreateBody (s : Str) : Option (Nat × Str) :=
  match readStruct [(s% "content_length", .u64), (s% "content_type", .string)] s with
  | some [.n n, .s t] => some (n, t)
  | _ => none

/-- axum's `Json` extractor: examples/image-uploader/src/main.rs:24-27. Its default limit is 2 MiB. -/
def extractCreate (mime : MimeTypes) (q : WebRequest) : Routed :=
  match q.contentType with
  | none => .refused .unsupportedMediaType
  | some ct =>
    if mime.isJson ct = false then .refused .unsupportedMediaType
    else if 2097152 < (utf8 q.body).length then .refused .payloadTooLarge
    else match readCreateBody q.body with
      | none => .refused .badBody
      | some (n, t) => .api (.create n t)

/-- axum's `Path` extractor: examples/image-uploader/src/main.rs:115. The segment is percent-decoded and must then be UTF-8. -/
def extractId (segment : Str) : Routed :=
  let bytes := pctDecode (utf8 segment)
  if utf8 (utf8Lossy bytes) = bytes then .api (.update (utf8Lossy bytes)) else .refused .badPath

/-- The routes: examples/image-uploader/src/main.rs:164-173. `:id` is a segment that is not empty; `get` serves `HEAD`, too. -/
def route (mime : MimeTypes) (q : WebRequest) : Routed :=
  if q.path = s% "/" then
    if q.method = s% "GET" ∨ q.method = s% "HEAD" then .page else .refused .methodNotAllowed
  else if q.path = s% "/images" then
    if q.method = s% "GET" ∨ q.method = s% "HEAD" then .api .list
    else if q.method = s% "POST" then extractCreate mime q
    else .refused .methodNotAllowed
  else if (s% "/images/").isPrefixOf q.path ∧ q.path.drop 8 ≠ [] ∧ '/' ∉ q.path.drop 8 then
    if q.method = s% "PATCH" then extractId (q.path.drop 8) else .refused .methodNotAllowed
  else .refused .notFound

/-- The body of `axum::Json(CreateImageResponseBody { .. })`: examples/image-uploader/src/main.rs:7-12,60-64 -/
def formJson (fields : List (Str × Str)) (method url : Str) : Json :=
  .obj [(s% "form_data", .arr (fields.map fun f => .arr [.str f.1, .str f.2])), (s% "method", .str method), (s% "url", .str url)]

/-- The body of `axum::Json(signed_urls)`: examples/image-uploader/src/main.rs:105 -/
def urlsJson (urls : List Str) : Json := .arr (urls.map .str)

/-- What is sent for the answer of a handler (nothing after a panic; no body after `HEAD`, which the page does not use): examples/image-uploader/src/main.rs:28,60-64,77,105,116,126 -/
def Reply.web : Reply → Option WebResponse
  | .form fields method url => some ⟨200, (formJson fields method url).render⟩
  | .urls us => some ⟨200, (urlsJson us).render⟩
  | .noContent => some ⟨204, []⟩
  | .internalServerError => some ⟨500, []⟩
  | .aborted => none

/-! ### The page -/

/-- The body of `POST /images`: `JSON.stringify({ content_length: size, ...type.length > 0 ? { content_type: type } : {} })`,
examples/image-uploader/index.html:23-26. (`JSON.stringify` escapes as serde_json does; a size is below 2^53.) -/
def createJson (size : Nat) (type : Str) : Json :=
  .obj ((s% "content_length", .num (natDec size)) :: if type = [] then [] else [(s% "content_type", .str type)])

/-- What the page sends next to the example server: `createImage` (19-27), `updateImage` (43-45) and `loadImages` (34-36) of
examples/image-uploader/index.html. (The URL parser leaves the id alone if it is a UUID.) -/
def Upload.webRequest (file : ChosenFile) : Upload → Option WebRequest
  | .chosen => some ⟨s% "POST", s% "/images", some (s% "application/json"), (createJson file.content.length file.type).render⟩
  | .uploaded id => some ⟨s% "PATCH", s% "/images/" ++ id, none, []⟩
  | .reported => some ⟨s% "GET", s% "/images", none, []⟩
  | _ => none

/-- `JSON.parse`. (Lone surrogates, which it accepts, have no text here.) -/
def jsonParse (s : Str) : Option Json :=
  match parseValue (fun _ => true) s.length s with
  | some (j, r) => if skipWs r = [] then some j else none
  | none => none

/-- A list of strings. -/
def readStrings : List Json → Option (List Str)
  | [] => some []
  | .str s :: r => (readStrings r).map (s :: ·)
  | _ => none

/-- A list of pairs of strings. -/
def readPairs : List Json → Option (List (Str × Str))
  | [] => some []
  | .arr [.str a, .str b] :: r => (readPairs r).map ((a, b) :: ·)
  | _ => none

/-- `const { form_data: formData, method, url } = await response.json()`: examples/image-uploader/index.html:29. With other
types the page throws sooner or later. -/
def readForm : Json → Option (List (Str × Str) × Str × Str)
  | .obj ms =>
    match objGet ms (s% "form_data"), objGet ms (s% "method"), objGet ms (s% "url") with
    | some (.arr xs), some (.str method), some (.str url) => (readPairs xs).map fun fields => (fields, method, url)
    | _, _, _ => none
  | _ => none

/-- What the page does with an answer of the example server: examples/image-uploader/index.html:28-30,37-39,46-48. -/
def Upload.receives (u : Upload) (r : WebResponse) : Upload :=
  match u with
  | .registering _ =>
    if r.status ≠ 200 then .failed
    else match (jsonParse r.body).bind readForm with
      | some (fields, method, url) => .uploading fields method url
      | none => .failed
  | .reporting _ => if r.status ≠ 204 then .failed else if r.body ≠ [] then .failed else .reported
  | .listing _ =>
    if r.status ≠ 200 then .failed
    else match jsonParse r.body with
      | some (.arr xs) =>
        match readStrings xs with
        | some urls => .shown urls
        | none => .failed
      | _ => .failed
  | _ => .failed

end CSS.ImageUploader
