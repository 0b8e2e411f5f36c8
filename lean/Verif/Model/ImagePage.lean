import Verif.Model.ImageUploader
/-
The page examples/image-uploader/index.html of the example server.

The page is JavaScript. An upload (`onChange`) waits at each `await` of a `fetch`; between two of them it runs without
interruption. `Upload` says where it waits. Every `fetch` may fail, and the page may be closed at any time.

Requests and answers are parsed here; their texts are in `Model/ImageHttp`. Simplified: no field of the form is called `file` (the
example server returns none).
-/
namespace CSS.ImageUploader

/-- A `File` that the user has chosen: examples/image-uploader/index.html:71-77 -/
structure ChosenFile where
  name : Str
  type : Str
  content : Bytes

/-- `FormData.set(name, value)` (XMLHttpRequest Standard): the first entry of this name gets the value and the others are
removed; without one, an entry is added at the end. Used in examples/image-uploader/index.html:60 -/
def setEntry (name value : Str) : List (Str × Str) → List (Str × Str)
  | [] => [(name, value)]
  | e :: es => if e.1 = name then (name, value) :: es.filter (fun x => decide (x.1 ≠ name)) else e :: setEntry name value es

/-- The entries that `uploadImage` sends before the file: examples/image-uploader/index.html:57-61 -/
def formEntries (fields : List (Str × Str)) : List (Str × Str) :=
  fields.foldl (fun entries f => setEntry f.1 f.2 entries) []

/-- `formData.find(([name]) => name === "key")[1]`, which throws if there is none:
examples/image-uploader/index.html:79 -/
def findKey (fields : List (Str × Str)) : Option Str := (fields.find? fun f => decide (f.1 = s% "key")).map (·.2)

/-- The bucket that a form posted to this URL goes to. (The URL parser leaves bucket names alone.) -/
def bucketOf (url : Str) : Option Str :=
  if (s% "https://storage.googleapis.com/").isPrefixOf url then some (url.drop 31) else none

/-- Where an upload is: `onChange`, examples/image-uploader/index.html:71-83, with `createImage` (19-31), `uploadImage`
(57-69), `updateImage` (43-49) and `loadImages` (34-40). Requests to the example server are named by their number. -/
inductive Upload where
  /-- will call `createImage` -/
  | chosen
  /-- waits for the answer to `POST /images` -/
  | registering (request : Nat)
  /-- will call `uploadImage` -/
  | uploading (fields : List (Str × Str)) (method url : Str)
  /-- `uploadImage` has returned; will call `updateImage` -/
  | uploaded (id : Str)
  /-- waits for the answer to `PATCH /images/:id` -/
  | reporting (request : Nat)
  /-- will call `loadImages` -/
  | reported
  /-- waits for the answer to `GET /images` -/
  | listing (request : Nat)
  /-- has called `renderListItems` with these URLs -/
  | shown (urls : List Str)
  /-- an exception was thrown, or the page was closed -/
  | failed

/-- What the page does when the example server has answered (status 200 or 204 as expected, or an exception). -/
def Upload.answered (u : Upload) (reply : Reply) : Upload :=
  match u, reply with
  | .registering _, .form fields method url => .uploading fields method url
  | .reporting _, .noContent => .reported
  | .listing _, .urls urls => .shown urls
  | _, _ => .failed

/-- The request to the example server that the page waits for. -/
def Upload.waits : Upload → Option Nat
  | .registering i | .reporting i | .listing i => some i
  | _ => none

/-- What the page sends next to the example server, if it does. Without a type, the body has no `content_type` and the
server's JSON extractor refuses it (examples/image-uploader/index.html:25, src/main.rs:1-5). -/
def Upload.request (file : ChosenFile) : Upload → Option Req
  | .chosen => if file.type = [] then none else some (.create file.content.length file.type)
  | .uploaded id => some (.update id)
  | .reported => some .list
  | _ => none

/-- Where the page is when it has sent it. -/
def Upload.sent (i : Nat) : Upload → Upload
  | .chosen => .registering i
  | .uploaded _ => .reporting i
  | .reported => .listing i
  | u => u

/-! ### The list on the page -/

/-- `for (const node of ulElement.childNodes) ulElement.removeChild(node)`: the list is live, the loop goes on with the next
position after each removal. examples/image-uploader/index.html:89 -/
def removeLoop {α : Type} (i : Nat) (items : List α) : List α :=
  if i < items.length then removeLoop (i + 1) (items.eraseIdx i) else items
termination_by items.length - i
decreasing_by
  rw [List.length_eraseIdx]
  split <;> omega

/-- `renderListItems`: examples/image-uploader/index.html:86-101. The list of the page, by the `src` of its images. -/
def renderListItems (items urls : List Str) : List Str := removeLoop 0 items ++ urls

end CSS.ImageUploader
