import Verif.Model.ImageHttp
import Verif.Spec.Cors
/-
The CORS configuration that comes with the example, and the cross-origin request of its page.
-/
namespace CSS.ImageUploader
open CSS.Spec (CorsEntry CrossRequest)

/-- The file examples/image-uploader/cors-configuration.json:1-16, which
examples/image-uploader/set-cloud-storage-cors-config.sh:13-16 sends to the storage server. -/
def corsFile : Str := s% "{
  \"cors\": [
    {
      \"origin\": [
        \"*\"
      ],
      \"method\": [
        \"POST\"
      ],
      \"responseHeader\": [
        \"Content-Type\"
      ],
      \"maxAgeSeconds\": 3600
    }
  ]
}
"

/-- One entry of the list. All four members are there in the file. -/
def readCorsEntry : Json → Option CorsEntry
  | .obj ms =>
    match objGet ms (s% "origin"), objGet ms (s% "method"), objGet ms (s% "responseHeader"), objGet ms (s% "maxAgeSeconds") with
    | some (.arr origins), some (.arr methods), some (.arr headers), some (.num age) => do
      some ⟨← readStrings origins, ← readStrings methods, ← readStrings headers, decVal age⟩
    | _, _, _, _ => none
  | _ => none

/-- All entries. -/
def readCorsEntries : List Json → Option (List CorsEntry)
  | [] => some []
  | j :: r => do some ((← readCorsEntry j) :: (← readCorsEntries r))

/-- The member `cors` of the request of examples/image-uploader/set-cloud-storage-cors-config.sh:13-16, as the storage server reads it. -/
def readCors (text : Str) : Option (List CorsEntry) :=
  match jsonParse text with
  | some (.obj ms) =>
    match objGet ms (s% "cors") with
    | some (.arr entries) => readCorsEntries entries
    | _ => none
  | _ => none

/-- `fetch(url, { body, method })`, where `body` is a `FormData`: the browser adds the header that names the boundary.
examples/image-uploader/index.html:65 -/
def uploadFetch (origin method boundary : Str) : CrossRequest :=
  ⟨origin, method, [(s% "Content-Type", s% "multipart/form-data; boundary=" ++ boundary)]⟩

/-- The end of `uploadImage` and the next line of `onChange`: examples/image-uploader/index.html:65-68,79. `answer` is the status and the
body, if the page gets an answer. -/
def Upload.afterUpload (fields : List (Str × Str)) (answer : Option (Nat × Str)) : Upload :=
  match answer with
  | none => .failed
  | some (status, body) =>
    if status ≠ 204 then .failed
    else if body ≠ [] then .failed
    else match findKey fields with
      | some id => .uploaded id
      | none => .failed

end CSS.ImageUploader
