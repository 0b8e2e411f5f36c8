import Verif.Model.ImageHttp
import Verif.Spec.Documents
import Verif.Spec.ImageSite
/-
The HTTP interface of the example server, independent of its parsers.
-/
namespace CSS.Spec
open ImageUploader

/-- The text of the body of a registration: an object in which the two members occur once, an unsigned number and a quoted
string, and all other members can be skipped; or an array of the two. -/
def CreateText (s : Str) (size : Nat) (type : Str) : Prop :=
  ∃ lit q, (JNum lit ∧ UnsignedLit lit size) ∧ JQuoted q type ∧
    ((∃ ms, ObjectText ms s ∧ OnlyMember ms (s% "content_length") lit ∧ OnlyMember ms (s% "content_type") q ∧
        ∀ m ∈ ms, m.1 ∉ [s% "content_length", s% "content_type"] → Skipped m.2) ∨
     ∃ w w1 w2 w3 w4 w5, Ws w ∧ Ws w1 ∧ Ws w2 ∧ Ws w3 ∧ Ws w4 ∧ Ws w5 ∧
       s = w ++ '[' :: w1 ++ lit ++ w2 ++ ',' :: w3 ++ q ++ w4 ++ ']' :: w5)

/-- The path names the image `id`: `/images/` and one more segment, which stands for the id. -/
def ImagePath (path id : Str) : Prop :=
  ∃ segment, path = s% "/images/" ++ segment ∧ segment ≠ [] ∧ '/' ∉ segment ∧ percentDecode segment = utf8 id

/-- The HTTP requests that ask for `r`. -/
def WebFor (mime : MimeTypes) (q : WebRequest) : Req → Prop
  | .create size type => q.method = s% "POST" ∧ q.path = s% "/images" ∧
      (∃ ct, q.contentType = some ct ∧ mime.isJson ct = true) ∧ (utf8 q.body).length ≤ 2097152 ∧
      ∃ text rest, q.body = text ++ rest ∧ CreateText text size type
  | .list => (q.method = s% "GET" ∨ q.method = s% "HEAD") ∧ q.path = s% "/images"
  | .update id => q.method = s% "PATCH" ∧ ImagePath q.path id

/-- The methods that a path offers; none if there is nothing at that path. -/
def Offers (path method : Str) : Prop :=
  (path = s% "/" ∧ (method = s% "GET" ∨ method = s% "HEAD")) ∨
  (path = s% "/images" ∧ (method = s% "GET" ∨ method = s% "HEAD" ∨ method = s% "POST")) ∨
  (∃ segment, path = s% "/images/" ++ segment ∧ segment ≠ [] ∧ '/' ∉ segment ∧ method = s% "PATCH")

/-- The HTTP requests that are refused, by reason. -/
def RefusedFor (mime : MimeTypes) (q : WebRequest) : Refusal → Prop
  | .notFound => ∀ method, ¬ Offers q.path method
  | .methodNotAllowed => (∃ method, Offers q.path method) ∧ ¬ Offers q.path q.method
  | .badPath => q.method = s% "PATCH" ∧ ∃ segment, q.path = s% "/images/" ++ segment ∧ segment ≠ [] ∧ '/' ∉ segment ∧
      ∀ id, percentDecode segment ≠ utf8 id
  | .unsupportedMediaType => q.method = s% "POST" ∧ q.path = s% "/images" ∧
      ∀ ct, q.contentType = some ct → mime.isJson ct = false
  | .payloadTooLarge => q.method = s% "POST" ∧ q.path = s% "/images" ∧
      (∃ ct, q.contentType = some ct ∧ mime.isJson ct = true) ∧ 2097152 < (utf8 q.body).length
  | .badBody => q.method = s% "POST" ∧ q.path = s% "/images" ∧
      (∃ ct, q.contentType = some ct ∧ mime.isJson ct = true) ∧ (utf8 q.body).length ≤ 2097152 ∧
      ∀ text rest size type, q.body = text ++ rest → ¬ CreateText text size type

end CSS.Spec

namespace CSS.ImageUploader
open CSS.Spec

/-- Files whose size and type fit into a request. -/
def ChosenFile.Fits (file : ChosenFile) : Prop := file.content.length < 2 ^ 53 ∧ file.type.length ≤ 300000

/-- The site (`Site.Run` of `Spec/ImageSite`) with HTTP between the pages and the example server. Differs in `choose` (the
file fits), `send`, `refuse`, `answer` and `visit`. -/
inductive Site.WebRun (mime : MimeTypes) (crate : Crate) (cfg : Config) (account : Str) (n e : Nat) : List Event → Site → Prop where
  | start (store : Store) : WebRun mime crate cfg account n e [] ⟨⟨[], []⟩, store, []⟩
  /-- Somebody chooses a file on some page. -/
  | choose {tr s} (file : ChosenFile) :
      WebRun mime crate cfg account n e tr s → file.Fits →
      WebRun mime crate cfg account n e tr { s with uploads := s.uploads ++ [(file, .chosen)] }
  /-- A page sends an HTTP request to the example server, which is routed to a handler. -/
  | send {tr s} (k : Nat) (file : ChosenFile) (u : Upload) (q : WebRequest) (r : Req) :
      WebRun mime crate cfg account n e tr s → s.uploads[k]? = some (file, u) → u.webRequest file = some q →
      route mime q = .api r →
      WebRun mime crate cfg account n e tr
        { s with
          server := { s.server with tasks := s.server.tasks ++ [(r, r.task)] }
          uploads := s.uploads.set k (file, u.sent s.server.tasks.length) }
  /-- A page sends an HTTP request to the example server, which is refused. -/
  | refuse {tr s} (k : Nat) (file : ChosenFile) (u : Upload) (q : WebRequest) (f : Refusal) :
      WebRun mime crate cfg account n e tr s → s.uploads[k]? = some (file, u) → u.webRequest file = some q →
      route mime q = .refused f →
      WebRun mime crate cfg account n e tr { s with uploads := s.uploads.set k (file, .failed) }
  /-- A page gets the HTTP response. -/
  | answer {tr s} (k i : Nat) (file : ChosenFile) (u : Upload) (r : Req) (reply : Reply) (resp : WebResponse) :
      WebRun mime crate cfg account n e tr s → s.uploads[k]? = some (file, u) → u.waits = some i →
      s.server.tasks[i]? = some (r, .replied reply) → reply.web = some resp →
      WebRun mime crate cfg account n e tr { s with uploads := s.uploads.set k (file, u.receives resp) }
  /-- As in `Site.Run`. -/
  | upload {tr s} (k : Nat) (file : ChosenFile) (fields : List (Str × Str)) (url bucket : Str) (time : Int) (store : Store) :
      WebRun mime crate cfg account n e tr s → s.uploads[k]? = some (file, .uploading fields (s% "POST") url) →
      bucketOf url = some bucket →
      (Sent.form ⟨bucket, formEntries fields, file.content.length, time⟩ file.name file.content).Accepted account n e →
      Handles account n e (.form ⟨bucket, formEntries fields, file.content.length, time⟩ file.name file.content) s.store store →
      WebRun mime crate cfg account n e tr
        { s with
          store := store
          uploads := s.uploads.set k (file, match findKey fields with | some id => .uploaded id | none => .failed) }
  /-- As in `Site.Run`. -/
  | uploadFails {tr s} (k : Nat) (file : ChosenFile) (fields : List (Str × Str)) (url bucket : Str) (time : Int) (store : Store) :
      WebRun mime crate cfg account n e tr s → s.uploads[k]? = some (file, .uploading fields (s% "POST") url) →
      bucketOf url = some bucket →
      Handles account n e (.form ⟨bucket, formEntries fields, file.content.length, time⟩ file.name file.content) s.store store →
      WebRun mime crate cfg account n e tr { s with store := store, uploads := s.uploads.set k (file, .failed) }
  /-- As in `Site.Run`. -/
  | fail {tr s} (k : Nat) (file : ChosenFile) (u : Upload) :
      WebRun mime crate cfg account n e tr s → s.uploads[k]? = some (file, u) →
      WebRun mime crate cfg account n e tr { s with uploads := s.uploads.set k (file, .failed) }
  /-- Somebody else sends an HTTP request to the example server. Only pages report uploads. -/
  | visit {tr s} (q : WebRequest) (r : Req) :
      WebRun mime crate cfg account n e tr s → route mime q = .api r → (∀ id, r ≠ .update id) →
      WebRun mime crate cfg account n e tr { s with server := { s.server with tasks := s.server.tasks ++ [(r, r.task)] } }
  /-- As in `Site.Run`. -/
  | step {tr s} (i : Nat) (r : Req) (t : Task) (uuid : Str) (form : Res Failure (List (Str × Str))) (url : Res Failure Str) :
      WebRun mime crate cfg account n e tr s → s.server.tasks[i]? = some (r, t) → IsUuid uuid → crate.Gives uuid form url t →
      WebRun mime crate cfg account n e (tr ++ t.events i)
        { s with server := ⟨(t.step cfg uuid s.server.images form url).2,
                            s.server.tasks.set i (r, (t.step cfg uuid s.server.images form url).1)⟩ }
  /-- As in `Site.Run`. -/
  | drop {tr s} (i : Nat) (r : Req) (t : Task) :
      WebRun mime crate cfg account n e tr s → s.server.tasks[i]? = some (r, t) → (∀ a, t ≠ .replied a) →
      WebRun mime crate cfg account n e tr
        { s with server := { s.server with tasks := s.server.tasks.set i (r, .dropped) } }
  /-- As in `Site.Run`. -/
  | elsewhere {tr s} (store : Store) :
      WebRun mime crate cfg account n e tr s →
      (∀ id, IsUuid id → store (utf8 cfg.bucketName) (utf8 id) = s.store (utf8 cfg.bucketName) (utf8 id)) →
      WebRun mime crate cfg account n e tr { s with store := store }

end CSS.ImageUploader
