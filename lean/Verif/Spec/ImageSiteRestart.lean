import Verif.Spec.ImageSite
import Verif.Spec.ImageRestart
/-
The site of the example (`Spec/ImageSite`) when the process of the example server may crash.
-/
namespace CSS.ImageUploader
open CSS.Spec

/-- The site can reach the state `s` with these events, if the process of the example server may end at any point and be started
again (`restart`). All other steps are those of `Site.Run`. What the server had answered may still reach the page after the crash. -/
inductive Site.Lives (crate : Crate) (cfg : Config) (account : Str) (n e : Nat) : List Episode → Site → Prop where
  | start (store : Store) : Lives crate cfg account n e [] ⟨⟨[], []⟩, store, []⟩
  /-- Somebody chooses a file on some page. -/
  | choose {tr s} (file : ChosenFile) :
      Lives crate cfg account n e tr s → Lives crate cfg account n e tr { s with uploads := s.uploads ++ [(file, .chosen)] }
  /-- A page sends a request to the example server. -/
  | send {tr s} (k : Nat) (file : ChosenFile) (u : Upload) (r : Req) :
      Lives crate cfg account n e tr s → s.uploads[k]? = some (file, u) → u.request file = some r →
      Lives crate cfg account n e tr
        { s with
          server := { s.server with tasks := s.server.tasks ++ [(r, r.task)] }
          uploads := s.uploads.set k (file, u.sent s.server.tasks.length) }
  /-- A page gets the answer. -/
  | answer {tr s} (k i : Nat) (file : ChosenFile) (u : Upload) (r : Req) (reply : Reply) :
      Lives crate cfg account n e tr s → s.uploads[k]? = some (file, u) → u.waits = some i →
      s.server.tasks[i]? = some (r, .replied reply) →
      Lives crate cfg account n e tr { s with uploads := s.uploads.set k (file, u.answered reply) }
  /-- A page posts the form with the file; the storage server handles it at `time` and the answer 204 reaches the page. -/
  | upload {tr s} (k : Nat) (file : ChosenFile) (fields : List (Str × Str)) (url bucket : Str) (time : Int) (store : Store) :
      Lives crate cfg account n e tr s → s.uploads[k]? = some (file, .uploading fields (s% "POST") url) → bucketOf url = some bucket →
      (Sent.form ⟨bucket, formEntries fields, file.content.length, time⟩ file.name file.content).Accepted account n e →
      Handles account n e (.form ⟨bucket, formEntries fields, file.content.length, time⟩ file.name file.content) s.store store →
      Lives crate cfg account n e tr
        { s with
          store := store
          uploads := s.uploads.set k (file, match findKey fields with | some id => .uploaded id | none => .failed) }
  /-- A page posts the form, but it is not accepted, or the answer is lost. -/
  | uploadFails {tr s} (k : Nat) (file : ChosenFile) (fields : List (Str × Str)) (url bucket : Str) (time : Int) (store : Store) :
      Lives crate cfg account n e tr s → s.uploads[k]? = some (file, .uploading fields (s% "POST") url) → bucketOf url = some bucket →
      Handles account n e (.form ⟨bucket, formEntries fields, file.content.length, time⟩ file.name file.content) s.store store →
      Lives crate cfg account n e tr { s with store := store, uploads := s.uploads.set k (file, .failed) }
  /-- A `fetch` fails, or the page is closed. -/
  | fail {tr s} (k : Nat) (file : ChosenFile) (u : Upload) :
      Lives crate cfg account n e tr s → s.uploads[k]? = some (file, u) →
      Lives crate cfg account n e tr { s with uploads := s.uploads.set k (file, .failed) }
  /-- Somebody else sends a request to the example server, for example a page that is opened (`main`,
  examples/image-uploader/index.html:103-110). Only pages report uploads. -/
  | visit {tr s} (r : Req) :
      Lives crate cfg account n e tr s → (∀ id, r ≠ .update id) →
      Lives crate cfg account n e tr { s with server := { s.server with tasks := s.server.tasks ++ [(r, r.task)] } }
  /-- The example server goes on with a request. -/
  | step {tr s} (i : Nat) (r : Req) (t : Task) (uuid : Str) (form : Res Failure (List (Str × Str))) (url : Res Failure Str) :
      Lives crate cfg account n e tr s → s.server.tasks[i]? = some (r, t) → IsUuid uuid → crate.Gives uuid form url t →
      Lives crate cfg account n e (tr ++ (t.events i).map .event)
        { s with server := ⟨(t.step cfg uuid s.server.images form url).2,
                            s.server.tasks.set i (r, (t.step cfg uuid s.server.images form url).1)⟩ }
  /-- The example server drops a request. -/
  | drop {tr s} (i : Nat) (r : Req) (t : Task) :
      Lives crate cfg account n e tr s → s.server.tasks[i]? = some (r, t) → (∀ a, t ≠ .replied a) →
      Lives crate cfg account n e tr { s with server := { s.server with tasks := s.server.tasks.set i (r, .dropped) } }
  /-- The storage server does something else, but not with objects in the bucket that are called like an image. -/
  | elsewhere {tr s} (store : Store) :
      Lives crate cfg account n e tr s →
      (∀ id, IsUuid id → store (utf8 cfg.bucketName) (utf8 id) = s.store (utf8 cfg.bucketName) (utf8 id)) →
      Lives crate cfg account n e tr { s with store := store }
  /-- The process of the example server ends and is started again. -/
  | restart {tr s} :
      Lives crate cfg account n e tr s → Lives crate cfg account n e (tr ++ [.restarted]) { s with server := s.server.restart }

end CSS.ImageUploader

namespace CSS.Spec.ImageUploader
open CSS.ImageUploader

/-- The path of the URL names exactly this object of the bucket. -/
def LeadsTo (cfg : Config) (url id : Str) : Prop :=
  ∃ path, urlPath (s% "https://storage.googleapis.com") url = some path ∧
    percentDecode path = utf8 (s% "/" ++ cfg.bucketName ++ s% "/" ++ id)

/-- The storage server has accepted the file, and nothing has gone wrong since. -/
def HasUploaded : Upload → Prop
  | .uploaded _ | .reporting _ | .reported | .listing _ | .shown _ => True
  | _ => False

end CSS.Spec.ImageUploader
