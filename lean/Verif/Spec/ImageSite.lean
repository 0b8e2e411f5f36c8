import Verif.Model.ImagePage
import Verif.Spec.Storage
/-
The site of the example: any number of pages, the example server and the storage server (`Spec/Storage`), running at the
same time. Their steps are interleaved in any order.
-/
namespace CSS.ImageUploader
open CSS.Spec

/-- The site: the example server, the contents of the storage server, and the uploads started on all pages. -/
structure Site where
  server : State
  store : Store
  uploads : List (ChosenFile × Upload)

/-- The site can reach the state `s` with these events under the mutex of the example server. The storage server knows the
name of the account and its public key `(n, e)`. It answers 204 exactly to the forms that it accepts. -/
inductive Site.Run (crate : Crate) (cfg : Config) (account : Str) (n e : Nat) : List Event → Site → Prop where
  | start (store : Store) : Run crate cfg account n e [] ⟨⟨[], []⟩, store, []⟩
  /-- Somebody chooses a file on some page. -/
  | choose {tr s} (file : ChosenFile) :
      Run crate cfg account n e tr s → Run crate cfg account n e tr { s with uploads := s.uploads ++ [(file, .chosen)] }
  /-- A page sends a request to the example server. -/
  | send {tr s} (k : Nat) (file : ChosenFile) (u : Upload) (r : Req) :
      Run crate cfg account n e tr s → s.uploads[k]? = some (file, u) → u.request file = some r →
      Run crate cfg account n e tr
        { s with
          server := { s.server with tasks := s.server.tasks ++ [(r, r.task)] }
          uploads := s.uploads.set k (file, u.sent s.server.tasks.length) }
  /-- A page gets the answer. -/
  | answer {tr s} (k i : Nat) (file : ChosenFile) (u : Upload) (r : Req) (reply : Reply) :
      Run crate cfg account n e tr s → s.uploads[k]? = some (file, u) → u.waits = some i →
      s.server.tasks[i]? = some (r, .replied reply) →
      Run crate cfg account n e tr { s with uploads := s.uploads.set k (file, u.answered reply) }
  /-- A page posts the form with the file; the storage server handles it at `time` and the answer 204 reaches the page. -/
  | upload {tr s} (k : Nat) (file : ChosenFile) (fields : List (Str × Str)) (url bucket : Str) (time : Int) (store : Store) :
      Run crate cfg account n e tr s → s.uploads[k]? = some (file, .uploading fields (s% "POST") url) → bucketOf url = some bucket →
      (Sent.form ⟨bucket, formEntries fields, file.content.length, time⟩ file.name file.content).Accepted account n e →
      Handles account n e (.form ⟨bucket, formEntries fields, file.content.length, time⟩ file.name file.content) s.store store →
      Run crate cfg account n e tr
        { s with
          store := store
          uploads := s.uploads.set k (file, match findKey fields with | some id => .uploaded id | none => .failed) }
  /-- A page posts the form, but it is not accepted, or the answer is lost. -/
  | uploadFails {tr s} (k : Nat) (file : ChosenFile) (fields : List (Str × Str)) (url bucket : Str) (time : Int) (store : Store) :
      Run crate cfg account n e tr s → s.uploads[k]? = some (file, .uploading fields (s% "POST") url) → bucketOf url = some bucket →
      Handles account n e (.form ⟨bucket, formEntries fields, file.content.length, time⟩ file.name file.content) s.store store →
      Run crate cfg account n e tr { s with store := store, uploads := s.uploads.set k (file, .failed) }
  /-- A `fetch` fails, or the page is closed. -/
  | fail {tr s} (k : Nat) (file : ChosenFile) (u : Upload) :
      Run crate cfg account n e tr s → s.uploads[k]? = some (file, u) →
      Run crate cfg account n e tr { s with uploads := s.uploads.set k (file, .failed) }
  /-- Somebody else sends a request to the example server, for example a page that is opened (`main`,
  examples/image-uploader/index.html:103-110). Only pages report uploads. -/
  | visit {tr s} (r : Req) :
      Run crate cfg account n e tr s → (∀ id, r ≠ .update id) →
      Run crate cfg account n e tr { s with server := { s.server with tasks := s.server.tasks ++ [(r, r.task)] } }
  /-- The example server goes on with a request. -/
  | step {tr s} (i : Nat) (r : Req) (t : Task) (uuid : Str) (form : Res Failure (List (Str × Str))) (url : Res Failure Str) :
      Run crate cfg account n e tr s → s.server.tasks[i]? = some (r, t) → IsUuid uuid → crate.Gives uuid form url t →
      Run crate cfg account n e (tr ++ t.events i)
        { s with server := ⟨(t.step cfg uuid s.server.images form url).2,
                            s.server.tasks.set i (r, (t.step cfg uuid s.server.images form url).1)⟩ }
  /-- The example server drops a request. -/
  | drop {tr s} (i : Nat) (r : Req) (t : Task) :
      Run crate cfg account n e tr s → s.server.tasks[i]? = some (r, t) → (∀ a, t ≠ .replied a) →
      Run crate cfg account n e tr { s with server := { s.server with tasks := s.server.tasks.set i (r, .dropped) } }
  /-- The storage server does something else, but not with objects in the bucket that are called like an image. -/
  | elsewhere {tr s} (store : Store) :
      Run crate cfg account n e tr s →
      (∀ id, IsUuid id → store (utf8 cfg.bucketName) (utf8 id) = s.store (utf8 cfg.bucketName) (utf8 id)) →
      Run crate cfg account n e tr { s with store := store }

end CSS.ImageUploader
