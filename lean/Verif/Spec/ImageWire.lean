import Verif.Model.Cors
import Verif.Model.Multipart
import Verif.Spec.ImageHttp
import Verif.Spec.ImageSiteRestart
import Verif.Spec.Multipart
import Verif.Spec.Cors
/-
The site of the example with everything that is exchanged as it is exchanged: HTTP requests and responses with JSON texts between the
pages and the example server, multipart bodies from the pages to the storage server, and browsers that apply the CORS configuration of the
bucket. The process of the example server may crash.
-/
namespace CSS.ImageUploader
open CSS.Spec

/-- The storage server answers 204 with an empty body to the forms that it accepts, and something else to the others. -/
def StorageAnswers (account : Str) (n e : Nat) (m : Sent) (answer : Nat × Str) : Prop :=
  (m.Accepted account n e → answer = (204, [])) ∧ (¬ m.Accepted account n e → answer.1 ≠ 204)

/-- Files as browsers have them: the size and the type fit into a request, and the type has no line end (File API). -/
def ChosenFile.Usual (file : ChosenFile) : Prop := file.Fits ∧ ∀ c ∈ file.type, c ∉ s% "\r\n"

/-- Boundaries as browsers choose them: fresh, and of at most 70 characters (RFC 2046). -/
def UsualBoundary (boundary : Str) (fields : List (Str × Str)) (content : Bytes) : Prop :=
  FreshBoundary boundary fields content ∧ boundary.length ≤ 70

/-- The site can reach the state `s` with these events. Differs from `Site.Lives` in `choose`, `send`, `refuse`, `answer`, `post`, `lost`,
`unread` and `visit`. -/
inductive Site.WireLives (mime : MimeTypes) (cors : List CorsEntry) (crate : Crate) (cfg : Config) (account : Str) (n e : Nat) :
    List Episode → Site → Prop where
  | start (store : Store) : WireLives mime cors crate cfg account n e [] ⟨⟨[], []⟩, store, []⟩
  /-- Somebody chooses a file on some page. -/
  | choose {tr s} (file : ChosenFile) :
      WireLives mime cors crate cfg account n e tr s → file.Usual →
      WireLives mime cors crate cfg account n e tr { s with uploads := s.uploads ++ [(file, .chosen)] }
  /-- A page sends an HTTP request to the example server, which is routed to a handler. -/
  | send {tr s} (k : Nat) (file : ChosenFile) (u : Upload) (q : WebRequest) (r : Req) :
      WireLives mime cors crate cfg account n e tr s → s.uploads[k]? = some (file, u) → u.webRequest file = some q →
      route mime q = .api r →
      WireLives mime cors crate cfg account n e tr
        { s with
          server := { s.server with tasks := s.server.tasks ++ [(r, r.task)] }
          uploads := s.uploads.set k (file, u.sent s.server.tasks.length) }
  /-- A page sends an HTTP request to the example server, which is refused. -/
  | refuse {tr s} (k : Nat) (file : ChosenFile) (u : Upload) (q : WebRequest) (f : Refusal) :
      WireLives mime cors crate cfg account n e tr s → s.uploads[k]? = some (file, u) → u.webRequest file = some q →
      route mime q = .refused f →
      WireLives mime cors crate cfg account n e tr { s with uploads := s.uploads.set k (file, .failed) }
  /-- A page gets the HTTP response. -/
  | answer {tr s} (k i : Nat) (file : ChosenFile) (u : Upload) (r : Req) (reply : Reply) (resp : WebResponse) :
      WireLives mime cors crate cfg account n e tr s → s.uploads[k]? = some (file, u) → u.waits = some i →
      s.server.tasks[i]? = some (r, .replied reply) → reply.web = some resp →
      WireLives mime cors crate cfg account n e tr { s with uploads := s.uploads.set k (file, u.receives resp) }
  /-- A page of the origin `origin` posts the form with the file as a multipart body. The storage server reads a form from the body, handles
  it at `time`, and answers. The page sees of the answer what its browser lets it see. -/
  | post {tr s} (k : Nat) (file : ChosenFile) (fields : List (Str × Str)) (method url origin boundary bucket : Str)
      (fields' : List (Str × Str)) (filename : Str) (content : Bytes) (time : Int) (store : Store) (answer : Nat × Str)
      (got : Option (Nat × Str)) :
      WireLives mime cors crate cfg account n e tr s → s.uploads[k]? = some (file, .uploading fields method url) →
      method = s% "POST" → bucketOf url = some bucket → UsualBoundary boundary fields file.content →
      IsSent cors (uploadFetch origin method boundary) →
      BodyForm boundary (uploadBody boundary fields file) fields' filename content →
      Handles account n e (.form ⟨bucket, fields', content.length, time⟩ filename content) s.store store →
      StorageAnswers account n e (.form ⟨bucket, fields', content.length, time⟩ filename content) answer →
      Sees cors (uploadFetch origin method boundary) answer got →
      WireLives mime cors crate cfg account n e tr
        { s with store := store, uploads := s.uploads.set k (file, Upload.afterUpload fields got) }
  /-- The same, but the answer is lost. -/
  | lost {tr s} (k : Nat) (file : ChosenFile) (fields : List (Str × Str)) (method url origin boundary bucket : Str)
      (fields' : List (Str × Str)) (filename : Str) (content : Bytes) (time : Int) (store : Store) :
      WireLives mime cors crate cfg account n e tr s → s.uploads[k]? = some (file, .uploading fields method url) →
      method = s% "POST" → bucketOf url = some bucket → UsualBoundary boundary fields file.content →
      IsSent cors (uploadFetch origin method boundary) →
      BodyForm boundary (uploadBody boundary fields file) fields' filename content →
      Handles account n e (.form ⟨bucket, fields', content.length, time⟩ filename content) s.store store →
      WireLives mime cors crate cfg account n e tr
        { s with store := store, uploads := s.uploads.set k (file, Upload.afterUpload fields none) }
  /-- A page posts the form, but the storage server can read no form from the body. -/
  | unread {tr s} (k : Nat) (file : ChosenFile) (fields : List (Str × Str)) (method url boundary : Str) (answer : Nat × Str) :
      WireLives mime cors crate cfg account n e tr s → s.uploads[k]? = some (file, .uploading fields method url) →
      UsualBoundary boundary fields file.content →
      (∀ fields' filename content, ¬ BodyForm boundary (uploadBody boundary fields file) fields' filename content) → answer.1 ≠ 204 →
      WireLives mime cors crate cfg account n e tr { s with uploads := s.uploads.set k (file, Upload.afterUpload fields (some answer)) }
  /-- A `fetch` fails, or the page is closed. -/
  | fail {tr s} (k : Nat) (file : ChosenFile) (u : Upload) :
      WireLives mime cors crate cfg account n e tr s → s.uploads[k]? = some (file, u) →
      WireLives mime cors crate cfg account n e tr { s with uploads := s.uploads.set k (file, .failed) }
  /-- Somebody else sends an HTTP request to the example server. Only pages report uploads. -/
  | visit {tr s} (q : WebRequest) (r : Req) :
      WireLives mime cors crate cfg account n e tr s → route mime q = .api r → (∀ id, r ≠ .update id) →
      WireLives mime cors crate cfg account n e tr { s with server := { s.server with tasks := s.server.tasks ++ [(r, r.task)] } }
  /-- The example server goes on with a request. -/
  | step {tr s} (i : Nat) (r : Req) (t : Task) (uuid : Str) (form : Res Failure (List (Str × Str))) (url : Res Failure Str) :
      WireLives mime cors crate cfg account n e tr s → s.server.tasks[i]? = some (r, t) → IsUuid uuid → crate.Gives uuid form url t →
      WireLives mime cors crate cfg account n e (tr ++ (t.events i).map .event)
        { s with server := ⟨(t.step cfg uuid s.server.images form url).2,
                            s.server.tasks.set i (r, (t.step cfg uuid s.server.images form url).1)⟩ }
  /-- The example server drops a request. -/
  | drop {tr s} (i : Nat) (r : Req) (t : Task) :
      WireLives mime cors crate cfg account n e tr s → s.server.tasks[i]? = some (r, t) → (∀ a, t ≠ .replied a) →
      WireLives mime cors crate cfg account n e tr { s with server := { s.server with tasks := s.server.tasks.set i (r, .dropped) } }
  /-- The storage server does something else, but not with objects in the bucket that are called like an image. -/
  | elsewhere {tr s} (store : Store) :
      WireLives mime cors crate cfg account n e tr s →
      (∀ id, IsUuid id → store (utf8 cfg.bucketName) (utf8 id) = s.store (utf8 cfg.bucketName) (utf8 id)) →
      WireLives mime cors crate cfg account n e tr { s with store := store }
  /-- The process of the example server ends and is started again. -/
  | restart {tr s} :
      WireLives mime cors crate cfg account n e tr s →
      WireLives mime cors crate cfg account n e (tr ++ [.restarted]) { s with server := s.server.restart }

/-- All files of the site are usual, and all requests that the server has got are ones that can be sent. -/
def Site.Usual (mime : MimeTypes) (s : Site) : Prop :=
  (∀ f ∈ s.uploads.map (·.1), f.Usual) ∧ ∀ r ∈ s.server.tasks.map (·.1), ∃ q, route mime q = .api r

/-- All forms that the server has returned have less than 2^69 characters. -/
def Site.SmallForms (s : Site) : Prop :=
  ∀ r fields method url, (r, .replied (.form fields method url)) ∈ s.server.tasks → (fields.map fun f => f.2.length + 1).sum < 2 ^ 69

end CSS.ImageUploader
