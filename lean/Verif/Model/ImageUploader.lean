import Verif.Model.HtmlForm
import Verif.Model.SignedUrl
/-
The example server examples/image-uploader/src/main.rs, which uses the crate as its README shows: clients register an image
and get a form to upload it, report the upload, and list the uploaded images by signed URLs.

Requests are handled concurrently. A handler gives way only at an `.await` (or when another thread takes the mutex first), and
the mutex is never held across an `.await`, so a handler is a sequence of atomic steps: one for each call of the crate and one
for each section under the mutex. `Task` says what a handler will do next and `Task.step` does it.

Requests are parsed here; axum's routing and JSON parsing are in `Model/ImageHttp`. Not modelled: a poisoned mutex (the
sections under the mutex cannot panic).
-/
namespace CSS.ImageUploader

/-- `Image`: examples/image-uploader/src/main.rs:142-146 -/
structure Image where
  id : Str
  uploaded : Bool
  deriving DecidableEq, Repr

/-- `Config`: examples/image-uploader/src/main.rs:135-140 -/
structure Config where
  bucketName : Str
  signingKey : SigningKey
  useSignBlob : Bool

/-- What a client gets: a body with status 200, status 204, status 500, or no answer at all because the handler panicked
(the connection is closed). -/
inductive Reply where
  | form (fields : List (Str × Str)) (method url : Str)
  | urls (urls : List Str)
  | noContent
  | internalServerError
  | aborted
  deriving DecidableEq, Repr

/-- How a handler fails: `Err(StatusCode::INTERNAL_SERVER_ERROR)` or a panic. -/
inductive Failure where
  | status500
  | panicked
  deriving DecidableEq, Repr

/-- What `.map_err(|_| INTERNAL_SERVER_ERROR)?` makes of the result of the crate: examples/image-uploader/src/main.rs:48,102 -/
def settle {ε α} : Res ε α → Res Failure α
  | .ok a => .ok a
  | .err _ => .err .status500
  | .panic _ => .err .panicked

/-- A call of the crate with `.map_err(|_| INTERNAL_SERVER_ERROR)?`: examples/image-uploader/src/main.rs:48,102 -/
def attempt {ε α} (x : M ε α) : M Failure α := fun w => (settle (x w).1, (x w).2)

/-- `SystemTime::now() + Duration::from_secs(60)`, which panics on overflow:
examples/image-uploader/src/main.rs:41,92 -/
def inOneMinute (env : Env) : M Failure Time := fun w =>
  (if env.now w.ticks + 60 * nsPerSec < timeLimit then .ok (env.now w.ticks + 60 * nsPerSec) else .err .panicked,
   { w with ticks := w.ticks + 1 })

/-- The calls on the builder: examples/image-uploader/src/main.rs:34-45 -/
def createCalls (cfg : Config) (id : Str) (contentLength : Nat) (contentType : Str) (expiration : Time) : List Call :=
  [.bucket cfg.bucketName, .contentLength contentLength, .contentType contentType, .key id,
   .policyDocumentSigningOptions
     { accessibleAt := none, expiration := expiration, region := none, signingKey := cfg.signingKey,
       useSignBlob := cfg.useSignBlob }]

/-- The first part of `create_image`: examples/image-uploader/src/main.rs:29-49 -/
def createForm (env : Env) (cfg : Config) (id : Str) (contentLength : Nat) (contentType : Str) :
    M Failure (List (Str × Str)) := do
  let expiration ← inOneMinute env
  attempt ((Builder.ofCalls (createCalls cfg id contentLength contentType expiration)).build env)

/-- The options of a listed URL: examples/image-uploader/src/main.rs:88-99 -/
def listOptions (cfg : Config) (id : Str) (expires : Time) : UrlOptions where
  bucketName := cfg.bucketName
  objectName := id
  region := none
  expires := expires
  httpMethod := s% "GET"
  accessibleAt := none
  signingKey := cfg.signingKey
  useSignBlob := cfg.useSignBlob
  headers := []
  queryParameters := []

/-- The URL of one image: examples/image-uploader/src/main.rs:87-102 -/
def signUrl (env : Env) (cfg : Config) (id : Str) : M Failure Str := do
  let expires ← inOneMinute env
  attempt (buildSignedUrl env (listOptions cfg id expires))

/-- The loop of `update_image`: examples/image-uploader/src/main.rs:120-125 (the first image with this id) -/
def markUploaded (id : Str) : List Image → List Image
  | [] => []
  | image :: rest => if image.id = id then { image with uploaded := true } :: rest else image :: markUploaded id rest

/-- A request: the routes of examples/image-uploader/src/main.rs:169-173, with the parsed body or path. -/
inductive Req where
  | create (contentLength : Nat) (contentType : Str)
  | list
  | update (id : Str)
  deriving DecidableEq, Repr

/-- What a handler will do next. -/
inductive Task where
  /-- `create_image` will build the form. -/
  | create (contentLength : Nat) (contentType : Str)
  /-- `create_image` has the form and will take the mutex. -/
  | push (id : Str) (fields : List (Str × Str))
  /-- `list_images` will take the mutex and copy the images. -/
  | list
  /-- `list_images` has signed URLs for some of its copy and goes on with the rest. -/
  | sign (rest : List Image) (urls : List Str)
  /-- `update_image` will take the mutex. -/
  | update (id : Str)
  /-- The handler has returned or panicked. -/
  | replied (r : Reply)
  /-- The client went away and the handler was dropped at an `.await`. -/
  | dropped
  deriving DecidableEq, Repr

/-- The handler of a request, at its start. -/
def Req.task : Req → Task
  | .create n t => .create n t
  | .list => .list
  | .update id => .update id

/-- What the handlers can get from the crate: which results `createForm` and `signUrl` can have. -/
structure Crate where
  form : (id : Str) → (contentLength : Nat) → (contentType : Str) → Res Failure (List (Str × Str)) → Prop
  url : (id : Str) → Res Failure Str → Prop

/-- Each call of the crate runs alone, in an arbitrary world. So whatever other calls did before and between is covered (a call
returns what it would return alone in some world, see C54). -/
def Crate.alone (env : Env) (cfg : Config) : Crate where
  form id n t r := ∃ w, (createForm env cfg id n t w).1 = r
  url id r := ∃ w, (signUrl env cfg id w).1 = r

/-- The next atomic step of a handler, given the images when it happens, the next random id and the result of the crate if the
step is a call of it: `create_image`, examples/image-uploader/src/main.rs:14-65; `list_images`, 67-106; `update_image`,
113-127. -/
def Task.step (cfg : Config) (uuid : Str) (images : List Image) (form : Res Failure (List (Str × Str))) (url : Res Failure Str) :
    Task → Task × List Image
  | .create _ _ =>
    match form with
    | .ok fields => (.push uuid fields, images)
    | .err .status500 => (.replied .internalServerError, images)
    | _ => (.replied .aborted, images)
  | .push id fields =>
    (.replied (.form fields (s% "POST") (s% "https://storage.googleapis.com/" ++ cfg.bucketName)), images ++ [⟨id, false⟩])
  | .list => (.sign images [], images)
  | .sign [] urls => (.replied (.urls urls), images)
  | .sign (image :: rest) urls =>
    if image.uploaded = false then (.sign rest urls, images)
    else match url with
      | .ok url => (.sign rest (urls ++ [url]), images)
      | .err .status500 => (.replied .internalServerError, images)
      | _ => (.replied .aborted, images)
  | .update id => (.replied .noContent, markUploaded id images)
  | .replied r => (.replied r, images)
  | .dropped => (.dropped, images)

/-- The crate can give these results for the next step of the handler, as far as it is a call of the crate. -/
def Crate.Gives (crate : Crate) (uuid : Str) (form : Res Failure (List (Str × Str))) (url : Res Failure Str) : Task → Prop
  | .create n t => crate.form uuid n t form
  | .sign (image :: _) _ => image.uploaded = true → crate.url image.id url
  | _ => True

/-- The server: the images under the mutex, and all requests received so far with their handlers. -/
structure State where
  images : List Image
  tasks : List (Req × Task)

/-- What happens at a step under the mutex, with the number of the request. -/
inductive Event where
  | created (request : Nat) (id : Str)
  | updated (request : Nat) (id : Str)
  | listed (request : Nat)
  deriving DecidableEq, Repr

/-- The event of the next step of a handler, if it is one under the mutex. -/
def Task.events (i : Nat) : Task → List Event
  | .push id _ => [.created i id]
  | .update id => [.updated i id]
  | .list => [.listed i]
  | _ => []

/-- A hyphenated lower-case UUID, as `uuid::Uuid::new_v4().to_string()` gives (examples/image-uploader/src/main.rs:29). -/
def IsUuid (id : Str) : Prop := id.length = 36 ∧ ∀ c ∈ id, c ∈ s% "0123456789abcdef-"

/-- The server can reach the state `s` with these events under the mutex. At any time a request is received, a handler that
has not finished does its next step, or such a handler is dropped. Random ids are arbitrary. A handler may be dropped between
any two steps, also where the code has no `.await`. -/
inductive Run (crate : Crate) (cfg : Config) : List Event → State → Prop where
  /-- `images: Default::default()`: examples/image-uploader/src/main.rs:174-177 -/
  | start : Run crate cfg [] ⟨[], []⟩
  | receive {tr s} (r : Req) : Run crate cfg tr s → Run crate cfg tr { s with tasks := s.tasks ++ [(r, r.task)] }
  | step {tr s} (i : Nat) (r : Req) (t : Task) (uuid : Str) (form : Res Failure (List (Str × Str))) (url : Res Failure Str) :
      Run crate cfg tr s → s.tasks[i]? = some (r, t) → IsUuid uuid → crate.Gives uuid form url t →
      Run crate cfg (tr ++ t.events i)
        ⟨(t.step cfg uuid s.images form url).2, s.tasks.set i (r, (t.step cfg uuid s.images form url).1)⟩
  | drop {tr s} (i : Nat) (r : Req) (t : Task) :
      Run crate cfg tr s → s.tasks[i]? = some (r, t) → (∀ a, t ≠ .replied a) →
      Run crate cfg tr { s with tasks := s.tasks.set i (r, .dropped) }

/-- Why the server does not start. -/
inductive SetupError where
  | variable | notBool | key (e : SigningKeyError)
  deriving DecidableEq, Repr

/-- The configuration: examples/image-uploader/src/main.rs:151-163. `vars` are the environment variables, `files` the files. -/
def setup (env : Env) (vars : Str → Option Str) (files : Str → FileResult) : M SetupError Config := do
  let text ← M.lift (Res.ofOption .variable (vars (s% "USE_SIGN_BLOB")))
  let useSignBlob ← M.lift (Res.ofOption .notBool
    (if text = s% "true" then some true else if text = s% "false" then some false else none))
  let signingKey ←
    if useSignBlob then SigningKey.newBoundToken env
    else do
      let path ← M.lift (Res.ofOption .variable (vars (s% "GOOGLE_APPLICATION_CREDENTIALS")))
      M.lift ((SigningKey.serviceAccountFromPath env (files path)).mapErr .key)
  let bucketName ← M.lift (Res.ofOption .variable (vars (s% "BUCKET_NAME")))
  pure ⟨bucketName, signingKey, useSignBlob⟩

end CSS.ImageUploader
