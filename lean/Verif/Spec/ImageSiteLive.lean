import Verif.Spec.ImageSite
import Verif.Spec.ImageLive
import Verif.Spec.ImageSiteShared
/-
Infinite histories of the site of the example (`Spec/ImageSite`), with what happens at each point.
-/
namespace CSS.Spec.ImageUploader
open CSS.ImageUploader CSS.Spec

/-- What happens next in the site. Uploads and requests are named by their numbers. -/
inductive Happens where
  /-- nothing, or something that has nothing to do with the uploads that there are: another file is chosen, somebody else sends a
  request, the storage server does something else -/
  | elsewhere
  /-- a handler of the example server does its next step, or is dropped -/
  | server (m : ServerMove)
  /-- the page of this upload sends its next request to the example server -/
  | sends (k : Nat)
  /-- the page of this upload gets the answer of the example server -/
  | gets (k : Nat) (reply : Reply)
  /-- the form of this upload, with its file, is handled by the storage server at this time, and the page gets the answer -/
  | posts (k : Nat) (time : Int)
  /-- a `fetch` of this upload fails (its request or the answer does not arrive), or its page is closed -/
  | loses (k : Nat)
  /-- the example server refuses the registration because it lacks the type of the file -/
  | refuses (k : Nat)
  deriving DecidableEq

/-- An upload is at its end: its list is shown, or it has failed. -/
def UploadEnded (u : Upload) : Prop := (∃ urls, u = .shown urls) ∨ u = .failed

/-- The cases of `Site.Run`, with what happens. -/
inductive SiteMoves (crate : Crate) (cfg : Config) (account : Str) (n e : Nat) : Happens → Site → Site → Prop where
  | idle {s : Site} : SiteMoves crate cfg account n e .elsewhere s s
  | choose {s : Site} (file : ChosenFile) :
      SiteMoves crate cfg account n e .elsewhere s { s with uploads := s.uploads ++ [(file, .chosen)] }
  | visit {s : Site} (r : Req) : (∀ id, r ≠ .update id) →
      SiteMoves crate cfg account n e .elsewhere s { s with server := { s.server with tasks := s.server.tasks ++ [(r, r.task)] } }
  | elsewhere {s : Site} (store : Store) :
      (∀ id, IsUuid id → store (utf8 cfg.bucketName) (utf8 id) = s.store (utf8 cfg.bucketName) (utf8 id)) →
      SiteMoves crate cfg account n e .elsewhere s { s with store := store }
  | server {s : Site} (m : ServerMove) (server : State) : m ≠ .received → Moves crate cfg m s.server server →
      SiteMoves crate cfg account n e (.server m) s { s with server := server }
  | send {s : Site} (k : Nat) (file : ChosenFile) (u : Upload) (r : Req) :
      s.uploads[k]? = some (file, u) → u.request file = some r →
      SiteMoves crate cfg account n e (.sends k) s
        { s with
          server := { s.server with tasks := s.server.tasks ++ [(r, r.task)] }
          uploads := s.uploads.set k (file, u.sent s.server.tasks.length) }
  | get {s : Site} (k i : Nat) (file : ChosenFile) (u : Upload) (r : Req) (reply : Reply) :
      s.uploads[k]? = some (file, u) → u.waits = some i → s.server.tasks[i]? = some (r, .replied reply) →
      SiteMoves crate cfg account n e (.gets k reply) s { s with uploads := s.uploads.set k (file, u.answered reply) }
  | post {s : Site} (k : Nat) (file : ChosenFile) (fields : List (Str × Str)) (url bucket : Str) (time : Int) (store : Store) :
      s.uploads[k]? = some (file, .uploading fields (s% "POST") url) → bucketOf url = some bucket →
      (Sent.form ⟨bucket, formEntries fields, file.content.length, time⟩ file.name file.content).Accepted account n e →
      Handles account n e (.form ⟨bucket, formEntries fields, file.content.length, time⟩ file.name file.content) s.store store →
      SiteMoves crate cfg account n e (.posts k time) s
        { s with
          store := store
          uploads := s.uploads.set k (file, match findKey fields with | some id => .uploaded id | none => .failed) }
  | postRefused {s : Site} (k : Nat) (file : ChosenFile) (fields : List (Str × Str)) (url bucket : Str) (time : Int) (store : Store) :
      s.uploads[k]? = some (file, .uploading fields (s% "POST") url) → bucketOf url = some bucket →
      ¬ (Sent.form ⟨bucket, formEntries fields, file.content.length, time⟩ file.name file.content).Accepted account n e →
      Handles account n e (.form ⟨bucket, formEntries fields, file.content.length, time⟩ file.name file.content) s.store store →
      SiteMoves crate cfg account n e (.posts k time) s { s with store := store, uploads := s.uploads.set k (file, .failed) }
  | postLost {s : Site} (k : Nat) (file : ChosenFile) (fields : List (Str × Str)) (url bucket : Str) (time : Int) (store : Store) :
      s.uploads[k]? = some (file, .uploading fields (s% "POST") url) → bucketOf url = some bucket →
      Handles account n e (.form ⟨bucket, formEntries fields, file.content.length, time⟩ file.name file.content) s.store store →
      SiteMoves crate cfg account n e (.loses k) s { s with store := store, uploads := s.uploads.set k (file, .failed) }
  | lose {s : Site} (k : Nat) (file : ChosenFile) (u : Upload) : s.uploads[k]? = some (file, u) → ¬ UploadEnded u →
      SiteMoves crate cfg account n e (.loses k) s { s with uploads := s.uploads.set k (file, .failed) }
  | refuse {s : Site} (k : Nat) (file : ChosenFile) : s.uploads[k]? = some (file, .chosen) → file.type = [] →
      SiteMoves crate cfg account n e (.refuses k) s { s with uploads := s.uploads.set k (file, .failed) }

/-- Something happens that makes the page of upload `k` go on. -/
def Happens.goesOn (k : Nat) : Happens → Prop
  | .sends k' | .gets k' _ | .posts k' _ | .loses k' | .refuses k' => k' = k
  | _ => False

/-- An infinite history of the site from its beginning: its states, and what happens at each point. -/
structure SiteHistory (crate : Crate) (cfg : Config) (account : Str) (n e : Nat) (σ : Nat → Site) (what : Nat → Happens) : Prop where
  begins : ∃ store, σ 0 = ⟨⟨[], []⟩, store, []⟩
  next : ∀ m, SiteMoves crate cfg account n e (what m) (σ m) (σ (m + 1))

/-- Fairness: a handler that has not finished takes its next step or is dropped sooner or later, and a page goes on sooner or later if
it is not waiting for a handler that has not finished. (If the handler was dropped, that is because the `fetch` has failed.) -/
structure SiteFair (crate : Crate) (cfg : Config) (σ : Nat → Site) (what : Nat → Happens) : Prop where
  handlers : ∀ i m r t, (σ m).server.tasks[i]? = some (r, t) → ¬ Finished t →
    ∃ m', m ≤ m' ∧ (what m' = .server (.worked i) ∨ what m' = .server (.dropped i))
  pages : ∀ k m file u, (σ m).uploads[k]? = some (file, u) → ¬ UploadEnded u →
    (∀ i r t, u.waits = some i → (σ m).server.tasks[i]? = some (r, t) → Finished t) →
    ∃ m', m ≤ m' ∧ (what m').goesOn k

/-- The random ids are distinct. -/
def DistinctIds (σ : Nat → Site) : Prop := ∀ m, ((σ m).server.images.map (·.id)).Nodup

/-- What the example server gets from the crate in a process with the calls `calls` (an infinite history): what they have returned by
some time. -/
def Crate.during (calls : Nat → Sys) (cfg : Config) : Crate where
  form id n t r := ∃ m, (Crate.shared (calls m).trace cfg).form id n t r
  url id r := ∃ m, (Crate.shared (calls m).trace cfg).url id r

end CSS.Spec.ImageUploader
