import Verif.Props.ImageUploaderServer
import Verif.Lemmas.ReferenceRsa
/-
Concrete cases for C69 to C72: a history with interleaved requests, with the 2048-bit key of the crate's own tests.
-/
set_option linter.unusedSimpArgs false
namespace CSS
open Spec ImageUploader Spec.ImageUploader

instance (id : Str) : Decidable (IsUuid id) := by unfold IsUuid; infer_instance
instance (name : Str) : Decidable (IsBucketName name) := by unfold IsBucketName; infer_instance

/-- What happens next, for an executable scheduler. -/
inductive ImageUploader.Action where
  | receive (r : Req)
  | step (i : Nat) (uuid : Str)
  | drop (i : Nat)

/-- The form that the crate returns for the next step of a handler. -/
def ImageUploader.Task.formOf (env : Env) (cfg : Config) (uuid : Str) : Task → Res Failure (List (Str × Str))
  | .create n c => (createForm env cfg uuid n c Conformance.world).1
  | _ => .ok []

/-- The URL that the crate returns for the next step of a handler. -/
def ImageUploader.Task.urlOf (env : Env) (cfg : Config) : Task → Res Failure Str
  | .sign (im :: _) _ => (signUrl env cfg im.id Conformance.world).1
  | _ => .ok []

theorem gives_alone (env : Env) (cfg : Config) (uuid : Str) (t : Task) :
    (Crate.alone env cfg).Gives uuid (t.formOf env cfg uuid) (t.urlOf env cfg) t := by
  cases t with
  | create n c => exact ⟨_, rfl⟩
  | sign rest urls =>
    cases rest with
    | nil => trivial
    | cons im rest => exact fun _ => ⟨_, rfl⟩
  | _ => trivial

/-- One action, if it is possible. -/
def ImageUploader.Action.run (env : Env) (cfg : Config) (x : List Event × State) : Action → Option (List Event × State)
  | .receive r => some (x.1, { x.2 with tasks := x.2.tasks ++ [(r, r.task)] })
  | .step i uuid =>
    match x.2.tasks[i]? with
    | none => none
    | some (r, t) =>
      if IsUuid uuid then
        let y := t.step cfg uuid x.2.images (t.formOf env cfg uuid) (t.urlOf env cfg)
        some (x.1 ++ t.events i, ⟨y.2, x.2.tasks.set i (r, y.1)⟩)
      else none
  | .drop i =>
    match x.2.tasks[i]? with
    | some (_, .replied _) => none
    | some (r, _) => some (x.1, { x.2 with tasks := x.2.tasks.set i (r, .dropped) })
    | none => none

/-- Actions in a row. -/
def ImageUploader.simulate (env : Env) (cfg : Config) : List Action → List Event × State → Option (List Event × State)
  | [], x => some x
  | a :: as, x => (a.run env cfg x).bind (simulate env cfg as)

theorem action_run {env : Env} {cfg : Config} {x y : List Event × State} {a : Action} (hx : Run (.alone env cfg) cfg x.1 x.2)
    (h : a.run env cfg x = some y) : Run (.alone env cfg) cfg y.1 y.2 := by
  obtain ⟨tr, s⟩ := x
  cases a with
  | receive r => cases h; exact .receive r hx
  | step i uuid =>
    simp only [Action.run] at h
    split at h
    · cases h
    · rename_i r t ht
      split at h
      · rename_i hid
        cases h
        exact .step i r t uuid _ _ hx ht hid (gives_alone env cfg uuid t)
      · cases h
  | drop i =>
    simp only [Action.run] at h
    split at h
    · cases h
    · rename_i r t hn ht
      cases h
      exact .drop i r t hx ht (fun a ha => by subst ha; exact hn _ rfl)
    · cases h

theorem simulate_run {env : Env} {cfg : Config} {as : List Action} : ∀ {x y : List Event × State}, Run (.alone env cfg) cfg x.1 x.2 →
    simulate env cfg as x = some y → Run (.alone env cfg) cfg y.1 y.2 := by
  induction as with
  | nil => intro x y hx h; cases h; exact hx
  | cons a as ih =>
    intro x y hx h
    obtain ⟨z, hz, h⟩ := Option.bind_eq_some_iff.1 h
    exact ih (action_run hx hz) h

def ImageUploader.uuidA : Str := s% "0f8fad5b-d9cb-469f-a165-70867728950e"
def ImageUploader.uuidB : Str := s% "7c9e6679-7425-40de-944b-e07fc1f90ae7"

/-- Two images are registered, the second one first; a listing starts when only the first is reported as uploaded, and the
second is reported while the listing goes on. Another registration is dropped before it takes the mutex. -/
def ImageUploader.actions : List Action :=
  [.receive (.create 1024 (s% "image/png")), .receive (.create 5 (s% "image/gif")), .receive .list,
   .step 0 uuidA, .step 1 uuidB, .step 1 uuidB, .step 0 uuidB,
   .receive (.update uuidA), .receive (.update uuidB), .receive (.create 7 (s% "image/png")), .step 5 uuidB, .drop 5,
   .step 3 uuidB, .step 2 uuidB, .step 4 uuidB, .step 2 uuidB, .step 2 uuidB, .step 2 uuidB]

/-- The file with the key of the crate's tests. -/
def ImageUploader.keyFile : Str :=
  s% "{\"client_email\":\"test@example.com\",\"private_key\":\"" ++
    (Reference.testPem.flatMap fun c => if c = '\n' then s% "\\n" else [c]) ++ s% "\"}"

def ImageUploader.vars (name : Str) : Option Str :=
  if name = s% "USE_SIGN_BLOB" then some (s% "false")
  else if name = s% "GOOGLE_APPLICATION_CREDENTIALS" then some (s% "key.json")
  else if name = s% "BUCKET_NAME" then some (s% "my-bucket")
  else none

def ImageUploader.config : Config :=
  ⟨s% "my-bucket", .serviceAccount (s% "test@example.com") Reference.testPem, false⟩

/-- C72: the hypotheses are met. -/
theorem ImageUploader.setup_config :
    setup Reference.env vars (fun _ => .text keyFile) Conformance.world = (.ok config, Conformance.world) := by
  have h : SigningKey.serviceAccountFromStr Reference.env keyFile = .ok (.serviceAccount (s% "test@example.com") Reference.testPem) := by
    decide +kernel
  show ((setup Reference.env vars (fun _ => .text keyFile) Conformance.world) = _)
  unfold setup
  rw [M.bind_run, M.lift_run, show vars (s% "USE_SIGN_BLOB") = some (s% "false") by decide, Res.ofOption_some]
  simp only
  rw [M.bind_run, M.lift_run, if_neg (by decide)]
  simp only [if_true, Res.ofOption_some]
  simp only [Bool.false_eq_true, if_false]
  rw [M.bind_run, M.lift_run, show vars (s% "GOOGLE_APPLICATION_CREDENTIALS") = some (s% "key.json") by decide, Res.ofOption_some]
  simp only
  rw [M.bind_run, M.lift_run]
  unfold SigningKey.serviceAccountFromPath
  simp only
  rw [h]
  rfl

example : (∀ k, Reference.env.now k + 60 * nsPerSec < timeLimit) ∧
    (utf8 config.bucketName).length + (utf8 (s% "test@example.com")).length ≤ 6400 :=
  ⟨fun _ => by show 1640995200 * nsPerSec + 60 * nsPerSec < timeLimit; decide, by decide +kernel⟩

theorem any_some {α : Type} {o : Option α} {f : α → Bool} (h : o.any f = true) : ∃ x, o = some x ∧ f x = true := by
  cases o with
  | none => cases h
  | some x => exact ⟨x, rfl, h⟩

/-- The history happens: the registrations get forms, and the listing has exactly one URL. -/
theorem ImageUploader.history : ∃ s fs fs' url,
    Run (.alone Reference.env config) config
      [.created 1 uuidB, .created 0 uuidA, .updated 3 uuidA, .listed 2, .updated 4 uuidB] s ∧
    s.tasks[0]? = some (.create 1024 (s% "image/png"), .replied (.form fs (s% "POST") (s% "https://storage.googleapis.com/my-bucket"))) ∧
    s.tasks[1]? = some (.create 5 (s% "image/gif"), .replied (.form fs' (s% "POST") (s% "https://storage.googleapis.com/my-bucket"))) ∧
    s.tasks[2]? = some (.list, .replied (.urls [url])) ∧
    s.tasks[5]? = some (.create 7 (s% "image/png"), .dropped) := by
  have h : ((simulate Reference.env config actions ([], ⟨[], []⟩)).any fun x =>
      decide (x.1 = [.created 1 uuidB, .created 0 uuidA, .updated 3 uuidA, .listed 2, .updated 4 uuidB]) &&
      (match x.2.tasks with
      | [(r0, .replied (.form _ m0 u0)), (r1, .replied (.form _ m1 u1)), (r2, .replied (.urls [_])), _, _, (r5, .dropped)] =>
        decide (r0 = .create 1024 (s% "image/png")) && decide (r1 = .create 5 (s% "image/gif")) && decide (r2 = .list) &&
        decide (r5 = .create 7 (s% "image/png")) &&
        decide (m0 = s% "POST") && decide (m1 = s% "POST") && decide (u0 = s% "https://storage.googleapis.com/my-bucket") &&
        decide (u1 = s% "https://storage.googleapis.com/my-bucket")
      | _ => false)) = true := by decide +kernel
  obtain ⟨⟨tr, s⟩, hx, hf⟩ := any_some h
  rw [Bool.and_eq_true, decide_eq_true_eq] at hf
  obtain ⟨htr, hf⟩ := hf
  simp only at htr hf
  have hrun := simulate_run (x := ([], ⟨[], []⟩)) .start hx
  simp only at hrun
  rw [htr] at hrun
  obtain ⟨images, tasks⟩ := s
  simp only at hf
  split at hf
  · rename_i _ r0 fs0 m0 u0 r1 fs1 m1 u1 r2 url _ _ r5
    simp only [Bool.and_eq_true, decide_eq_true_eq] at hf
    obtain ⟨⟨⟨⟨⟨⟨⟨h1, h2⟩, h3⟩, h4⟩, h5⟩, h6⟩, h7⟩, h8⟩ := hf
    refine ⟨_, fs0, fs1, url, hrun, ?_, ?_, ?_, ?_⟩
    · show some (r0, Task.replied (.form fs0 m0 u0)) = _
      rw [h1, h5, h7]
    · show some (r1, Task.replied (.form fs1 m1 u1)) = _
      rw [h2, h6, h8]
    · show some (r2, Task.replied (.urls [url])) = _
      rw [h3]
    · show some (r5, Task.dropped) = _
      rw [h4]
  · cases hf

/-- The public key of the example. -/
theorem ImageUploader.publicKey : ∃ key n e, Reference.env.pemParse Reference.testPem = some key ∧ Rsa.PublicKeyIn key n e := by
  have h : ((Reference.env.pemParse Reference.testPem).bind fun key => Reference.sign key []).isSome = true := by decide +kernel
  obtain ⟨s, hs⟩ := Option.isSome_iff_exists.1 h
  obtain ⟨key, hk, hs⟩ := Option.bind_eq_some_iff.1 hs
  obtain ⟨n, e, hp, _⟩ := Reference.sign_spec hs
  exact ⟨key, n, e, hk, hp⟩

/-- C69, C70 and C71: the hypotheses are met. In this history the first registration got a form with which exactly 1024 bytes
can be uploaded within the minute, and the listing showed the first image only, by a URL that works for the minute. -/
theorem ImageUploader.history_accepted : ∃ s fs url n e, Run (.alone Reference.env config) config
      [.created 1 uuidB, .created 0 uuidA, .updated 3 uuidA, .listed 2, .updated 4 uuidB] s ∧
    s.tasks[0]? = some (.create 1024 (s% "image/png"), .replied (.form fs (s% "POST") (s% "https://storage.googleapis.com/my-bucket"))) ∧
    s.tasks[2]? = some (.list, .replied (.urls [url])) ∧
    (∀ size time, AcceptsPost (s% "test@example.com") n e ⟨s% "my-bucket", fs, size, time⟩ ↔
      1640995200 ≤ time ∧ time < 1640995260 ∧ size = 1024) ∧
    (∀ time, Accepts (s% "test@example.com") n e ⟨s% "GET", url, [(s% "host", s% "storage.googleapis.com")], time⟩ ↔
      1640995200 ≤ time ∧ time < 1640995260) := by
  obtain ⟨s, fs, fs', url, hrun, h0, h1, h2, h5⟩ := history
  obtain ⟨key, n, e, hpem, hpub⟩ := publicKey
  have clock : ∀ k, Reference.env.now k = 1640995200000000000 := fun k => by
    show 1640995200 * nsPerSec = 1640995200000000000; decide
  refine ⟨s, fs, url, n, e, hrun, h0, h2, ?_, ?_⟩
  · intro size time
    rcases C70_create _ _ _ _ hrun 0 1024 (s% "image/png") _ h0 with ⟨id, fields, now, start, he, _, hf, _⟩ | ⟨h | h, _⟩
    · rw [Reply.form.injEq] at he
      rw [← he.1] at hf
      have hacc := C70_form_accepted _ _ _ _ _ _ _ _ _ _ key n e hf rfl Reference.correct hpem hpub size time
      obtain ⟨w, w', hn, hs, _⟩ := hf
      rw [clock] at hn hs
      rw [hn, hs] at hacc
      exact hacc
    · cases h
    · cases h
  · intro time
    obtain ⟨before, after, ids, htr, hsub, hids, hlen, hurl⟩ := C69_listing _ _ _ _ hrun (by decide) 2 _ _ h2
    match ids, hlen with
    | [id], _ =>
      obtain ⟨now, start, hf⟩ := hurl 0 url id rfl rfl
      have hid : IsUuid id := by
        have : id ∈ createdIds before := hsub.subset (by simp)
        have hm : id ∈ createdIds [.created 1 uuidB, .created 0 uuidA, .updated 3 uuidA, .listed 2, .updated 4 uuidB] := by
          rw [htr, createdIds_append]; exact List.mem_append_left _ this
        exact (by decide : ∀ id ∈ createdIds [.created 1 uuidB, .created 0 uuidA, .updated 3 uuidA, .listed 2,
          .updated 4 uuidB], IsUuid id) id hm
      have hacc := C71_accepted _ _ _ _ _ _ hf (by decide) hid _ _ key n e rfl Reference.correct hpem hpub (by decide) time
      obtain ⟨w, w', hn, hs, _⟩ := hf
      rw [clock] at hn hs
      rw [hn, hs] at hacc
      exact hacc

end CSS
