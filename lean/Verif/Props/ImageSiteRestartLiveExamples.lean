import Verif.Props.ImageSiteRestartLive
import Verif.Props.ImageSiteLiveExamples
/-
A concrete case for C101: a file is chosen and registered, the server crashes, the file is uploaded, reported and a list without it is
shown, and then the server crashes again and again.
-/
set_option linter.unusedSimpArgs false
namespace CSS
open Spec ImageUploader Spec.ImageUploader

section
variable (cfg : Config) (fields : List (Str × Str)) (store : Store) (time : Int)

/-- The states of the history. -/
def crashStates (m : Nat) : Site :=
  let create : Req := .create 4 (s% "image/png")
  let url' := s% "https://storage.googleapis.com/" ++ cfg.bucketName
  let form : Task := .replied (.form fields (s% "POST") url')
  let done : Req × Task := (.update uuidA, .replied .noContent)
  let new : Store := fun _ _ => none
  match m with
  | 0 => ⟨⟨[], []⟩, new, []⟩
  | 1 => ⟨⟨[], []⟩, new, [(cat, .chosen)]⟩
  | 2 => ⟨⟨[], [(create, .create 4 (s% "image/png"))]⟩, new, [(cat, .registering 0)]⟩
  | 3 => ⟨⟨[], [(create, .push uuidA fields)]⟩, new, [(cat, .registering 0)]⟩
  | 4 => ⟨⟨[⟨uuidA, false⟩], [(create, form)]⟩, new, [(cat, .registering 0)]⟩
  | 5 => ⟨⟨[⟨uuidA, false⟩], [(create, form)]⟩, new, [(cat, .uploading fields (s% "POST") url')]⟩
  | 6 => ⟨⟨[], [(create, form)]⟩, new, [(cat, .uploading fields (s% "POST") url')]⟩
  | 7 => ⟨⟨[], [(create, form)]⟩, store, [(cat, .uploaded uuidA)]⟩
  | 8 => ⟨⟨[], [(create, form), (.update uuidA, .update uuidA)]⟩, store, [(cat, .reporting 1)]⟩
  | 9 => ⟨⟨[], [(create, form), done]⟩, store, [(cat, .reporting 1)]⟩
  | 10 => ⟨⟨[], [(create, form), done]⟩, store, [(cat, .reported)]⟩
  | 11 => ⟨⟨[], [(create, form), done, (.list, .list)]⟩, store, [(cat, .listing 2)]⟩
  | 12 => ⟨⟨[], [(create, form), done, (.list, .sign [] [])]⟩, store, [(cat, .listing 2)]⟩
  | 13 => ⟨⟨[], [(create, form), done, (.list, .replied (.urls []))]⟩, store, [(cat, .listing 2)]⟩
  | _ => ⟨⟨[], [(create, form), done, (.list, .replied (.urls []))]⟩, store, [(cat, .shown [])]⟩

/-- What happens. -/
def crashHappens (m : Nat) : Option Happens :=
  match m with
  | 0 => some .elsewhere
  | 1 => some (.sends 0)
  | 2 => some (.server (.worked 0))
  | 3 => some (.server (.worked 0))
  | 4 => some (.gets 0 (.form fields (s% "POST") (s% "https://storage.googleapis.com/" ++ cfg.bucketName)))
  | 5 => none
  | 6 => some (.posts 0 time)
  | 7 => some (.sends 0)
  | 8 => some (.server (.worked 1))
  | 9 => some (.gets 0 .noContent)
  | 10 => some (.sends 0)
  | 11 => some (.server (.worked 2))
  | 12 => some (.server (.worked 2))
  | 13 => some (.gets 0 (.urls []))
  | _ => none

variable {cfg fields store time}

theorem crash_past (d : Nat) : pastAt (crashStates cfg fields store) (crashHappens cfg fields time) (14 + d) =
    [.event (.created 0 uuidA), .restarted, .event (.updated 1 uuidA), .event (.listed 2)] ++ List.replicate d .restarted := by
  induction d with
  | zero => rfl
  | succ d ih =>
    show pastAt _ _ (14 + d) ++ episodeAt (crashHappens cfg fields time (14 + d)) (crashStates cfg fields store (14 + d)) = _
    rw [ih, show crashHappens cfg fields time (14 + d) = none by rw [Nat.add_comm]; rfl, List.replicate_succ', ← List.append_assoc]
    rfl

theorem registeredIds_restarts (d : Nat) : registeredIds (List.replicate d Episode.restarted) = [] := by
  induction d with
  | zero => rfl
  | succ d ih => rw [List.replicate_succ]; exact ih

theorem past_prefix (σ : Nat → Site) (what : Nat → Option Happens) (m d : Nat) : pastAt σ what m <+: pastAt σ what (m + d) := by
  induction d with
  | zero => exact List.prefix_refl _
  | succ d ih => exact ih.trans (List.prefix_append _ _)

theorem crash_history {crate : Crate} {account : Str} {n e : Nat} (hfind : findKey fields = some uuidA)
    (hform : crate.form uuidA 4 (s% "image/png") (.ok fields))
    (hacc : (Sent.form ⟨cfg.bucketName, formEntries fields, cat.content.length, time⟩ cat.name cat.content).Accepted account n e)
    (hst : Handles account n e (.form ⟨cfg.bucketName, formEntries fields, cat.content.length, time⟩ cat.name cat.content)
      (fun _ _ => none) store) :
    CrashHistory crate cfg account n e (crashStates cfg fields store) (crashHappens cfg fields time) ∧
    AllDistinctIds (crashStates cfg fields store) (crashHappens cfg fields time) ∧
    CrashFair (crashStates cfg fields store) (crashHappens cfg fields time) := by
  have hid : IsUuid uuidA := by decide
  have h : CrashHistory crate cfg account n e (crashStates cfg fields store) (crashHappens cfg fields time) := by
    refine ⟨⟨_, rfl⟩, fun m => ?_⟩
    match m with
    | 0 => exact .inl ⟨_, rfl, .choose cat⟩
    | 1 => exact .inl ⟨_, rfl, .send 0 cat .chosen (.create 4 (s% "image/png")) rfl rfl⟩
    | 2 => exact .inl ⟨_, rfl, site_step (i := 0) (.ok fields) (.ok []) rfl (notFinished (by decide)) hid hform rfl⟩
    | 3 => exact .inl ⟨_, rfl, site_step (i := 0) (.ok []) (.ok []) rfl (notFinished (by simp [Task.left])) hid trivial rfl⟩
    | 4 => exact .inl ⟨_, rfl, .get 0 0 cat (.registering 0) _ _ rfl rfl rfl⟩
    | 5 => exact .inr ⟨rfl, rfl⟩
    | 6 =>
      refine .inl ⟨_, rfl, ?_⟩
      have := SiteMoves.post (crate := crate) (cfg := cfg) (s := crashStates cfg fields store 6) 0 cat fields _ _ time store rfl
        (bucketOf_prefix cfg.bucketName) hacc hst
      rw [hfind] at this
      exact this
    | 7 => exact .inl ⟨_, rfl, .send 0 cat (.uploaded uuidA) (.update uuidA) rfl rfl⟩
    | 8 => exact .inl ⟨_, rfl, site_step (i := 1) (.ok []) (.ok []) rfl (notFinished (by decide)) hid trivial (by simp [Task.step, markUploaded])⟩
    | 9 => exact .inl ⟨_, rfl, .get 0 1 cat (.reporting 1) _ _ rfl rfl rfl⟩
    | 10 => exact .inl ⟨_, rfl, .send 0 cat .reported .list rfl rfl⟩
    | 11 => exact .inl ⟨_, rfl, site_step (i := 2) (.ok []) (.ok []) rfl (notFinished (by decide)) hid trivial rfl⟩
    | 12 => exact .inl ⟨_, rfl, site_step (i := 2) (.ok []) (.ok []) rfl (notFinished (by simp [Task.left])) hid trivial rfl⟩
    | 13 => exact .inl ⟨_, rfl, .get 0 2 cat (.listing 2) _ _ rfl rfl rfl⟩
    | k + 14 => exact .inr ⟨rfl, rfl⟩
  refine ⟨h, fun m => ?_, fun i m r t _ _ => ⟨m + 14, by omega, .inr (.inr rfl)⟩, fun k m file u hk hne _ => ?_⟩
  · obtain ⟨rest, hr⟩ := past_prefix (crashStates cfg fields store) (crashHappens cfg fields time) m 14
    rw [Nat.add_comm, crash_past] at hr
    have hnd : (registeredIds (pastAt (crashStates cfg fields store) (crashHappens cfg fields time) m ++ rest)).Nodup := by
      rw [hr, registeredIds_append, registeredIds_restarts, List.append_nil]
      decide
    rw [registeredIds_append] at hnd
    exact (List.nodup_append.1 hnd).1
  · apply Classical.byContradiction
    intro hno
    have stays : ∀ d, (crashStates cfg fields store (m + d)).uploads[k]? = some (file, u) := by
      intro d
      induction d with
      | zero => exact hk
      | succ d ih =>
        rcases h.next (m + d) with ⟨hh, hw, hm⟩ | ⟨_, hm⟩
        · rcases siteMoves_upload hm ih with ⟨_, h3⟩ | ⟨h3, _⟩
          · exact h3
          · exact absurd ⟨m + d, hh, by omega, hw, h3⟩ hno
        · rw [show m + (d + 1) = m + d + 1 by omega, hm]
          exact ih
    have := stays 14
    simp only [crashStates] at this
    cases k with
    | zero =>
      cases this
      exact hne (.inl ⟨_, rfl⟩)
    | succ k => cases this

/-- In this history nothing speaks against the upload. -/
theorem crash_fine : (∀ m, crashHappens cfg fields time m ≠ some (.loses 0)) ∧
    (∀ m, crashHappens cfg fields time m ≠ some (.gets 0 .internalServerError) ∧ crashHappens cfg fields time m ≠ some (.gets 0 .aborted)) ∧
    ∀ m t, crashHappens cfg fields time m = some (.posts 0 t) → m = 6 ∧ t = time := by
  refine ⟨fun m => ?_, fun m => ?_, fun m t => ?_⟩ <;>
  match m with
  | 0 | 1 | 2 | 3 | 4 | 5 | 6 | 7 | 8 | 9 | 10 | 11 | 12 | 13 | k + 14 => simp [crashHappens, eq_comm]

end

/-- C101: the hypotheses of `C101_shown` are met by a history with infinitely many crashes: the file is uploaded 30 seconds after its
registration, with a crash in between. A list without it is shown, and the file is stored. -/
example : ∃ n e key σ what, Reference.env.pemParse Reference.testPem = some key ∧ Rsa.PublicKeyIn key n e ∧
    CrashHistory (.alone Reference.env config) config (s% "test@example.com") n e σ what ∧ AllDistinctIds σ what ∧
    CrashFair σ what ∧ (∀ m, ∃ m', m ≤ m' ∧ what m' = none) ∧ (σ 1).uploads[0]? = some (cat, .chosen) ∧
    ∃ m urls, (σ m).uploads[0]? = some (cat, .shown urls) ∧
      ∃ id, IsUuid id ∧ (σ m).store (utf8 config.bucketName) (utf8 id) = some cat.content := by
  obtain ⟨key, n, e, hpem, hpub⟩ := publicKey
  obtain ⟨fields, hfind, hform⟩ := cat_form
  have clock : ∀ k, Reference.env.now k = 1640995200000000000 := fun k => by
    show 1640995200 * nsPerSec = 1640995200000000000; decide
  obtain ⟨now, start, hf⟩ := alone_form hform
  have htime : start / 1000000000 ≤ 1640995230 ∧ 1640995230 < (now + 60000000000) / 1000000000 := by
    obtain ⟨w, w', hn, hs, _⟩ := hf
    rw [clock] at hn hs
    rw [hn, hs]; decide
  have hacc : (Sent.form ⟨config.bucketName, formEntries fields, cat.content.length, 1640995230⟩ cat.name cat.content).Accepted
      (s% "test@example.com") n e := by
    rw [formEntries_nodup (formFor_names hf)]
    exact ⟨(C70_form_accepted Reference.env config uuidA _ _ fields now start _ _ key n e hf rfl Reference.correct hpem hpub
      cat.content.length 1640995230).2 ⟨htime.1, htime.2, rfl⟩, rfl⟩
  obtain ⟨store, hst⟩ := handles_exists (s% "test@example.com") n e
    (.form ⟨config.bucketName, formEntries fields, cat.content.length, 1640995230⟩ cat.name cat.content) (fun _ _ => none)
  obtain ⟨h1, h2, h3⟩ := crash_history (cfg := config) hfind hform hacc hst
  obtain ⟨f1, f2, f3⟩ := crash_fine (cfg := config) (fields := fields) (time := 1640995230)
  obtain ⟨m, urls, _, g1, id, i, l, before, between, after, _, g3, g4, _⟩ := C101_shown Reference.env config _ _ key n e _ _ h1 h2 h3 rfl
    Reference.correct hpem hpub (by decide) 0 1 cat rfl (by decide) f1 f2 (by
      intro m' t fields' method url' hw hu
      obtain ⟨rfl, rfl⟩ := f3 m' t hw
      simp only [crashStates, List.getElem?_cons_zero, Option.some.injEq, Prod.mk.injEq, true_and, Upload.uploading.injEq] at hu
      obtain ⟨rfl, _⟩ := hu
      exact ⟨uuidA, now, start, hf, htime⟩)
  exact ⟨n, e, key, _, _, hpem, hpub, h1, h2, h3, fun m => ⟨m + 14, by omega, rfl⟩, rfl, m, urls, g1, id, g3, g4⟩

/-- C101: the hypotheses of `C101_why` are met: the server crashes while it has a registration, whose `fetch` then fails. -/
example : ∃ n e key σ what, Reference.env.pemParse Reference.testPem = some key ∧ Rsa.PublicKeyIn key n e ∧
    CrashHistory (.alone Reference.env config) config (s% "test@example.com") n e σ what ∧ AllDistinctIds σ what ∧
    what 2 = none ∧ (σ 3).uploads[0]? = some (cat, .registering 0) ∧ (σ 4).uploads[0]? = some (cat, .failed) ∧
    what 3 = some (.loses 0) := by
  obtain ⟨key, n, e, hpem, hpub⟩ := publicKey
  let store : Store := fun _ _ => none
  let gone : State := ⟨[], [(.create 4 (s% "image/png"), .dropped)]⟩
  let σ : Nat → Site := fun m => if m ≤ 2 then crashStates config [] store m else
    ⟨gone, store, [(cat, if m = 3 then .registering 0 else .failed)]⟩
  let what : Nat → Option Happens := fun m => if m ≤ 1 then crashHappens config [] 0 m else if m = 2 then none else
    if m = 3 then some (.loses 0) else some .elsewhere
  have past : ∀ m, registeredIds (pastAt σ what m) = [] := by
    intro m
    induction m with
    | zero => rfl
    | succ m ih =>
      show registeredIds (pastAt σ what m ++ episodeAt (what m) (σ m)) = []
      rw [registeredIds_append, ih, List.nil_append]
      match m with
      | 0 | 1 | 2 | 3 => rfl
      | k + 4 =>
        have : what (k + 4) = some .elsewhere := by simp [what]
        rw [this]
        rfl
  refine ⟨n, e, key, σ, what, hpem, hpub, ⟨⟨_, rfl⟩, fun m => ?_⟩, fun m => by rw [past m]; exact List.nodup_nil, rfl, rfl, rfl, rfl⟩
  match m with
  | 0 => exact .inl ⟨_, rfl, .choose cat⟩
  | 1 => exact .inl ⟨_, rfl, .send 0 cat .chosen (.create 4 (s% "image/png")) rfl rfl⟩
  | 2 => exact .inr ⟨rfl, rfl⟩
  | 3 => exact .inl ⟨_, rfl, .lose 0 cat (.registering 0) rfl (by simp [UploadEnded])⟩
  | k + 4 =>
    refine .inl ⟨.elsewhere, by simp [what], ?_⟩
    have : σ (k + 4 + 1) = σ (k + 4) := by simp [σ]
    rw [this]
    exact .idle

end CSS
