import Verif.Cases.RestartShared
import Verif.Props.ImageSiteRestartLiveShared
import Verif.Props.ImageSiteRestartLiveExamples
/-
A concrete case for C101 with a bound token.
-/
namespace CSS
open Spec ImageUploader Spec.ImageUploader Reference Conformance

/-- C101_shared_shown: the hypotheses are met by a history with infinitely many crashes. A list is shown, and the file is stored. -/
example : ∃ (s : Sys) (n e : Nat) (σ : Nat → Site) (what : Nat → Option Happens), (∀ k, Sys.Reach btEnv baseOf (callsOf s k)) ∧
    (∀ k, KeyOwner btEnv baseOf (callsOf s k).trace btConfig.signingKey (s% "a@b.c") n e) ∧
    CrashHistory (.inLives (callsOf s) btConfig) btConfig (s% "a@b.c") n e σ what ∧ AllDistinctIds σ what ∧ CrashFair σ what ∧
    (∀ m, ∃ m', m ≤ m' ∧ what m' = none) ∧ (σ 1).uploads[0]? = some (cat, .chosen) ∧
    ∃ m urls, (σ m).uploads[0]? = some (cat, .shown urls) ∧
      ∃ id, IsUuid id ∧ (σ m).store (utf8 btConfig.bucketName) (utf8 id) = some cat.content := by
  obtain ⟨s, n, e, fs, url, hr, ho, hone, h0, hu, h1, hf, hfind, honly, hcs⟩ := shared_calls
  have hform : (Crate.shared s.trace btConfig).form uuidA 4 (s% "image/png") (.ok fs) :=
    ⟨atNow, trivial, .inr ⟨1, .ok fs, h1, hf, rfl⟩⟩
  obtain ⟨now, start, hff⟩ := shared_form hr hform
  obtain ⟨hstart, hnow⟩ := shared_time hone hcs hff
  have htime : start / 1000000000 ≤ atNow / 1000000000 ∧ atNow / 1000000000 < (now + 60000000000) / 1000000000 := by
    rw [hstart, hnow]; decide
  have hacc : (Sent.form ⟨btConfig.bucketName, formEntries fs, cat.content.length, atNow / 1000000000⟩ cat.name cat.content).Accepted
      (s% "a@b.c") n e := by
    rw [formEntries_nodup (formFrom_names hr hff)]
    exact ⟨(C86_form_accepted btEnv baseOf s hr btConfig (s% "a@b.c") n e ho uuidA _ _ fs now start hff cat.content.length _).2
      ⟨htime.1, htime.2, rfl⟩, rfl⟩
  obtain ⟨store, hst⟩ := handles_exists (s% "a@b.c") n e
    (.form ⟨btConfig.bucketName, formEntries fs, cat.content.length, atNow / 1000000000⟩ cat.name cat.content) (fun _ _ => none)
  obtain ⟨g1, g2, g3⟩ := crash_history (crate := .inLives (callsOf s) btConfig) (cfg := btConfig) hfind ⟨0, hform⟩ hacc hst
  obtain ⟨f1, f2, f3⟩ := crash_fine (cfg := btConfig) (fields := fs) (time := atNow / 1000000000)
  obtain ⟨m, urls, _, k1, id, i, l, before, between, after, _, k3, k4, _⟩ := C101_shared_shown (fun _ => btEnv) (fun _ => baseOf) (callsOf s)
    (callsOf_reach hr) btConfig (s% "a@b.c") n e _ _ g1 g2 g3 (callsOf_owner ho) (by decide) 0 1 cat rfl (by decide) f1 f2 (by
      intro m' t fields' method url' hw hu
      obtain ⟨rfl, rfl⟩ := f3 m' t hw
      simp only [crashStates, List.getElem?_cons_zero, Option.some.injEq, Prod.mk.injEq, true_and, Upload.uploading.injEq] at hu
      obtain ⟨rfl, _⟩ := hu
      exact ⟨0, uuidA, now, start, hff, htime⟩)
  exact ⟨s, n, e, _, _, callsOf_reach hr, callsOf_owner ho, g1, g2, g3, fun m => ⟨m + 14, by omega, rfl⟩, rfl, m, urls, k1, id, k3, k4⟩

/-- C101_shared_why: the hypotheses are met, after a crash, by a registration that is answered 500 because the signing service does not answer. -/
example : ∃ (s : Sys) (n e : Nat) (σ : Nat → Site) (what : Nat → Option Happens), (∀ k, Sys.Reach btEnv baseOf (callsOf s k)) ∧
    (∀ k, KeyOwner btEnv baseOf (callsOf s k).trace btConfig.signingKey (s% "a@b.c") n e) ∧
    CrashHistory (.inLives (callsOf s) btConfig) btConfig (s% "a@b.c") n e σ what ∧ AllDistinctIds σ what ∧ what 1 = none ∧
    (σ 4).uploads[0]? = some (cat, .registering 0) ∧ (σ 5).uploads[0]? = some (cat, .failed) ∧
    what 4 = some (.gets 0 .internalServerError) ∧
    ∃ id now j er, IsUuid id ∧
      .started j (.form [.bucket btConfig.bucketName, .contentLength 4, .contentType (s% "image/png"), .key id, .policyDocumentSigningOptions
        { accessibleAt := none, expiration := now + 60000000000, region := none, signingKey := btConfig.signingKey,
          useSignBlob := btConfig.useSignBlob }]) ∈ s.trace ∧
      .returned j (.form (.err er)) ∈ s.trace := by
  have h : Leads btEnv baseOf catFailing (fun s => isOwned s && failed0 s) = true := by decide +kernel
  unfold Leads at h
  cases hs : Sys.init.exec btEnv baseOf catFailing with
  | none => rw [hs] at h; cases h
  | some s =>
    rw [hs] at h
    simp only [Bool.and_eq_true] at h
    have hr := exec_reach .init hs
    obtain ⟨n, e, ho⟩ := isOwned_owner (env := btEnv) h.1
    have hf := failed0_iff h.2
    obtain ⟨_, hst⟩ := exec_started hs
    have h0 := hst 0 (.form catCalls) (by simp [catFailing])
    have gives : (Crate.inLives (callsOf s) btConfig).form uuidA 4 (s% "image/png") (.err .status500) :=
      ⟨0, atNow, trivial, .inr ⟨0, _, h0, hf, rfl⟩⟩
    let store : Store := fun _ _ => none
    let create : Req := .create 4 (s% "image/png")
    let σ : Nat → Site := fun m => match m with
      | 0 => ⟨⟨[], []⟩, store, []⟩
      | 1 => ⟨⟨[], []⟩, store, [(cat, .chosen)]⟩
      | 2 => ⟨⟨[], []⟩, store, [(cat, .chosen)]⟩
      | 3 => ⟨⟨[], [(create, .create 4 (s% "image/png"))]⟩, store, [(cat, .registering 0)]⟩
      | 4 => ⟨⟨[], [(create, .replied .internalServerError)]⟩, store, [(cat, .registering 0)]⟩
      | _ => ⟨⟨[], [(create, .replied .internalServerError)]⟩, store, [(cat, .failed)]⟩
    let what : Nat → Option Happens := fun m => match m with
      | 0 => some .elsewhere
      | 1 => none
      | 2 => some (.sends 0)
      | 3 => some (.server (.worked 0))
      | 4 => some (.gets 0 .internalServerError)
      | _ => some .elsewhere
    have past : ∀ m, registeredIds (pastAt σ what m) = [] := by
      intro m
      induction m with
      | zero => rfl
      | succ m ih =>
        show registeredIds (pastAt σ what m ++ episodeAt (what m) (σ m)) = []
        rw [registeredIds_append, ih, List.nil_append]
        match m with
        | 0 | 1 | 2 | 3 | 4 => rfl
        | k + 5 => rfl
    have hist : CrashHistory (.inLives (callsOf s) btConfig) btConfig (s% "a@b.c") n e σ what := by
      refine ⟨⟨_, rfl⟩, fun m => ?_⟩
      match m with
      | 0 => exact .inl ⟨_, rfl, .choose cat⟩
      | 1 => exact .inr ⟨rfl, rfl⟩
      | 2 => exact .inl ⟨_, rfl, .send 0 cat .chosen create rfl rfl⟩
      | 3 => exact .inl ⟨_, rfl, .server (s := σ 3) (.worked 0) _ (by simp)
          (.step (s := (σ 3).server) 0 create (.create 4 (s% "image/png")) uuidA (.err .status500) (.ok []) rfl (by simp [Finished])
            (by decide +kernel) gives)⟩
      | 4 => exact .inl ⟨_, rfl, .get 0 0 cat (.registering 0) create .internalServerError rfl rfl rfl⟩
      | k + 5 => exact .inl ⟨.elsewhere, rfl, .idle⟩
    have hd : AllDistinctIds σ what := fun m => by rw [past m]; exact List.nodup_nil
    refine ⟨s, n, e, σ, what, callsOf_reach hr, callsOf_owner ho, hist, hd, rfl, rfl, rfl, rfl, ?_⟩
    rcases C101_shared_why (fun _ => btEnv) (fun _ => baseOf) (callsOf s) (callsOf_reach hr) btConfig (s% "a@b.c") n e σ what hist hd
      (callsOf_owner ho) 0 4 cat (.registering 0) rfl (by simp) rfl with g | ⟨g, _⟩ | ⟨g, _⟩ | ⟨_, g⟩ | ⟨_, _, _, _, g, _⟩
    · cases g
    · cases g
    · cases g
    · rcases g with ⟨i, id, now, l, j, er, _, hid, g1, g2⟩ | ⟨i, id, now, l, j, er, g, _⟩
      · unfold callsOf at g1 g2
        split at g1
        · rename_i hl
          rw [if_pos hl] at g2
          exact ⟨id, now, j, er, hid, g1, g2⟩
        · cases g1
      · cases g
    · cases g

end CSS
