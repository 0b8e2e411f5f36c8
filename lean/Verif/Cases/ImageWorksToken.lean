import Verif.Props.ImageWorksToken
import Verif.Props.RecoveryExamples
import Verif.Cases.RestartLiveShared
import Verif.Cases.ImageWorksShared
/-
Concrete cases for C109.
-/
namespace CSS
open Spec ImageUploader Spec.ImageUploader Reference Conformance

namespace Reference

/-- Two handlers call the crate at the same time and share a token; their requests are answered well. -/
theorem good_calls : ∃ s n e fs url, Sys.Reach btEnv baseOf s ∧ SaneHistory s.trace ∧
    KeyOwner btEnv baseOf s.trace btConfig.signingKey (s% "a@b.c") n e ∧ SteadyCalls btConfig s.trace ∧
    CallsAnsweredWell btEnv btConfig btKey s.trace ∧
    oneTime s = true ∧ .started 0 (.url catOptions) ∈ s.trace ∧ .returned 0 (.url (.ok url)) ∈ s.trace ∧
    .started 1 (.form catCalls) ∈ s.trace ∧ .returned 1 (.form (.ok fs)) ∈ s.trace ∧ findKey fs = some uuidA ∧
    ∀ i cs, .started i (.form cs) ∈ s.trace → cs = catCalls := by
  have h : Leads btEnv baseOf (answeredFor catOptions catCalls)
    (fun s => isOwned s && (returned0 s && (keyed1 s && (oneTime s && (saneCheck s.trace && (wellCheck btKey.baseUrl (did s.trace 0) &&
      wellCheck btKey.baseUrl (did s.trace 1))))))) = true := by decide +kernel
  unfold Leads at h
  cases hs : Sys.init.exec btEnv baseOf (answeredFor catOptions catCalls) with
  | none => rw [hs] at h; cases h
  | some s =>
    rw [hs] at h
    simp only [Bool.and_eq_true] at h
    obtain ⟨c1, c2, c3, c4, c5, c6, c7⟩ := h
    have hr := exec_reach .init hs
    obtain ⟨n, e, ho⟩ := isOwned_owner (env := btEnv) c1
    obtain ⟨url, hu⟩ := returned0_iff c2
    obtain ⟨fs, hf, hfind, hsmall⟩ := keyed1_iff c3
    obtain ⟨_, hst⟩ := exec_started hs
    have h1 := hst 1 (.form catCalls) (by simp [answeredFor, askingFor])
    have h0 := hst 0 (.url catOptions) (by simp [answeredFor, askingFor])
    have urls : ∀ i o, .started i (.url o) ∈ s.trace → i = 0 ∧ o = catOptions := by
      intro i o hm
      rcases exec_started_only hs hm with hm | hm
      · simp [Sys.init] at hm
      · simp [answeredFor, askingFor] at hm
        exact hm
    have forms : ∀ i cs, .started i (.form cs) ∈ s.trace → i = 1 ∧ cs = catCalls := by
      intro i o hm
      rcases exec_started_only hs hm with hm | hm
      · simp [Sys.init] at hm
      · simp [answeredFor, askingFor] at hm
        exact hm
    refine ⟨s, n, e, fs, url, hr, sane_of_check c5, ho, ?_, ?_, c4, h0, hu, h1, hf, hfind, fun i cs hm => (forms i cs hm).2⟩
    · intro i call now t hcall hserver hread
      have hall := List.all_eq_true.1 c4 _ (mem_did (List.mem_of_head? hread))
      have ht : t = atNow := of_decide_eq_true hall
      have hnow : now = atNow := by
        cases hserver with
        | form id n c =>
          have := (forms _ _ hcall).2
          simp [catCalls, createCalls] at this
          have := this.2.2.2
          simp only [nsPerSec] at this
          omega
        | url id =>
          have : now + 60000000000 = atNow + 60 * nsPerSec := congrArg UrlOptions.expires (urls _ _ hcall).2
          unfold nsPerSec at this
          omega
      subst ht hnow
      have e1 : (0 : Int) ≤ atNow := by decide
      have e2 : atNow + 60000000000 < endOf9999 := by decide
      exact ⟨by omega, by omega, e2, by omega⟩
    · intro i call now hcall hserver
      cases hserver with
      | form id n c =>
        obtain ⟨rfl, _⟩ := forms _ _ hcall
        exact well_of_check (fun _ => rfl) c7
      | url id =>
        obtain ⟨rfl, _⟩ := urls _ _ hcall
        exact well_of_check (fun _ => rfl) c6

theorem owner_small {s : Sys} {n e : Nat} (ho : KeyOwner btEnv baseOf s.trace btConfig.signingKey (s% "a@b.c") n e) (email : Str)
    (hid : IdentityIn baseOf s.trace btConfig.signingKey email) : (utf8 btConfig.bucketName).length + (utf8 email).length ≤ 6400 := by
  obtain ⟨j, c, t0, life, href, rfl⟩ := hid
  rw [ho.1 j c t0 life href]
  decide +kernel

end Reference

/-- C109_form, C109_url, C109_never_fails: a handler of a server has got a form from a call that shared its token with another one, which
has returned a URL. -/
example : ∃ sys tr st fs, Sys.Reach btEnv baseOf sys ∧ SaneHistory sys.trace ∧ SteadyCalls btConfig sys.trace ∧
    CallsAnsweredWell btEnv btConfig btKey sys.trace ∧
    (∀ email, IdentityIn baseOf sys.trace btConfig.signingKey email → (utf8 btConfig.bucketName).length + (utf8 email).length ≤ 6400) ∧
    (∃ url, .returned 0 (.url (.ok url)) ∈ sys.trace) ∧
    Run (.sharedAt (fun now => now + 60000000000 < 9223372036854775808 * 1000000000) sys.trace btConfig) btConfig tr st ∧
    st.tasks[0]? = some (.create 4 (s% "image/png"), .push uuidA fs) := by
  obtain ⟨s, n, e, fs, url, hr, hsane, ho, hsteady, hwell, _, h0, hu, h1, hf, _⟩ := good_calls
  have gives : (Crate.sharedAt (fun now => now + 60000000000 < 9223372036854775808 * 1000000000) s.trace btConfig).form uuidA 4
      (s% "image/png") (.ok fs) := ⟨atNow, by decide, .inr ⟨1, _, h1, hf, rfl⟩⟩
  exact ⟨s, _, _, fs, hr, hsane, hsteady, hwell, owner_small ho, ⟨url, hu⟩, Run.step (tr := [])
    (s := ⟨[], [(.create 4 (s% "image/png"), .create 4 (s% "image/png"))]⟩) 0 (.create 4 (s% "image/png"))
    (.create 4 (s% "image/png")) uuidA (.ok fs) (.ok []) (.receive (.create 4 (s% "image/png")) .start) rfl (by decide +kernel) gives, rfl⟩

/-- C109_restarted, C109_shown: the hypotheses are met by a history with infinitely many crashes. -/
example : ∃ (s : Sys) (n e : Nat) (σ : Nat → Site) (what : Nat → Option Happens), Sys.Reach btEnv baseOf s ∧
    CallsAnsweredWell btEnv btConfig btKey s.trace ∧
    CrashHistory (.inSaneLives (fun _ => s) btConfig) btConfig (s% "a@b.c") n e σ what ∧ AllDistinctIds σ what ∧ CrashFair σ what ∧
    (∀ m, ∃ m', m ≤ m' ∧ what m' = none) ∧ (σ 1).uploads[0]? = some (cat, .chosen) ∧
    ∃ m urls, (σ m).uploads[0]? = some (cat, .shown urls) ∧
      ∃ id, IsUuid id ∧ (σ m).store (utf8 btConfig.bucketName) (utf8 id) = some cat.content := by
  obtain ⟨s, n, e, fs, url, hr, hsane, ho, hsteady, hwell, hone, h0, hu, h1, hf, hfind, hcs⟩ := good_calls
  have hform : (Crate.shared s.trace btConfig).form uuidA 4 (s% "image/png") (.ok fs) :=
    ⟨atNow, trivial, .inr ⟨1, .ok fs, h1, hf, rfl⟩⟩
  have hsaneform : (Crate.sharedAt (fun now => now + 60000000000 < 9223372036854775808 * 1000000000) s.trace btConfig).form uuidA 4
      (s% "image/png") (.ok fs) := ⟨atNow, by decide, .inr ⟨1, .ok fs, h1, hf, rfl⟩⟩
  obtain ⟨now, start, hff⟩ := shared_form hr hform
  obtain ⟨hstart, hnow⟩ := shared_time hone hcs hff
  have htime : start / 1000000000 ≤ atNow / 1000000000 ∧ atNow / 1000000000 < (now + 60000000000) / 1000000000 := by
    rw [hstart, hnow]; decide
  have hacc : (Sent.form ⟨btConfig.bucketName, formEntries fs, cat.content.length, atNow / 1000000000⟩ cat.name cat.content).Accepted
      (s% "a@b.c") n e := by
    rw [formEntries_nodup (formFrom_names hr hff)]
    exact ⟨(C86_form_accepted btEnv baseOf s hr btConfig (s% "a@b.c") n e ho uuidA _ _ fs now start hff cat.content.length _).2
      ⟨htime.1, htime.2, rfl⟩, rfl⟩
  obtain ⟨store, hst⟩ := handles_exists (s% "a@b.c") n e
    (.form ⟨btConfig.bucketName, formEntries fs, cat.content.length, atNow / 1000000000⟩ cat.name cat.content) (fun _ _ => none)
  obtain ⟨g1, g2, g3⟩ := crash_history (crate := .inSaneLives (fun _ => s) btConfig) (cfg := btConfig) hfind ⟨0, hsaneform⟩ hacc hst
  obtain ⟨f1, f2, f3⟩ := crash_fine (cfg := btConfig) (fields := fs) (time := atNow / 1000000000)
  obtain ⟨m, urls, _, k1, id, i, l, before, between, after, _, k3, k4, _⟩ := C109_shown (fun _ => btEnv) (fun _ => baseOf) (fun _ => s)
    (fun _ => hr) (fun _ => hsane) btConfig btKey (s% "a@b.c") n e _ _ g1 g2 g3 (fun _ => ho) rfl rfl (by decide +kernel) (fun _ => hsteady)
    (fun _ => hwell) (by decide) 0 1 cat rfl (by decide) f1 (by
      intro m' t fields' method url' hw hu
      obtain ⟨rfl, rfl⟩ := f3 m' t hw
      simp only [crashStates, List.getElem?_cons_zero, Option.some.injEq, Prod.mk.injEq, true_and, Upload.uploading.injEq] at hu
      obtain ⟨rfl, _⟩ := hu
      exact ⟨0, uuidA, now, start, hff, htime⟩)
  exact ⟨s, n, e, _, _, hr, hwell, g1, g2, g3, fun m => ⟨m + 14, by omega, rfl⟩, rfl, m, urls, k1, id, k3, k4⟩

end CSS
