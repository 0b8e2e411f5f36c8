import Verif.Lemmas.SecretsHistory
import Verif.Props.Concurrent
/-
C64 with any number of calls at the same time: access tokens do not show in what calls return, nor in which steps they take.
-/
set_option linter.unusedSimpArgs false
namespace CSS
open Spec

variable {swap : Str → Str} {env : Env} {base : Nat → Str}

theorem alike_step {s s' : Sys} {h : List Ev} {p q p2 : Prog ApiResult} {e : Ev} {i : Nat}
    {caches : Nat → Option Cached} {holder : Nat → Option Nat}
    (hs : Prog.Alike swap (fun a b => b = a) h p q) (hp : p.Step e p2) (he : s.Effect i e caches holder)
    (hc : ∀ i, SameButToken (s.caches i) (s'.caches i)) (hh : s'.holder = s.holder) :
    ∃ e' q2 caches', q.Step e' q2 ∧ s'.Effect i e' caches' holder ∧ SwappedStep swap h e e' ∧
      Prog.Alike swap (fun a b => b = a) (h ++ [e]) p2 q2 ∧ ∀ j, SameButToken (caches j) (caches' j) := by
  cases hs with
  | ret => cases hp
  | now h k k' hk =>
    cases hp with
    | now k t =>
      cases he with
      | clock t => exact ⟨_, _, _, .now _ t, by rw [← hh]; exact .clock s' t, .clock t, hk t, hc⟩
  | lock h id k k' hk =>
    cases hp with
    | lock id k c =>
      cases he with
      | locked id hn =>
        refine ⟨_, _, _, .lock _ _ (s'.caches id), ?_, .locked id _ _ (hc id), hk _ _ (hc id), hc⟩
        rw [← hh]
        exact .locked s' id (by rw [hh]; exact hn)
  | store h id c c' k k' hcc hk =>
    cases hp with
    | store id c k =>
      cases he with
      | stored id c =>
        refine ⟨_, _, _, .store _ _ _, by rw [← hh]; exact .stored s' id c', .stored id _ _ hcc, hk, fun j => ?_⟩
        simp only
        split
        · exact hcc
        · exact hc j
  | unlock h id k k' hk =>
    cases hp with
    | unlock id k =>
      cases he with
      | unlocked id => exact ⟨_, _, _, .unlock _ _, by rw [← hh]; exact .unlocked s' id, .unlocked id, hk, hc⟩
  | send h r r' k k' hr hk =>
    cases hp with
    | send r k =>
      cases he with
      | sent r => exact ⟨_, _, _, .send _ _, by rw [← hh]; exact .sent s' r', .sent _ _ hr, hk, hc⟩
  | recv h k k' hk =>
    cases hp with
    | recv k n =>
      cases he with
      | status n => exact ⟨_, _, _, .recv _ n, by rw [← hh]; exact .status s' n, .status n, hk n, hc⟩
  | text h k k' hk =>
    cases hp with
    | text k t =>
      cases he with
      | body t =>
        by_cases ha : AwaitsToken h
        · exact ⟨_, _, _, .text _ (t.map swap), by rw [← hh]; exact .body s' _, .token t ha, hk _ _ (.token t ha), hc⟩
        · exact ⟨_, _, _, .text _ t, by rw [← hh]; exact .body s' t, .body t ha, hk _ _ (.body t ha), hc⟩

theorem sameSys_step (hb : SameBuilt env) (ho : OnlyTokens swap) {s s' t : Sys} (hs : SameSys swap s s')
    (ht : Sys.Step env base s t) : ∃ t', Sys.Step env base s' t' ∧ SameSys swap t t' := by
  cases ht with
  | start i call hf hk =>
    have hf' : ∀ e ∈ s'.trace, e.call ≠ i := by
      intro e he hi
      have : i ∈ s'.trace.map Event.call := List.mem_map.2 ⟨e, he, hi⟩
      rw [hs.trace.calls, List.mem_map] at this
      obtain ⟨e', he', hi'⟩ := this
      exact hf e' he' hi'
    refine ⟨_, .start s' i call hf' hk, hs.caches, hs.holder, fun j => ?_, .started _ _ _ _ hs.trace⟩
    have hd : did (s.trace ++ [.started i call]) j = did s.trace j := by rw [did_snoc]; simp
    simp only [hd]
    by_cases hij : j = i
    · subst hij
      simp only [if_true]
      exact .inr ⟨_, _, rfl, rfl, alike_prog hb ho call _⟩
    · simp only [if_neg hij]
      exact hs.calls j
  | act i p q e caches holder hp hpq he =>
    rcases hs.calls i with ⟨hn, _⟩ | ⟨p0, p', hp0, hp', hsim⟩
    · rw [hn] at hp; cases hp
    rw [hp] at hp0
    cases hp0
    obtain ⟨e', q', caches', h1, h2, h3, h4, h5⟩ := alike_step hsim hpq he hs.caches hs.holder
    refine ⟨_, .act s' i p' q' e' caches' holder hp' h1 h2, h5, rfl, fun j => ?_, .did _ _ _ _ _ hs.trace h3⟩
    by_cases hij : j = i
    · subst hij
      simp only [if_true]
      exact .inr ⟨_, _, rfl, rfl, by rw [did_snoc_self]; exact h4⟩
    · simp only [if_neg hij]
      rw [did_snoc_other _ _ (Ne.symm hij)]
      exact hs.calls j
  | finish i r hp =>
    rcases hs.calls i with ⟨hn, _⟩ | ⟨p0, p', hp0, hp', hsim⟩
    · rw [hn] at hp; cases hp
    rw [hp] at hp0
    cases hp0
    cases hsim with
    | ret h a b hr =>
      subst hr
      refine ⟨_, .finish s' i _ hp', hs.caches, hs.holder, fun j => ?_, .returned _ _ _ _ hs.trace⟩
      have hd : ∀ r, did (s.trace ++ [.returned i r]) j = did s.trace j := by intro r; rw [did_snoc]; simp
      simp only [hd]
      by_cases hij : j = i
      · rw [if_pos hij, if_pos hij]; exact .inl ⟨rfl, rfl⟩
      · simp only [if_neg hij]; exact hs.calls j
  | cancel i p hp ha =>
    rcases hs.calls i with ⟨hn, _⟩ | ⟨p0, p', hp0, hp', hsim⟩
    · rw [hn] at hp; cases hp
    rw [hp] at hp0
    cases hp0
    refine ⟨_, .cancel s' i p' hp' (by rw [hsim.awaits]; exact ha), hs.caches, ?_, fun j => ?_, .cancelled _ _ _ hs.trace⟩
    · simp only [hs.holder]
    have hd : did (s.trace ++ [.cancelled i]) j = did s.trace j := by rw [did_snoc]; simp
    simp only [hd]
    by_cases hij : j = i
    · rw [if_pos hij, if_pos hij]; exact .inl ⟨rfl, rfl⟩
    · simp only [if_neg hij]; exact hs.calls j

/-- Take any history of any number of calls, and exchange the access tokens in the documents the metadata server sent.
The history that results is possible too: the same calls take the same steps at the same times, send the same requests
but for the authorization, and return the same results. So neither results nor the order of events reveal a token. -/
theorem C64_history (hb : ∀ r₁ r₂, hideAuthorization r₁ = hideAuthorization r₂ → env.canBuild r₁ = env.canBuild r₂)
    (ho : OnlyTokens swap) {s : Sys} (h : Sys.Reach env base s) :
    ∃ s', Sys.Reach env base s' ∧ Swapped swap s.trace s'.trace := by
  suffices ∃ s', Sys.Reach env base s' ∧ SameSys swap s s' by
    obtain ⟨s', h1, h2⟩ := this
    exact ⟨s', h1, h2.trace⟩
  induction h with
  | init => exact ⟨_, .init, fun i => rfl, rfl, fun i => .inl ⟨rfl, rfl⟩, .nil⟩
  | step s t _ hst ih =>
    obtain ⟨s', h1, h2⟩ := ih
    obtain ⟨t', h3, h4⟩ := sameSys_step hb ho h2 hst
    exact ⟨t', .step _ _ h1 h3, h4⟩

theorem Spec.Swapped.returned_iff {a b : List Event} (h : Swapped swap a b) (i : Nat) (r : ApiResult) :
    .returned i r ∈ b ↔ .returned i r ∈ a := by
  induction h with
  | nil => exact Iff.rfl
  | _ => simp [*]

open Conformance

/-- Another token for the document the metadata server sends in the examples. -/
def Conformance.otherToken (doc : Str) : Str :=
  if doc = tokenDoc (s% "3599") then s% "{\"access_token\":\"another\",\"expires_in\":3599,\"token_type\":\"Bearer\"}" else doc

theorem Conformance.otherToken_only : OnlyTokens otherToken where
  token doc token life type ht := by
    unfold otherToken
    split
    · rename_i hd
      subst hd
      have h1 := (C55_token_text _ _ _ _).2 ht
      have h2 : parseAccessToken (tokenDoc (s% "3599")) = some ⟨s% "tok", 3599, s% "Bearer"⟩ := by decide +kernel
      rw [h2] at h1
      cases h1
      exact ⟨s% "another", (C55_token_text _ _ _ _).1 (by decide +kernel)⟩
    · exact ⟨token, ht⟩
  other doc hn := by
    unfold otherToken
    split
    · rename_i hd
      subst hd
      exact absurd ((C55_token_text (tokenDoc (s% "3599")) (s% "tok") 3599 (s% "Bearer")).1 (by decide +kernel)) (hn _ _ _)
    · rfl

/-- Two calls that share a token return; with another token they return the same. -/
example : ∃ s s' r₀ r₁, Sys.Reach btEnv baseOf s ∧ Sys.Reach btEnv baseOf s' ∧ Swapped otherToken s.trace s'.trace ∧
    .returned 0 (.url (.ok r₀)) ∈ s.trace ∧ .returned 1 (.form (.ok r₁)) ∈ s.trace ∧
    .returned 0 (.url (.ok r₀)) ∈ s'.trace ∧ .returned 1 (.form (.ok r₁)) ∈ s'.trace := by
  obtain ⟨s, hr, h⟩ := leads_reach (env := btEnv) (base := baseOf) (ms := finished) (P := fun s =>
    s.trace.any (fun
      | .returned 0 (.url (.ok _)) => true
      | _ => false) && s.trace.any (fun
      | .returned 1 (.form (.ok _)) => true
      | _ => false)) (by decide +kernel)
  simp only [Bool.and_eq_true, List.any_eq_true] at h
  obtain ⟨⟨e, he, h0⟩, e', he', h1⟩ := h
  split at h0
  · rename_i r₀
    split at h1
    · rename_i r₁
      obtain ⟨s', hr', hs⟩ := C64_history (fun _ _ _ => rfl) otherToken_only hr
      exact ⟨s, s', r₀, r₁, hr, hr', hs, he, he', (hs.returned_iff _ _).2 he, (hs.returned_iff _ _).2 he'⟩
    · cases h1
  · cases h0

end CSS
