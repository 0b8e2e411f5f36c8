import Verif.Props.Concurrent
import Verif.Props.ConcurrentResults
import Verif.Props.Liveness
import Verif.Props.KeyOwnerExamples
import Verif.Props.ImageSiteShared
/-
The theorems about concurrent calls, each applied to a concrete history: C35-C40, C44, C54, C78.
-/
namespace CSS.Cases
open Spec Conformance

theorem any_split {l : List Event} {f : Event → Bool} (h : l.any f = true) : ∃ pre e post, l = pre ++ e :: post ∧ f e = true := by
  obtain ⟨e, he, hf⟩ := List.any_eq_true.1 h
  obtain ⟨pre, post, ht⟩ := List.append_of_mem he
  exact ⟨pre, e, post, ht, hf⟩

/-- The event is a signBlob request of call `i`. -/
def isPost (i : Nat) : Event → Bool
  | .did j (.sent r) => j == i && decide (r.method = s% "POST")
  | _ => false

/-- Two calls share a key: each has sent a signBlob request and has returned a result, and call 0 has refreshed. -/
theorem history : ∃ s, Sys.Reach btEnv baseOf s ∧
    (∃ pre r post, s.trace = pre ++ .did 0 (.sent r) :: post ∧ r.method = s% "POST") ∧
    (∃ pre r post, s.trace = pre ++ .did 1 (.sent r) :: post ∧ r.method = s% "POST") ∧
    (∃ pre url post, s.trace = pre ++ .returned 0 (.url (.ok url)) :: post ∧ .started 0 (.url btUrlOptions) ∈ pre) ∧
    (∃ pre fs post, s.trace = pre ++ .returned 1 (.form (.ok fs)) :: post ∧ .started 1 (.form btCalls) ∈ pre) ∧
    (∃ pre c post, s.trace = pre ++ .did 0 (.stored 0 c) :: post ∧ c.expires = atNow + 3599 * 1000000000 ∧
      (∀ e ∈ post, ∀ j t, e = .did j (.clock t) → t = atNow) ∧ ∃ r, .did 1 (.sent r) ∈ post) ∧
    (∃ pre post, s.trace = pre ++ .did 0 (.sent (metadataGet (emailUrl (baseOf 0)))) :: post ∧ .started 0 (.url btUrlOptions) ∈ pre) := by
  have h : Leads btEnv baseOf finished (fun s => s.trace.any (isPost 0) && s.trace.any (isPost 1) &&
      s.trace.any (fun | .returned 0 (.url (.ok _)) => true | _ => false) &&
      s.trace.any (fun | .returned 1 (.form (.ok _)) => true | _ => false) &&
      (match s.trace.drop 12 with
        | .did 0 (.stored 0 c) :: post => decide (c.expires = atNow + 3599 * 1000000000) && post.any (isPost 1)
        | _ => false) &&
      s.trace.all (fun | .did _ (.clock t) => decide (t = atNow) | _ => true) &&
      (s.trace.drop 1).any (fun | .did 0 (.sent r) => decide (r = metadataGet (emailUrl (baseOf 0))) | _ => false) &&
      s.trace.head?.any (fun | .started 0 _ => true | _ => false)) = true := by
    decide +kernel
  unfold Leads at h
  cases hs : Sys.init.exec btEnv baseOf finished with
  | none => rw [hs] at h; cases h
  | some s =>
    rw [hs] at h
    simp only [Bool.and_eq_true] at h
    obtain ⟨⟨⟨⟨⟨⟨⟨h1, h2⟩, h3⟩, h4⟩, h5⟩, h6⟩, h7⟩, h8⟩ := h
    have hr := exec_reach .init hs
    obtain ⟨_, hst⟩ := exec_started hs
    have s0 := hst 0 (.url btUrlOptions) (by simp [finished, signing, shared, refreshing])
    have s1 := hst 1 (.form btCalls) (by simp [finished, signing, shared, refreshing])
    have post : ∀ i, s.trace.any (isPost i) = true → ∃ pre r post, s.trace = pre ++ .did i (.sent r) :: post ∧ r.method = s% "POST" := by
      intro i h
      obtain ⟨pre, e, post, ht, hf⟩ := any_split h
      unfold isPost at hf
      split at hf
      · simp only [Bool.and_eq_true, beq_iff_eq, decide_eq_true_eq] at hf
        obtain ⟨rfl, hm⟩ := hf
        exact ⟨pre, _, post, ht, hm⟩
      · cases hf
    refine ⟨s, hr, post 0 h1, post 1 h2, ?_, ?_, ?_, ?_⟩
    · obtain ⟨pre, e, post, ht, hf⟩ := any_split h3
      split at hf
      · rename_i url
        obtain ⟨pre, post, ht, hst⟩ := returned_at hr s0 (r := .url (.ok url)) (by rw [ht]; simp)
        exact ⟨pre, url, post, ht, hst⟩
      · cases hf
    · obtain ⟨pre, e, post, ht, hf⟩ := any_split h4
      split at hf
      · rename_i fs
        obtain ⟨pre, post, ht, hst⟩ := returned_at hr s1 (r := .form (.ok fs)) (by rw [ht]; simp)
        exact ⟨pre, fs, post, ht, hst⟩
      · cases hf
    · split at h5
      · rename_i c post' hd
        have ht : s.trace = s.trace.take 12 ++ .did 0 (.stored 0 c) :: post' := by rw [← hd, List.take_append_drop]
        simp only [Bool.and_eq_true, decide_eq_true_eq] at h5
        refine ⟨_, c, post', ht, h5.1, ?_, ?_⟩
        · rintro e he j t rfl
          have := List.all_eq_true.1 h6 (.did j (.clock t)) (by rw [ht]; simp [he])
          exact of_decide_eq_true this
        · obtain ⟨e, he, hf⟩ := List.any_eq_true.1 h5.2
          unfold isPost at hf
          split at hf
          · simp only [Bool.and_eq_true, beq_iff_eq] at hf
            obtain ⟨rfl, _⟩ := hf
            exact ⟨_, he⟩
          · cases hf
      · cases h5
    · obtain ⟨pre, e, post, ht, hf⟩ := any_split h7
      split at hf
      · rename_i r
        have hr' := of_decide_eq_true hf
        subst hr'
        cases htr : s.trace with
        | nil => rw [htr] at h8; cases h8
        | cons e' rest =>
          rw [htr] at ht h8
          simp only [List.drop_succ_cons, List.drop_zero] at ht
          have he : e' = .started 0 (.url btUrlOptions) := by
            simp only [List.head?_cons, Option.any_some] at h8
            split at h8
            · rename_i c
              rw [started_unique hr (i := 0) (c1 := c) (by rw [htr]; simp) s0]
            · cases h8
          subst he
          exact ⟨.started 0 (.url btUrlOptions) :: pre, post, by rw [ht]; rfl, by simp⟩
      · cases hf

/-- C35_one_refresh: call 1 signs with a pair that one refresh got. -/
example : ∃ s pre r post, ∃ bt : BoundToken, ∃ email token payload j c t0 life, Sys.Reach btEnv baseOf s ∧ s.trace = pre ++ .did 1 (.sent r) :: post ∧
    r = signBlobPost email token payload ∧ Refreshed (baseOf bt.id) pre j bt.id c t0 life ∧ c.email = email ∧ c.token = token := by
  obtain ⟨s, hr, _, ⟨pre, r, post, ht, hm⟩, _⟩ := history
  obtain ⟨bt, email, token, payload, j, c, t0, life, _, h2, h3, h4, h5⟩ := C35_one_refresh hr ht hm
  exact ⟨s, pre, r, post, bt, email, token, payload, j, c, t0, life, hr, ht, h2, h3, h4, h5⟩

/-- C36_margin and C40_history: the same request. -/
example : ∃ s pre email token payload post bt, Sys.Reach btEnv baseOf s ∧
    s.trace = pre ++ .did 1 (.sent (signBlobPost email token payload)) :: post ∧ StartedWith pre 1 bt := by
  obtain ⟨s, hr, _, ⟨pre, r, post, ht, hm⟩, _⟩ := history
  obtain ⟨bt, hst, h1⟩ := C40_history hr ht
  rcases h1 with rfl | ⟨rfl, _⟩ | ⟨email, token, payload, _, _, _, _, rfl, _⟩
  · cases hm
  · cases hm
  · obtain ⟨bt', hst', _⟩ := C36_margin hr ht
    exact ⟨s, pre, email, token, payload, post, bt', hr, ht, hst'⟩

/-- C37_needed: call 0 asks for the e-mail because nothing is cached. -/
example : ∃ s pre post, Sys.Reach btEnv baseOf s ∧ s.trace = pre ++ .did 0 (.sent (metadataGet (emailUrl (baseOf 0)))) :: post ∧
    (cacheOf 0 pre = none ∨ ∃ before c t, cacheOf 0 pre = some c ∧ did pre 0 = before ++ [.locked 0 (some c), .clock t] ∧
      c.expires ≤ t + 30 * 1000000000) := by
  obtain ⟨s, hr, _, _, _, _, _, pre, post, ht, hst⟩ := history
  exact ⟨s, pre, post, hr, ht, C37_needed hr (bt := btKey) ht ⟨_, hst, rfl⟩⟩

/-- C37_deduplicated: after call 0 has stored a token of 3599 s, whatever call 1 sends is a signBlob request. -/
example : ∃ s pre c post r email token payload, Sys.Reach btEnv baseOf s ∧ s.trace = pre ++ .did 0 (.stored 0 c) :: post ∧
    .did 1 (.sent r) ∈ post ∧ r = signBlobPost email token payload := by
  obtain ⟨s, hr, _, _, _, ⟨pre2, fs, post2, ht2, hst2⟩, ⟨pre, c, post, ht, hc, hclock, r, key⟩, _⟩ := history
  have hst : StartedWith s.trace 1 btKey := ⟨.form btCalls, by rw [ht2]; exact List.mem_append_left _ hst2, rfl⟩
  obtain ⟨email, token, payload, he⟩ := C37_deduplicated hr (bt := btKey) ht (fun j t _ hm => by
    rw [hc, hclock _ hm j t rfl]; decide) hst key
  exact ⟨s, pre, c, post, r, email, token, payload, hr, ht, key, he⟩

/-- Call 0 refreshes and call 1 waits. -/
theorem midway : ∃ s, Sys.Reach btEnv baseOf s ∧ Refreshing (baseOf 0) s 0 0 ∧ Running s 1 ∧ s.holder 0 = some 0 := by
  obtain ⟨s, hr, h⟩ := leads_reach (env := btEnv) (base := baseOf) (ms := refreshing (s% "3599")) (P := fun s =>
    decide (s.holder 0 = some 0) && (s.calls 1).isSome && (s.calls 0).isSome &&
    decide ((did s.trace 0).drop 2 = .sent (metadataGet (emailUrl (baseOf 0))) :: (did s.trace 0).drop 3) &&
    holding 0 ((did s.trace 0).take 2) && ((did s.trace 0).drop 3).all (fun | .unlocked _ => false | _ => true)) (by decide +kernel)
  simp only [Bool.and_eq_true, decide_eq_true_eq] at h
  obtain ⟨⟨⟨⟨⟨h1, h2⟩, h3⟩, h4⟩, h5⟩, h6⟩ := h
  refine ⟨s, hr, ⟨Option.isSome_iff_exists.1 h3, (did s.trace 0).take 2, _, (did s.trace 0).drop 3, ?_, h5, .inl rfl, fun hm => ?_⟩,
    Option.isSome_iff_exists.1 h2, h1⟩
  · rw [← h4, List.take_append_drop]
  · have := List.all_eq_true.1 h6 _ hm
    cases this

/-- C37_exclusive: nobody else refreshes then. -/
example : ∃ s, Sys.Reach btEnv baseOf s ∧ Refreshing (baseOf 0) s 0 0 ∧ ∀ j, Refreshing (baseOf 0) s j 0 → j = 0 := by
  obtain ⟨s, hr, h, _⟩ := midway
  exact ⟨s, hr, h, fun j hj => C37_exclusive hr hj h⟩

/-- C38_lock_owner, C38_cache_whole, C38_bounded: in that state. -/
example : ∃ s, Sys.Reach btEnv baseOf s ∧ holding 0 (did s.trace 0) = true ∧ s.caches 0 = cacheOf 0 s.trace ∧
    (did s.trace 0).length ≤ 26 := by
  obtain ⟨s, hr, _, _, hh⟩ := midway
  exact ⟨s, hr, ((C38_lock_owner hr 0 0).1 hh).2, (C38_cache_whole hr 0).1, C38_bounded hr 0⟩

/-- C38_progress: call 1, which waits, is not stuck. -/
example : ∃ s s', Sys.Reach btEnv baseOf s ∧ Running s 1 ∧ s.holder 0 = some 0 ∧ Sys.Step btEnv baseOf s s' := by
  obtain ⟨s, hr, _, h1, hh⟩ := midway
  obtain ⟨_, s', _, _, hs, _⟩ := C38_progress hr h1
  exact ⟨s, s', hr, h1, hh, hs⟩

/-- C38_cancel: call 0 is dropped in that state. -/
example : ∃ s s', Sys.Reach btEnv baseOf s ∧ s.holder 0 = some 0 ∧ Sys.Step btEnv baseOf s s' ∧
    s'.trace = s.trace ++ [.cancelled 0] ∧ s'.caches = s.caches ∧ s'.holder 0 ≠ some 0 := by
  have h : Leads btEnv baseOf (refreshing (s% "3599")).dropLast (fun s => decide (s.holder 0 = some 0) &&
      (s.calls 0).any (fun p => p.awaits)) = true := by decide +kernel
  obtain ⟨s, hr, h⟩ := leads_reach h
  simp only [Bool.and_eq_true, decide_eq_true_eq] at h
  obtain ⟨h1, h2⟩ := h
  cases hc : s.calls 0 with
  | none => rw [hc] at h2; cases h2
  | some p =>
    rw [hc] at h2
    have hs := Sys.Step.cancel (env := btEnv) (base := baseOf) s 0 p hc h2
    exact ⟨s, _, hr, h1, hs, rfl, (C38_cancel hs rfl).1, (C38_cancel hs rfl).2.2.1 0⟩

/-- C54_url_own_signature, C54_form_own_signature and C54_form_replay. -/
example : ∃ s pre url post hex signature email, Sys.Reach btEnv baseOf s ∧ s.trace = pre ++ .returned 0 (.url (.ok url)) :: post ∧
    hexDecode hex = some signature ∧ IdentityIn baseOf pre (.boundToken btKey) email := by
  obtain ⟨s, hr, _, _, ⟨pre, url, post, ht, hst⟩, _⟩ := history
  obtain ⟨_, hex, signature, email, _, _, h2, _, _, _, h6, _⟩ := C54_url_own_signature hr ht hst
  exact ⟨s, pre, url, post, hex, signature, email, hr, ht, h2, h6⟩
example : ∃ s pre fs post policy hex signature env' w w', Sys.Reach btEnv baseOf s ∧
    s.trace = pre ++ .returned 1 (.form (.ok fs)) :: post ∧ fieldValues fs (s% "policy") = [policy] ∧
    fieldValues fs (s% "x-goog-signature") = [hex] ∧ hexDecode hex = some signature ∧
    (Builder.ofCalls btCalls).build env' w = (.ok fs, w') := by
  obtain ⟨s, hr, _, _, _, ⟨pre, fs, post, ht, hst⟩, _⟩ := history
  obtain ⟨policy, hex, signature, _, _, h1, h2, h3, _⟩ := C54_form_own_signature hr ht hst (o := btOptions) rfl
  obtain ⟨env', w, w', _, _, h⟩ := C54_form_replay hr ht hst
  exact ⟨s, pre, fs, post, policy, hex, signature, env', w, w', hr, ht, h1, h2, h3, h⟩

/-- C44_history. -/
example : ∃ s pre c post bt before steps t0 life, Sys.Reach btEnv baseOf s ∧ s.trace = pre ++ .did 0 (.stored 0 c) :: post ∧
    StartedWith pre 0 bt ∧ did pre 0 ++ [.stored 0 c] = before ++ steps ∧ RefreshOf (baseOf 0) 0 steps c t0 life := by
  obtain ⟨s, hr, _, _, _, _, ⟨pre, c, post, ht, _⟩, _⟩ := history
  obtain ⟨bt, before, steps, t0, life, h1, _, h3, h4, _⟩ := C44_history hr ht
  exact ⟨s, pre, c, post, bt, before, steps, t0, life, hr, ht, h1, h3, h4⟩

end CSS.Cases
