import Verif.Spec.Liveness
import Verif.Props.Concurrent
import Verif.Lemmas.Sends
/-
C78. Every call ends.
-/
namespace CSS
open Spec
variable {env : Env} {base : Nat → Str}

theorem history_reach {σ : Nat → Sys} (h : History env base σ) (n : Nat) : Sys.Reach env base (σ n) := by
  induction n with
  | zero => exact h.begins
  | succ n ih =>
    rcases h.next n with hn | hn
    · rw [hn]; exact ih
    · exact .step _ _ ih hn

theorem canGo_running {s : Sys} {i : Nat} (h : CanGo env base s i) : Running s i := by
  obtain ⟨s', e, hs, ht, he⟩ := h
  rcases step_cases hs with ⟨j, call, ht', _⟩ | ⟨j, x, p, q, ht', hp, _⟩ | ⟨j, r, ht', _, hp, _⟩ | ⟨j, p, ht', _⟩
  all_goals
    rw [ht'] at ht
    have := List.append_cancel_left ht
    simp only [List.cons.injEq, and_true] at this
    subst this
  · rcases he with ⟨_, he⟩ | ⟨_, he⟩ <;> cases he
  · rcases he with ⟨_, he⟩ | ⟨_, he⟩
    · cases he; exact ⟨p, hp⟩
    · cases he
  · rcases he with ⟨_, he⟩ | ⟨_, he⟩
    · cases he
    · cases he; exact ⟨_, hp⟩
  · rcases he with ⟨_, he⟩ | ⟨_, he⟩ <;> cases he

/-- A call that holds a lock can go on. -/
theorem holder_canGo {s : Sys} (h : Sys.Reach env base s) {id j : Nat} (hj : s.holder id = some j) : CanGo env base s j := by
  obtain ⟨⟨pj, hpj⟩, hhj⟩ := ((inv_reach h).lock id j).1 hj
  obtain ⟨call, hcall⟩ := (inv_reach h).running j pj hpj
  refine can_go (env := env) (base := base) hpj ?_
  intro id' k' hl
  subst hl
  have hleg := (hcall.ok.step (.lock id' k' none)).1
  rcases hleg with ⟨t, hc⟩ | ⟨bt, hk, hid, hn⟩
  · cases hc
  · obtain ⟨bt', hk', hid'⟩ := hcall.own id hhj
    rw [hk] at hk'
    cases hk'
    rw [hid', hhj] at hn
    cases hn

/-- The steps of a call that is running before and after a step of the system. -/
theorem did_step {s s' : Sys} (hr : Sys.Reach env base s) (h : Sys.Step env base s s') {i : Nat} (hi : Running s i) (hi' : Running s' i) :
    (did s.trace i).length ≤ (did s'.trace i).length ∧
    ((∃ e : Event, s'.trace = s.trace ++ [e] ∧ e.call = i) → (did s.trace i).length + 1 = (did s'.trace i).length) := by
  rcases step_cases h with ⟨j, call, ht, _, hf, _⟩ | ⟨j, x, p, q, ht, hp, _⟩ | ⟨j, r, ht, _, hp, hc⟩ | ⟨j, p, ht, _, _, _, _, hc⟩
  · refine ⟨by rw [ht, did_append]; simp, ?_⟩
    rintro ⟨e, he, hc⟩
    rw [ht] at he
    have := List.append_cancel_left he
    simp only [List.cons.injEq, and_true] at this
    subst this
    simp only [Event.call] at hc
    subst hc
    obtain ⟨p, hp⟩ := hi
    rw [unused_not_running (inv_reach hr) hf] at hp
    cases hp
  · refine ⟨by rw [ht, did_append]; simp, ?_⟩
    rintro ⟨e, he, hc⟩
    rw [ht] at he
    have := List.append_cancel_left he
    simp only [List.cons.injEq, and_true] at this
    subst this
    simp only [Event.call] at hc
    subst hc
    rw [ht, did_snoc_self]
    simp
  · refine ⟨by rw [ht, did_append]; simp, ?_⟩
    rintro ⟨e, he, hcall⟩
    rw [ht] at he
    have := List.append_cancel_left he
    simp only [List.cons.injEq, and_true] at this
    subst this
    simp only [Event.call] at hcall
    subst hcall
    obtain ⟨p, hp⟩ := hi'
    rw [hc] at hp
    simp at hp
  · refine ⟨by rw [ht, did_append]; simp, ?_⟩
    rintro ⟨e, he, hcall⟩
    rw [ht] at he
    have := List.append_cancel_left he
    simp only [List.cons.injEq, and_true] at this
    subst this
    simp only [Event.call] at hcall
    subst hcall
    obtain ⟨p, hp⟩ := hi'
    rw [hc] at hp
    simp at hp

theorem did_mono {σ : Nat → Sys} (h : History env base σ) {i n : Nat} (hrun : ∀ m, n ≤ m → Running (σ m) i) {m k : Nat} (hm : n ≤ m) (hk : m ≤ k) :
    (did (σ m).trace i).length ≤ (did (σ k).trace i).length := by
  induction k with
  | zero => rw [Nat.le_zero.1 hk]; exact Nat.le_refl _
  | succ k ih =>
    rcases Nat.lt_or_ge m (k + 1) with hlt | hge
    · have h1 := ih (by omega)
      rcases h.next k with hn | hn
      · rw [hn]; exact h1
      · exact Nat.le_trans h1 (did_step (history_reach h k) hn (hrun k (by omega)) (hrun (k + 1) (by omega))).1
    · rw [show m = k + 1 by omega]; exact Nat.le_refl _

/-- In a fair history, a call that never ends cannot go on forever. -/
theorem eventually_stuck {σ : Nat → Sys} (h : History env base σ) (hf : Fair env base σ) {i n : Nat}
    (hrun : ∀ m, n ≤ m → Running (σ m) i) : ∃ m, n ≤ m ∧ ∀ k, m ≤ k → ¬ CanGo env base (σ k) i := by
  by_cases hio : ∀ m, n ≤ m → ∃ k, m ≤ k ∧ CanGo env base (σ k) i
  · exfalso
    have grow : ∀ K, ∃ m, n ≤ m ∧ K ≤ (did (σ m).trace i).length := by
      intro K
      induction K with
      | zero => exact ⟨n, Nat.le_refl _, Nat.zero_le _⟩
      | succ K ih =>
        obtain ⟨m, hm, hK⟩ := ih
        obtain ⟨k, e, hk, ht, he⟩ := hf i m fun m' hm' => hio m' (by omega)
        refine ⟨k + 1, by omega, ?_⟩
        have hmono := did_mono h hrun hm hk
        rcases h.next k with hn | hn
        · rw [hn] at ht
          have := congrArg List.length ht
          simp at this
        · have := (did_step (history_reach h k) hn (hrun k (by omega)) (hrun (k + 1) (by omega))).2 ⟨e, ht, he⟩
          omega
    obtain ⟨m, _, hm⟩ := grow 27
    have := C38_bounded (history_reach h m) i
    omega
  · simp only [Classical.not_forall, not_exists, not_and] at hio
    obtain ⟨m, hm, hk⟩ := hio
    exact ⟨m, hm, hk⟩

/-- A lock that is held goes to nobody but through being free. -/
theorem holder_step {s s' : Sys} (h : Sys.Step env base s s') {id j : Nat} (hj : s.holder id = some j) :
    s'.holder id = some j ∨ s'.holder id = none := by
  cases h with
  | start i call hf hb => exact .inl hj
  | act i p q e caches holder hp hs he =>
    cases he with
    | locked id' hfree =>
      simp only
      split
      · rename_i heq
        rw [heq, hfree] at hj
        cases hj
      · exact .inl hj
    | unlocked id' =>
      simp only
      split
      · exact .inr rfl
      · exact .inl hj
    | _ => exact .inl hj
  | finish i r hp => exact .inl hj
  | cancel i p hp ha =>
    simp only
    split
    · exact .inr rfl
    · exact .inl hj

/-- In a fair history every lock is free again and again. -/
theorem lock_becomes_free {σ : Nat → Sys} (h : History env base σ) (hf : Fair env base σ) (id n : Nat) :
    ∃ m, n ≤ m ∧ (σ m).holder id = none := by
  apply Classical.byContradiction
  intro hno
  have hheld : ∀ m, n ≤ m → (σ m).holder id ≠ none := fun m hm hn => hno ⟨m, hm, hn⟩
  obtain ⟨j, hj⟩ := Option.ne_none_iff_exists'.1 (hheld n (Nat.le_refl _))
  have hall : ∀ m, n ≤ m → (σ m).holder id = some j := by
    intro m
    induction m with
    | zero => intro hm; rw [← Nat.le_zero.1 hm]; exact hj
    | succ m ih =>
      intro hm
      rcases Nat.lt_or_ge n (m + 1) with hlt | hge
      · have h1 := ih (by omega)
        rcases h.next m with hn | hn
        · rw [hn]; exact h1
        · exact (holder_step hn h1).resolve_right (hheld _ hm)
      · rw [show m + 1 = n by omega]; exact hj
  obtain ⟨m, hm, hk⟩ := eventually_stuck h hf (i := j) (n := n) fun m hm => canGo_running (holder_canGo (history_reach h m) (hall m hm))
  exact hk m (Nat.le_refl _) (holder_canGo (history_reach h m) (hall m hm))

/-- The program of a running call changes only with an event of the call. -/
theorem calls_step {s s' : Sys} (hr : Sys.Reach env base s) (h : Sys.Step env base s s') {i : Nat} (hi : Running s i) :
    s'.calls i = s.calls i ∨ CanGo env base s i ∨ ¬ Running s' i := by
  rcases step_cases h with ⟨j, call, ht, _, hf, hc⟩ | ⟨j, x, p, q, ht, hp, _, _, hc⟩ | ⟨j, r, ht, _, hp, hc⟩ | ⟨j, p, ht, _, _, _, _, hc⟩
  all_goals by_cases hij : i = j
  all_goals first
    | (left; rw [hc]; simp only [if_neg hij]; done)
    | skip
  · subst hij
    obtain ⟨p, hp⟩ := hi
    rw [unused_not_running (inv_reach hr) hf] at hp
    cases hp
  · subst hij; exact .inr (.inl ⟨s', _, h, ht, .inl ⟨x, rfl⟩⟩)
  · subst hij; exact .inr (.inl ⟨s', _, h, ht, .inr ⟨r, rfl⟩⟩)
  · subst hij
    refine .inr (.inr ?_)
    rintro ⟨p', hp'⟩
    rw [hc] at hp'
    simp at hp'

theorem step_snoc {s s' : Sys} (h : Sys.Step env base s s') : ∃ e, s'.trace = s.trace ++ [e] := by
  rcases step_cases h with ⟨j, call, ht, _⟩ | ⟨j, x, p, q, ht, _⟩ | ⟨j, r, ht, _⟩ | ⟨j, p, ht, _⟩ <;> exact ⟨_, ht⟩

theorem history_prefix {σ : Nat → Sys} (h : History env base σ) {n m : Nat} (hnm : n ≤ m) : (σ n).trace <+: (σ m).trace := by
  induction m with
  | zero => rw [Nat.le_zero.1 hnm]; exact List.prefix_rfl
  | succ m ih =>
    rcases Nat.lt_or_ge n (m + 1) with hlt | hge
    · have h1 := ih (by omega)
      rcases h.next m with hn | hn
      · rw [hn]; exact h1
      · obtain ⟨e, he⟩ := step_snoc hn
        rw [he]
        exact h1.trans (List.prefix_append _ _)
    · rw [show n = m + 1 by omega]; exact List.prefix_rfl

/-- C78. In every fair infinite history, every call that is running returns or is dropped, whatever other calls are
started and dropped meanwhile. -/
theorem C78_every_call_ends (σ : Nat → Sys) (h : History env base σ) (hf : Fair env base σ) (i n : Nat) (hi : Running (σ n) i) :
    ∃ m, n ≤ m ∧ ((∃ r, .returned i r ∈ (σ m).trace) ∨ .cancelled i ∈ (σ m).trace) := by
  have hend : ∃ m, n ≤ m ∧ ¬ Running (σ m) i := by
    apply Classical.byContradiction
    intro hno
    have hrun : ∀ m, n ≤ m → Running (σ m) i := fun m hm => Classical.byContradiction fun hn => hno ⟨m, hm, hn⟩
    obtain ⟨N, hN, hstuck⟩ := eventually_stuck h hf hrun
    obtain ⟨p, hp⟩ := hrun N hN
    have hconst : ∀ m, N ≤ m → (σ m).calls i = some p := by
      intro m
      induction m with
      | zero => intro hm; rw [← Nat.le_zero.1 hm]; exact hp
      | succ m ih =>
        intro hm
        rcases Nat.lt_or_ge N (m + 1) with hlt | hge
        · have h1 := ih (by omega)
          rcases h.next m with hn | hn
          · rw [hn]; exact h1
          · rcases calls_step (history_reach h m) hn (hrun m (by omega)) with hc | hc | hc
            · rw [hc]; exact h1
            · exact absurd hc (hstuck m (by omega))
            · exact absurd (hrun (m + 1) (by omega)) hc
        · rw [show m + 1 = N by omega]; exact hp
    by_cases hl : ∃ id k, p = .lock id k
    · obtain ⟨id, k, rfl⟩ := hl
      obtain ⟨m, hm, hfree⟩ := lock_becomes_free h hf id N
      refine hstuck m hm (can_go (hconst m hm) ?_)
      intro id' k' hl
      cases hl
      exact hfree
    · exact hstuck N (Nat.le_refl _) (can_go hp fun id k hk => absurd ⟨id, k, hk⟩ hl)
  obtain ⟨m, hm, hnr⟩ := hend
  refine ⟨m, hm, ?_⟩
  rw [running_iff (history_reach h m)] at hnr
  obtain ⟨⟨call, hcall⟩, _⟩ := (running_iff (history_reach h n) i).1 hi
  exact Classical.byContradiction fun hne => hnr ⟨⟨call, (history_prefix h hm).subset hcall⟩, hne⟩

/-! ### an upper bound on the number of steps -/

/-- How many steps are left at most: for each of the calls `l`, one more than what is left of the 26 (see
`C38_bounded`). -/
noncomputable def stepsLeft (s : Sys) (l : List Nat) : Nat :=
  (l.map fun i => @ite Nat (Running s i) (Classical.propDecidable _) (27 - (did s.trace i).length) 0).sum

/-- A sum gets smaller if one summand does and no other gets bigger. -/
theorem sum_lt {f g : Nat → Nat} : ∀ {l : List Nat}, (∀ i ∈ l, g i ≤ f i) → (∃ i ∈ l, g i < f i) →
    (l.map g).sum < (l.map f).sum
  | [], _, ⟨_, h, _⟩ => by simp at h
  | a :: l, hle, ⟨i, hi, hlt⟩ => by
    have hle' : ∀ l : List Nat, (∀ i ∈ l, g i ≤ f i) → (l.map g).sum ≤ (l.map f).sum := by
      intro l
      induction l with
      | nil => simp
      | cons b l ih =>
        intro h
        have h1 := h b (by simp)
        have h2 := ih fun i hi => h i (by simp [hi])
        simp only [List.map_cons, List.sum_cons]
        omega
    simp only [List.map_cons, List.sum_cons]
    have h1 := hle a (by simp)
    have h2 := hle' l fun i hi => hle i (by simp [hi])
    rcases List.mem_cons.1 hi with rfl | hi
    · omega
    · have := sum_lt (l := l) (fun i hi => hle i (by simp [hi])) ⟨i, hi, hlt⟩
      omega

/-- Every step that starts no call makes the number smaller, and no call is running that was not. -/
theorem stepsLeft_step {s s' : Sys} (hr : Sys.Reach env base s) (h : Sys.Step env base s s')
    (hns : ∀ i call, s'.trace ≠ s.trace ++ [.started i call]) {l : List Nat} (hl : ∀ i, Running s i → i ∈ l) :
    stepsLeft s' l < stepsLeft s l ∧ ∀ i, Running s' i → Running s i := by
  have hb' := fun i => C38_bounded (.step _ _ hr h) i
  have hsub : ∀ i, Running s' i → Running s i := by
    intro i hi
    rcases step_cases h with ⟨j, call, ht, _⟩ | ⟨j, x, p, q, ht, hp, _, _, hc⟩ | ⟨j, r, ht, _, hp, hc⟩ | ⟨j, p, ht, _, hp, _, _, hc⟩
    · exact absurd ht (hns j call)
    all_goals
      by_cases hij : i = j
      · subst hij; exact ⟨_, hp⟩
      · obtain ⟨p', hp'⟩ := hi
        rw [hc] at hp'
        simp only [if_neg hij] at hp'
        exact ⟨p', hp'⟩
  have hmono : ∀ i, (did s.trace i).length ≤ (did s'.trace i).length := by
    intro i
    rcases step_cases h with ⟨j, call, ht, _⟩ | ⟨j, x, p, q, ht, _⟩ | ⟨j, r, ht, _⟩ | ⟨j, p, ht, _⟩ <;>
    · rw [ht, did_append]; simp
  refine ⟨?_, hsub⟩
  refine sum_lt ?_ ?_
  · intro i _
    by_cases h' : Running s' i
    · rw [if_pos h', if_pos (hsub i h')]
      have := hmono i
      omega
    · rw [if_neg h']; exact Nat.zero_le _
  · rcases step_cases h with ⟨j, call, ht, _⟩ | ⟨j, x, p, q, ht, hp, _, _, hc⟩ | ⟨j, r, ht, _, hp, hc⟩ | ⟨j, p, ht, _, hp, _, _, hc⟩
    · exact absurd ht (hns j call)
    · refine ⟨j, hl j ⟨p, hp⟩, ?_⟩
      rw [if_pos (show Running s j from ⟨p, hp⟩), if_pos (show Running s' j from ⟨q, by rw [hc]; simp⟩)]
      have h1 := hb' j
      rw [ht, did_snoc_self] at h1 ⊢
      simp only [List.length_append, List.length_cons, List.length_nil] at h1 ⊢
      omega
    all_goals
      refine ⟨j, hl j ⟨_, hp⟩, ?_⟩
      have hn : ¬ Running s' j := by
        rintro ⟨p', hp'⟩
        rw [hc] at hp'
        simp at hp'
      rw [if_pos (show Running s j from ⟨_, hp⟩), if_neg hn]
      have h1 := C38_bounded hr j
      omega

theorem stepsLeft_le (s : Sys) (l : List Nat) : stepsLeft s l ≤ 27 * l.length := by
  unfold stepsLeft
  induction l with
  | nil => simp
  | cons i l ih =>
    simp only [List.map_cons, List.sum_cons, List.length_cons]
    have : (@ite Nat (Running s i) (Classical.propDecidable _) (27 - (did s.trace i).length) 0) ≤ 27 := by split <;> omega
    omega

theorem continues_reach {s s' : Sys} {n : Nat} (hr : Sys.Reach env base s) (h : Continues env base n s s') : Sys.Reach env base s' := by
  induction h with
  | refl => exact hr
  | step _ hs _ ih => exact .step _ _ (ih hr) hs

/-- C78. If no new calls are started, everything is over after at most 27 steps for each call that is running, whatever
the order. -/
theorem C78_bounded (s s' : Sys) (hr : Sys.Reach env base s) (l : List Nat) (hl : ∀ i, Running s i → i ∈ l) (n : Nat)
    (h : Continues env base n s s') : n ≤ 27 * l.length ∧ ∀ i, Running s' i → Running s i := by
  have key : n + stepsLeft s' l ≤ stepsLeft s l ∧ ∀ i, Running s' i → Running s i := by
    induction h with
    | refl => exact ⟨by omega, fun _ h => h⟩
    | step hc hs hns ih =>
      obtain ⟨h1, h2⟩ := ih hr hl
      obtain ⟨h3, h4⟩ := stepsLeft_step (continues_reach hr hc) hs hns (l := l) fun i hi => hl i (h2 i hi)
      exact ⟨by omega, fun i hi => h2 i (h4 i hi)⟩
  have := stepsLeft_le s l
  exact ⟨by omega, key.2⟩

/-- Only finitely many calls are running. -/
theorem running_finite {s : Sys} (h : Sys.Reach env base s) : ∃ l : List Nat, ∀ i, Running s i → i ∈ l :=
  ⟨s.trace.map Event.call, fun i hi => by
    obtain ⟨⟨call, hc⟩, _⟩ := (running_iff h i).1 hi
    exact List.mem_map.2 ⟨_, hc, rfl⟩⟩

/-- A step of a call that can go on, if there is one. -/
theorem someone_goes {s : Sys} (h : Sys.Reach env base s) {i : Nat} (hi : Running s i) :
    ∃ s', Sys.Step env base s s' ∧ ∃ e j, s'.trace = s.trace ++ [e] ∧ ((∃ x, e = .did j x) ∨ ∃ r, e = .returned j r) := by
  obtain ⟨j, s', e, _, hs, ht, he⟩ := C38_progress h hi
  exact ⟨s', hs, e, j, ht, he⟩

theorem goes_not_started {s s' : Sys} {e : Event} {j : Nat} (ht : s'.trace = s.trace ++ [e])
    (he : (∃ x, e = .did j x) ∨ ∃ r, e = .returned j r) : ∀ i call, s'.trace ≠ s.trace ++ [.started i call] := by
  intro i call hn
  rw [ht] at hn
  have := List.append_cancel_left hn
  simp only [List.cons.injEq, and_true] at this
  subst this
  rcases he with ⟨_, he⟩ | ⟨_, he⟩ <;> cases he

/-- What happens next if the calls in progress go on one after the other and no call is started or dropped. -/
noncomputable def goOn (env : Env) (base : Nat → Str) (s : Sys) : Nat → {s' : Sys // Sys.Reach env base s → Sys.Reach env base s'}
  | 0 => ⟨s, id⟩
  | n + 1 =>
    let s' := goOn env base s n
    @dite _ (Sys.Reach env base s ∧ ∃ i, Running s'.1 i) (Classical.propDecidable _)
      (fun h => ⟨(someone_goes (s'.2 h.1) h.2.choose_spec).choose, fun hr =>
        .step _ _ (s'.2 hr) (someone_goes (s'.2 h.1) h.2.choose_spec).choose_spec.1⟩)
      (fun _ => s')

theorem goOn_next {s : Sys} (hr : Sys.Reach env base s) (n : Nat) :
    ((goOn env base s (n + 1)).1 = (goOn env base s n).1 ∧ ∀ i, ¬ Running (goOn env base s n).1 i) ∨
    (Sys.Step env base (goOn env base s n).1 (goOn env base s (n + 1)).1 ∧ ∃ e j,
      (goOn env base s (n + 1)).1.trace = (goOn env base s n).1.trace ++ [e] ∧ ((∃ x, e = .did j x) ∨ ∃ r, e = .returned j r)) := by
  by_cases h : Sys.Reach env base s ∧ ∃ i, Running (goOn env base s n).1 i
  · refine .inr ?_
    simp only [goOn, dif_pos h]
    exact (someone_goes ((goOn env base s n).2 h.1) h.2.choose_spec).choose_spec
  · refine .inl ⟨by simp only [goOn, dif_neg h], fun i hi => h ⟨hr, i, hi⟩⟩

theorem goOn_ends {s : Sys} (hr : Sys.Reach env base s) : ∃ n, ∀ m, n ≤ m → ∀ i, ¬ Running (goOn env base s m).1 i := by
  obtain ⟨l, hl⟩ := running_finite hr
  have hsub : ∀ n i, Running (goOn env base s n).1 i → i ∈ l := by
    intro n
    induction n with
    | zero => exact hl
    | succ n ih =>
      intro i hi
      rcases goOn_next hr n with ⟨h1, _⟩ | ⟨hs, e, j, ht, he⟩
      · rw [h1] at hi; exact ih i hi
      · exact ih i ((stepsLeft_step ((goOn env base s n).2 hr) hs (goes_not_started ht he) ih).2 i hi)
  have hdec : ∀ n, (∀ i, ¬ Running (goOn env base s n).1 i) ∨ n + stepsLeft (goOn env base s n).1 l ≤ stepsLeft s l := by
    intro n
    induction n with
    | zero => exact .inr (by show 0 + stepsLeft s l ≤ _; omega)
    | succ n ih =>
      rcases goOn_next hr n with ⟨h1, h2⟩ | ⟨hs, e, j, ht, he⟩
      · exact .inl (by rw [h1]; exact h2)
      · rcases ih with ih | ih
        · left
          intro i hi
          exact ih i ((stepsLeft_step ((goOn env base s n).2 hr) hs (goes_not_started ht he) (hsub n)).2 i hi)
        · right
          have := (stepsLeft_step ((goOn env base s n).2 hr) hs (goes_not_started ht he) (hsub n)).1
          omega
  refine ⟨stepsLeft s l + 1, fun m hm => ?_⟩
  rcases hdec m with h | h
  · exact h
  · omega

/-- C78. Every state that can be reached lies on a fair history, in which no call is dropped and all calls return. -/
theorem C78_can_end (s : Sys) (hr : Sys.Reach env base s) : ∃ σ, σ 0 = s ∧ History env base σ ∧ Fair env base σ ∧
    ∀ i, Running s i → ∃ n r, .returned i r ∈ (σ n).trace := by
  have hist : History env base fun n => (goOn env base s n).1 := by
    refine ⟨hr, fun n => ?_⟩
    rcases goOn_next hr n with ⟨h, _⟩ | ⟨h, _⟩
    · exact .inl h
    · exact .inr h
  have fair : Fair env base fun n => (goOn env base s n).1 := by
    intro i n hio
    obtain ⟨N, hN⟩ := goOn_ends hr
    obtain ⟨k, hk, hgo⟩ := hio (n + N) (by omega)
    exact absurd (canGo_running hgo) (hN k (by omega) i)
  refine ⟨fun n => (goOn env base s n).1, rfl, hist, fair, fun i hi => ?_⟩
  obtain ⟨m, _, h | h⟩ := C78_every_call_ends _ hist fair i 0 hi
  · obtain ⟨r, h⟩ := h
    exact ⟨m, r, h⟩
  · exfalso
    have hn : ∀ m, .cancelled i ∈ (goOn env base s m).1.trace → .cancelled i ∈ s.trace := by
      intro m
      induction m with
      | zero => exact fun h => h
      | succ m ih =>
        intro hm
        rcases goOn_next hr m with ⟨h1, _⟩ | ⟨_, e, j, ht, he⟩
        · rw [h1] at hm; exact ih hm
        · rw [ht] at hm
          rcases List.mem_append.1 hm with hm | hm
          · exact ih hm
          · rw [List.mem_singleton] at hm
            subst hm
            rcases he with ⟨_, he⟩ | ⟨_, he⟩ <;> cases he
    exact ((running_iff hr i).1 hi).2 (.inr (hn m h))

/-- A call that has done nothing since is still where it was. -/
theorem still_running {s s' : Sys} (hr : Sys.Reach env base s) (hr' : Sys.Reach env base s') {j : Nat} (hj : Running s j)
    {more : List Event} (ht : s'.trace = s.trace ++ more) (hstill : ∀ e ∈ more, e.call ≠ j) :
    Running s' j ∧ did s'.trace j = did s.trace j := by
  refine ⟨?_, by rw [ht, did_append, did_unused hstill, List.append_nil]⟩
  obtain ⟨⟨call, hc⟩, hne⟩ := (running_iff hr j).1 hj
  refine (running_iff hr' j).2 ⟨⟨call, by rw [ht]; simp [hc]⟩, ?_⟩
  rintro (⟨r, h⟩ | h)
  all_goals
    rw [ht] at h
    rcases List.mem_append.1 h with h | h
  · exact hne (.inl ⟨r, h⟩)
  · exact hstill _ h rfl
  · exact hne (.inr h)
  · exact hstill _ h rfl

/-- C78, what it depends on. While a call that is refreshing a key does nothing (because a server does not answer: the
crate sets no timeout), no other call gets into the critical section of this key, so all calls that need the token wait. -/
theorem C78_blocked (σ : Nat → Sys) (h : History env base σ) (id j n m : Nat) (hj : Refreshing (base id) (σ n) j id)
    (more : List Event) (ht : (σ m).trace = (σ n).trace ++ more) (hstill : ∀ e ∈ more, e.call ≠ j) :
    Refreshing (base id) (σ m) j id ∧ ∀ i c, .did i (.locked id c) ∉ more := by
  obtain ⟨hrun, before, r, after, hd, hh, hreq, hu⟩ := hj
  refine ⟨?_, ?_⟩
  · obtain ⟨h1, h2⟩ := still_running (history_reach h n) (history_reach h m) hrun ht hstill
    exact ⟨h1, before, r, after, by rw [h2, hd], hh, hreq, hu⟩
  · intro i c hm
    obtain ⟨m1, m2, rfl⟩ := List.append_of_mem hm
    obtain ⟨s1, _, call, hr1, _, h1, _, _, _, _, _, _, _, heff, _, _⟩ := legal_of_reach (history_reach h m)
      (pre := (σ n).trace ++ m1) (post := m2) (i := i) (e := .locked id c) (by rw [ht]; simp)
    obtain ⟨h2, h3⟩ := still_running (history_reach h n) hr1 hrun h1 fun e he => hstill e (by simp [he])
    have hheld := ((inv_reach hr1).lock id j).2 ⟨h2, by rw [h3, hd]; exact holding_append hh (by simp [hu])⟩
    cases heff with
    | locked _ hfree =>
      rw [hfree] at hheld
      cases hheld

/-! ### the number of requests -/

/-- C78. No call sends more than five requests: twice an e-mail and a token, and a signature. -/
theorem C78_requests (s : Sys) (h : Sys.Reach env base s) (i : Nat) : (sentIn (did s.trace i)).length ≤ 5 := (sends_bound h i).1

/-! ### cases -/

open Conformance

/-- Call 0 is in the middle of a refresh and call 1 waits for the lock (C78_blocked applies to call 0). -/
theorem Conformance.one_refreshes : ∃ s, Sys.Reach btEnv baseOf s ∧ Running s 0 ∧ Running s 1 ∧ Refreshing (baseOf 0) s 0 0 := by
  obtain ⟨s, hr, h⟩ := leads_reach (env := btEnv) (base := baseOf) (P := fun s => (s.calls 0).isSome && (s.calls 1).isSome &&
    decide (did s.trace 0 = [.clock atNow, .locked 0 none] ++ .sent (metadataGet (emailUrl (baseOf 0))) ::
      [.status (some 200), .body (some (s% "a@b.c")), .sent (metadataGet (tokenUrl (baseOf 0))), .status (some 200)]))
    (ms := (refreshing (s% "3599")).dropLast) (by decide +kernel)
  simp only [Bool.and_eq_true, decide_eq_true_eq, Option.isSome_iff_exists] at h
  obtain ⟨⟨h0, h1⟩, hd⟩ := h
  exact ⟨s, hr, h0, h1, h0, _, _, _, hd, by decide +kernel, .inl rfl, by decide +kernel⟩

/-- Non-vacuity of C78: from there a fair history leads to the end of both calls. -/
example : ∃ σ, History btEnv baseOf σ ∧ Fair btEnv baseOf σ ∧ Running (σ 0) 0 ∧ Running (σ 0) 1 ∧
    ∃ n r r', .returned 0 r ∈ (σ n).trace ∧ .returned 1 r' ∈ (σ n).trace := by
  obtain ⟨s, hr, h0, h1, _⟩ := one_refreshes
  obtain ⟨σ, rfl, hh, hf, hend⟩ := C78_can_end s hr
  obtain ⟨n, r, hn⟩ := hend 0 h0
  obtain ⟨m, r', hm⟩ := hend 1 h1
  refine ⟨σ, hh, hf, h0, h1, n + m, r, r', (history_prefix hh (by omega)).subset hn, (history_prefix hh (by omega)).subset hm⟩

/-- Non-vacuity of C78_requests: a call that sends five. -/
example : ∃ s, Sys.Reach btEnv baseOf s ∧ decide ((sentIn (did s.trace 0)).length = 5) = true :=
  leads_reach (ms := shortLived) (by decide +kernel)

end CSS
