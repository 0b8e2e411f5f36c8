import Verif.Spec.FifoLock
import Verif.Props.Liveness
/-
The queues: who is in them, and how they move.
-/
namespace CSS
open Spec
variable {env : Env} {base : Nat → Str}

theorem fifo_sys {f f' : FifoSys} (h : FifoSys.Step env base f f') : f'.sys = f.sys ∨ Sys.Step env base f.sys f'.sys := by
  cases h with
  | ask => exact .inl rfl
  | take _ _ _ _ _ _ h => exact .inr h
  | drop _ _ h => exact .inr h
  | other _ _ h => exact .inr h

theorem fifo_reach {f : FifoSys} (h : FifoSys.Reach env base f) : Sys.Reach env base f.sys := by
  induction h with
  | init => exact .init
  | step f f' _ hs ih =>
    rcases fifo_sys hs with h | h
    · rw [h]; exact ih
    · exact .step _ _ ih h

theorem snoc_event {a : List Event} {x y : Event} (h : a ++ [x] = a ++ [y]) : x = y := by
  have := List.append_cancel_left h
  simpa using this

/-- A step of another call leaves the program of a call as it is. -/
theorem calls_other {s s' : Sys} (h : Sys.Step env base s s') {e : Event} (ht : s'.trace = s.trace ++ [e]) {j : Nat}
    (hj : e.call ≠ j) : s'.calls j = s.calls j := by
  rcases step_cases h with ⟨i, call, ht', _, _, hc⟩ | ⟨i, x, p, q, ht', _, _, _, hc⟩ | ⟨i, r, ht', _, _, hc⟩ |
    ⟨i, p, ht', _, _, _, _, hc⟩
  all_goals
    rw [ht'] at ht
    have := snoc_event ht
    subst this
    rw [hc]
    exact if_neg fun h => hj h.symm

/-- What a call that has come to a lock can have as its next event. -/
theorem at_lock_event {s s' : Sys} (hr : Sys.Reach env base s) (h : Sys.Step env base s s') {e : Event}
    (ht : s'.trace = s.trace ++ [e]) {j id : Nat} {k : Option Cached → Prog ApiResult} (hj : s.calls j = some (.lock id k))
    (he : e.call = j) : (∃ c, e = .did j (.locked id c)) ∨ e = .cancelled j := by
  rcases step_cases h with ⟨i, call, ht', _, hf, hc⟩ | ⟨i, x, p, q, ht', hp, hs, _, hc⟩ | ⟨i, r, ht', _, hp, hc⟩ |
    ⟨i, p, ht', _, _, _, _, hc⟩
  all_goals
    rw [ht'] at ht
    have := snoc_event ht
    subst this
    simp only [Event.call] at he
    subst he
  · rw [unused_not_running (inv_reach hr) hf] at hj; cases hj
  · rw [hj] at hp
    cases hp
    cases hs
    exact .inl ⟨_, rfl⟩
  · rw [hj] at hp; cases hp
  · exact .inr rfl

/-- Who takes a lock was at that lock, and the lock was free. -/
theorem locked_from {s s' : Sys} (h : Sys.Step env base s s') {i id : Nat} {c : Option Cached}
    (ht : s'.trace = s.trace ++ [.did i (.locked id c)]) :
    s.holder id = none ∧ ∃ k, s.calls i = some (.lock id k) := by
  rcases step_cases h with ⟨j, call, ht', _⟩ | ⟨j, x, p, q, ht', hp, hs, heff, hc⟩ | ⟨j, r, ht', _⟩ | ⟨j, p, ht', _⟩
  all_goals
    rw [ht'] at ht
    have := snoc_event ht
    cases this
  generalize s'.caches = caches at heff
  generalize s'.holder = holder at heff
  cases heff with
  | locked _ hfree =>
    cases hs
    exact ⟨hfree, _, hp⟩

/-- The calls in the queue of a lock have come to that lock, and nobody is in a queue twice. -/
structure FifoInv (f : FifoSys) : Prop where
  waits : ∀ id j, j ∈ f.queue id → ∃ k, f.sys.calls j = some (.lock id k)
  once : ∀ id, (f.queue id).Nodup

theorem fifo_inv_step {f f' : FifoSys} (hr : Sys.Reach env base f.sys) (hi : FifoInv f) (h : FifoSys.Step env base f f') :
    FifoInv f' := by
  cases h with
  | ask i id k hk hn =>
    constructor
    · intro x j hj
      simp only at hj ⊢
      split at hj
      · rename_i hx
        subst hx
        rcases List.mem_append.1 hj with hj | hj
        · exact hi.waits _ _ hj
        · rw [List.mem_singleton.1 hj]; exact ⟨k, hk⟩
      · exact hi.waits _ _ hj
    · intro x
      simp only
      split
      · rw [List.nodup_append]
        refine ⟨hi.once id, by simp, ?_⟩
        intro a ha b hb hab
        rw [List.mem_singleton.1 hb] at hab
        exact hn (hab ▸ ha)
      · exact hi.once x
  | take s' i id c rest hq hs ht =>
    have hnd := hi.once id
    rw [hq, List.nodup_cons] at hnd
    obtain ⟨_, k0, hk0⟩ := locked_from hs ht
    constructor
    · intro x j hj
      simp only at hj ⊢
      have hji : j ≠ i := by
        rintro rfl
        split at hj
        · exact hnd.1 hj
        · rename_i hx
          obtain ⟨k, hk⟩ := hi.waits _ _ hj
          rw [hk0] at hk
          cases hk
          exact hx rfl
      rw [calls_other hs ht (j := j) (by simpa [Event.call] using fun h : i = j => hji h.symm)]
      split at hj
      · rename_i hx
        subst hx
        exact hi.waits _ _ (by rw [hq]; exact List.mem_cons_of_mem _ hj)
      · exact hi.waits _ _ hj
    · intro x
      simp only
      split
      · exact hnd.2
      · exact hi.once x
  | drop s' i hs ht =>
    constructor
    · intro x j hj
      simp only [List.mem_filter, decide_eq_true_eq] at hj ⊢
      rw [calls_other hs ht (j := j) (by simpa [Event.call] using fun h : i = j => hj.2 h.symm)]
      exact hi.waits _ _ hj.1
    · intro x
      exact (hi.once x).filter _
  | other s' e hs ht hl hc =>
    constructor
    · intro x j hj
      obtain ⟨k, hk⟩ := hi.waits _ _ hj
      by_cases he : e.call = j
      · rcases at_lock_event hr hs ht hk he with ⟨c, h⟩ | h
        · exact absurd h (hl _ _ _)
        · exact absurd h (hc _)
      · exact ⟨k, by rw [← hk]; exact calls_other hs ht he⟩
    · exact hi.once

theorem fifo_inv {f : FifoSys} (h : FifoSys.Reach env base f) : FifoInv f := by
  induction h with
  | init => exact ⟨fun id j hj => by simp [FifoSys.init] at hj, fun id => by simp [FifoSys.init]⟩
  | step f f' hr hs ih => exact fifo_inv_step (fifo_reach hr) ih hs

theorem timesTaken_append (id : Nat) (a b : List Event) : timesTaken id (a ++ b) = timesTaken id a + timesTaken id b := by
  simp [timesTaken]

theorem timesTaken_other {id : Nat} {e : Event} (h : ∀ i c, e ≠ .did i (.locked id c)) : timesTaken id [e] = 0 := by
  unfold timesTaken
  rw [List.length_eq_zero_iff, List.filter_eq_nil_iff]
  intro x hx
  rw [List.mem_singleton.1 hx]
  split
  · rename_i i id' c
    intro hid
    rw [beq_iff_eq] at hid
    subst hid
    exact h _ _ rfl
  · simp

theorem timesTaken_taken (id i : Nat) (c : Option Cached) : timesTaken id [.did i (.locked id c)] = 1 := by
  simp [timesTaken]

/-- What one step does to the part of a queue that is ahead of call `i`: it gets no longer, and it gets shorter when the
lock is taken, which only a call that was ahead can do. -/
theorem ahead_step {f f' : FifoSys} (h : FifoSys.Step env base f f') {new : List Event}
    (ht : f'.sys.trace = f.sys.trace ++ new) {id i : Nat} {a b : List Nat} (hq : f.queue id = a ++ i :: b)
    (hl : ∀ c, .did i (.locked id c) ∉ new) (hc : .cancelled i ∉ new) :
    ∃ a' b', f'.queue id = a' ++ i :: b' ∧ a'.Sublist a ∧ a'.length + timesTaken id new ≤ a.length ∧
      ∀ j c, .did j (.locked id c) ∈ new → a.head? = some j := by
  cases h with
  | ask j id' k hk hn =>
    have hnew : new = [] := by
      have := congrArg List.length ht
      simp at this
      exact this
    subst hnew
    simp only
    split
    · rename_i hx
      subst hx
      exact ⟨a, b ++ [j], by rw [hq]; simp, List.Sublist.refl _, by simp [timesTaken], by simp⟩
    · exact ⟨a, b, hq, List.Sublist.refl _, by simp [timesTaken], by simp⟩
  | take s' j id' c rest hq' hs ht' =>
    rw [ht'] at ht
    have hnew := List.append_cancel_left ht
    subst hnew
    simp only
    by_cases hx : id = id'
    · subst hx
      simp only [if_true]
      rw [hq] at hq'
      cases a with
      | nil =>
        simp only [List.nil_append, List.cons.injEq] at hq'
        exact absurd (by rw [hq'.1]; simp) (hl c)
      | cons x a =>
        simp only [List.cons_append, List.cons.injEq] at hq'
        refine ⟨a, b, hq'.2.symm, List.sublist_cons_self _ _, ?_, ?_⟩
        · rw [timesTaken_taken]; simp
        · intro j' c' hm
          simp only [List.mem_singleton, Event.did.injEq] at hm
          rw [hm.1, hq'.1]; rfl
    · refine ⟨a, b, by simp only [if_neg hx, hq], List.Sublist.refl _, ?_, ?_⟩
      · rw [timesTaken_other fun i c h => by cases h; exact hx rfl]; simp
      · intro j' c' hm
        simp only [List.mem_singleton, Event.did.injEq, Ev.locked.injEq] at hm
        exact absurd hm.2.1 hx
  | drop s' j hs ht' =>
    rw [ht'] at ht
    have hnew := List.append_cancel_left ht
    subst hnew
    have hij : i ≠ j := by
      rintro rfl
      exact hc (by simp)
    refine ⟨a.filter (· ≠ j), b.filter (· ≠ j), ?_, List.filter_sublist, ?_, by simp⟩
    · simp only [hq, List.filter_append]
      rw [List.filter_cons_of_pos (by simpa using hij)]
    · rw [timesTaken_other fun i c h => by cases h]
      exact List.length_filter_le _ _
  | other s' e hs ht' hl' hc' =>
    rw [ht'] at ht
    have hnew := List.append_cancel_left ht
    subst hnew
    refine ⟨a, b, hq, List.Sublist.refl _, ?_, ?_⟩
    · rw [timesTaken_other fun i c => hl' i id c]; simp
    · intro j c hm
      exact absurd (List.mem_singleton.1 hm).symm (hl' j id c)

end CSS
