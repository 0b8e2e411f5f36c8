import Verif.Lemmas.Interleave
/-
From what one call did back to the common history: who wrote what a call has read.
-/
set_option linter.unusedSimpArgs false
namespace CSS
open Spec

theorem did_append (a b : List Event) (i : Nat) : did (a ++ b) i = did a i ++ did b i := by
  unfold did
  rw [List.filterMap_append]

/-- A step of a call is an event of the history. -/
theorem did_split {trace : List Event} {i : Nat} {a b : List Ev} {e : Ev} (h : did trace i = a ++ e :: b) :
    ∃ t1 t2, trace = t1 ++ .did i e :: t2 ∧ did t1 i = a ∧ did t2 i = b := by
  induction trace generalizing a with
  | nil => simp [did] at h
  | cons x t ih =>
    have hx : did (x :: t) i = did [x] i ++ did t i := did_append [x] t i
    rw [hx] at h
    by_cases hd : ∃ e', x = .did i e'
    · obtain ⟨e', rfl⟩ := hd
      have h1 : did [Event.did i e'] i = [e'] := by simp [did]
      rw [h1] at h
      cases a with
      | nil =>
        simp only [List.singleton_append, List.nil_append, List.cons.injEq] at h
        obtain ⟨rfl, rfl⟩ := h
        exact ⟨[], t, rfl, rfl, rfl⟩
      | cons a' a =>
        simp only [List.singleton_append, List.cons_append, List.cons.injEq] at h
        obtain ⟨rfl, h⟩ := h
        obtain ⟨t1, t2, rfl, h1, h2⟩ := ih h
        refine ⟨.did i e' :: t1, t2, rfl, ?_, h2⟩
        rw [show Event.did i e' :: t1 = [Event.did i e'] ++ t1 from rfl, did_append, h1]
        simp [did]
    · have h1 : did [x] i = [] := by
        cases x with
        | did j e' =>
          have : j ≠ i := fun hj => hd ⟨e', by rw [hj]⟩
          simp [did, this]
        | started => rfl
        | returned => rfl
        | cancelled => rfl
      rw [h1, List.nil_append] at h
      obtain ⟨t1, t2, rfl, h2, h3⟩ := ih h
      refine ⟨x :: t1, t2, rfl, ?_, h3⟩
      rw [show x :: t1 = [x] ++ t1 from rfl, did_append, h1, List.nil_append, h2]

/-- What a cache contains was stored by some call. -/
theorem cacheOf_some {id : Nat} {trace : List Event} {c : Cached} (h : cacheOf id trace = some c) :
    ∃ t1 t2 j, trace = t1 ++ .did j (.stored id c) :: t2 := by
  induction trace using list_snoc_induction with
  | nil => cases h
  | snoc t x ih =>
    have go : cacheOf id t = some c → ∃ t1 t2 j, t ++ [x] = t1 ++ .did j (.stored id c) :: t2 := by
      intro h'
      obtain ⟨t1, t2, j, rfl⟩ := ih h'
      exact ⟨t1, t2 ++ [x], j, by simp⟩
    rw [cacheOf_snoc] at h
    cases x with
    | did j e =>
      cases e with
      | stored id' c' =>
        simp only at h
        by_cases hid : id' = id
        · rw [if_pos hid] at h
          cases h
          subst hid
          exact ⟨t, [], j, rfl⟩
        · rw [if_neg hid] at h; exact go h
      | _ => exact go h
    | _ => exact go h

theorem refreshed_append {base : Str} {a b : List Event} {j id : Nat} {c : Cached} {t0 : Time} {life : Nat}
    (h : Refreshed base a j id c t0 life) : Refreshed base (a ++ b) j id c t0 life := by
  obtain ⟨before, steps, after, h1, h2, h3⟩ := h
  exact ⟨before, steps, after ++ did b j, by rw [did_append, h1]; simp, h2, h3⟩

/-- Whatever a cache contains came from one refresh. -/
theorem cached_refreshed {env : Env} {base : Nat → Str} {s : Sys} (h : Sys.Reach env base s) {id : Nat} {c : Cached}
    (hc : s.caches id = some c) : ∃ j t0 life, Refreshed (base id) s.trace j id c t0 life := by
  rw [(inv_reach h).cache] at hc
  obtain ⟨t1, t2, j, ht⟩ := cacheOf_some hc
  obtain ⟨s1, s2, call, _, _, h1, h2, _, _, hb, hl, _⟩ := legal_of_reach h ht
  rcases hl with ⟨t, hcl⟩ | ⟨bt, hk, hid, _, before, steps, t0, life, happ, hof, hh, _⟩
  · cases hcl
  · subst hid
    refine ⟨j, t0, life, ?_⟩
    rw [ht, show t1 ++ Event.did j (.stored bt.id c) :: t2 = (t1 ++ [.did j (.stored bt.id c)]) ++ t2 by simp]
    refine refreshed_append ⟨before, steps, [], ?_, ?_, hh⟩
    · rw [did_snoc_self, happ]; simp
    · rw [← hb bt hk]; exact hof

/-- What a call saw when it took the lock came from one refresh before. -/
theorem locked_refreshed {env : Env} {base : Nat → Str} {s : Sys} (h : Sys.Reach env base s) {pre post : List Event}
    {i id : Nat} {c : Cached} (ht : s.trace = pre ++ .did i (.locked id (some c)) :: post) :
    ∃ j t0 life, Refreshed (base id) pre j id c t0 life := by
  obtain ⟨s1, s2, call, hr, _, h1, _, _, _, _, _, caches, holder, he, _⟩ := legal_of_reach h ht
  have hc : s1.caches id = some c := by
    generalize hx : Ev.locked id (some c) = x at he
    cases he with
    | locked id' hfree =>
      simp only [Ev.locked.injEq] at hx
      rw [hx.1, ← hx.2]
    | _ => cases hx
  rw [← h1]
  exact cached_refreshed hr hc

end CSS
