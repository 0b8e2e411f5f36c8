import Verif.Lemmas.History
/-
Critical sections: who is inside, what they see, and that nobody else changes it.
-/
set_option linter.unusedSimpArgs false
namespace CSS
open Spec

/-- What a step adds to the history and does to the caches and the calls. -/
theorem step_cases {env : Env} {base : Nat → Str} {s s' : Sys} (h : Sys.Step env base s s') :
    (∃ i call, s'.trace = s.trace ++ [.started i call] ∧ s'.caches = s.caches ∧ (∀ e ∈ s.trace, e.call ≠ i) ∧
      s'.calls = fun j => if j = i then some (call.prog env) else s.calls j) ∨
    (∃ i e p q, s'.trace = s.trace ++ [.did i e] ∧ s.calls i = some p ∧ p.Step e q ∧
      s.Effect i e s'.caches s'.holder ∧ s'.calls = fun j => if j = i then some q else s.calls j) ∨
    (∃ i r, s'.trace = s.trace ++ [.returned i r] ∧ s'.caches = s.caches ∧ s.calls i = some (.ret r) ∧
      s'.calls = fun j => if j = i then none else s.calls j) ∨
    (∃ i p, s'.trace = s.trace ++ [.cancelled i] ∧ s'.caches = s.caches ∧ s.calls i = some p ∧ p.awaits = true ∧
      (s'.holder = fun id => if s.holder id = some i then none else s.holder id) ∧
      s'.calls = fun j => if j = i then none else s.calls j) := by
  cases h with
  | start i call hf hb => exact .inl ⟨i, call, rfl, rfl, hf, rfl⟩
  | act i p q e caches holder hp hs he => exact .inr (.inl ⟨i, e, p, q, rfl, hp, hs, he, rfl⟩)
  | finish i r h => exact .inr (.inr (.inl ⟨i, r, rfl, rfl, h, rfl⟩))
  | cancel i p hp ha => exact .inr (.inr (.inr ⟨i, p, rfl, rfl, hp, ha, rfl, rfl⟩))

/-- The call has returned or was dropped. -/
def Ended (trace : List Event) (i : Nat) : Prop := (∃ r, .returned i r ∈ trace) ∨ .cancelled i ∈ trace

theorem ended_append {a b : List Event} {i : Nat} (h : Ended a i) : Ended (a ++ b) i := by
  rcases h with ⟨r, h⟩ | h
  · exact .inl ⟨r, by simp [h]⟩
  · exact .inr (by simp [h])

/-- A call is running from its start to its end. -/
theorem running_iff {env : Env} {base : Nat → Str} {s : Sys} (h : Sys.Reach env base s) (i : Nat) :
    Running s i ↔ (∃ call, .started i call ∈ s.trace) ∧ ¬ Ended s.trace i := by
  induction h with
  | init => simp [Running, Sys.init]
  | step s s' hr hs ih =>
    rcases step_cases hs with ⟨j, call, ht, _, hf, hc⟩ | ⟨j, e, p, q, ht, hp, _, _, hc⟩ | ⟨j, r, ht, _, hp, hc⟩ |
        ⟨j, p, ht, _, hp, _, _, hc⟩
    · unfold Running Ended
      rw [hc, ht]
      by_cases hij : i = j
      · subst hij
        simp only [if_true, List.mem_append, List.mem_singleton, reduceCtorEq, or_false]
        refine ⟨fun _ => ⟨⟨call, .inr rfl⟩, ?_⟩, fun _ => ⟨_, rfl⟩⟩
        rintro (⟨r, h⟩ | h) <;> exact hf _ h rfl
      · simp only [if_neg hij, List.mem_append, List.mem_singleton, reduceCtorEq, or_false, Event.started.injEq]
        have := ih
        unfold Running Ended at this
        rw [this]
        simp [hij]
    · unfold Running Ended
      rw [hc, ht]
      simp only [List.mem_append, List.mem_singleton, reduceCtorEq, or_false]
      have := ih
      unfold Running Ended at this
      rw [← this]
      by_cases hij : i = j
      · subst hij; simp [hp]
      · simp [hij]
    · unfold Running Ended
      rw [hc, ht]
      by_cases hij : i = j
      · subst hij
        simp
      · simp only [if_neg hij, List.mem_append, List.mem_singleton, reduceCtorEq, or_false, Event.returned.injEq, hij, false_and]
        exact ih
    · unfold Running Ended
      rw [hc, ht]
      by_cases hij : i = j
      · subst hij
        simp
      · simp only [if_neg hij, List.mem_append, List.mem_singleton, reduceCtorEq, or_false, Event.cancelled.injEq, hij]
        exact ih

/-- A call is started once. -/
theorem started_unique {env : Env} {base : Nat → Str} {s : Sys} (h : Sys.Reach env base s) {i : Nat} {c1 c2 : ApiCall}
    (h1 : .started i c1 ∈ s.trace) (h2 : .started i c2 ∈ s.trace) : c1 = c2 := by
  induction h with
  | init => simp [Sys.init] at h1
  | step s s' hr hs ih =>
    rcases step_cases hs with ⟨j, call, ht, _, hf, _⟩ | ⟨j, e, p, q, ht, _⟩ | ⟨j, r, ht, _⟩ | ⟨j, p, ht, _⟩
    · rw [ht] at h1 h2
      simp only [List.mem_append, List.mem_singleton, Event.started.injEq] at h1 h2
      rcases h1 with h1 | ⟨rfl, rfl⟩
      · rcases h2 with h2 | ⟨rfl, rfl⟩
        · exact ih h1 h2
        · exact absurd rfl (hf _ h1)
      · rcases h2 with h2 | ⟨_, rfl⟩
        · exact absurd rfl (hf _ h2)
        · rfl
    all_goals
      rw [ht] at h1 h2
      simp only [List.mem_append, List.mem_singleton, reduceCtorEq, or_false] at h1 h2
      exact ih h1 h2

/-- What a call returned is accounted for by what it did. -/
theorem returned_done {env : Env} {base : Nat → Str} {s : Sys} (h : Sys.Reach env base s) {pre post : List Event}
    {i : Nat} {r : ApiResult} (ht : s.trace = pre ++ .returned i r :: post) :
    ∃ call, .started i call ∈ pre ∧ (∀ bt, call.key? = some bt → bt.baseUrl = base bt.id) ∧ Done env call r (did pre i) := by
  obtain ⟨s1, s2, hr, hs, rfl, h2⟩ := reach_split h ht
  rcases step_cases hs with ⟨j, call, ht, _⟩ | ⟨j, e, p, q, ht, _⟩ | ⟨j, r', ht, _, hp, _⟩ | ⟨j, p, ht, _⟩
  all_goals
    rw [ht] at h2
    have := List.append_cancel_left h2
    simp only [List.cons.injEq, reduceCtorEq, Event.returned.injEq, and_true] at this
  obtain ⟨rfl, rfl⟩ := this
  obtain ⟨call, hcall⟩ := (inv_reach hr).running j _ hp
  exact ⟨call, hcall.started, hcall.base, hcall.ok.2⟩

theorem holding_append {id : Nat} {a b : List Ev} (h : holding id a = true) (hb : Ev.unlocked id ∉ b) :
    holding id (a ++ b) = true := by
  induction b using list_snoc_induction with
  | nil => simpa using h
  | snoc t x ih =>
    simp only [List.mem_append, List.mem_singleton, not_or] at hb
    rw [← List.append_assoc, holding_snoc]
    have := ih hb.1
    cases x with
    | locked j c => simp [this]
    | unlocked j =>
      have : j ≠ id := fun hj => hb.2 (by rw [hj])
      simp [this, ih hb.1]
    | _ => exact this

theorem holding_locked {id : Nat} (a b : List Ev) (c : Option Cached) (hb : Ev.unlocked id ∉ b) :
    holding id (a ++ .locked id c :: b) = true := by
  have : holding id (a ++ [.locked id c]) = true := by rw [holding_snoc]; simp
  have h := holding_append this hb
  rwa [List.append_assoc] at h

/-- Only one call is inside. -/
theorem exclusive {env : Env} {base : Nat → Str} {s : Sys} (h : Sys.Reach env base s) {id i j : Nat}
    (hi : Running s i) (hj : Running s j) (hhi : holding id (did s.trace i) = true)
    (hhj : holding id (did s.trace j) = true) : i = j := by
  have h1 := ((inv_reach h).lock id i).2 ⟨hi, hhi⟩
  have h2 := ((inv_reach h).lock id j).2 ⟨hj, hhj⟩
  rw [h1] at h2
  exact Option.some.inj h2

/-- A call inside that has not written since it took the lock sees the cache as it is. -/
theorem view {env : Env} {base : Nat → Str} {s : Sys} (h : Sys.Reach env base s) {id i : Nat} (hrun : Running s i)
    {before after : List Ev} {c : Option Cached} (hd : did s.trace i = before ++ .locked id c :: after)
    (hun : Ev.unlocked id ∉ after) (hst : ∀ c', Ev.stored id c' ∉ after) : s.caches id = c := by
  induction h generalizing after with
  | init => simp [Sys.init, did] at hd
  | step s s' hr hs ih =>
    have quiet : (∀ j e, s'.trace ≠ s.trace ++ [.did j e]) → s'.caches = s.caches → s'.caches id = c := by
      intro hne hc
      have hd' : did s'.trace i = did s.trace i := by
        obtain ⟨e, he⟩ := step_trace hs
        rw [he, did_snoc]
        cases e with
        | did j e => exact absurd he (hne j e)
        | _ => simp
      rw [hc]
      rw [hd'] at hd
      refine ih ?_ hd hun hst
      rw [running_iff (.step _ _ hr hs)] at hrun
      rw [running_iff hr]
      obtain ⟨e, he⟩ := step_trace hs
      refine ⟨?_, fun hend => hrun.2 (by rw [he]; exact ended_append hend)⟩
      obtain ⟨t1, t2, htr, _, _⟩ := did_split hd
      obtain ⟨_, _, call, _, _, _, _, _, hst', _⟩ := legal_of_reach hr htr
      exact ⟨call, by rw [htr]; simp [hst']⟩
    rcases step_cases hs with ⟨j, call, ht, hc, _⟩ | ⟨j, e, p, q, ht, hp, hpq, he, hc⟩ | ⟨j, r, ht, hc, _⟩ | ⟨j, p, ht, hc, _⟩
    · exact quiet (fun j' e' h' => by rw [ht] at h'; have := List.append_cancel_left h'; cases this) hc
    · by_cases hij : j = i
      · subst hij
        rw [ht, did_snoc_self] at hd
        rcases List.eq_nil_or_concat after with rfl | ⟨after', x, rfl⟩
        · have := List.append_inj' hd rfl
          simp only [List.cons.injEq, and_true] at this
          obtain ⟨_, rfl⟩ := this
          generalize s'.caches = ca at he
          generalize s'.holder = ho at he
          cases he
          rfl
        · rw [List.concat_eq_append] at hd hun hst
          rw [← List.cons_append, ← List.append_assoc] at hd
          have := List.append_inj' hd rfl
          simp only [List.cons.injEq, and_true] at this
          obtain ⟨hd', rfl⟩ := this
          have := ih ⟨p, hp⟩ hd' (fun hm => hun (by simp [hm])) (fun c' hm => hst c' (by simp [hm]))
          rw [← this]
          generalize hca : s'.caches = ca at he
          generalize s'.holder = ho at he
          cases he with
          | stored id' c' =>
            have : id ≠ id' := fun hid => hst c' (by simp [hid])
            simp [this]
          | _ => rfl
      · rw [ht, did_snoc_other _ _ hij] at hd
        have hrun' : Running s i := by
          obtain ⟨p', hp'⟩ := hrun
          rw [hc] at hp'
          simp only [if_neg (Ne.symm hij)] at hp'
          exact ⟨p', hp'⟩
        have h1 := ih hrun' hd hun hst
        rw [← h1]
        obtain ⟨call, hcall⟩ := (inv_reach hr).running j p hp
        have hl := (hcall.ok.step hpq).1
        generalize hca : s'.caches = ca at he
        generalize s'.holder = ho at he
        cases he with
        | stored id' c' =>
          have : id ≠ id' := by
            intro hid
            subst hid
            rcases hl with ⟨t, h⟩ | ⟨bt, _, hid, hh, _⟩
            · cases h
            · subst hid
              have hi : holding bt.id (did s.trace i) = true := by rw [hd]; exact holding_locked _ _ _ hun
              exact hij (exclusive hr ⟨p, hp⟩ hrun' hh hi)
          simp [this]
        | _ => rfl
    · exact quiet (fun j' e' h' => by rw [ht] at h'; have := List.append_cancel_left h'; cases this) hc
    · exact quiet (fun j' e' h' => by rw [ht] at h'; have := List.append_cancel_left h'; cases this) hc

/-- A call that acts after a prefix of the history and had already acted in it, was running at the prefix. -/
theorem running_before {env : Env} {base : Nat → Str} {s s0 : Sys} (h : Sys.Reach env base s) (h0 : Sys.Reach env base s0)
    {rest pre post : List Event} {j : Nat} {e : Ev} (ht : s.trace = pre ++ .did j e :: post)
    (hp : pre = s0.trace ++ rest) (hd : did s0.trace j ≠ []) : Running s0 j := by
  obtain ⟨s1, s2, call, hr1, _, h1, _, hrun, _⟩ := legal_of_reach h ht
  rw [running_iff hr1] at hrun
  rw [running_iff h0]
  refine ⟨?_, fun hend => hrun.2 (by rw [h1, hp]; exact ended_append hend)⟩
  obtain ⟨x, xs, hx⟩ := List.exists_cons_of_ne_nil hd
  obtain ⟨t1, t2, htr, _, _⟩ := did_split (a := []) hx
  obtain ⟨_, _, call, _, _, _, _, _, hst', _⟩ := legal_of_reach h0 htr
  exact ⟨call, by rw [htr]; simp [hst']⟩

theorem append_overlap {α : Type} {a b x y : List α} (h : a ++ b = x ++ y) :
    (∃ z, b = z ++ y) ∨ ∃ y1 y2, y1 ≠ [] ∧ y = y1 ++ y2 ∧ a = x ++ y1 ∧ b = y2 := by
  rcases List.append_eq_append_iff.1 h with ⟨z, hx, hb⟩ | ⟨z, hx, hb⟩
  · exact .inl ⟨z, hb⟩
  · cases z with
    | nil => left; exact ⟨[], by simpa using hb.symm⟩
    | cons z zs => exact .inr ⟨z :: zs, b, by simp, hb, hx, rfl⟩

end CSS
