import Verif.Lemmas.Protocol
/-
What holds in every state that some schedule reaches.
-/
set_option linter.unusedSimpArgs false
namespace CSS
open Spec

theorem did_snoc (trace : List Event) (e : Event) (i : Nat) : did (trace ++ [e]) i = did trace i ++ (match e with
    | .did j e => if j = i then [e] else []
    | _ => []) := by
  unfold did
  rw [List.filterMap_append]
  congr 1
  cases e with
  | did j e =>
    by_cases h : j = i
    · simp [h]
    · simp [h]
  | started => rfl
  | returned => rfl
  | cancelled => rfl

theorem did_snoc_self (trace : List Event) (e : Ev) (i : Nat) : did (trace ++ [.did i e]) i = did trace i ++ [e] := by
  rw [did_snoc]; simp

theorem did_snoc_other (trace : List Event) (e : Ev) {i j : Nat} (h : j ≠ i) :
    did (trace ++ [.did j e]) i = did trace i := by
  rw [did_snoc]; simp [h]

theorem did_unused {trace : List Event} {i : Nat} (h : ∀ e ∈ trace, e.call ≠ i) : did trace i = [] := by
  unfold did
  rw [List.filterMap_eq_nil_iff]
  intro e he
  have := h e he
  cases e with
  | did j e => simp only [Event.call] at this; simp [this]
  | started => rfl
  | returned => rfl
  | cancelled => rfl

theorem cacheOf_snoc (id : Nat) (trace : List Event) (e : Event) : cacheOf id (trace ++ [e]) = (match e with
    | .did _ (.stored j c) => if j = id then some c else cacheOf id trace
    | _ => cacheOf id trace) := by
  unfold cacheOf
  rw [List.foldl_append]
  rfl

/-- What a running call is about to do. -/
structure CallInv (env : Env) (base : Nat → Str) (trace : List Event) (i : Nat) (p : Prog ApiResult) (call : ApiCall) : Prop where
  started : .started i call ∈ trace
  base : ∀ bt, call.key? = some bt → bt.baseUrl = base bt.id
  ok : p.Ok (Legal call.key?) (did trace i) fun r h => Outside call.key? h ∧ Done env call r h
  own : ∀ id, holding id (did trace i) = true → ∃ bt, call.key? = some bt ∧ bt.id = id

/-- The invariant. -/
structure Inv (env : Env) (base : Nat → Str) (s : Sys) : Prop where
  running : ∀ i p, s.calls i = some p → ∃ call, CallInv env base s.trace i p call
  lock : ∀ id i, s.holder id = some i ↔ Running s i ∧ holding id (did s.trace i) = true
  cache : ∀ id, s.caches id = cacheOf id s.trace

theorem inv_init (env : Env) (base : Nat → Str) : Inv env base Sys.init :=
  ⟨fun i p h => by simp [Sys.init] at h, fun id i => by simp [Sys.init, Running], fun _ => rfl⟩

theorem unused_not_running {env : Env} {base : Nat → Str} {s : Sys} (hi : Inv env base s) {i : Nat} (h : ∀ e ∈ s.trace, e.call ≠ i) :
    s.calls i = none := by
  cases hc : s.calls i with
  | none => rfl
  | some p =>
    obtain ⟨call, hcall⟩ := hi.running i p hc
    exact absurd rfl (h _ hcall.started)

theorem holding_of_other {id : Nat} {h : List Ev} {e : Ev} (h1 : ∀ c, e ≠ .locked id c) (h2 : e ≠ .unlocked id) :
    holding id (h ++ [e]) = holding id h := by
  rw [holding_snoc]
  cases e with
  | locked j c =>
    have : j ≠ id := fun hj => h1 c (by rw [hj])
    simp [this]
  | unlocked j =>
    have : j ≠ id := fun hj => h2 (by rw [hj])
    simp [this]
  | _ => rfl

theorem inv_start {env : Env} {base : Nat → Str} {s : Sys} (hi : Inv env base s) (i : Nat) (call : ApiCall)
    (hf : ∀ e ∈ s.trace, e.call ≠ i) (hb : ∀ bt, call.key? = some bt → bt.baseUrl = base bt.id) :
    Inv env base { s with
      calls := fun j => if j = i then some (call.prog env) else s.calls j
      trace := s.trace ++ [.started i call] } := by
  have hd : ∀ j, did (s.trace ++ [.started i call]) j = did s.trace j := by intro j; rw [did_snoc]; simp
  have hnone := unused_not_running hi hf
  refine ⟨?_, ?_, ?_⟩
  · intro j p hj
    simp only at hj
    by_cases hji : j = i
    · subst hji
      rw [if_pos rfl] at hj
      cases hj
      refine ⟨call, by simp, hb, ?_, ?_⟩
      · rw [hd, did_unused hf]; exact ok_prog call
      · intro id hh
        rw [hd, did_unused hf] at hh
        cases hh
    · rw [if_neg hji] at hj
      obtain ⟨c, hc⟩ := hi.running j p hj
      exact ⟨c, by simp [hc.started], hc.base, by rw [hd]; exact hc.ok, by rw [hd]; exact hc.own⟩
  · intro id j
    simp only [hd]
    rw [hi.lock]
    by_cases hji : j = i
    · subst hji
      rw [did_unused hf]
      simp [holding]
    · simp [Running, hji]
  · intro id
    rw [cacheOf_snoc]
    exact hi.cache id

theorem inv_finish {env : Env} {base : Nat → Str} {s : Sys} (hi : Inv env base s) (i : Nat) (r : ApiResult)
    (h : s.calls i = some (.ret r)) :
    Inv env base { s with
      calls := fun j => if j = i then none else s.calls j
      trace := s.trace ++ [.returned i r] } := by
  have hd : ∀ j, did (s.trace ++ [.returned i r]) j = did s.trace j := by intro j; rw [did_snoc]; simp
  refine ⟨?_, ?_, ?_⟩
  · intro j p hj
    simp only at hj
    by_cases hji : j = i
    · rw [if_pos hji] at hj; cases hj
    · rw [if_neg hji] at hj
      obtain ⟨c, hc⟩ := hi.running j p hj
      exact ⟨c, by simp [hc.started], hc.base, by rw [hd]; exact hc.ok, by rw [hd]; exact hc.own⟩
  · intro id j
    simp only [hd]
    rw [hi.lock]
    by_cases hji : j = i
    · subst hji
      obtain ⟨call, hcall⟩ := hi.running j _ h
      simp only [Running, if_true, reduceCtorEq, exists_false, false_and, iff_false, not_and, Bool.not_eq_true]
      intro _
      cases hh : holding id (did s.trace j) with
      | false => rfl
      | true =>
        obtain ⟨bt, hb, rfl⟩ := hcall.own id hh
        have := hcall.ok.1 bt hb
        rw [hh] at this
        cases this
    · simp [Running, hji]
  · intro id
    rw [cacheOf_snoc]
    exact hi.cache id

theorem inv_cancel {env : Env} {base : Nat → Str} {s : Sys} (hi : Inv env base s) (i : Nat) :
    Inv env base { s with
      holder := fun id => if s.holder id = some i then none else s.holder id
      calls := fun j => if j = i then none else s.calls j
      trace := s.trace ++ [.cancelled i] } := by
  have hd : ∀ j, did (s.trace ++ [.cancelled i]) j = did s.trace j := by intro j; rw [did_snoc]; simp
  refine ⟨?_, ?_, ?_⟩
  · intro j p hj
    simp only at hj
    by_cases hji : j = i
    · rw [if_pos hji] at hj; cases hj
    · rw [if_neg hji] at hj
      obtain ⟨c, hc⟩ := hi.running j p hj
      exact ⟨c, by simp [hc.started], hc.base, by rw [hd]; exact hc.ok, by rw [hd]; exact hc.own⟩
  · intro id j
    simp only [hd]
    by_cases hji : j = i
    · subst hji
      simp only [Running, if_true, reduceCtorEq, exists_false, false_and, iff_false]
      split
      · simp
      · assumption
    · have := hi.lock id j
      simp only [Running, if_neg hji] at this ⊢
      rw [← this]
      split
      · rename_i hh
        rw [hh]
        simp [Ne.symm hji]
      · exact Iff.rfl
  · intro id
    rw [cacheOf_snoc]
    exact hi.cache id

theorem inv_act {env : Env} {base : Nat → Str} {s : Sys} (hi : Inv env base s) (i : Nat) (p q : Prog ApiResult) (e : Ev)
    (caches : Nat → Option Cached) (holder : Nat → Option Nat) (hp : s.calls i = some p) (hs : p.Step e q)
    (he : s.Effect i e caches holder) :
    Inv env base { caches := caches
                   holder := holder
                   calls := fun j => if j = i then some q else s.calls j
                   trace := s.trace ++ [.did i e] } := by
  obtain ⟨call, hcall⟩ := hi.running i p hp
  obtain ⟨hlegal, hok⟩ := hcall.ok.step hs
  have hself := did_snoc_self s.trace e i
  have hother : ∀ j, j ≠ i → did (s.trace ++ [.did i e]) j = did s.trace j := fun j hj => did_snoc_other _ _ (Ne.symm hj)
  have hrun : ∀ j, Running { caches := caches
                             holder := holder
                             calls := fun j => if j = i then some q else s.calls j
                             trace := s.trace ++ [.did i e] } j ↔ Running s j := by
    intro j
    simp only [Running]
    by_cases hji : j = i
    · subst hji; simp [hp]
    · simp [hji]
  have own' : ∀ id, holding id (did (s.trace ++ [.did i e]) i) = true → ∃ bt, call.key? = some bt ∧ bt.id = id := by
    intro id hh
    rw [hself] at hh
    by_cases h1 : ∃ c, e = .locked id c
    · obtain ⟨c, rfl⟩ := h1
      rcases hlegal with ⟨t, ht⟩ | ⟨bt, hb, hl⟩
      · cases ht
      · exact ⟨bt, hb, hl.1.symm⟩
    · by_cases h2 : e = .unlocked id
      · subst h2
        rw [holding_snoc] at hh
        simp at hh
      · rw [holding_of_other (fun c hc => h1 ⟨c, hc⟩) h2] at hh
        exact hcall.own id hh
  refine ⟨?_, ?_, ?_⟩
  · intro j p' hj
    simp only at hj
    by_cases hji : j = i
    · subst hji
      rw [if_pos rfl] at hj
      cases hj
      exact ⟨call, by simp [hcall.started], hcall.base, by rw [hself]; exact hok, own'⟩
    · rw [if_neg hji] at hj
      obtain ⟨c, hc⟩ := hi.running j p' hj
      refine ⟨c, by simp [hc.started], hc.base, ?_, ?_⟩
      · simp only [hother j hji]; exact hc.ok
      · simp only [hother j hji]; exact hc.own
  · intro id j
    rw [hrun]
    have quiet : (∀ c, e ≠ .locked id c) → e ≠ .unlocked id →
        holding id (did (s.trace ++ [.did i e]) j) = holding id (did s.trace j) := by
      intro h1 h2
      by_cases hji : j = i
      · subst hji; rw [hself, holding_of_other h1 h2]
      · rw [hother j hji]
    simp only
    cases he with
    | locked id' hfree =>
      by_cases hid : id = id'
      · subst hid
        simp only [if_true]
        by_cases hji : j = i
        · subst hji
          rw [hself, holding_snoc]
          simp [Running, hp]
        · have := hi.lock id j
          rw [hfree] at this
          rw [hother j hji, ← this]
          simp [Ne.symm hji]
      · simp only [if_neg hid]
        rw [hi.lock, quiet (fun c hc => by cases hc; exact hid rfl) (by simp)]
    | unlocked id' =>
      by_cases hid : id = id'
      · subst hid
        simp only [if_true, reduceCtorEq, false_iff, not_and, Bool.not_eq_true]
        intro hr
        by_cases hji : j = i
        · subst hji; rw [hself, holding_snoc]; simp
        · rw [hother j hji]
          cases hh : holding id (did s.trace j) with
          | false => rfl
          | true =>
            have h1 := (hi.lock id j).2 ⟨hr, hh⟩
            rcases hlegal with ⟨t, ht⟩ | ⟨bt, hb, hl⟩
            · cases ht
            · have h2 := (hi.lock bt.id i).2 ⟨⟨p, hp⟩, hl.2⟩
              rw [← hl.1, h1] at h2
              cases h2
              exact absurd rfl hji
      · simp only [if_neg hid]
        rw [hi.lock, quiet (by simp) (fun hc => by cases hc; exact hid rfl)]
    | stored id' c => rw [hi.lock, quiet (by simp) (by simp)]
    | clock t => rw [hi.lock, quiet (by simp) (by simp)]
    | sent r => rw [hi.lock, quiet (by simp) (by simp)]
    | status n => rw [hi.lock, quiet (by simp) (by simp)]
    | body t => rw [hi.lock, quiet (by simp) (by simp)]
  · intro id
    rw [cacheOf_snoc]
    cases he with
    | stored id' c =>
      simp only
      by_cases hid : id = id'
      · subst hid; simp
      · rw [if_neg hid, if_neg (Ne.symm hid)]; exact hi.cache id
    | locked id' hfree => exact hi.cache id
    | unlocked id' => exact hi.cache id
    | clock t => exact hi.cache id
    | sent r => exact hi.cache id
    | status n => exact hi.cache id
    | body t => exact hi.cache id

theorem inv_step {env : Env} {base : Nat → Str} {s s' : Sys} (hi : Inv env base s) (h : Sys.Step env base s s') : Inv env base s' := by
  cases h with
  | start i call hf hb => exact inv_start hi i call hf hb
  | act i p q e caches holder hp hs he => exact inv_act hi i p q e caches holder hp hs he
  | finish i r h => exact inv_finish hi i r h
  | cancel i p hp ha => exact inv_cancel hi i

theorem inv_reach {env : Env} {base : Nat → Str} {s : Sys} (h : Sys.Reach env base s) : Inv env base s := by
  induction h with
  | init => exact inv_init env base
  | step s s' _ hs ih => exact inv_step ih hs

/-- A step adds exactly one event. -/
theorem step_trace {env : Env} {base : Nat → Str} {s s' : Sys} (h : Sys.Step env base s s') :
    ∃ e, s'.trace = s.trace ++ [e] := by
  cases h <;> exact ⟨_, rfl⟩

/-- Every event of a reachable history was added by a step from a reachable state. -/
theorem reach_split {env : Env} {base : Nat → Str} {s : Sys} (h : Sys.Reach env base s) {pre post : List Event} {e : Event}
    (ht : s.trace = pre ++ e :: post) :
    ∃ s1 s2, Sys.Reach env base s1 ∧ Sys.Step env base s1 s2 ∧ s1.trace = pre ∧ s2.trace = pre ++ [e] := by
  induction h generalizing post with
  | init => simp [Sys.init] at ht
  | step s s' hr hs ih =>
    obtain ⟨e', he'⟩ := step_trace hs
    rcases List.eq_nil_or_concat post with rfl | ⟨post', e'', rfl⟩
    · rw [he'] at ht
      have := List.append_inj' ht rfl
      simp only [List.cons.injEq, and_true] at this
      exact ⟨s, s', hr, hs, this.1, by rw [he', this.1, this.2]⟩
    · rw [he', List.concat_eq_append, ← List.cons_append, ← List.append_assoc] at ht
      have := List.append_inj' ht rfl
      exact ih this.1

/-- What a call did was legal. -/
theorem legal_of_reach {env : Env} {base : Nat → Str} {s : Sys} (h : Sys.Reach env base s) {pre post : List Event}
    {i : Nat} {e : Ev} (ht : s.trace = pre ++ .did i e :: post) :
    ∃ s1 s2 call, Sys.Reach env base s1 ∧ Sys.Step env base s1 s2 ∧ s1.trace = pre ∧ s2.trace = pre ++ [.did i e] ∧
      Running s1 i ∧ .started i call ∈ pre ∧ (∀ bt, call.key? = some bt → bt.baseUrl = base bt.id) ∧
      Legal call.key? (did pre i) e ∧ ∃ caches holder, s1.Effect i e caches holder ∧ s2.caches = caches ∧ s2.holder = holder := by
  obtain ⟨s1, s2, hr, hs, rfl, h2⟩ := reach_split h ht
  have hi := inv_reach hr
  refine ⟨s1, s2, ?_⟩
  cases hs with
  | start j call hf hb => have := List.append_cancel_left h2; cases this
  | finish j r hj => have := List.append_cancel_left h2; cases this
  | cancel j p hp ha => have := List.append_cancel_left h2; cases this
  | act j p q e' caches holder hp hstep he =>
    have := List.append_cancel_left h2
    simp only [List.cons.injEq, Event.did.injEq, and_true] at this
    obtain ⟨rfl, rfl⟩ := this
    obtain ⟨call, hcall⟩ := hi.running j p hp
    exact ⟨call, hr, .act s1 j p q e' caches holder hp hstep he, rfl, rfl, ⟨p, hp⟩, hcall.started, hcall.base,
      (hcall.ok.step hstep).1, caches, holder, he, rfl, rfl⟩

end CSS
