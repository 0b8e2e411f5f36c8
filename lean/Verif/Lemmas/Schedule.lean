import Verif.Lemmas.Critical
/-
Executable schedules, to exhibit reachable states.
-/
namespace CSS
open Spec

/-- One decision of a scheduler. `go` is for steps that bring no information: take a lock, store, unlock, send. -/
inductive Move where
  | start (i : Nat) (call : ApiCall)
  | go (i : Nat)
  | clock (i : Nat) (t : Time)
  | status (i : Nat) (s : Option Nat)
  | body (i : Nat) (t : Option Str)
  | finish (i : Nat)
  | cancel (i : Nat)

/-- Carry out a step of call `i`. -/
def Sys.acted (s : Sys) (i : Nat) (q : Prog ApiResult) (e : Ev) (caches : Nat → Option Cached)
    (holder : Nat → Option Nat) : Sys where
  caches := caches
  holder := holder
  calls := fun j => if j = i then some q else s.calls j
  trace := s.trace ++ [.did i e]

/-- The key, if any, has the base URL that belongs to its lock. -/
def ownBase (base : Nat → Str) : Option BoundToken → Bool
  | none => true
  | some bt => decide (bt.baseUrl = base bt.id)

def Sys.move (env : Env) (base : Nat → Str) (s : Sys) : Move → Option Sys
  | .start i call =>
    if (s.trace.all fun e => e.call != i) && ownBase base call.key? then
      some { s with
        calls := fun j => if j = i then some (call.prog env) else s.calls j
        trace := s.trace ++ [.started i call] }
    else none
  | .go i =>
    match s.calls i with
    | some (.lock id k) =>
      if s.holder id = none then
        some (s.acted i (k (s.caches id)) (.locked id (s.caches id)) s.caches fun j => if j = id then some i else s.holder j)
      else none
    | some (.store id c k) => some (s.acted i k (.stored id c) (fun j => if j = id then some c else s.caches j) s.holder)
    | some (.unlock id k) => some (s.acted i k (.unlocked id) s.caches fun j => if j = id then none else s.holder j)
    | some (.send r k) => some (s.acted i k (.sent r) s.caches s.holder)
    | _ => none
  | .clock i t =>
    match s.calls i with
    | some (.now k) => some (s.acted i (k t) (.clock t) s.caches s.holder)
    | _ => none
  | .status i n =>
    match s.calls i with
    | some (.recv k) => some (s.acted i (k n) (.status n) s.caches s.holder)
    | _ => none
  | .body i t =>
    match s.calls i with
    | some (.text k) => some (s.acted i (k t) (.body t) s.caches s.holder)
    | _ => none
  | .finish i =>
    match s.calls i with
    | some (.ret r) => some { s with
        calls := fun j => if j = i then none else s.calls j
        trace := s.trace ++ [.returned i r] }
    | _ => none
  | .cancel i =>
    match s.calls i with
    | some p => if p.awaits then some { s with
        holder := fun id => if s.holder id = some i then none else s.holder id
        calls := fun j => if j = i then none else s.calls j
        trace := s.trace ++ [.cancelled i] } else none
    | none => none

theorem move_step {env : Env} {base : Nat → Str} {s s' : Sys} {m : Move} (h : s.move env base m = some s') :
    Sys.Step env base s s' := by
  cases m with
  | start i call =>
    simp only [Sys.move] at h
    split at h
    · rename_i hc
      cases h
      simp only [Bool.and_eq_true, List.all_eq_true, bne_iff_ne] at hc
      refine .start s i call hc.1 ?_
      intro bt hb
      have := hc.2
      rw [hb] at this
      simpa [ownBase] using this
    · cases h
  | go i =>
    simp only [Sys.move] at h
    split at h
    · rename_i id k hp
      split at h
      · rename_i hf
        cases h
        exact .act s i _ _ _ _ _ hp (.lock id k _) (.locked s id hf)
      · cases h
    · rename_i id c k hp
      cases h
      exact .act s i _ _ _ _ _ hp (.store id c k) (.stored s id c)
    · rename_i id k hp
      cases h
      exact .act s i _ _ _ _ _ hp (.unlock id k) (.unlocked s id)
    · rename_i r k hp
      cases h
      exact .act s i _ _ _ _ _ hp (.send r k) (.sent s r)
    · cases h
  | clock i t =>
    simp only [Sys.move] at h
    split at h
    · rename_i k hp
      cases h
      exact .act s i _ _ _ _ _ hp (.now k t) (.clock s t)
    · cases h
  | status i n =>
    simp only [Sys.move] at h
    split at h
    · rename_i k hp
      cases h
      exact .act s i _ _ _ _ _ hp (.recv k n) (.status s n)
    · cases h
  | body i t =>
    simp only [Sys.move] at h
    split at h
    · rename_i k hp
      cases h
      exact .act s i _ _ _ _ _ hp (.text k t) (.body s t)
    · cases h
  | finish i =>
    simp only [Sys.move] at h
    split at h
    · rename_i r hp
      cases h
      exact .finish s i r hp
    · cases h
  | cancel i =>
    simp only [Sys.move] at h
    split at h
    · rename_i p hp
      split at h
      · rename_i ha
        cases h
        exact .cancel s i p hp ha
      · cases h
    · cases h

/-- Carry out a schedule. -/
def Sys.exec (env : Env) (base : Nat → Str) : Sys → List Move → Option Sys
  | s, [] => some s
  | s, m :: ms => (s.move env base m).bind fun s' => s'.exec env base ms

theorem exec_reach {env : Env} {base : Nat → Str} {s s' : Sys} {ms : List Move} (hs : Sys.Reach env base s)
    (h : s.exec env base ms = some s') : Sys.Reach env base s' := by
  induction ms generalizing s with
  | nil => cases h; exact hs
  | cons m ms ih =>
    simp only [Sys.exec] at h
    cases hm : s.move env base m with
    | none => rw [hm] at h; cases h
    | some s1 =>
      rw [hm] at h
      exact ih (.step _ _ hs (move_step hm)) h

/-- A schedule from the beginning leads to a state with the property `P`. -/
def Leads (env : Env) (base : Nat → Str) (ms : List Move) (P : Sys → Bool) : Bool :=
  match Sys.init.exec env base ms with
  | some s => P s
  | none => false

theorem leads_reach {env : Env} {base : Nat → Str} {ms : List Move} {P : Sys → Bool} (h : Leads env base ms P = true) :
    ∃ s, Sys.Reach env base s ∧ P s = true := by
  unfold Leads at h
  cases hs : Sys.init.exec env base ms with
  | none => rw [hs] at h; cases h
  | some s => rw [hs] at h; exact ⟨s, exec_reach .init hs, h⟩

end CSS
