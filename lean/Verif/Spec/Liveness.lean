import Verif.Spec.Concurrent
/-
Infinite histories of concurrent calls.
-/
namespace CSS.Spec

/-- Call `i` can go on: it can take a step of its own or return. (Waiting for the answer of a server counts: the server may
answer or the connection may break.) -/
def CanGo (env : Env) (base : Nat → Str) (s : Sys) (i : Nat) : Prop :=
  ∃ s' e, Sys.Step env base s s' ∧ s'.trace = s.trace ++ [e] ∧ ((∃ x, e = .did i x) ∨ ∃ r, e = .returned i r)

/-- An infinite history, from any state that can be reached. Between two states there is one step of the system, or
nothing happens. -/
structure History (env : Env) (base : Nat → Str) (σ : Nat → Sys) : Prop where
  begins : Sys.Reach env base (σ 0)
  next : ∀ n, σ (n + 1) = σ n ∨ Sys.Step env base (σ n) (σ (n + 1))

/-- Fairness of the scheduler, the servers and the lock: a call that can go on again and again does so (or is dropped)
sooner or later. For a call that waits for a lock this says that it is not overtaken forever when the lock becomes free
(`tokio::sync::Mutex` is first come, first served); for one that waits for a server, that the server answers or the
connection breaks. -/
def Fair (env : Env) (base : Nat → Str) (σ : Nat → Sys) : Prop :=
  ∀ i n, (∀ m, n ≤ m → ∃ k, m ≤ k ∧ CanGo env base (σ k) i) →
    ∃ k e, n ≤ k ∧ (σ (k + 1)).trace = (σ k).trace ++ [e] ∧ e.call = i

/-- The requests that were sent. -/
def sentIn (h : List Ev) : List Request :=
  h.filterMap fun
    | .sent r => some r
    | _ => none

/-- Some steps of the system, one after the other, during which no call is started. -/
inductive Continues (env : Env) (base : Nat → Str) : Nat → Sys → Sys → Prop where
  | refl (s : Sys) : Continues env base 0 s s
  | step {n : Nat} {s s' s'' : Sys} : Continues env base n s s' → Sys.Step env base s' s'' →
    (∀ i call, s''.trace ≠ s'.trace ++ [.started i call]) → Continues env base (n + 1) s s''

end CSS.Spec
