import Verif.Model.FifoLock
import Verif.Spec.Liveness
/-
Histories of the system whose locks are first come, first served.
-/
namespace CSS.Spec

/-- Call `i` asks for a lock and so enters its queue. -/
def Asks (f f' : FifoSys) (i : Nat) : Prop := ∃ id, i ∉ f.queue id ∧ i ∈ f'.queue id

/-- Call `i` did something between two states: there is a new event of the call, or it asked for a lock. -/
def Moved (f f' : FifoSys) (i : Nat) : Prop :=
  (∃ e, f'.sys.trace = f.sys.trace ++ [e] ∧ e.call = i) ∨ Asks f f' i

/-- Call `i` can go on: it can take a step of its own, return, or ask for a lock. -/
def FifoCanGo (env : Env) (base : Nat → Str) (f : FifoSys) (i : Nat) : Prop :=
  ∃ f', FifoSys.Step env base f f' ∧
    ((∃ x, f'.sys.trace = f.sys.trace ++ [.did i x]) ∨ (∃ r, f'.sys.trace = f.sys.trace ++ [.returned i r]) ∨ Asks f f' i)

/-- An infinite history of the system with queues. -/
structure FifoHistory (env : Env) (base : Nat → Str) (σ : Nat → FifoSys) : Prop where
  begins : FifoSys.Reach env base (σ 0)
  next : ∀ n, σ (n + 1) = σ n ∨ FifoSys.Step env base (σ n) (σ (n + 1))

/-- Weak fairness: a call that from some moment on can go on at every moment does something sooner or later. It is asked
only of the scheduler, which runs every task that is ready, and of the servers, which answer or break the connection;
nothing is asked of the locks. -/
def WeaklyFair (env : Env) (base : Nat → Str) (σ : Nat → FifoSys) : Prop :=
  ∀ i n, (∀ m, n ≤ m → FifoCanGo env base (σ m) i) → ∃ k, n ≤ k ∧ Moved (σ k) (σ (k + 1)) i

/-- Some steps of the system with queues, one after the other, with the events that they add to the history. -/
inductive FifoRun (env : Env) (base : Nat → Str) : FifoSys → List Event → FifoSys → Prop where
  | refl (f : FifoSys) : FifoRun env base f [] f
  | step {f f' f'' : FifoSys} {more new : List Event} : FifoRun env base f more f' → FifoSys.Step env base f' f'' →
      f''.sys.trace = f'.sys.trace ++ new → FifoRun env base f (more ++ new) f''

/-- How often the lock `id` was taken. -/
def timesTaken (id : Nat) (events : List Event) : Nat :=
  (events.filter fun
    | .did _ (.locked id' _) => id' == id
    | _ => false).length

end CSS.Spec
