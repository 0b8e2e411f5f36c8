import Verif.Model.Concurrent
/-
The lock of a bound token with its queue.

`Model/Concurrent.lean` lets any call that waits for a free lock have it. The lock of the code is a `tokio::sync::Mutex`
(src/private/bound_token.rs:60, :73), taken with `lock().await` (src/private/bound_token.rs:79). Its documentation promises
that it is first in, first out: calls get the lock in the order in which they asked for it. This file adds that queue.
-/
namespace CSS

/-- The state of the system with, for each lock, the calls that have asked for it and do not have it yet, the first one
first (src/private/bound_token.rs:60, :79). -/
structure FifoSys where
  sys : Sys
  queue : Nat → List Nat

/-- Nothing cached, nothing running, nobody waiting (src/private/bound_token.rs:65-76). -/
def FifoSys.init : FifoSys := ⟨Sys.init, fun _ => []⟩

/-- One step of the system with queues (src/private/bound_token.rs:79). A call that has come to `lock().await` first asks
for the lock, which puts it at the end of the queue; it is given the lock when it is the first in the queue and the lock is
free. (A call that finds a free lock and an empty queue gets the lock at once: it asks, and takes it with the next step.)
A call that is dropped leaves the queue. All other steps are those of `Sys.Step` and leave the queues as they are. -/
inductive FifoSys.Step (env : Env) (base : Nat → Str) : FifoSys → FifoSys → Prop where
  | ask (f : FifoSys) (i id : Nat) (k : Option Cached → Prog ApiResult) : f.sys.calls i = some (.lock id k) →
      i ∉ f.queue id → Step env base f { f with queue := fun x => if x = id then f.queue id ++ [i] else f.queue x }
  | take (f : FifoSys) (s' : Sys) (i id : Nat) (c : Option Cached) (rest : List Nat) : f.queue id = i :: rest →
      Sys.Step env base f.sys s' → s'.trace = f.sys.trace ++ [.did i (.locked id c)] →
      Step env base f ⟨s', fun x => if x = id then rest else f.queue x⟩
  | drop (f : FifoSys) (s' : Sys) (i : Nat) : Sys.Step env base f.sys s' → s'.trace = f.sys.trace ++ [.cancelled i] →
      Step env base f ⟨s', fun x => (f.queue x).filter (· ≠ i)⟩
  | other (f : FifoSys) (s' : Sys) (e : Event) : Sys.Step env base f.sys s' → s'.trace = f.sys.trace ++ [e] →
      (∀ i id c, e ≠ .did i (.locked id c)) → (∀ i, e ≠ .cancelled i) → Step env base f ⟨s', f.queue⟩

/-- The states that some schedule reaches (src/private/bound_token.rs:79). -/
inductive FifoSys.Reach (env : Env) (base : Nat → Str) : FifoSys → Prop where
  | init : Reach env base FifoSys.init
  | step (f f' : FifoSys) : Reach env base f → FifoSys.Step env base f f' → Reach env base f'

end CSS
