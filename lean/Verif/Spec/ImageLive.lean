import Verif.Model.ImageUploader
import Verif.Spec.Liveness
/-
Infinite histories of the example server.
-/
namespace CSS.Spec.ImageUploader
open CSS.ImageUploader

/-- The handler has answered, has panicked, or was dropped because the client went away. -/
def Finished (t : Task) : Prop := (∃ r, t = .replied r) ∨ t = .dropped

/-- What can happen next to the server: `received`, a step of the handler of request `i`, or that this handler is dropped. (The
cases of `Run`, without steps of handlers that have finished.) -/
inductive ServerMove where
  | received
  | worked (i : Nat)
  | dropped (i : Nat)
  deriving DecidableEq

inductive Moves (crate : Crate) (cfg : Config) : ServerMove → State → State → Prop where
  | receive {s : State} (r : Req) : Moves crate cfg .received s { s with tasks := s.tasks ++ [(r, r.task)] }
  | step {s : State} (i : Nat) (r : Req) (t : Task) (uuid : Str) (form : Res Failure (List (Str × Str))) (url : Res Failure Str) :
      s.tasks[i]? = some (r, t) → ¬ Finished t → IsUuid uuid → crate.Gives uuid form url t →
      Moves crate cfg (.worked i) s
        ⟨(t.step cfg uuid s.images form url).2, s.tasks.set i (r, (t.step cfg uuid s.images form url).1)⟩
  | drop {s : State} (i : Nat) (r : Req) (t : Task) : s.tasks[i]? = some (r, t) → ¬ Finished t →
      Moves crate cfg (.dropped i) s { s with tasks := s.tasks.set i (r, .dropped) }

/-- Some moves, one after the other, of which `n` are steps of the handler of request `i`. -/
inductive Worked (crate : Crate) (cfg : Config) (i : Nat) : Nat → State → State → Prop where
  | refl (s : State) : Worked crate cfg i 0 s s
  | own {n : Nat} {s s' s'' : State} : Worked crate cfg i n s s' → Moves crate cfg (.worked i) s' s'' → Worked crate cfg i (n + 1) s s''
  | other {n : Nat} {s s' s'' : State} (m : ServerMove) : Worked crate cfg i n s s' → Moves crate cfg m s' s'' → m ≠ .worked i →
      Worked crate cfg i n s s''

/-- An infinite history of the server, from any state that it can reach. -/
structure ServerHistory (crate : Crate) (cfg : Config) (σ : Nat → State) : Prop where
  begins : ∃ events, Run crate cfg events (σ 0)
  next : ∀ n, σ (n + 1) = σ n ∨ ∃ m, Moves crate cfg m (σ n) (σ (n + 1))

/-- The runtime runs every handler again and again, and the calls of the crate return (C78): a handler that has not finished takes its
next step or is dropped sooner or later. -/
def ServerFair (crate : Crate) (cfg : Config) (σ : Nat → State) : Prop :=
  ∀ i n r t, (σ n).tasks[i]? = some (r, t) → ¬ Finished t →
    ∃ k, n ≤ k ∧ (Moves crate cfg (.worked i) (σ k) (σ (k + 1)) ∨ Moves crate cfg (.dropped i) (σ k) (σ (k + 1)))

/-- The server in a process with the calls `calls`: at any time a handler that has not finished is run again sooner or later (it takes its
next step or is dropped), or it waits for a call that is running. When that call returns, or is dropped together with the
handler, the handler is run again. -/
def ServedWith (calls : Nat → Sys) (crate : Crate) (cfg : Config) (σ : Nat → State) : Prop :=
  ∀ i n r t, (σ n).tasks[i]? = some (r, t) → ¬ Finished t →
    let Run := ∃ k, n ≤ k ∧ (Moves crate cfg (.worked i) (σ k) (σ (k + 1)) ∨ Moves crate cfg (.dropped i) (σ k) (σ (k + 1)))
    Run ∨ ∃ call k, Running (calls k) call ∧
      ∀ m, k ≤ m → ((∃ result, .returned call result ∈ (calls m).trace) ∨ .cancelled call ∈ (calls m).trace) → Run

end CSS.Spec.ImageUploader
