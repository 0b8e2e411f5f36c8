import Verif.Spec.Concurrent
/-
The vocabulary for how often tokens are fetched.
-/
namespace CSS.Spec

/-- How many tokens the metadata server has given for the key `id`, to all calls together. -/
def tokensGot (id : Nat) (trace : List Event) : Nat :=
  trace.countP fun
    | .did _ (.stored j _) => decide (j = id)
    | _ => false

/-- The clock readings in a history of a call. -/
def readings (h : List Ev) : List Time :=
  h.filterMap fun
    | .clock t => some t
    | _ => none

/-- The clock does not go back while a call runs. -/
def SteadyClock (trace : List Event) : Prop := ∀ i, (readings (did trace i)).Pairwise (· ≤ ·)

end CSS.Spec
