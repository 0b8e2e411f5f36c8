import Verif.Spec.Liveness
import Verif.Spec.Rate
/-
The vocabulary for calls that are made alone, and for comparing them with calls in a history.
-/
namespace CSS.Spec

/-- The call made alone: its result and the world after it. -/
def alone (env : Env) : ApiCall → World → ApiResult × World
  | .url o, w => (.url (buildSignedUrl env o w).1, (buildSignedUrl env o w).2)
  | .form cs, w => (.form ((Builder.ofCalls cs).build env w).1, ((Builder.ofCalls cs).build env w).2)

/-- The clock and the network of `env` show, from the world `w` on, just what a call with the history `h` saw: the `k`-th
reading of the clock, and the `k`-th request got no response, or got the status and the text (or the failure to read it)
that the network gives; and there were no other answers. -/
structure Shows (env : Env) (w : World) (h : List Ev) : Prop where
  clock : ∀ k t, (readings h)[k]? = some t → env.now (w.ticks + k) = t
  answers : ∀ a r b, h = a ++ .sent r :: b →
    (env.net (w.log.length + (sentIn a).length) r = .execErr ∧ ∃ rest, b = .status none :: rest) ∨
    ∃ status text rest, env.net (w.log.length + (sentIn a).length) r = .response status text ∧
      b = .status (some status) :: .body text :: rest
  statuses : ∀ a s b, h = a ++ .status s :: b → ∃ a' r, a = a' ++ [.sent r]
  texts : ∀ a t b, h = a ++ .body t :: b → ∃ a' r s, a = a' ++ [.sent r, .status (some s)]

/-- The part of a history that call `i` makes if nothing else happens from its start to its end. -/
def solo (i : Nat) (call : ApiCall) (h : List Ev) (r : ApiResult) : List Event :=
  .started i call :: h.map (.did i) ++ [.returned i r]

/-- A history in which the calls `n`, `n + 1`, ... are made one after the other and return `rs`. -/
inductive OneByOne : Nat → List ApiCall → List ApiResult → List Event → Prop where
  | nil (n : Nat) : OneByOne n [] [] []
  | cons (n : Nat) (call : ApiCall) (h : List Ev) (r : ApiResult) {calls : List ApiCall} {rs : List ApiResult}
      {trace : List Event} : OneByOne (n + 1) calls rs trace → OneByOne n (call :: calls) (r :: rs) (solo n call h r ++ trace)

/-- The same, where each call gives the result, sends the requests and changes the world as it does when it is made
alone in the world that the calls before it left, and sees the clock and the network of `env`. -/
inductive AsAlone (env : Env) : Nat → World → List ApiCall → List ApiResult → List Event → World → Prop where
  | nil (n : Nat) (w : World) : AsAlone env n w [] [] [] w
  | cons (n : Nat) {w w1 w2 : World} {call : ApiCall} {h : List Ev} {r : ApiResult} {calls : List ApiCall}
      {rs : List ApiResult} {trace : List Event} : alone env call w = (r, w1) → Shows env w h → w1.log = w.log ++ sentIn h →
      AsAlone env (n + 1) w1 calls rs trace w2 → AsAlone env n w (call :: calls) (r :: rs) (solo n call h r ++ trace) w2

/-- The world in which the caches are as after this history, and nothing was sent and no clock was read yet. -/
def worldAfter (trace : List Event) : World := ⟨fun id => cacheOf id trace, 0, [], 0⟩

end CSS.Spec
