import Verif.Spec.Concurrent
import Verif.Spec.Storage
/-
What the calls of a history asked the signing service to sign, and what they return if it answers.
-/
namespace CSS.Spec

/-- Call `i` has asked the signing service to sign the text. -/
def Asked (trace : List Event) (i : Nat) (text : Str) : Prop :=
  ∃ email token body payload, .did i (.sent (signBlobPost email token body)) ∈ trace ∧
    JsonText (.obj [(s% "payload", .str payload)]) body ∧ base64Decode payload = some (utf8 text)

/-- What call `i` returns if the signing service answers it at once. -/
def WouldReturn (env : Env) (base : Nat → Str) (trace : List Event) (i : Nat) (result : ApiResult) : Prop :=
  ∃ pre r post s' answer, trace = pre ++ .did i (.sent r) :: post ∧ Sys.Reach env base s' ∧
    s'.trace = pre ++ [.did i (.sent r), .did i (.status (some 200)), .did i (.body (some answer)), .returned i result]

end CSS.Spec
