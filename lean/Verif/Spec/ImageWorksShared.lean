import Verif.Model.ImageUploaderShared
import Verif.Spec.ImageWorks
import Verif.Spec.Recovery
/-
When the clock is good enough for the example server, in a history of concurrent calls.
-/
namespace CSS.Spec.ImageUploader
open CSS.ImageUploader CSS.Spec

/-- A call of the example server for the form or the URL of an image, started after a reading `now` of the clock. -/
inductive ServerCall (cfg : Config) (now : Time) : ApiCall → Prop
  | form (id : Str) (n : Nat) (c : Str) : ServerCall cfg now (.form (createCalls cfg id n c (now + 60000000000)))
  | url (id : Str) : ServerCall cfg now (.url (listOptions cfg id (now + 60000000000)))

/-- In this history the forms and URLs of the server end before the year 10000, and its calls begin with a reading of the clock after 1970,
less than a minute after the one of the server, and at most a week before their form or URL ends. -/
def SteadyCalls (cfg : Config) (trace : List CSS.Event) : Prop :=
  ∀ i call now t, .started i call ∈ trace → ServerCall cfg now call → (did trace i).head? = some (.clock t) →
    0 ≤ t ∧ t < now + 60000000000 ∧ now + 60000000000 < endOf9999 ∧ now + 60000000000 ≤ t + 604800000000000

/-- In this history the requests that the calls of the server send went well: metadata server and signing service answered as they should. -/
def CallsAnsweredWell (env : Env) (cfg : Config) (bt : BoundToken) (trace : List CSS.Event) : Prop :=
  ∀ i call now, .started i call ∈ trace → ServerCall cfg now call → AnsweredWell env bt.baseUrl bt.id (did trace i)

end CSS.Spec.ImageUploader
