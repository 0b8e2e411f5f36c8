import Verif.Model.ImageUploader
import Verif.Spec.Form
/-
When the example server with a service account can do its work.
-/
namespace CSS.Spec.ImageUploader
open CSS.ImageUploader CSS.Spec

/-- The private key in `pem` can be read and used: it signs every message. -/
def UsableKey (env : Env) (pem : Str) : Prop :=
  ∃ der, env.pemParse pem = some der ∧ env.rsaFromPkcs8 der = true ∧ ∀ message, ∃ signature, env.rsaSign der message = some signature

/-- A clock between 1970 and the last minute of 9999 that, from one reading to the next, goes on by less than a minute and goes back by
less than a week minus a minute. -/
def SteadyClock (env : Env) : Prop :=
  ∀ k, 0 ≤ env.now k ∧ env.now k + 60 * 1000000000 < endOf9999 ∧ env.now (k + 1) < env.now k + 60 * 1000000000 ∧
    env.now k + 60 * 1000000000 ≤ env.now (k + 1) + 604800 * 1000000000

end CSS.Spec.ImageUploader
