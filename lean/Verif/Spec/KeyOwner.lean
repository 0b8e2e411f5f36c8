import Verif.Spec.Concurrent
import Verif.Spec.Rsa
/-
Who owns a signing key, in a history of concurrent calls: the account whose public key verifies what is signed with it. For a
service account key this is a matter of the RSA implementation; for a bound-token key, of the metadata server (which account it
names) and of the signing service (with which private key it signs).
-/
namespace CSS.Spec

/-- The signing service signs for the account with the private key of `(n, e)`: whenever a call asked it, as this account, for
the signature of a message, and the answer was a success with a signature, the signature verifies. -/
def ServiceSigns (trace : List Event) (account : Str) (n e : Nat) : Prop :=
  ∀ i token body payload message status text blob signature,
    [.sent (signBlobPost account token body), .status (some status), .body (some text)] <:+: did trace i →
    200 ≤ status → status ≤ 299 → JsonText (.obj [(s% "payload", .str payload)]) body → base64Decode payload = some message →
    SignBlobText text blob → base64Decode blob = some signature → Rsa.Verifies n e message signature

/-- The account owns the key, and its public key is `(n, e)`: it is the account of the service account key, the RSA
implementation is right and the key file has this public key; or every refresh of the bound token got this account from the
metadata server, and the signing service signs for it with the private key of `(n, e)`. (HMAC keys sign nothing.) -/
def KeyOwner (env : Env) (base : Nat → Str) (trace : List Event) (key : SigningKey) (account : Str) (n e : Nat) : Prop :=
  match key with
  | .serviceAccount email pem =>
    email = account ∧ Rsa.Correct env ∧ ∃ der, env.pemParse pem = some der ∧ Rsa.PublicKeyIn der n e
  | .boundToken bt =>
    (∀ j c t0 life, Refreshed (base bt.id) trace j bt.id c t0 life → c.email = account) ∧ ServiceSigns trace account n e
  | .hmac _ _ => False

/-- A call was started as `call` and has returned `result`, after the steps `h` of its own. -/
def ReturnedAfter (trace : List Event) (call : ApiCall) (result : ApiResult) (h : List Ev) : Prop :=
  ∃ i pre post, trace = pre ++ .returned i result :: post ∧ .started i call ∈ pre ∧ did pre i = h

end CSS.Spec
