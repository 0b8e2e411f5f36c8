import Verif.Model.HtmlForm
import Verif.Spec.Json
/-
What a form should contain, stated on the sequence of builder calls and on decoded JSON.
-/
namespace CSS.Spec

/-- The form field a single-valued setter sets, and to which value. -/
def callSets : Call → Option (Str × Str)
  | .acl v => some (s% "acl", v)
  | .bucket v => some (s% "bucket", v)
  | .cacheControl v => some (s% "Cache-Control", v)
  | .contentDisposition v => some (s% "Content-Disposition", v)
  | .contentEncoding v => some (s% "Content-Encoding", v)
  | .contentLength n => some (s% "Content-Length", natDec n)
  | .contentType v => some (s% "Content-Type", v)
  | .expires v => some (s% "Expires", v)
  | .key v => some (s% "key", v)
  | .successActionRedirect v => some (s% "success_action_redirect", v)
  | .successActionStatus n => some (s% "success_action_status", natDec n)
  | .xGoogCustomTime v => some (s% "x-goog-custom-time", v)
  | .policyDocumentSigningOptions _ => none
  | .xGoogMeta _ _ => none

/-- The metadata entry a call adds. -/
def callMeta : Call → Option (Str × Str)
  | .xGoogMeta n v => some (n, v)
  | _ => none

/-- The signing options a call sets. -/
def callOptions : Call → Option SigningOptions
  | .policyDocumentSigningOptions o => some o
  | _ => none

/-- The value of the last call that sets the field `name`. -/
def lastValue (cs : List Call) (name : Str) : Option Str :=
  (((cs.filterMap callSets).filter fun p => p.1 = name).getLast?).map (·.2)

/-- The documented order of the single-valued fields. -/
def fieldOrder : List Str :=
  [s% "acl", s% "bucket", s% "Cache-Control", s% "Content-Disposition", s% "Content-Encoding",
   s% "Content-Length", s% "Content-Type", s% "Expires", s% "key", s% "success_action_redirect",
   s% "success_action_status", s% "x-goog-custom-time"]

/-- The fields of a form without policy: set fields in documented order, then the metadata in call
order. -/
def unsignedForm (cs : List Call) : List (Str × Str) :=
  (fieldOrder.filterMap fun n => (lastValue cs n).map fun v => (n, v)) ++
    (cs.filterMap callMeta).map fun m => (s% "x-goog-meta-" ++ m.1, m.2)

/-- The name of the setter that a call invokes. -/
def setter : Call → Str
  | .acl _ => s% "acl"
  | .bucket _ => s% "bucket"
  | .cacheControl _ => s% "cache_control"
  | .contentDisposition _ => s% "content_disposition"
  | .contentEncoding _ => s% "content_encoding"
  | .contentLength _ => s% "content_length"
  | .contentType _ => s% "content_type"
  | .expires _ => s% "expires"
  | .key _ => s% "key"
  | .policyDocumentSigningOptions _ => s% "policy_document_signing_options"
  | .successActionRedirect _ => s% "success_action_redirect"
  | .successActionStatus _ => s% "success_action_status"
  | .xGoogCustomTime _ => s% "x_goog_custom_time"
  | .xGoogMeta _ _ => s% "x_goog_meta"

/-- `["eq", "$name", value]` -/
def eqCond (name value : Str) : Json := .arr [.str (s% "eq"), .str ('$' :: name), .str value]
/-- `["content-length-range", n, n]` for the literal `n` -/
def lengthCond (n : Str) : Json := .arr [.str (s% "content-length-range"), .num n, .num n]

/-- The condition that pins a form field. -/
def pinning (f : Str × Str) : Json :=
  if f.1 = s% "Content-Length" then lengthCond f.2 else eqCond f.1 f.2

/-- The JSON document `{"conditions": [...], "expiration": "..."}`. -/
def policyJson (conditions : List Json) (expiration : Str) : Json :=
  .obj [(s% "conditions", .arr conditions), (s% "expiration", .str expiration)]

/-- A policy field value `p` carries the JSON document `j`: base64 of the UTF-8 bytes of a text whose
(only) JSON value is `j`. -/
def CarriesJson (p : Str) (j : Json) : Prop :=
  ∃ text, base64Decode p = some (utf8 text) ∧ JsonText j text

/-- The values of the form fields called `name`. -/
def fieldValues (fs : List (Str × Str)) (name : Str) : List Str :=
  (fs.filter fun f => f.1 = name).map (·.2)

/-- The form fields that the policy does not talk about. -/
def exempt (name : Str) : Prop := name = s% "policy" ∨ name = s% "x-goog-signature"
instance (n : Str) : Decidable (exempt n) := by unfold exempt; infer_instance

/-- The instant a signed form becomes valid: the given one, or the clock at the start of the call. -/
def validFrom (env : Env) (given : Option Time) (w : World) : Time := given.getD (env.now w.ticks)

/-- 10000-01-01T00:00:00Z in nanoseconds since the epoch. -/
def endOf9999 : Time := 253402300800 * 1000000000

/-- Whether the key is an HMAC key. -/
def isHmac : SigningKey → Bool
  | .hmac _ _ => true
  | _ => false

/-- Why a form with signing options `o`, valid from the instant `t`, is rejected outright: the first of
these that applies. -/
def formRejection (cs : List Call) (o : SigningOptions) (t : Time) : Option FormError :=
  if o.expiration ≤ t then some .expirationBeforeAccessibleAt
  else if t < 0 ∨ endOf9999 ≤ t then some .accessibleAtOutOfRange
  else if endOf9999 ≤ o.expiration then some .expirationOutOfRange
  else if lastValue cs (s% "bucket") = none then some .bucketNotFound
  else if lastValue cs (s% "key") = none then some .keyNotFound
  else if isHmac o.signingKey then some .xGoogAlgorithmNotSupported
  else none

end CSS.Spec
