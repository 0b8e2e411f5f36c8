import Verif.Spec.Failures
import Verif.Spec.Calls
/-
What a call with a bound token needs in order to succeed: options that are in order, and good answers to its own requests.
-/
namespace CSS.Spec

/-- The call returned a URL or a form. -/
inductive Succeeded : ApiResult → Prop
  | url (url : Str) : Succeeded (.url (.ok url))
  | form (fs : List (Str × Str)) : Succeeded (.form (.ok fs))

/-- The requests of a call with the history `h` went well: the client can build them; all were answered, with a status in
200..=299 and a complete body; the answers to token requests are token documents of type Bearer, and the answers to
signBlob requests are signBlob documents with base64 in them. -/
structure AnsweredWell (env : Env) (base : Str) (id : Nat) (h : List Ev) : Prop where
  emailBuilt : env.canBuild (metadataGet (emailUrl base)) = true
  tokenBuilt : env.canBuild (metadataGet (tokenUrl base)) = true
  blobBuilt : ∀ before email token body, before <+: h → GotPair base id before email token →
    env.canBuild (signBlobPost email token body) = true
  arrived : ∀ e ∈ h, (∀ status, e = .status status → ∃ s, status = some s ∧ 200 ≤ s ∧ s ≤ 299) ∧ e ≠ .body none
  tokens : ∀ before status doc, before ++ [.sent (metadataGet (tokenUrl base)), .status status, .body (some doc)] <+: h →
    ∃ token life, TokenText doc token life (s% "Bearer")
  blobs : ∀ before email token body status text,
    before ++ [.sent (signBlobPost email token body), .status status, .body (some text)] <+: h →
    ∃ blob signature, SignBlobText text blob ∧ base64Decode blob = some signature

/-- The options of a call with the bound token `bt` and the history `h` are in order: the signing service is to be used;
for a URL, times, method, names and headers are allowed, header values are visible ASCII, and with the parameters for the
account that the call found the URL is at most 65534 bytes long; for a form, bucket and key are set, no metadata name is
empty, and start and expiration are in this order between 1970 and 9999. -/
def CallInOrder (env : Env) (bt : BoundToken) (h : List Ev) : ApiCall → Prop
  | .url o => o.signingKey = .boundToken bt ∧ o.useSignBlob = true ∧ (∀ x ∈ o.headers, PlainValue x.2) ∧
      ∀ t, ValidFrom o.accessibleAt h t → ValidUrl env o t ∧
        ∀ before email, before <+: h → Named o.signingKey before email → ¬ TooLong env o t email
  | .form cs => ∃ o, (cs.filterMap callOptions).getLast? = some o ∧ o.signingKey = .boundToken bt ∧ o.useSignBlob = true ∧
      lastValue cs (s% "bucket") ≠ none ∧ lastValue cs (s% "key") ≠ none ∧ (∀ m ∈ cs.filterMap callMeta, m.1 ≠ []) ∧
      ∀ t, ValidFrom o.accessibleAt h t → 0 ≤ t ∧ t < o.expiration ∧ o.expiration < endOf9999

end CSS.Spec
