import Verif.Spec.Token
import Verif.Spec.Form
import Verif.Spec.Url
import Verif.Spec.Concurrent
/-
What the message of a failed call says: for every message that a user may see, the circumstance that it reports. Texts
that end in the text of another crate's error have an arbitrary end here (`s`).
-/
namespace CSS.Spec

/-- The last request of `log`, number `k`, is `r`, and it was sent by the call that began when `n` had been sent. -/
def LastSent (log : List Request) (n k : Nat) (r : Request) : Prop :=
  n ≤ k ∧ log.length = k + 1 ∧ log[k]? = some r

/-- The request called `name` in messages, `r`, failed, and `log` is what had been sent by then: the messages. -/
inductive RequestFailed (env : Env) (log : List Request) (n : Nat) (name : Str) (r : Request) : Str → Prop
  | build (s : Str) : env.canBuild r = false →
      RequestFailed env log n name r (s% "bound token / " ++ name ++ s% " request / build error: " ++ s)
  | execute (k : Nat) (s : Str) : LastSent log n k r → env.net k r = .execErr →
      RequestFailed env log n name r (s% "bound token / " ++ name ++ s% " request / execute error: " ++ s)
  | errorResponse (k status : Nat) (s : Str) : LastSent log n k r → ¬ (200 ≤ status ∧ status ≤ 299) →
      env.net k r = .response status none →
      RequestFailed env log n name r (s% "bound token / " ++ name ++ s% " request / error response error: " ++ s)
  | status (k status : Nat) (body digits : Str) : LastSent log n k r → ¬ (200 ≤ status ∧ status ≤ 299) →
      env.net k r = .response status (some body) → Decimal digits status →
      RequestFailed env log n name r
        (s% "bound token / " ++ name ++ s% " request / status error: " ++ digits ++ s% " " ++ body)
  | successResponse (k status : Nat) (s : Str) : LastSent log n k r → 200 ≤ status → status ≤ 299 →
      env.net k r = .response status none →
      RequestFailed env log n name r (s% "bound token / " ++ name ++ s% " request / success response error: " ++ s)

/-- The key could not get an e-mail and a token from the metadata server at `base`: the messages. -/
inductive TokenFailed (env : Env) (log : List Request) (n : Nat) (base : Str) : Str → Prop
  | email (why : Str) : RequestFailed env log n (s% "email") (metadataGet (emailUrl base)) why →
      TokenFailed env log n base why
  | token (why : Str) : RequestFailed env log n (s% "token") (metadataGet (tokenUrl base)) why →
      TokenFailed env log n base why
  | unreadable (k : Nat) (body s : Str) : LastSent log n k (metadataGet (tokenUrl base)) →
      Answered env log k (metadataGet (tokenUrl base)) body → (¬ ∃ token life type, TokenText body token life type) →
      TokenFailed env log n base (s% "bound token / token request / success response deserialize error: " ++ s)
  | type (k : Nat) (body token : Str) (life : Nat) (type : Str) : LastSent log n k (metadataGet (tokenUrl base)) →
      Answered env log k (metadataGet (tokenUrl base)) body → TokenText body token life type → type ≠ s% "Bearer" →
      TokenFailed env log n base (s% "bound token / token request / invalid token_type error: " ++ type)

/-- The IAM service did not sign `message`: the messages. -/
inductive BlobFailed (env : Env) (log : List Request) (n : Nat) (message : Bytes) : Str → Prop
  | request (email token payload body why : Str) : JsonText (.obj [(s% "payload", .str payload)]) body →
      base64Decode payload = some message →
      RequestFailed env log n (s% "signBlob") (signBlobPost email token body) why →
      BlobFailed env log n message why
  | unreadable (k : Nat) (email token payload body answer s : Str) : JsonText (.obj [(s% "payload", .str payload)]) body →
      base64Decode payload = some message → LastSent log n k (signBlobPost email token body) →
      Answered env log k (signBlobPost email token body) answer → (¬ ∃ blob, SignBlobText answer blob) →
      BlobFailed env log n message (s% "bound token / signBlob request / success response deserialize error: " ++ s)
  | base64 (k : Nat) (email token payload body answer blob s : Str) :
      JsonText (.obj [(s% "payload", .str payload)]) body → base64Decode payload = some message →
      LastSent log n k (signBlobPost email token body) → Answered env log k (signBlobPost email token body) answer →
      SignBlobText answer blob → base64Decode blob = none →
      BlobFailed env log n message (s% "bound token / signBlob request / success response base64 decode error: " ++ s)

/-- The key did not sign `message`: the messages. -/
inductive SigningFailed (env : Env) (log : List Request) (n : Nat) (useSignBlob : Bool) (message : Bytes) :
    SigningKey → Str → Prop
  | mustUseSignBlob (bt : BoundToken) : useSignBlob = false →
      SigningFailed env log n useSignBlob message (.boundToken bt) (s% "bound token must use sign blob")
  | token (bt : BoundToken) (why : Str) : useSignBlob = true → TokenFailed env log n bt.baseUrl why →
      SigningFailed env log n useSignBlob message (.boundToken bt) (s% "bound token signing error: " ++ why)
  | blob (bt : BoundToken) (why : Str) : useSignBlob = true → BlobFailed env log n message why →
      SigningFailed env log n useSignBlob message (.boundToken bt) (s% "bound token signing error: " ++ why)
  | pem (email pem s : Str) : env.pemParse pem = none →
      SigningFailed env log n useSignBlob message (.serviceAccount email pem)
        (s% "service account private key pem parsing error: " ++ s)
  | pkcs8 (email pem s : Str) (der : Bytes) : env.pemParse pem = some der → env.rsaFromPkcs8 der = false →
      SigningFailed env log n useSignBlob message (.serviceAccount email pem)
        (s% "service account private key pkcs8 parsing error: " ++ s)
  | rsa (email pem s : Str) (der : Bytes) : env.pemParse pem = some der → env.rsaFromPkcs8 der = true →
      env.rsaSign der message = none →
      SigningFailed env log n useSignBlob message (.serviceAccount email pem) (s% "service account signing error: " ++ s)

/-- `build_signed_url(o)` failed, for a URL valid from `t`; it began when `n` requests had been sent and ended with the
log `log`: the messages. -/
inductive UrlFailed (env : Env) (log : List Request) (n : Nat) (o : UrlOptions) (t : Time) : Str → Prop
  | now : (t < 0 ∨ endOf9999 ≤ t) → UrlFailed env log n o t (s% "now out of range")
  | expiration : (o.expires < t ∨ 9223372036854775807 < (o.expires - t) / 1000000000) →
      UrlFailed env log n o t (s% "expiration out of range")
  | lifetime (secs : Nat) (digits : Str) : 604800 < secs → (secs : Int) = (o.expires - t) / 1000000000 →
      Decimal digits secs → UrlFailed env log n o t (s% "out of range (0..=604800) : " ++ digits)
  | method : o.httpMethod ∉ [s% "DELETE", s% "GET", s% "HEAD", s% "POST", s% "PUT"] →
      UrlFailed env log n o t (s% "invalid http verb: " ++ o.httpMethod)
  | tooLong : 65534 < (utf8 (userUrl env o)).length → UrlFailed env log n o t (s% "uri too long")
  | headerName (h : Str × Str) : h ∈ o.headers → ¬ (h.1 ≠ [] ∧ (∀ c ∈ h.1, c ∈ tokenChars) ∧ h.1.length ≤ 65535) →
      UrlFailed env log n o t (s% "invalid HTTP header name")
  | headerValue (h : Str × Str) : h ∈ o.headers → (∃ c ∈ h.2, c ≠ '\t' ∧ (c.toNat < 32 ∨ c.toNat = 127)) →
      UrlFailed env log n o t (s% "failed to parse header value")
  | notPlain (h : Str × Str) : h ∈ o.headers → ¬ PlainValue h.2 →
      UrlFailed env log n o t (s% "header value contains non visible ascii characters")
  | authorizer (bt : BoundToken) (why : Str) : o.signingKey = .boundToken bt → TokenFailed env log n bt.baseUrl why →
      UrlFailed env log n o t (s% "signing error: bound token authorizer error: " ++ why)
  | signing (message : Bytes) (why : Str) : SigningFailed env log n o.useSignBlob message o.signingKey why →
      UrlFailed env log n o t (s% "signing error: " ++ why)

/-- `build` of a form after the calls `cs` with the signing options `o` failed: the messages. -/
inductive FormFailed (env : Env) (log : List Request) (n : Nat) (cs : List Call) (o : SigningOptions) (t : Time) : Str → Prop
  | before : o.expiration ≤ t → FormFailed env log n cs o t (s% "expiration before accessible_at")
  | accessibleAt : (t < 0 ∨ endOf9999 ≤ t) → FormFailed env log n cs o t (s% "accessible_at out of range")
  | expiration : endOf9999 ≤ o.expiration → FormFailed env log n cs o t (s% "expiration out of range")
  | bucket : lastValue cs (s% "bucket") = none → FormFailed env log n cs o t (s% "bucket not found")
  | key : lastValue cs (s% "key") = none → FormFailed env log n cs o t (s% "key not found")
  | algorithm (accessId secret : Str) : o.signingKey = .hmac accessId secret →
      FormFailed env log n cs o t (s% "x-goog-algorithm not supported")
  | metaName (m : Str × Str) : m ∈ cs.filterMap callMeta → m.1 = [] →
      FormFailed env log n cs o t (s% "x-goog-meta-* field name is empty")
  | authorizer (bt : BoundToken) (why : Str) : o.signingKey = .boundToken bt → TokenFailed env log n bt.baseUrl why →
      FormFailed env log n cs o t (s% "bound token authorizer: bound token authorizer error: " ++ why)
  | signing (message : Bytes) (why : Str) : SigningFailed env log n o.useSignBlob message o.signingKey why →
      FormFailed env log n cs o t why

end CSS.Spec
