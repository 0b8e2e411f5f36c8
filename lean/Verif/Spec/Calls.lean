import Verif.Spec.Url
/-
Whole calls: exactly when a form or a URL is returned, what it is, and what has happened in the world by then.
-/
namespace CSS.Spec

/-- `key` names the account `email` (for a bound token after looking at the cache or asking the metadata server). -/
inductive Identifies (env : Env) (w : World) : SigningKey → Str → World → Prop
  | account (email pem : Str) : Identifies env w (.serviceAccount email pem) email w
  | accessId (accessId secret : Str) : Identifies env w (.hmac accessId secret) accessId w
  | token (bt : BoundToken) (email token : Str) (w' : World) : GetsToken env bt w email token w' →
      Identifies env w (.boundToken bt) email w'

/-- `r` asks IAM to sign `message` as `email`, with the access token `token`. -/
def SignBlobPost (email token : Str) (message : Bytes) (r : Request) : Prop :=
  ∃ payload, base64Decode payload = some message ∧ r = {
    method := s% "POST"
    url := s% "https://iamcredentials.googleapis.com/v1/projects/-/serviceAccounts/" ++ email ++ s% ":signBlob"
    headers := [(s% "authorization", s% "Bearer " ++ token), (s% "content-type", s% "application/json")]
    body := some (s% "{\"payload\":\"" ++ payload ++ s% "\"}") }

/-- `key` signs `message`: a service account key locally, if `use_sign_blob` is not set; a bound token by asking IAM, if
it is. -/
inductive KeySigns (env : Env) (w : World) : SigningKey → Bool → Bytes → Bytes → World → Prop
  | locally (email pem : Str) (der message signature : Bytes) : env.pemParse pem = some der → env.rsaFromPkcs8 der = true →
      env.rsaSign der message = some signature → KeySigns env w (.serviceAccount email pem) false message signature w
  | remotely (bt : BoundToken) (email token : Str) (w' : World) (message signature : Bytes) (r : Request) (status : Nat)
      (text blob : Str) : GetsToken env bt w email token w' → SignBlobPost email token message r → env.canBuild r = true →
      200 ≤ status → status ≤ 299 → env.net w'.log.length r = .response status (some text) →
      SignBlobText text blob → base64Decode blob = some signature →
      KeySigns env w (.boundToken bt) true message signature { w' with log := w'.log ++ [r] }

/-- `p` are the parts of the URL for the options `o`, valid from `t`, for the authorizer `email`. -/
def UrlParts (env : Env) (o : UrlOptions) (t : Time) (email : Str) (p : SignedParts) : Prop :=
  ∃ (extra goog : List (Str × Str)) (items names : List Str) (date : Str),
    FormParams (queryItems (objectParts env o).query) extra ∧ GoogParams o t email goog ∧
    List.Perm items ((extra ++ o.queryParameters ++ goog).map fun q => canonicalText q.1 ++ s% "=" ++ canonicalText q.2) ∧
    items.Pairwise (fun a b => a = b ∨ LexLt a b) ∧
    names.Pairwise LexLt ∧ (∀ name, name ∈ names ↔ ∃ x ∈ requestHeaders o, asciiLower x.1 = name) ∧
    BasicDenotes date (t / 1000000000) ∧
    p = {
      algorithm := s% "GOOG4-RSA-SHA256"
      date := date
      region := o.region.getD (s% "auto")
      method := o.httpMethod
      path := (objectParts env o).path
      pathLine := canonicalText (objectParts env o).path
      query := join (s% "&") items
      headers := names.map fun n => (n, headerValues (requestHeaders o) n) }

/-- A call of `build_signed_url` with the options `o` returns `url`, and changes the world from `w` to `w'`. -/
def ReturnsUrl (env : Env) (o : UrlOptions) (w : World) (url : Str) (w' : World) : Prop :=
  ∃ (t : Time) (email : Str) (w1 : World) (p : SignedParts) (signature : Bytes) (hex : Str),
    t = o.accessibleAt.getD (env.now w.ticks) ∧ ValidUrl env o t ∧
    Identifies env (afterStart o.accessibleAt w) o.signingKey email w1 ∧
    ¬ TooLong env o t email ∧ (∀ h ∈ o.headers, PlainValue h.2) ∧
    UrlParts env o t email p ∧
    KeySigns env w1 o.signingKey o.useSignBlob (utf8 (p.stringToSign)) signature w' ∧
    hexDecode hex = some signature ∧ url = p.url hex

/-- A text between the quotes of a JSON string: quotes, backslashes and control characters are escaped, nothing else. -/
def jsonQuoted (s : Str) : Str :=
  s.flatMap fun c =>
    if c = '"' then s% "\\\""
    else if c = '\\' then s% "\\\\"
    else if c = '\n' then s% "\\n"
    else if c = '\r' then s% "\\r"
    else if c = '\t' then s% "\\t"
    else if c.toNat = 8 then s% "\\b"
    else if c.toNat = 12 then s% "\\f"
    else if c.toNat < 32 then
      s% "\\u00" ++ [(s% "01").getD (c.toNat / 16) '0', (s% "0123456789abcdef").getD (c.toNat % 16) '0']
    else [c]

/-- The text of the condition that pins a form field. -/
def conditionText (f : Str × Str) : Str :=
  if f.1 = s% "Content-Length" then s% "[\"content-length-range\"," ++ f.2 ++ s% "," ++ f.2 ++ s% "]"
  else s% "[\"eq\",\"$" ++ jsonQuoted f.1 ++ s% "\",\"" ++ jsonQuoted f.2 ++ s% "\"]"

/-- The text of the policy document that pins the fields `fs`. -/
def policyText (fs : List (Str × Str)) (expiration : Str) : Str :=
  s% "{\"conditions\":[" ++ join (s% ",") (fs.map conditionText) ++ s% "],\"expiration\":\"" ++ expiration ++ s% "\"}"

/-- The order of the fields of a signed form. -/
def signedOrder : List Str :=
  [s% "acl", s% "bucket", s% "Cache-Control", s% "Content-Disposition", s% "Content-Encoding", s% "Content-Length",
   s% "Content-Type", s% "Expires", s% "key", s% "policy", s% "success_action_redirect", s% "success_action_status",
   s% "x-goog-algorithm", s% "x-goog-credential", s% "x-goog-custom-time", s% "x-goog-date", s% "x-goog-signature"]

/-- The fields of a signed form, given the computed ones: in order, those that were set and the computed ones; then the
metadata in call order. -/
def signedForm (cs : List Call) (computed : List (Str × Str)) : List (Str × Str) :=
  (signedOrder.filterMap fun n => ((computed.lookup n).or (lastValue cs n)).map fun v => (n, v)) ++
    (cs.filterMap callMeta).map fun m => (s% "x-goog-meta-" ++ m.1, m.2)

/-- A call of `build`, after the calls `cs` and with the signing options `o`, returns the fields `fs`, and changes the
world from `w` to `w'`. -/
def ReturnsSigned (env : Env) (cs : List Call) (o : SigningOptions) (w : World) (fs : List (Str × Str)) (w' : World) : Prop :=
  ∃ (t : Time) (email date expiration policy hex : Str) (w1 : World) (signature : Bytes),
    t = o.accessibleAt.getD (env.now w.ticks) ∧ 0 ≤ t ∧ t < o.expiration ∧ o.expiration < endOf9999 ∧
    lastValue cs (s% "bucket") ≠ none ∧ lastValue cs (s% "key") ≠ none ∧ (∀ m ∈ cs.filterMap callMeta, m.1 ≠ []) ∧
    Identifies env (afterStart o.accessibleAt w) o.signingKey email w1 ∧
    BasicDenotes date (t / 1000000000) ∧ Rfc3339Denotes expiration (o.expiration / 1000000000) ∧
    fs = signedForm cs [
      (s% "policy", policy), (s% "x-goog-algorithm", s% "GOOG4-RSA-SHA256"),
      (s% "x-goog-credential", email ++ s% "/" ++ date.take 8 ++ s% "/" ++ o.region.getD (s% "auto") ++ s% "/storage/goog4_request"),
      (s% "x-goog-date", date), (s% "x-goog-signature", hex)] ∧
    base64Decode policy = some (utf8 (policyText (fs.filter fun f => ¬ exempt f.1) expiration)) ∧
    KeySigns env w1 o.signingKey o.useSignBlob (utf8 policy) signature w' ∧
    hexDecode hex = some signature

/-- A call of `build`, after the calls `cs`, returns the fields `fs`, and changes the world from `w` to `w'`. -/
def ReturnsForm (env : Env) (cs : List Call) (w : World) (fs : List (Str × Str)) (w' : World) : Prop :=
  match (cs.filterMap callOptions).getLast? with
  | none => lastValue cs (s% "key") ≠ none ∧ (∀ m ∈ cs.filterMap callMeta, m.1 ≠ []) ∧ fs = unsignedForm cs ∧ w' = w
  | some o => ReturnsSigned env cs o w fs w'

end CSS.Spec
