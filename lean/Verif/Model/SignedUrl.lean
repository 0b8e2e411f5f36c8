import Verif.Model.SigningKey
/- src/private/signed_url.rs and src/signed_url.rs -/
namespace CSS

/-- `private::signed_url::Error`: src/private/signed_url.rs:13-20 -/
inductive SignedUrlError where
  | canonicalRequest (e : CanonicalRequestError)
  | hostHeaderNotFound
  | signing (e : KeyError)
  deriving DecidableEq, Repr

/-- Rust `str::replace('/', "%2F")`. -/
def replaceSlash (s : Str) : Str := s.flatMap fun c => if c = '/' then s% "%2F" else [c]

/-- The five required parameters: src/private/signed_url.rs:94-116 -/
def requiredParams (authorizer : Str) (alg : SigningAlgorithm) (date : ActiveDatetime)
    (scope : CredentialScope) (expiration : Expiration) (headers : HeaderMap) : List (Str × Str) :=
  [ (s% "X-Goog-Algorithm", alg.asStr),
    (s% "X-Goog-Credential", replaceSlash (authorizer ++ s% "/" ++ scope.toStr)),
    (s% "X-Goog-Date", date.toStr),
    (s% "X-Goog-Expires", expiration.toStr),
    (s% "X-Goog-SignedHeaders", signedHeaders headers) ]

/-- `add_signed_url_required_query_string_parameters`: src/private/signed_url.rs:81-119 -/
def addRequiredParams (env : Env) (r : HttpRequest) (authorizer : Str) (alg : SigningAlgorithm)
    (date : ActiveDatetime) (scope : CredentialScope) (expiration : Expiration) :
    Res SignedUrlError HttpRequest :=
  if (r.headers.map (·.1)).contains (s% "host") = false then .err .hostHeaderNotFound
  else
    let url1 := Url.parse env r.uri.toRest
    let url2 := url1.extendQuery (requiredParams authorizer alg date scope expiration r.headers)
    match Uri.parse url2.toRest with
    | none => .panic .urlToBeValid
    | some uri => .ok { r with uri := uri }

/-- `SignedUrl::new`: src/private/signed_url.rs:25-72 -/
def SignedUrl.new (env : Env) (scope : CredentialScope) (date : ActiveDatetime) (expiration : Expiration)
    (request : HttpRequest) (key : SigningKey) (useSignBlob : Bool) : M SignedUrlError Str := do
  let email ← M.mapErr .signing (key.authorizer env)
  let alg := key.xGoogAlgorithm
  let request ← M.lift (addRequiredParams env request email alg date scope expiration)
  let query := canonicalQueryString request.uri
  let canonical ← M.lift ((canonicalRequest request).mapErr .canonicalRequest)
  let message := stringToSign alg date scope canonical
  let digest ← M.mapErr .signing (key.sign env useSignBlob (utf8 message))
  pure (hostname ++ request.uri.path ++ s% "?" ++ query ++ s% "&X-Goog-Signature=" ++ hexEncode digest)

/-- `signed_url::ErrorKind`: src/signed_url.rs:16-39 (`Location` and `InvalidQueryParameters` never
occur: `Location::try_from` and `Url.parse` are total). -/
inductive BuildUrlError where
  | credentialScope (e : CredentialScopeError)
  | expiration (e : ExpirationError)
  | expirationOutOfRange
  | httpMethod (e : HttpVerbError)
  | httpRequest
  | invalidHeaderName
  | invalidHeaderValue
  | now
  | signedUrl (e : SignedUrlError)
  deriving DecidableEq, Repr

/-- `BuildSignedUrlOptions`: src/signed_url.rs:42-53 -/
structure UrlOptions where
  bucketName : Str
  objectName : Str
  region : Option Str
  expires : Time
  httpMethod : Str
  accessibleAt : Option Time
  signingKey : SigningKey
  useSignBlob : Bool
  headers : List (Str × Str)
  queryParameters : List (Str × Str)

/-- Validation of the user headers: src/signed_url.rs:101-112 (stops at the first bad header). -/
def checkHeaders : List (Str × Str) → Res BuildUrlError (List (Str × Str))
  | [] => .ok []
  | (k, v) :: r =>
    match headerName k with
    | none => .err .invalidHeaderName
    | some k' =>
      if headerValueOk v = false then .err .invalidHeaderValue
      else match checkHeaders r with
        | .ok hs => .ok ((k', v) :: hs)
        | .err e => .err e
        | .panic p => .panic p

/-- `headers_mut().extend(..)` on the headers that hold only the host: src/signed_url.rs:100-113. `HeaderMap` panics if it needs
more than 2^15 slots. How many names fit depends on their hashes, so that is an oracle; 3276 headers always fit (the map is
enlarged only when at least a fifth of its slots is used). -/
def extendHeaders (env : Env) (hs : List (Str × Str)) : Res BuildUrlError HeaderMap :=
  if hs.length ≤ 3276 ∨ env.headersFit (hs.map (·.1)) = true then
    .ok (HeaderMap.extend [(s% "host", [s% "storage.googleapis.com"])] hs)
  else .panic .headerMapFull

/-- The lifetime in seconds: src/signed_url.rs:72-78 -/
def lifetimeSecs (expires accessibleAt : Time) : Res BuildUrlError Int :=
  if expires < accessibleAt then .err .expirationOutOfRange
  else
    let secs := (expires - accessibleAt) / nsPerSec
    if 9223372036854775807 < secs then .err .expirationOutOfRange else .ok secs

/-- The URL with the user's parameters: src/signed_url.rs:81-93 -/
def baseUrl (env : Env) (o : UrlOptions) : Url :=
  (Url.parse env (s% "/" ++ o.bucketName ++ s% "/" ++ o.objectName)).extendQuery o.queryParameters

/-- `build_signed_url`: src/signed_url.rs:55-132 -/
def buildSignedUrl (env : Env) (o : UrlOptions) : M BuildUrlError Str := do
  let accessibleAt ← M.timeOrNow env o.accessibleAt
  let now ← M.lift ((UnixTimestamp.fromSystemTime accessibleAt).mapErr fun _ => BuildUrlError.now)
  let region := o.region.getD (s% "auto")
  let expiration ← M.lift (lifetimeSecs o.expires accessibleAt)
  let method ← M.lift ((HttpVerb.fromStr o.httpMethod).mapErr .httpMethod)
  let url := baseUrl env o
  let uri ← M.lift (Res.ofOption .httpRequest (Uri.parse url.toRest))
  let userHeaders ← M.lift (checkHeaders o.headers)
  let headers ← M.lift (extendHeaders env userHeaders)
  let scope ← M.lift ((CredentialScope.new (Date.fromUnixTimestamp now) (Location.tryFrom region)
    .storage .goog4Request).mapErr .credentialScope)
  let expiration ← M.lift ((Expiration.tryFrom expiration).mapErr .expiration)
  M.mapErr .signedUrl (SignedUrl.new env scope ⟨now⟩ expiration
    { method := method, uri := uri, headers := headers } o.signingKey o.useSignBlob)

end CSS
