import Verif.Model.Url
import Verif.Model.Time
import Verif.Model.Sha256
/-
src/private/canonical_request.rs, src/private/credential_scope.rs, src/private/location.rs,
src/private/service.rs, src/private/request_type.rs, src/private/signing_algorithm.rs,
src/private/string_to_sign.rs, src/private/http_verb.rs
-/
namespace CSS

/-- `HttpVerb`: src/private/http_verb.rs:7-13 -/
inductive HttpVerb where
  | delete | get | head | post | put
  deriving DecidableEq, Repr
inductive HttpVerbError where
  | invalidHttpVerb (s : Str)
  deriving DecidableEq, Repr
/-- `FromStr for HttpVerb`: src/private/http_verb.rs:28-41 -/
def HttpVerb.fromStr (s : Str) : Res HttpVerbError HttpVerb :=
  if s = s% "DELETE" then .ok .delete
  else if s = s% "GET" then .ok .get
  else if s = s% "HEAD" then .ok .head
  else if s = s% "POST" then .ok .post
  else if s = s% "PUT" then .ok .put
  else .err (.invalidHttpVerb s)
/-- `From<HttpVerb> for http::Method` and `Method::to_string`: src/private/http_verb.rs:16-26 -/
def HttpVerb.toStr : HttpVerb → Str
  | .delete => s% "DELETE"
  | .get => s% "GET"
  | .head => s% "HEAD"
  | .post => s% "POST"
  | .put => s% "PUT"

/-- `http::Request<()>` (method, uri, headers). -/
structure HttpRequest where
  method : HttpVerb
  uri : Uri
  headers : HeaderMap

/-- `SigningAlgorithm`: src/private/signing_algorithm.rs:3-19 -/
inductive SigningAlgorithm where
  | goog4RsaSha256 | goog4HmacSha256 | aws4HmacSha256
  deriving DecidableEq, Repr
def SigningAlgorithm.asStr : SigningAlgorithm → Str
  | .goog4RsaSha256 => s% "GOOG4-RSA-SHA256"
  | .goog4HmacSha256 => s% "GOOG4-HMAC-SHA256"
  | .aws4HmacSha256 => s% "AWS4-HMAC-SHA256"

/-- `Service`: src/private/service.rs:3-17 -/
inductive Service where
  | storage | s3
  deriving DecidableEq, Repr
def Service.asStr : Service → Str
  | .storage => s% "storage"
  | .s3 => s% "s3"
/-- `RequestType`: src/private/request_type.rs:3-17 -/
inductive RequestType where
  | goog4Request | aws4Request
  deriving DecidableEq, Repr
def RequestType.asStr : RequestType → Str
  | .goog4Request => s% "goog4_request"
  | .aws4Request => s% "aws4_request"

/-- `Location(String)`: src/private/location.rs:6-21 -/
structure Location where
  val : Str
  deriving DecidableEq, Repr
/-- `TryFrom<&str> for Location` never fails: src/private/location.rs:9-15 -/
def Location.tryFrom (s : Str) : Location := ⟨s⟩

/-- `CredentialScope`: src/private/credential_scope.rs:11-17 -/
structure CredentialScope where
  date : Date
  location : Location
  service : Service
  requestType : RequestType
inductive CredentialScopeError where
  | invalidCombination (s : Service) (r : RequestType)
  deriving DecidableEq, Repr
/-- `CredentialScope::new`: src/private/credential_scope.rs:20-45 -/
def CredentialScope.new (d : Date) (l : Location) (s : Service) (r : RequestType) :
    Res CredentialScopeError CredentialScope :=
  match s, r with
  | .storage, .aws4Request => .err (.invalidCombination .storage .aws4Request)
  | .s3, .goog4Request => .err (.invalidCombination .s3 .goog4Request)
  | s, r => .ok ⟨d, l, s, r⟩
/-- `Display for CredentialScope`: src/private/credential_scope.rs:48-56 -/
def CredentialScope.toStr (c : CredentialScope) : Str :=
  c.date.toStr ++ s% "/" ++ c.location.val ++ s% "/" ++ c.service.asStr ++ s% "/" ++ c.requestType.asStr

/-- Insert into a `BTreeSet<String>` represented as a strictly increasing list. -/
def setInsert (x : Str) : List Str → List Str
  | [] => [x]
  | y :: ys => if x = y then y :: ys else if strLe x y then x :: y :: ys else y :: setInsert x ys
/-- `.collect::<BTreeSet<String>>().into_iter().collect::<Vec<String>>()` -/
def toSet (xs : List Str) : List Str := xs.foldl (fun acc x => setInsert x acc) []

/-- Signed header names: src/private/canonical_request.rs:17-24 and src/private/signed_url.rs:106-113 -/
def signedHeaders (h : HeaderMap) : Str :=
  join (s% ";") (toSet (h.map fun e => asciiLower e.1))

/-- `entry(name).or_insert_with(Vec::new).push(value)` on a `BTreeMap` represented as an association
list with strictly increasing keys: src/private/canonical_request.rs:28-37 -/
def mapPush (k v : Str) : List (Str × List Str) → List (Str × List Str)
  | [] => [(k, [v])]
  | (k', vs) :: r =>
    if k = k' then (k', vs ++ [v]) :: r
    else if strLe k k' then (k, [v]) :: (k', vs) :: r
    else (k', vs) :: mapPush k v r

/-- `canonical_request::Error`: src/private/canonical_request.rs:6-9 -/
inductive CanonicalRequestError where
  | headerValueContainsInvalidCharacter
  deriving DecidableEq, Repr

/-- The header loop: src/private/canonical_request.rs:27-37 -/
def canonicalHeaderMap : List (Str × Str) → List (Str × List Str) →
    Res CanonicalRequestError (List (Str × List Str))
  | [], acc => .ok acc
  | (name, value) :: rest, acc =>
    if headerToStrOk value then canonicalHeaderMap rest (mapPush (asciiLower name) value acc)
    else .err .headerValueContainsInvalidCharacter

/-- `canonical_query_string`: src/private/canonical_request.rs:67-73 -/
def canonicalQueryString (uri : Uri) : Str :=
  join (s% "&") (sortStr ((formParse (utf8 (uri.query.getD []))).map fun p =>
    percentEncode p.1 ++ s% "=" ++ percentEncode p.2))

/-- One canonical header line: src/private/canonical_request.rs:40 -/
def headerLine (e : Str × List Str) : Str := e.1 ++ s% ":" ++ join (s% ",") e.2

/-- `CanonicalRequest::new(..).to_string()`: src/private/canonical_request.rs:14-58 -/
def canonicalRequest (r : HttpRequest) : Res CanonicalRequestError Str := do
  let headers ← canonicalHeaderMap r.headers.entries []
  pure (join (s% "\n") [
    r.method.toStr,
    percentEncode r.uri.path,
    canonicalQueryString r.uri,
    join (s% "\n") (headers.map headerLine),
    [],
    signedHeaders r.headers,
    s% "UNSIGNED-PAYLOAD"])

/-- `StringToSign::new(..).to_string()`: src/private/string_to_sign.rs:10-26 -/
def stringToSign (alg : SigningAlgorithm) (dt : ActiveDatetime) (scope : CredentialScope)
    (canonical : Str) : Str :=
  join (s% "\n") [alg.asStr, dt.toStr, scope.toStr, sha256Hex (utf8 canonical)]

end CSS
