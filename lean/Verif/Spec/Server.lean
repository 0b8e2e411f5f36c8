import Verif.Spec.Url
import Verif.Spec.Rsa
/-
How Cloud Storage checks a signed URL, written from its documentation (pages "Signatures" and "Canonical requests"): it
rebuilds the canonical request from the HTTP request it got, and verifies the signature in the URL with the public key
of the service account. Query and path are taken as they are written in the URL.
-/
namespace CSS.Spec

/-- A request as the server gets it, at `time` (in seconds). The headers include `host`. -/
structure Incoming where
  method : Str
  url : Str
  headers : List (Str × Str)
  time : Int

instance LexLt.decidable : DecidableRel LexLt
  | [], [] => .isFalse fun h => h
  | [], _ :: _ => .isTrue trivial
  | _ :: _, [] => .isFalse fun h => h
  | a :: as, b :: bs =>
    have := LexLt.decidable as bs
    inferInstanceAs (Decidable (a.toNat < b.toNat ∨ (a = b ∧ LexLt as bs)))

/-- A header value without spaces and tabs at the ends, and with single spaces inside. -/
def tidy (v : Str) : Str :=
  join (s% " ") ((splitOn ' ' (v.map fun c => if c = '\t' then ' ' else c)).filter fun word => word ≠ [])

/-- The name in `name=value`. -/
def itemName (item : Str) : Str := (cutAt '=' item).1

/-- The items of a query other than the signature. -/
def unsignedItems (query : Str) : List Str :=
  (splitOn '&' query).filter fun item => percentDecode (itemName item) ≠ utf8 (s% "X-Goog-Signature")

/-- The item before the first one with a name that is not smaller. -/
def insertItem (x : Str) : List Str → List Str
  | [] => [x]
  | y :: l => if LexLt (itemName y) (itemName x) then y :: insertItem x l else x :: y :: l

/-- The canonical query: all items except the signature, sorted by name (those of the same name as they come). -/
def canonicalQuery (query : Str) : Str := join (s% "&") ((unsignedItems query).foldr insertItem [])

/-- The last line: the value of X-Goog-Content-SHA256 if the request has this header. -/
def payloadLine (r : Incoming) : Str :=
  ((headerValues r.headers (s% "x-goog-content-sha256")).map tidy).headD (s% "UNSIGNED-PAYLOAD")

/-- The canonical request of a request for `path` with these signed headers. -/
def Incoming.canonicalRequest (r : Incoming) (path : Str) (names : List Str) : Str :=
  join (s% "\n") [
    r.method,
    canonicalText path,
    canonicalQuery (urlQuery r.url),
    join (s% "\n") (names.map fun name => name ++ s% ":" ++ join (s% ",") ((headerValues r.headers name).map tidy)),
    s% "",
    join (s% ";") names,
    payloadLine r]

/-- The message that must have been signed. -/
def Incoming.message (r : Incoming) (path date scope : Str) (names : List Str) : Str :=
  join (s% "\n") [s% "GOOG4-RSA-SHA256", date, scope, Sha256.hexDigest (utf8 (r.canonicalRequest path names))]

/-- `canonical` and `message` are what the server rebuilds from the request if it is signed by `account`. -/
def Incoming.Rebuilds (r : Incoming) (account canonical message : Str) : Prop :=
  ∃ path date region signedHeaders,
    urlPath (s% "https://storage.googleapis.com") r.url = some path ∧
    paramValues r.url (s% "X-Goog-Credential") =
      [utf8 (account ++ s% "/" ++ date.take 8 ++ s% "/" ++ region ++ s% "/storage/goog4_request")] ∧
    paramValues r.url (s% "X-Goog-Date") = [utf8 date] ∧
    paramValues r.url (s% "X-Goog-SignedHeaders") = [utf8 signedHeaders] ∧
    canonical = r.canonicalRequest path (splitOn ';' signedHeaders) ∧
    message = r.message path date (date.take 8 ++ s% "/" ++ region ++ s% "/storage/goog4_request")
      (splitOn ';' signedHeaders)

/-- The server accepts the request: the X-Goog parameters occur once each; the credential is for `account`, whose public
key is `(n, e)`; the time is right; `host` and all `x-goog-` headers are signed; the signature verifies. -/
def Accepts (account : Str) (n e : Nat) (r : Incoming) : Prop :=
  ∃ path date region life signedHeaders hex signature start seconds,
    urlPath (s% "https://storage.googleapis.com") r.url = some path ∧
    paramValues r.url (s% "X-Goog-Algorithm") = [utf8 (s% "GOOG4-RSA-SHA256")] ∧
    paramValues r.url (s% "X-Goog-Credential") =
      [utf8 (account ++ s% "/" ++ date.take 8 ++ s% "/" ++ region ++ s% "/storage/goog4_request")] ∧
    paramValues r.url (s% "X-Goog-Date") = [utf8 date] ∧ BasicDenotes date start ∧
    paramValues r.url (s% "X-Goog-Expires") = [utf8 life] ∧ Decimal life seconds ∧ seconds ≤ 604800 ∧
    start ≤ r.time ∧ r.time < start + seconds ∧
    paramValues r.url (s% "X-Goog-SignedHeaders") = [utf8 signedHeaders] ∧
    s% "host" ∈ splitOn ';' signedHeaders ∧
    (∀ h ∈ r.headers, s% "x-goog-" <+: asciiLower h.1 → asciiLower h.1 ∈ splitOn ';' signedHeaders) ∧
    paramValues r.url (s% "X-Goog-Signature") = [utf8 hex] ∧ hexDecode hex = some signature ∧
    Rsa.Verifies n e (utf8 (r.message path date (date.take 8 ++ s% "/" ++ region ++ s% "/storage/goog4_request")
      (splitOn ';' signedHeaders))) signature

end CSS.Spec
