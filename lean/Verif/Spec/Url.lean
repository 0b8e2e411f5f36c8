import Verif.Spec.Form
import Verif.Spec.Token
import Verif.Spec.Json
import Verif.Spec.Codec
import Verif.Spec.UrlStandard
import Verif.Spec.Calendar
import Verif.Spec.Sha256
import Verif.Model.SignedUrl
/-
What a signed URL is made of, stated on texts.
-/
namespace CSS.Spec

/-- The parts of a signed URL and of the message that is signed for it. `headers` are the signed headers:
name and values. -/
structure SignedParts where
  algorithm : Str
  date : Str
  region : Str
  method : Str
  path : Str
  pathLine : Str
  query : Str
  headers : List (Str × List Str)

/-- `https://storage.googleapis.com` PATH `?` QUERY `&X-Goog-Signature=` HEX -/
def SignedParts.url (p : SignedParts) (hex : Str) : Str :=
  s% "https://storage.googleapis.com" ++ p.path ++ s% "?" ++ p.query ++ s% "&X-Goog-Signature=" ++ hex

/-- `YYYYMMDD/REGION/storage/goog4_request` -/
def SignedParts.scope (p : SignedParts) : Str :=
  p.date.take 8 ++ s% "/" ++ p.region ++ s% "/storage/goog4_request"

/-- The canonical request of the GOOG4 scheme: seven parts, one per line (the header part has one line per
header, and is followed by an empty line). -/
def SignedParts.canonicalRequest (p : SignedParts) : Str :=
  join (s% "\n") [
    p.method,
    p.pathLine,
    p.query,
    join (s% "\n") (p.headers.map fun h => h.1 ++ s% ":" ++ join (s% ",") h.2),
    s% "",
    join (s% ";") (p.headers.map (·.1)),
    s% "UNSIGNED-PAYLOAD"]

/-- The string to sign of the GOOG4 scheme: four lines, the last one the SHA-256 digest of the canonical request in hex. -/
def SignedParts.stringToSign (p : SignedParts) : Str :=
  join (s% "\n") [p.algorithm, p.date, p.scope, Sha256.hexDigest (utf8 p.canonicalRequest)]

/-- The key's owner signed `message`, with the result `signature`, during a call that ends with the request log
`log`: the RSA signature under the service account's private key; or, for a bound token, the blob that was
answered to the last request, a POST whose JSON payload is base64 of the message. -/
def Signs (env : Env) (log : List Request) (key : SigningKey) (message signature : Bytes) : Prop :=
  match key with
  | .serviceAccount _ pem =>
    ∃ der, env.pemParse pem = some der ∧ env.rsaFromPkcs8 der = true ∧ env.rsaSign der message = some signature
  | .boundToken _ =>
    ∃ r body payload text blob, log.getLast? = some r ∧ r.method = s% "POST" ∧ r.body = some body ∧
      JsonText (.obj [(s% "payload", .str payload)]) body ∧ base64Decode payload = some message ∧
      Answered env log (log.length - 1) r text ∧ SignBlobText text blob ∧
      base64Decode blob = some signature
  | .hmac _ _ => False

/-- `url` is the signed URL with the parts `p`: it ends in the lower-case hex of a signature, by the key's owner,
of the string to sign of `p`. -/
def IsSigned (env : Env) (log : List Request) (key : SigningKey) (url : Str) (p : SignedParts) : Prop :=
  ∃ hex signature, url = p.url hex ∧ (∀ c ∈ hex, c ∈ s% "0123456789abcdef") ∧ hexDecode hex = some signature ∧
    Signs env log key (utf8 (p.stringToSign)) signature

/-- The methods that can be signed. -/
def methods : List Str := [s% "DELETE", s% "GET", s% "HEAD", s% "POST", s% "PUT"]

/-- The request headers: the host header that is always there, then the user's. -/
def requestHeaders (o : UrlOptions) : List (Str × Str) := (s% "host", s% "storage.googleapis.com") :: o.headers

/-- The values of all headers called `name` (up to the case of ASCII letters), in order. -/
def headerValues (hs : List (Str × Str)) (name : Str) : List Str :=
  (hs.filter fun h => asciiLower h.1 = name).map (·.2)

/-- The characters of an HTTP token (RFC 9110). -/
def tokenChars : Str :=
  s% "!#$%&'*+-.^_`|~0123456789ABCDEFGHIJKLMNOPQRSTUVWXYZabcdefghijklmnopqrstuvwxyz"

/-- Visible ASCII, space or tab. -/
def PlainValue (v : Str) : Prop := ∀ c ∈ v, c = '\t' ∨ (32 ≤ c.toNat ∧ c.toNat ≤ 126)

/-- `s` is the decimal number `n`. -/
def Decimal (s : Str) (n : Nat) : Prop :=
  s ≠ [] ∧ (∀ c ∈ s, c ∈ s% "0123456789") ∧ s.foldl (fun v c => v * 10 + (c.toNat - 48)) 0 = n

/-- A parameter as a server reads it: name and value percent-decoded. -/
def decoded (p : Str × Str) : Bytes × Bytes := (percentDecode p.1, percentDecode p.2)

/-- The values a server reads for the parameter `name` in the URL. -/
def paramValues (url name : Str) : List Bytes :=
  ((queryParams (urlQuery url)).filter fun p => p.1 = utf8 name).map (·.2)

/-- `/BUCKET/OBJECT` as the URL Standard reads it: path, query and fragment. -/
def objectParts (env : Env) (o : UrlOptions) : StandardUrl :=
  standardUrl env.encodeCaret env.keepDriveLetter (o.bucketName ++ s% "/" ++ o.objectName)

/-- What a server reads of the parameters that bucket and object name contain after a `?`. -/
def NameParams (env : Env) (o : UrlOptions) (extra : List (Bytes × Bytes)) : Prop :=
  ∃ read, FormParams (queryItems (objectParts env o).query) read ∧ extra = read.map decoded

/-- The URL of the object with the user's parameters (the fragment included). -/
def userUrl (env : Env) (o : UrlOptions) : Str :=
  s% "https://storage.googleapis.com" ++ (objectParts env o).path ++ s% "?" ++
    withParams (objectParts env o).query o.queryParameters ++
    (match (objectParts env o).fragment with | none => [] | some f => '#' :: f)

/-- `ps` are the five parameters that precede the signature in the URL valid from `t`, for the authorizer `email`. In
the credential, slashes are written `%2F`. -/
def GoogParams (o : UrlOptions) (t : Time) (email : Str) (ps : List (Str × Str)) : Prop :=
  ∃ date names, BasicDenotes date (t / 1000000000) ∧
    names.Pairwise LexLt ∧ (∀ name, name ∈ names ↔ ∃ h ∈ requestHeaders o, asciiLower h.1 = name) ∧
    ps = [
      (s% "X-Goog-Algorithm", match o.signingKey with | .hmac _ _ => s% "GOOG4-HMAC-SHA256" | _ => s% "GOOG4-RSA-SHA256"),
      (s% "X-Goog-Credential", (email ++ s% "/" ++ date.take 8 ++ s% "/" ++ o.region.getD (s% "auto") ++
        s% "/storage/goog4_request").flatMap fun c => if c = '/' then s% "%2F" else [c]),
      (s% "X-Goog-Date", date),
      (s% "X-Goog-Expires", natDec ((o.expires - t) / 1000000000).toNat),
      (s% "X-Goog-SignedHeaders", join (s% ";") names)]

/-- The URL with all parameters except the signature, for the authorizer `email`, exceeds what an `http::Uri` can
hold. -/
def TooLong (env : Env) (o : UrlOptions) (t : Time) (email : Str) : Prop :=
  ∃ ps, GoogParams o t email ps ∧
    65534 < (utf8 (s% "https://storage.googleapis.com" ++ (objectParts env o).path ++ s% "?" ++
      withParams (objectParts env o).query (o.queryParameters ++ ps))).length

/-- An acceptable header: the name an HTTP token, the value without control characters other than tab. -/
def ValidHeader (h : Str × Str) : Prop :=
  h.1 ≠ [] ∧ (∀ c ∈ h.1, c ∈ tokenChars) ∧ h.1.length ≤ 65535 ∧
    ∀ c ∈ h.2, c = '\t' ∨ (32 ≤ c.toNat ∧ c.toNat ≠ 127)

/-- There is room for the headers: at most 3276 always fit into a map of the `http` crate; for more it depends on the hashes
of their names, that is, on the environment. -/
def HeadersFit (env : Env) (hs : List (Str × Str)) : Prop :=
  hs.length ≤ 3276 ∨ env.headersFit (hs.map fun h => h.1.map Char.toLower) = true

/-- The options of a URL valid from `t` are in order: `t` between 1970 and 9999, `expires` not before `t` and less
than 604801 s after it, a known method, not too long, acceptable headers, and not too many. -/
def ValidUrl (env : Env) (o : UrlOptions) (t : Time) : Prop :=
  0 ≤ t ∧ t < endOf9999 ∧ t ≤ o.expires ∧ o.expires < t + 604801 * 1000000000 ∧ o.httpMethod ∈ methods ∧
    (utf8 (userUrl env o)).length ≤ 65534 ∧ (∀ h ∈ o.headers, ValidHeader h) ∧ HeadersFit env o.headers

/-- The options of a URL valid from `t` are in order up to the headers (`expires` may be too late), but there are too many
headers. -/
def TooManyHeaders (env : Env) (o : UrlOptions) (t : Time) : Prop :=
  0 ≤ t ∧ t < endOf9999 ∧ t ≤ o.expires ∧ (o.expires - t) / 1000000000 ≤ 9223372036854775807 ∧ o.httpMethod ∈ methods ∧
    (utf8 (userUrl env o)).length ≤ 65534 ∧ (∀ h ∈ o.headers, ValidHeader h) ∧ ¬ HeadersFit env o.headers

/-- The two environments compute alike: same keys, same signatures, same version of the URL parser. The
clock, the network and the metadata server may differ. -/
structure SameComputation (e₁ e₂ : Env) : Prop where
  pemParse : e₁.pemParse = e₂.pemParse
  rsaFromPkcs8 : e₁.rsaFromPkcs8 = e₂.rsaFromPkcs8
  rsaSign : e₁.rsaSign = e₂.rsaSign
  encodeCaret : e₁.encodeCaret = e₂.encodeCaret
  keepDriveLetter : e₁.keepDriveLetter = e₂.keepDriveLetter
  headersFit : e₁.headersFit = e₂.headersFit

end CSS.Spec
