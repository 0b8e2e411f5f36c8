import Verif.Spec.Server
import Verif.Spec.PostServer
/-
What a storage server does with signed requests and posted forms, written from the documentation of Cloud Storage (pages
"Object names", "Request endpoints" and "POST Object"). Contents of objects only; metadata and access lists are left out.
-/
namespace CSS.Spec

/-- What the server holds: the content of each object that exists, by bucket and name (UTF-8). -/
abbrev Store := Bytes → Bytes → Option Bytes

/-- The URL is that of an object: its path, percent-decoded, is `/BUCKET/OBJECT`. No bucket name has a slash. -/
def NamesObject (url : Str) (bucket object : Bytes) : Prop :=
  ∃ path, urlPath (s% "https://storage.googleapis.com") url = some path ∧ 47 ∉ bucket ∧ object ≠ [] ∧
    percentDecode path = utf8 (s% "/") ++ bucket ++ utf8 (s% "/") ++ object

/-- The URL is that of a bucket: `/BUCKET` or `/BUCKET/`. -/
def NamesBucket (url : Str) (bucket : Bytes) : Prop :=
  ∃ path, urlPath (s% "https://storage.googleapis.com") url = some path ∧ 47 ∉ bucket ∧
    (percentDecode path = utf8 (s% "/") ++ bucket ∨ percentDecode path = utf8 (s% "/") ++ bucket ++ utf8 (s% "/"))

/-- The names that a URL of the crate can express (C57). -/
structure Addressable (bucket object : Str) : Prop where
  slash : '/' ∉ bucket
  nonempty : object ≠ []
  chars : ∀ c ∈ bucket ++ object, c ∉ s% "?#\\\t\n\r"
  last : ∀ c, object.getLast? = some c → 32 < c.toNat
  segments : ∀ x ∈ splitOn '/' (bucket ++ s% "/" ++ object), x ≠ s% "." ∧ x ≠ s% ".."
  escapes : ¬ HasEscape (bucket ++ s% "/" ++ object)

/-- The methods that change nothing. -/
def Reads (method : Str) : Prop := method = s% "GET" ∨ method = s% "HEAD"

/-- The key of a form with `${filename}` replaced by the name of the file. -/
def expand (filename : Str) : Str → Str
  | [] => []
  | c :: r =>
    if (s% "${filename}").isPrefixOf (c :: r) then filename ++ expand filename (r.drop 10) else c :: expand filename r
termination_by key => key.length

/-- What somebody sends to the server: a request with a signed URL and a body, or a form with a file. -/
inductive Sent where
  | request (r : Incoming) (body : Bytes)
  | form (r : Posted) (filename : Str) (file : Bytes)

/-- The server accepts it from `account`, whose public key is `(n, e)`. The size of a posted file is its length. -/
def Sent.Accepted (account : Str) (n e : Nat) : Sent → Prop
  | .request r _ => Accepts account n e r
  | .form r _ file => AcceptsPost account n e r ∧ r.size = file.length

/-- What it may change, if accepted: a request that is not a read, the object of its URL, or anything in the bucket of its
URL; a form, the object of its key. -/
def Sent.MayChange : Sent → Bytes → Bytes → Prop
  | .request r _, bucket, object => ¬ Reads r.method ∧ (NamesObject r.url bucket object ∨ NamesBucket r.url bucket)
  | .form r filename _, bucket, object =>
    bucket = utf8 r.bucket ∧ ∃ key ∈ fieldValues r.fields (s% "key"), object = utf8 (expand filename key)

/-- The request has only headers that every client sends and no other parameters than those of the scheme. (With others a PUT may
copy an object or set an access list, and a GET may answer with a part of the object or with an access list.) -/
def Incoming.Simple (r : Incoming) : Prop :=
  (∀ h ∈ r.headers, asciiLower h.1 ∈ [s% "host", s% "accept", s% "content-length", s% "content-type", s% "user-agent"]) ∧
  ∀ p ∈ queryParams (urlQuery r.url), ∃ name ∈ [s% "X-Goog-Algorithm", s% "X-Goog-Credential", s% "X-Goog-Date",
    s% "X-Goog-Expires", s% "X-Goog-SignedHeaders", s% "X-Goog-Signature"], p.1 = utf8 name

/-- The server gets it: nothing changes if it is not accepted; otherwise nothing but what it may change. A simple PUT
stores the body, a simple DELETE removes the object, a form stores the file. -/
structure Handles (account : Str) (n e : Nat) (m : Sent) (s s' : Store) : Prop where
  rejected : ¬ m.Accepted account n e → s' = s
  others : ∀ bucket object, s' bucket object ≠ s bucket object → m.MayChange bucket object
  put : m.Accepted account n e → ∀ r body bucket object, m = .request r body → NamesObject r.url bucket object → r.Simple →
    (r.method = s% "PUT" → s' bucket object = some body) ∧ (r.method = s% "DELETE" → s' bucket object = none)
  post : m.Accepted account n e → ∀ r filename file key, m = .form r filename file →
    fieldValues r.fields (s% "key") = [key] → s' (utf8 r.bucket) (utf8 (expand filename key)) = some file

/-- The server answers a request with `content`: it accepts it, a simple GET of an object that has this content. -/
def Answers (account : Str) (n e : Nat) (s : Store) (r : Incoming) (content : Bytes) : Prop :=
  Accepts account n e r ∧ r.method = s% "GET" ∧ r.Simple ∧
    ∃ bucket object, NamesObject r.url bucket object ∧ s bucket object = some content

/-- A history of the server, in the order in which it handles what it gets. -/
inductive Serves (account : Str) (n e : Nat) : List Sent → Store → Store → Prop where
  | done (s : Store) : Serves account n e [] s s
  | next {m : Sent} {ms : List Sent} {s s' s'' : Store} : Handles account n e m s s' → Serves account n e ms s' s'' →
    Serves account n e (m :: ms) s s''

end CSS.Spec
