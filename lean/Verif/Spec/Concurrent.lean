import Verif.Model.Concurrent
import Verif.Spec.Token
import Verif.Spec.Url
import Verif.Spec.Form
/-
The vocabulary for histories of concurrent calls.
-/
namespace CSS.Spec

/-- What call `i` did, in order. -/
def did (trace : List Event) (i : Nat) : List Ev :=
  trace.filterMap fun
    | .did j e => if j = i then some e else none
    | _ => none

/-- Whether a call with this history is inside the critical section of the lock `id`. -/
def holding (id : Nat) (h : List Ev) : Bool :=
  h.foldl (fun b e => match e with
    | .locked j _ => if j = id then true else b
    | .unlocked j => if j = id then false else b
    | _ => b) false

/-- What the cache `id` contains after this history: the last thing stored in it. -/
def cacheOf (id : Nat) (trace : List Event) : Option Cached :=
  trace.foldl (fun o e => match e with
    | .did _ (.stored j c) => if j = id then some c else o
    | _ => o) none

/-- The eight steps of a successful refresh: the e-mail request is answered with a 2xx status and the e-mail, the token
request with a 2xx status and a document, the clock is read, the cache is written. -/
def refreshSteps (base : Str) (id s1 s2 : Nat) (doc : Str) (t0 : Time) (c : Cached) : List Ev :=
  [.sent (metadataGet (emailUrl base)), .status (some s1), .body (some c.email),
   .sent (metadataGet (tokenUrl base)), .status (some s2), .body (some doc), .clock t0, .stored id c]

/-- The steps are those of a refresh that produced `c`: the document is a Bearer token that lives `life` seconds, and
`c` consists of the e-mail and the token of these two answers and expires `life` seconds after the clock reading. -/
structure RefreshOf (base : Str) (id : Nat) (steps : List Ev) (c : Cached) (t0 : Time) (life : Nat) : Prop where
  answers : ∃ s1 s2 doc, 200 ≤ s1 ∧ s1 ≤ 299 ∧ 200 ≤ s2 ∧ s2 ≤ 299 ∧ steps = refreshSteps base id s1 s2 doc t0 c ∧
    TokenText doc c.token life (s% "Bearer")
  expires : c.expires = t0 + (life : Int) * 1000000000

/-- Call `j` refreshed the key `id` and got `c`, in eight consecutive steps of its own, inside one critical section. -/
def Refreshed (base : Str) (trace : List Event) (j id : Nat) (c : Cached) (t0 : Time) (life : Nat) : Prop :=
  ∃ before steps after, did trace j = before ++ steps ++ after ∧ RefreshOf base id steps c t0 life ∧
    holding id before = true

/-- A call with history `h` has just left the critical section with the pair `email`, `token`: it found it in the
cache and read a clock more than 30 s before the expiry, or it has refreshed. -/
def GotPair (base : Str) (id : Nat) (h : List Ev) (email token : Str) : Prop :=
  (∃ before c t, h = before ++ [.locked id (some c), .clock t, .unlocked id] ∧ c.email = email ∧ c.token = token ∧
    0 ≤ t ∧ t + 30 * 1000000000 < c.expires) ∨
  ∃ before steps c t0 life, h = before ++ steps ++ [.unlocked id] ∧ RefreshOf base id steps c t0 life ∧
    holding id before = true ∧ c.email = email ∧ c.token = token

/-- A call with history `h` has just found that it must refresh: the cache was empty, or it read a clock at most 30 s
before the expiry (or later). -/
def MustRefresh (id : Nat) (h : List Ev) : Prop :=
  (∃ before, h = before ++ [.locked id none]) ∨
  ∃ before c t, h = before ++ [.locked id (some c), .clock t] ∧ 0 ≤ c.expires ∧ 0 ≤ t ∧ c.expires ≤ t + 30 * 1000000000

/-- The signBlob request for a message. -/
def signBlobPost (email token payload : Str) : Request :=
  { method := s% "POST",
    url := s% "https://iamcredentials.googleapis.com/v1/projects/-/serviceAccounts/" ++ email ++ s% ":signBlob",
    headers := [(s% "authorization", s% "Bearer " ++ token), (s% "content-type", s% "application/json")],
    body := some payload }

/-- The identity that a call with the history `h` has just found for the key. -/
def Named (key : SigningKey) (h : List Ev) (email : Str) : Prop :=
  match key with
  | .boundToken bt => ∃ token, GotPair bt.baseUrl bt.id h email token
  | .hmac a _ => email = a
  | .serviceAccount a _ => email = a

/-- The time from which a URL or form is valid: the caller's, or else the clock reading the call began with. -/
def ValidFrom (accessibleAt : Option Time) (h : List Ev) (t : Time) : Prop :=
  accessibleAt = some t ∨ accessibleAt = none ∧ h.head? = some (.clock t)

/-- The key's owner signed `message`, with the result `signature`, for a call with the history `h`: the RSA signature
under the service account's private key; or, for a bound token, the blob in the answer to the call's own last request,
a signBlob request of a pair that the call had just got, whose payload is base64 of the message. -/
def SignedIn (env : Env) (h : List Ev) (key : SigningKey) (message signature : Bytes) : Prop :=
  match key with
  | .serviceAccount _ pem =>
    ∃ der, env.pemParse pem = some der ∧ env.rsaFromPkcs8 der = true ∧ env.rsaSign der message = some signature
  | .boundToken bt =>
    ∃ before email token body payload status text blob,
      h = before ++ [.sent (signBlobPost email token body), .status (some status), .body (some text)] ∧
      GotPair bt.baseUrl bt.id before email token ∧ 200 ≤ status ∧ status ≤ 299 ∧
      JsonText (.obj [(s% "payload", .str payload)]) body ∧ base64Decode payload = some message ∧
      SignBlobText text blob ∧ base64Decode blob = some signature
  | .hmac _ _ => False

/-- `email` is the identity of the key in this history: the e-mail that one of the refreshes of a bound token got, or
the fixed name of the other keys. -/
def IdentityIn (base : Nat → Str) (trace : List Event) (key : SigningKey) (email : Str) : Prop :=
  match key with
  | .boundToken bt => ∃ j c t0 life, Refreshed (base bt.id) trace j bt.id c t0 life ∧ c.email = email
  | .hmac a _ => email = a
  | .serviceAccount a _ => email = a

/-- The call was started with (a clone of) the bound-token key `bt`. -/
def StartedWith (trace : List Event) (i : Nat) (bt : BoundToken) : Prop :=
  ∃ call, .started i call ∈ trace ∧ call.key? = some bt

/-- The call is still in progress. -/
def Running (s : Sys) (i : Nat) : Prop := ∃ p, s.calls i = some p

/-- Call `i` is in the middle of a refresh of the key `id`: it is running, has sent one of the two metadata requests
and has not left the critical section since. -/
def Refreshing (base : Str) (s : Sys) (i id : Nat) : Prop :=
  Running s i ∧ ∃ before r after, did s.trace i = before ++ .sent r :: after ∧ holding id before = true ∧
    (r = metadataGet (emailUrl base) ∨ r = metadataGet (tokenUrl base)) ∧ Ev.unlocked id ∉ after

end CSS.Spec
