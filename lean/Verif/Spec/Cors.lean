import Verif.Model.Text
/-
Cross-origin requests, from the Fetch Standard (what a browser does) and the Cloud Storage documentation (what the storage server
answers for a bucket with a CORS configuration).

Requests are those of `fetch(url, init)` with the default mode `cors` and the default credentials mode `same-origin`, from a page
of another origin than the URL's. Caches of preflights are left out (they change when a browser asks, not what it is told).
-/
namespace CSS.Spec

/-- One entry of the CORS configuration of a bucket. (<https://cloud.google.com/storage/docs/cross-origin>) -/
structure CorsEntry where
  origins : List Str
  methods : List Str
  responseHeaders : List Str
  maxAgeSeconds : Nat
  deriving DecidableEq, Repr

/-- A request from a page of the origin `origin`, with the headers that the page has set (those of the body included). -/
structure CrossRequest where
  origin : Str
  method : Str
  headers : List (Str × Str)

/-- Two header names are the same. -/
def SameHeader (a b : Str) : Prop := a.map Char.toLower = b.map Char.toLower

/-- "CORS-safelisted method" -/
def SafeMethod (m : Str) : Prop := m ∈ [s% "GET", s% "HEAD", s% "POST"]

/-- "CORS-unsafe request-header byte": controls other than the tab, and some punctuation. -/
def UnsafeHeaderChar (c : Char) : Prop := (c.toNat < 32 ∧ c ≠ '\t') ∨ c ∈ s% "\"():<>?@[\\]{}" ∨ c.toNat = 127

/-- The MIME type of a header value, without its parameters. -/
def Essence (value essence : Str) : Prop :=
  (∀ c ∈ essence, c ≠ ';' ∧ c ≠ ' ' ∧ c ≠ '\t') ∧ ∃ rest, value = essence ++ rest ∧
    ∃ space, (∀ c ∈ space, c = ' ' ∨ c = '\t') ∧ (rest = space ∨ ∃ parameters, rest = space ++ s% ";" ++ parameters)

/-- "CORS-safelisted request-header", for the headers a page may set. (`Range` is left out.) -/
def SafeHeader (h : Str × Str) : Prop :=
  h.2.length ≤ 128 ∧
  ((SameHeader h.1 (s% "Accept") ∧ ∀ c ∈ h.2, ¬ UnsafeHeaderChar c) ∨
   ((SameHeader h.1 (s% "Accept-Language") ∨ SameHeader h.1 (s% "Content-Language")) ∧
      ∀ c ∈ h.2, c.isAlphanum = true ∨ c ∈ s% " *,-.;=") ∨
   (SameHeader h.1 (s% "Content-Type") ∧ (∀ c ∈ h.2, ¬ UnsafeHeaderChar c) ∧
      ∃ essence, Essence h.2 essence ∧ essence.map Char.toLower ∈
        [s% "application/x-www-form-urlencoded", s% "multipart/form-data", s% "text/plain"]))

/-- The browser asks the server (a "preflight") before it sends this request. -/
def NeedsPreflight (r : CrossRequest) : Prop := ¬ SafeMethod r.method ∨ ∃ h ∈ r.headers, ¬ SafeHeader h

/-- "CORS check" of the header `Access-Control-Allow-Origin` of an answer, for a request without credentials. -/
def CorsCheck (origin : Str) (allowed : Option Str) : Prop := allowed = some (s% "*") ∨ allowed = some origin

/-- This entry is for requests of this origin and method. -/
def CorsEntry.For (e : CorsEntry) (origin method : Str) : Prop :=
  (s% "*" ∈ e.origins ∨ origin ∈ e.origins) ∧ method ∈ e.methods

/-- The header `Access-Control-Allow-Origin` of the storage server's answers to requests of this origin and method: of the first entry
for them, if there is one. -/
def AllowOrigin (cors : List CorsEntry) (origin method : Str) (allowed : Option Str) : Prop :=
  (allowed = none ∧ ∀ e ∈ cors, ¬ e.For origin method) ∨
  ∃ before e after, cors = before ++ e :: after ∧ (∀ x ∈ before, ¬ x.For origin method) ∧ e.For origin method ∧
    ((s% "*" ∈ e.origins ∧ allowed = some (s% "*")) ∨ (s% "*" ∉ e.origins ∧ allowed = some origin))

/-- The storage server's answer to the preflight of a request lets the browser send it: some entry is for its origin and method and names
the headers that need it. -/
def PreflightPasses (cors : List CorsEntry) (r : CrossRequest) : Prop :=
  ∃ e ∈ cors, e.For r.origin r.method ∧
    ∀ h ∈ r.headers, SafeHeader h ∨ ∃ name ∈ e.responseHeaders, SameHeader h.1 name

/-- The browser sends the request. -/
def IsSent (cors : List CorsEntry) (r : CrossRequest) : Prop := NeedsPreflight r → PreflightPasses cors r

/-- The page gets the answer of the storage server; otherwise its `fetch` fails, whatever the server has done. -/
def IsRead (cors : List CorsEntry) (r : CrossRequest) : Prop :=
  IsSent cors r ∧ ∃ allowed, AllowOrigin cors r.origin r.method allowed ∧ CorsCheck r.origin allowed

/-- What the page sees of the answer of the storage server (status and body). -/
def Sees (cors : List CorsEntry) (r : CrossRequest) (answer : Nat × Str) (got : Option (Nat × Str)) : Prop :=
  (IsRead cors r ∧ got = some answer) ∨ (¬ IsRead cors r ∧ got = none)

end CSS.Spec
