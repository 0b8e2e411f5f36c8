import Verif.Model.SignedUrl
import Verif.Model.HtmlForm
/-
Interleaved, cancellable view of the same functions: every call is a program whose steps are the clock readings, the
`tokio::sync::Mutex` operations and the network operations; any number of calls run at the same time, and a call can
be dropped at any `.await`. Lemmas/Sequential proves that a program run alone is the sequential function of
Model/BoundToken, Model/SigningKey, Model/SignedUrl, Model/HtmlForm.
-/
namespace CSS

/-- An `async fn` up to the effects that other tasks or the outside world can see. `lock`, `recv` and `text` are the
`.await` points of src/private/bound_token.rs: 79 (`lock().await`), 108, 141, 213 (`execute(..).await`), 112-124,
145-158, 217-229 (`text().await`). `lock` yields what the guard shows; `unlock` is the drop of the guard (also on `?`,
`return` and unwinding); `recv none` and `text none` are transport errors; a panic is a returned value (`Res.panic`). -/
inductive Prog (α : Type) : Type where
  | ret (a : α)
  | now (k : Time → Prog α)
  | lock (id : Nat) (k : Option Cached → Prog α)
  | store (id : Nat) (c : Cached) (k : Prog α)
  | unlock (id : Nat) (k : Prog α)
  | send (r : Request) (k : Prog α)
  | recv (k : Option Nat → Prog α)
  | text (k : Option Str → Prog α)

/-- Run `p`, then `f` on its value. -/
def Prog.bind {α β} : Prog α → (α → Prog β) → Prog β
  | .ret a, f => f a
  | .now k, f => .now fun t => (k t).bind f
  | .lock id k, f => .lock id fun c => (k c).bind f
  | .store id c k, f => .store id c (k.bind f)
  | .unlock id k, f => .unlock id (k.bind f)
  | .send r k, f => .send r (k.bind f)
  | .recv k, f => .recv fun s => (k s).bind f
  | .text k, f => .text fun t => (k t).bind f

/-- Whether the program is suspended at an `.await`. -/
def Prog.awaits {α} : Prog α → Bool
  | .lock _ _ | .recv _ | .text _ => true
  | _ => false

/-- Programs with the outcomes of Rust functions. -/
def P (ε α : Type) := Prog (Res ε α)

namespace P
variable {ε ε' α β : Type}
/-- `?`-sequencing: an error or a panic ends the function. -/
def bind (p : P ε α) (f : α → P ε β) : P ε β :=
  Prog.bind p fun
    | .ok a => f a
    | .err e => .ret (.err e)
    | .panic s => .ret (.panic s)
instance : Monad (P ε) where
  pure a := .ret (.ok a)
  bind := P.bind
def lift (r : Res ε α) : P ε α := .ret r
def err (e : ε) : P ε α := .ret (.err e)
def panic (s : PanicSite) : P ε α := .ret (.panic s)
def mapErr (f : ε → ε') (p : P ε α) : P ε' α := Prog.bind p fun r => .ret (r.mapErr f)
def now : P ε Time := Prog.now fun t => .ret (.ok t)
def timeOrNow : Option Time → P ε Time
  | some t => pure t
  | none => now
end P

/-- Execute, check the status, read the body: src/private/bound_token.rs:105-124, 139-158, 210-229. -/
def executeP (e : FetchErrors) (r : Request) : P BoundTokenError Str :=
  Prog.send r (.recv fun
    | none => P.err e.execute
    | some status =>
      if isSuccess status then
        .text fun
          | none => P.err e.successResponse
          | some text => .ret (.ok text)
      else
        .text fun
          | none => P.err e.errorResponse
          | some text => P.err (e.status status text))

/-- Build, then `executeP`: src/private/bound_token.rs:99-124, 133-158, 193-229. Only the pure oracles of `env` are used
(here: whether the client can build the request). -/
def fetchTextP (env : Env) (e : FetchErrors) (r : Request) : P BoundTokenError Str :=
  if env.canBuild r = false then P.err e.build else executeP e r

/-- The match guard: src/private/bound_token.rs:82-88 -/
def cacheFreshP (c : Cached) : P BoundTokenError Bool := do
  if c.expires < 0 then P.panic .expiresBeforeEpoch
  else
    let now ← P.now
    if now < 0 then P.panic .nowBeforeEpoch
    else pure (decide (c.expires > now + 30 * nsPerSec))

/-- `*cache = Some(..)`: src/private/bound_token.rs:166 -/
def storeP (id : Nat) (c : Cached) : P BoundTokenError Unit := .store id c (.ret (.ok ()))

/-- The refresh branch: src/private/bound_token.rs:92-169 -/
def refreshP (env : Env) (bt : BoundToken) : P BoundTokenError (Str × Str) := do
  let email ← fetchTextP env emailErrors (emailRequest bt)
  let body ← fetchTextP env tokenErrors (tokenRequest bt)
  match parseAccessToken body with
  | none => P.err .tokenRequestSuccessResponseDeserialize
  | some t =>
    if t.tokenType ≠ s% "Bearer" then P.err (.tokenRequestInvalidTokenType t.tokenType)
    else
      let now ← P.now
      let expires := now + (t.expiresIn : Int) * nsPerSec
      if timeLimit ≤ expires then P.panic .expiresOverflow
      else
        storeP bt.id ⟨email, t.accessToken, expires⟩
        pure (email, t.accessToken)

/-- The part of `get_email_and_token` that holds the guard: src/private/bound_token.rs:80-170 -/
def lockedP (env : Env) (bt : BoundToken) : Option Cached → P BoundTokenError (Str × Str)
  | none => refreshP env bt
  | some c => do
    let fresh ← cacheFreshP c
    if fresh then pure (c.email, c.token) else refreshP env bt

/-- `BoundToken::get_email_and_token`: src/private/bound_token.rs:78-171. The guard lives to the end of the function
and is dropped on every path. -/
def getP (env : Env) (bt : BoundToken) : P BoundTokenError (Str × Str) :=
  .lock bt.id fun c => Prog.bind (lockedP env bt c) fun r => .unlock bt.id (.ret r)

/-- `BoundToken::sign`: src/private/bound_token.rs:173-240. The guard was dropped when `get_email_and_token` ended. -/
def signP (env : Env) (bt : BoundToken) (message : Bytes) : P BoundTokenError Bytes := do
  let (email, token) ← getP env bt
  let body ← fetchTextP env signBlobErrors (signBlobRequest email token message)
  match parseSignBlobResponse body with
  | none => P.err .signBlobRequestSuccessResponseDeserialize
  | some blob =>
    match b64Decode blob with
    | none => P.err .signBlobRequestSuccessResponseBase64Decode
    | some signature => pure signature

/-- `SigningKeyInner::authorizer`: src/private/signing_key_inner.rs:35-47 -/
def SigningKey.authorizerP (env : Env) : SigningKey → P KeyError Str
  | .boundToken bt => do
    let p ← P.mapErr .boundTokenAuthorizer (getP env bt)
    pure p.1
  | .hmac accessId _ => pure accessId
  | .serviceAccount clientEmail _ => pure clientEmail

/-- `SigningKeyInner::sign`: src/private/signing_key_inner.rs:49-84 -/
def SigningKey.signP (env : Env) (key : SigningKey) (useSignBlob : Bool) (message : Bytes) : P KeyError Bytes :=
  match key with
  | .boundToken bt =>
    if useSignBlob then P.mapErr .boundTokenSigning (CSS.signP env bt message)
    else P.err .boundTokenMustUseSignBlob
  | .hmac _ _ => P.panic .hmacTodo
  | .serviceAccount _ privateKey =>
    if useSignBlob then P.panic .serviceAccountSignBlobTodo
    else P.lift (rsaSignPem env privateKey message)

/-- `SignedUrl::new`: src/private/signed_url.rs:25-72 -/
def SignedUrl.newP (env : Env) (scope : CredentialScope) (date : ActiveDatetime) (expiration : Expiration)
    (request : HttpRequest) (key : SigningKey) (useSignBlob : Bool) : P SignedUrlError Str := do
  let email ← P.mapErr .signing (key.authorizerP env)
  let alg := key.xGoogAlgorithm
  let request ← P.lift (addRequiredParams env request email alg date scope expiration)
  let query := canonicalQueryString request.uri
  let canonical ← P.lift ((canonicalRequest request).mapErr .canonicalRequest)
  let message := stringToSign alg date scope canonical
  let digest ← P.mapErr .signing (key.signP env useSignBlob (utf8 message))
  pure (hostname ++ request.uri.path ++ s% "?" ++ query ++ s% "&X-Goog-Signature=" ++ hexEncode digest)

/-- `build_signed_url`: src/signed_url.rs:55-132 -/
def buildSignedUrlP (env : Env) (o : UrlOptions) : P BuildUrlError Str := do
  let accessibleAt ← P.timeOrNow o.accessibleAt
  let now ← P.lift ((UnixTimestamp.fromSystemTime accessibleAt).mapErr fun _ => BuildUrlError.now)
  let region := o.region.getD (s% "auto")
  let expiration ← P.lift (lifetimeSecs o.expires accessibleAt)
  let method ← P.lift ((HttpVerb.fromStr o.httpMethod).mapErr .httpMethod)
  let url := baseUrl env o
  let uri ← P.lift (Res.ofOption .httpRequest (Uri.parse url.toRest))
  let userHeaders ← P.lift (checkHeaders o.headers)
  let headers ← P.lift (extendHeaders env userHeaders)
  let scope ← P.lift ((CredentialScope.new (Date.fromUnixTimestamp now) (Location.tryFrom region)
    .storage .goog4Request).mapErr .credentialScope)
  let expiration ← P.lift ((Expiration.tryFrom expiration).mapErr .expiration)
  P.mapErr .signedUrl (SignedUrl.newP env scope ⟨now⟩ expiration
    { method := method, uri := uri, headers := headers } o.signingKey o.useSignBlob)

/-- `build_policy_and_x_goog_signature` for `Some(options)`: src/html_form_data.rs:401-575 -/
def buildPolicyP (env : Env) (b : Builder) (o : SigningOptions) : P FormError PolicyFields := do
  let accessibleAt ← P.timeOrNow o.accessibleAt
  if o.expiration ≤ accessibleAt then P.err .expirationBeforeAccessibleAt
  else
    let accessibleAt ← P.lift ((UnixTimestamp.fromSystemTime accessibleAt).mapErr
      fun _ => FormError.accessibleAtOutOfRange)
    let expiration ← P.lift ((UnixTimestamp.fromSystemTime o.expiration).mapErr
      fun _ => FormError.expirationOutOfRange)
    let region := o.region.getD (s% "auto")
    let bucket ← P.lift (Res.ofOption .bucketNotFound b.bucket)
    let key ← P.lift (Res.ofOption .keyNotFound b.key)
    let alg := o.signingKey.xGoogAlgorithm
    if alg ≠ .goog4RsaSha256 then P.err .xGoogAlgorithmNotSupported
    else
      let email ← P.mapErr .boundTokenAuthorizer (o.signingKey.authorizerP env)
      let scope ← P.lift ((CredentialScope.new (Date.fromUnixTimestamp accessibleAt)
        (Location.tryFrom region) .storage .goog4Request).mapErr .xGoogCredentialInvalid)
      let credential := email ++ s% "/" ++ scope.toStr
      let date := accessibleAt.toIso8601
      let conditions ← P.lift (buildConditions b bucket key alg credential date)
      let policy := (PolicyDocument.mk conditions ⟨expiration⟩).toJson.render
      let encoded := b64Encode (utf8 policy)
      let digest ← P.mapErr .signing (o.signingKey.signP env o.useSignBlob (utf8 encoded))
      pure ⟨encoded, alg.asStr, credential, date, hexEncode digest⟩

/-- `build_policy_and_x_goog_signature`: src/html_form_data.rs:387-577 -/
def buildPolicyAndSignatureP (env : Env) (b : Builder) : P FormError (Option PolicyFields) :=
  match b.signingOptions with
  | none => pure none
  | some o => do
    let p ← buildPolicyP env b o
    pure (some p)

/-- `HtmlFormDataBuilder::build`: src/html_form_data.rs:237-304 -/
def Builder.buildP (env : Env) (b : Builder) : P FormError (List (Str × Str)) := do
  let p ← buildPolicyAndSignatureP env b
  let key ← P.lift (Res.ofOption .keyNotFound b.key)
  let metas ← P.lift (metaFields b.xGoogMeta)
  pure (optField (s% "acl") b.acl
    ++ optField (s% "bucket") b.bucket
    ++ optField (s% "Cache-Control") b.cacheControl
    ++ optField (s% "Content-Disposition") b.contentDisposition
    ++ optField (s% "Content-Encoding") b.contentEncoding
    ++ optField (s% "Content-Length") (b.contentLength.map natDec)
    ++ optField (s% "Content-Type") b.contentType
    ++ optField (s% "Expires") b.expires
    ++ [(s% "key", key)]
    ++ optField (s% "policy") (p.map (·.policy))
    ++ optField (s% "success_action_redirect") b.successActionRedirect
    ++ optField (s% "success_action_status") (b.successActionStatus.map natDec)
    ++ optField (s% "x-goog-algorithm") (p.map (·.algorithm))
    ++ optField (s% "x-goog-credential") (p.map (·.credential))
    ++ optField (s% "x-goog-custom-time") b.xGoogCustomTime
    ++ optField (s% "x-goog-date") (p.map (·.date))
    ++ optField (s% "x-goog-signature") (p.map (·.signature))
    ++ metas)

/-- The two asynchronous entry points of the crate: `build_signed_url` and `HtmlFormData::builder()...build()`. -/
inductive ApiCall where
  | url (o : UrlOptions)
  | form (cs : List Call)

/-- What an entry point returns. -/
inductive ApiResult where
  | url (r : Res BuildUrlError Str)
  | form (r : Res FormError (List (Str × Str)))

def ApiCall.prog (env : Env) : ApiCall → Prog ApiResult
  | .url o => Prog.bind (buildSignedUrlP env o) fun r => .ret (.url r)
  | .form cs => Prog.bind ((Builder.ofCalls cs).buildP env) fun r => .ret (.form r)

/-- What one step of a call does: it took the lock `id` and saw `c`; read the clock; wrote the cache; dropped the
guard; sent a request; received the status (or a transport error); received the text (or a transport error). -/
inductive Ev where
  | locked (id : Nat) (c : Option Cached)
  | clock (t : Time)
  | stored (id : Nat) (c : Cached)
  | unlocked (id : Nat)
  | sent (r : Request)
  | status (s : Option Nat)
  | body (t : Option Str)
  deriving DecidableEq, Repr

/-- One step of a program. The clock, the network and the value behind the lock are arbitrary here. -/
inductive Prog.Step {α} : Prog α → Ev → Prog α → Prop where
  | now (k t) : Step (.now k) (.clock t) (k t)
  | lock (id k c) : Step (.lock id k) (.locked id c) (k c)
  | store (id c k) : Step (.store id c k) (.stored id c) k
  | unlock (id k) : Step (.unlock id k) (.unlocked id) k
  | send (r k) : Step (.send r k) (.sent r) k
  | recv (k s) : Step (.recv k) (.status s) (k s)
  | text (k t) : Step (.text k) (.body t) (k t)

/-- What happened, in order: a call began, did something, returned, or was dropped. -/
inductive Event where
  | started (i : Nat) (call : ApiCall)
  | did (i : Nat) (e : Ev)
  | returned (i : Nat) (r : ApiResult)
  | cancelled (i : Nat)

/-- The shared state: the caches and who holds each lock; the calls in progress; the history. -/
structure Sys where
  caches : Nat → Option Cached
  holder : Nat → Option Nat
  calls : Nat → Option (Prog ApiResult)
  trace : List Event

/-- Nothing cached, nothing running. -/
def Sys.init : Sys := ⟨fun _ => none, fun _ => none, fun _ => none, []⟩

def Event.call : Event → Nat
  | .started i _ | .did i _ | .returned i _ | .cancelled i => i

/-- The bound-token key a call uses, if any. -/
def SigningKey.boundToken? : SigningKey → Option BoundToken
  | .boundToken bt => some bt
  | _ => none
def ApiCall.key? : ApiCall → Option BoundToken
  | .url o => o.signingKey.boundToken?
  | .form cs => (Builder.ofCalls cs).signingOptions.bind (·.signingKey.boundToken?)

/-- The effect of a step on the shared state; `tokio::sync::Mutex::lock` is granted only when the lock is free, and
the guard then shows the cache. -/
inductive Sys.Effect (i : Nat) : Sys → Ev → (Nat → Option Cached) → (Nat → Option Nat) → Prop where
  | locked (s : Sys) (id : Nat) : s.holder id = none →
      Effect i s (.locked id (s.caches id)) s.caches (fun j => if j = id then some i else s.holder j)
  | stored (s : Sys) (id : Nat) (c : Cached) :
      Effect i s (.stored id c) (fun j => if j = id then some c else s.caches j) s.holder
  | unlocked (s : Sys) (id : Nat) :
      Effect i s (.unlocked id) s.caches (fun j => if j = id then none else s.holder j)
  | clock (s : Sys) (t : Time) : Effect i s (.clock t) s.caches s.holder
  | sent (s : Sys) (r : Request) : Effect i s (.sent r) s.caches s.holder
  | status (s : Sys) (n : Option Nat) : Effect i s (.status n) s.caches s.holder
  | body (s : Sys) (t : Option Str) : Effect i s (.body t) s.caches s.holder

/-- One step of the system. `base` gives the base URL of each key: clones of a key share the lock and the base URL
(`#[derive(Clone)]`, src/private/bound_token.rs:57-62). A call may be started at any time with a new number; any call
in progress may take its next step (threads run in parallel); a call that is suspended at an `.await` may be dropped,
which drops its guard. Dropping happens only at an `.await` because only there a future is not running. -/
inductive Sys.Step (env : Env) (base : Nat → Str) : Sys → Sys → Prop where
  | start (s : Sys) (i : Nat) (call : ApiCall) : (∀ e ∈ s.trace, e.call ≠ i) →
      (∀ bt, call.key? = some bt → bt.baseUrl = base bt.id) →
      Step env base s { s with
        calls := fun j => if j = i then some (call.prog env) else s.calls j
        trace := s.trace ++ [.started i call] }
  | act (s : Sys) (i : Nat) (p q : Prog ApiResult) (e : Ev) (caches : Nat → Option Cached) (holder : Nat → Option Nat) :
      s.calls i = some p → p.Step e q → s.Effect i e caches holder →
      Step env base s { caches := caches
                        holder := holder
                        calls := fun j => if j = i then some q else s.calls j
                        trace := s.trace ++ [.did i e] }
  | finish (s : Sys) (i : Nat) (r : ApiResult) : s.calls i = some (.ret r) →
      Step env base s { s with
        calls := fun j => if j = i then none else s.calls j
        trace := s.trace ++ [.returned i r] }
  | cancel (s : Sys) (i : Nat) (p : Prog ApiResult) : s.calls i = some p → p.awaits = true →
      Step env base s { s with
        holder := fun id => if s.holder id = some i then none else s.holder id
        calls := fun j => if j = i then none else s.calls j
        trace := s.trace ++ [.cancelled i] }

/-- The states that some schedule reaches. -/
inductive Sys.Reach (env : Env) (base : Nat → Str) : Sys → Prop where
  | init : Reach env base Sys.init
  | step (s s' : Sys) : Reach env base s → Sys.Step env base s s' → Reach env base s'

end CSS
