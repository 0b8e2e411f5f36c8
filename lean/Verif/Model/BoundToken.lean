import Verif.Model.Serde
import Verif.Model.Codec
import Verif.Model.Outcome
/-
src/private/bound_token.rs, src/private/signing_key_inner.rs, src/signing_key.rs.
Sequential view: one call runs to completion (the `tokio::sync::Mutex` is free when it starts). The
interleaved, cancellable view is in Model/Concurrent.
-/
namespace CSS

/-- `BoundTokenError`: src/private/bound_token.rs:14-55 (error sources not modelled). -/
inductive BoundTokenError where
  | emailRequestBuild | emailRequestErrorResponse | emailRequestExecute
  | emailRequestStatus (status : Nat) (body : Str)
  | emailRequestSuccessResponse
  | signBlobRequestBuild | signBlobRequestErrorResponse | signBlobRequestExecute
  | signBlobRequestStatus (status : Nat) (body : Str)
  | signBlobRequestSuccessResponse | signBlobRequestSuccessResponseBase64Decode
  | signBlobRequestSuccessResponseDeserialize
  | tokenRequestBuild | tokenRequestErrorResponse | tokenRequestExecute
  | tokenRequestInvalidTokenType (t : Str)
  | tokenRequestStatus (status : Nat) (body : Str)
  | tokenRequestSuccessResponse | tokenRequestSuccessResponseDeserialize
  deriving DecidableEq, Repr

/-- `BoundToken`: src/private/bound_token.rs:57-62. `id` is the identity of the shared
`Arc<Mutex<..>>`; `#[derive(Clone)]` copies it, so clones share the cache. -/
structure BoundToken where
  id : Nat
  baseUrl : Str
  deriving DecidableEq, Repr

/-- `BoundToken::new`: src/private/bound_token.rs:65-76 (a fresh, empty cache). -/
def BoundToken.new {ε} (env : Env) : M ε BoundToken := fun w =>
  (.ok { id := w.nextId, baseUrl := s% "http://" ++ env.metadataHost.getD (s% "metadata.google.internal") },
   { w with nextId := w.nextId + 1, caches := fun i => if i = w.nextId then none else w.caches i })

/-- `StatusCode::is_success`. -/
def isSuccess (status : Nat) : Bool := 200 ≤ status && status < 300

/-- The e-mail request: src/private/bound_token.rs:95-104 -/
def emailRequest (bt : BoundToken) : Request :=
  { method := s% "GET"
    url := bt.baseUrl ++ s% "/computeMetadata/v1/instance/service-accounts/default/email"
    headers := [(s% "Metadata-Flavor", s% "Google")]
    body := none }

/-- The token request: src/private/bound_token.rs:129-138 -/
def tokenRequest (bt : BoundToken) : Request :=
  { method := s% "GET"
    url := bt.baseUrl ++ s% "/computeMetadata/v1/instance/service-accounts/default/token"
    headers := [(s% "Metadata-Flavor", s% "Google")]
    body := none }

/-- The error constructors of one request. -/
structure FetchErrors where
  build : BoundTokenError
  execute : BoundTokenError
  errorResponse : BoundTokenError
  status : Nat → Str → BoundTokenError
  successResponse : BoundTokenError

/-- Build, execute, check the status, read the body. The code repeats this block three times:
src/private/bound_token.rs:99-124, 133-158, 193-229. -/
def fetchText (env : Env) (e : FetchErrors) (r : Request) : M BoundTokenError Str := do
  if env.canBuild r = false then M.err e.build
  else
    let response ← M.execute env r
    match response with
    | .execErr => M.err e.execute
    | .response status body =>
      if isSuccess status then
        match body with
        | none => M.err e.successResponse
        | some text => pure text
      else
        match body with
        | none => M.err e.errorResponse
        | some text => M.err (e.status status text)

def emailErrors : FetchErrors :=
  ⟨.emailRequestBuild, .emailRequestExecute, .emailRequestErrorResponse, .emailRequestStatus,
   .emailRequestSuccessResponse⟩
def tokenErrors : FetchErrors :=
  ⟨.tokenRequestBuild, .tokenRequestExecute, .tokenRequestErrorResponse, .tokenRequestStatus,
   .tokenRequestSuccessResponse⟩
def signBlobErrors : FetchErrors :=
  ⟨.signBlobRequestBuild, .signBlobRequestExecute, .signBlobRequestErrorResponse,
   .signBlobRequestStatus, .signBlobRequestSuccessResponse⟩

/-- The match guard: src/private/bound_token.rs:82-88. Both `expect`s are explicit. -/
def cacheFresh (env : Env) (c : Cached) : M BoundTokenError Bool := do
  if c.expires < 0 then M.panic .expiresBeforeEpoch
  else
    let now ← M.now env
    if now < 0 then M.panic .nowBeforeEpoch
    else pure (decide (c.expires > now + 30 * nsPerSec))

/-- The refresh branch: src/private/bound_token.rs:92-169 -/
def refresh (env : Env) (bt : BoundToken) : M BoundTokenError (Str × Str) := do
  let email ← fetchText env emailErrors (emailRequest bt)
  let body ← fetchText env tokenErrors (tokenRequest bt)
  match parseAccessToken body with
  | none => M.err .tokenRequestSuccessResponseDeserialize
  | some t =>
    if t.tokenType ≠ s% "Bearer" then M.err (.tokenRequestInvalidTokenType t.tokenType)
    else
      let now ← M.now env
      let expires := now + (t.expiresIn : Int) * nsPerSec
      if timeLimit ≤ expires then M.panic .expiresOverflow
      else
        M.setCache bt.id ⟨email, t.accessToken, expires⟩
        pure (email, t.accessToken)

/-- `BoundToken::get_email_and_token`: src/private/bound_token.rs:78-171 -/
def getEmailAndToken (env : Env) (bt : BoundToken) : M BoundTokenError (Str × Str) := do
  let cache ← M.getCache bt.id
  match cache with
  | none => refresh env bt
  | some c =>
    let fresh ← cacheFresh env c
    if fresh then pure (c.email, c.token) else refresh env bt

/-- The signBlob request: src/private/bound_token.rs:190-209. `delegates: None` is skipped. -/
def signBlobRequest (email token : Str) (message : Bytes) : Request :=
  { method := s% "POST"
    url := s% "https://iamcredentials.googleapis.com/v1/projects/-/serviceAccounts/" ++ email
      ++ s% ":signBlob"
    headers := [(s% "authorization", s% "Bearer " ++ token), (s% "content-type", s% "application/json")]
    body := some (Json.render (.obj [(s% "payload", .str (b64Encode message))])) }

/-- `BoundToken::sign`: src/private/bound_token.rs:173-240 -/
def BoundToken.sign (env : Env) (bt : BoundToken) (message : Bytes) : M BoundTokenError Bytes := do
  let (email, token) ← getEmailAndToken env bt
  let body ← fetchText env signBlobErrors (signBlobRequest email token message)
  match parseSignBlobResponse body with
  | none => M.err .signBlobRequestSuccessResponseDeserialize
  | some blob =>
    match b64Decode blob with
    | none => M.err .signBlobRequestSuccessResponseBase64Decode
    | some signature => pure signature

end CSS
