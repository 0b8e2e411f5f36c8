import Verif.Model.HtmlForm
import Verif.Model.SignedUrl
import Verif.Spec.Documents
/-
What may differ between two runs that differ only in access tokens.
-/
namespace CSS.Spec

/-- The request without the value of its `authorization` header. -/
def hideAuthorization (r : Request) : Request :=
  { r with headers := r.headers.map fun h => if h.1 = s% "authorization" then (h.1, []) else h }

/-- `r` asks a metadata server for an access token. -/
def AsksForToken (r : Request) : Prop :=
  ∃ base, r.url = base ++ s% "/computeMetadata/v1/instance/service-accounts/default/token"

/-- Two answers to `r` that are the same, or both successful answers with token documents that may differ in the token. -/
def SameAnswer (r : Request) (a₁ a₂ : NetResult) : Prop :=
  a₁ = a₂ ∨ (AsksForToken r ∧ ∃ status text₁ text₂ token₁ token₂ life type,
    200 ≤ status ∧ status ≤ 299 ∧ a₁ = .response status (some text₁) ∧ a₂ = .response status (some text₂) ∧
    TokenText text₁ token₁ life type ∧ TokenText text₂ token₂ life type)

/-- Two environments that treat requests alike if these differ in the authorization only, and whose token answers may
differ in the token. -/
structure SameButTokens (env₁ env₂ : Env) : Prop where
  rest : ∃ canBuild net, env₂ = { env₁ with canBuild := canBuild, net := net }
  built : ∀ r₁ r₂, hideAuthorization r₁ = hideAuthorization r₂ → env₁.canBuild r₁ = env₂.canBuild r₂
  answers : ∀ k r₁ r₂, hideAuthorization r₁ = hideAuthorization r₂ → SameAnswer r₁ (env₁.net k r₁) (env₂.net k r₂)

/-- Two worlds that may differ in the cached tokens and in authorizations that were sent. -/
structure SameButCachedTokens (w₁ w₂ : World) : Prop where
  nextId : w₁.nextId = w₂.nextId
  ticks : w₁.ticks = w₂.ticks
  log : w₁.log.map hideAuthorization = w₂.log.map hideAuthorization
  caches : ∀ i, (w₁.caches i).map (fun c => (c.email, c.expires)) = (w₂.caches i).map fun c => (c.email, c.expires)

/-- The call with another signing key, if it sets signing options. -/
def withKey (key : SigningKey) : Call → Call
  | .policyDocumentSigningOptions o => .policyDocumentSigningOptions { o with signingKey := key }
  | c => c

end CSS.Spec
