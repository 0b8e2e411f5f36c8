import Verif.Spec.Concurrent
/-
Why a call of a concurrent history failed: for every error of a bound token, the end of the call's own history that it
reports. The variants of the error are told apart by their messages, see C74.
-/
namespace CSS.Spec

/-- The call failed with the error `e` of a bound token. -/
inductive FailedWith : ApiResult → BoundTokenError → Prop
  | urlAuthorizer (e : BoundTokenError) : FailedWith (.url (.err (.signedUrl (.signing (.boundTokenAuthorizer e))))) e
  | urlSigning (e : BoundTokenError) : FailedWith (.url (.err (.signedUrl (.signing (.boundTokenSigning e))))) e
  | formAuthorizer (e : BoundTokenError) : FailedWith (.form (.err (.boundTokenAuthorizer (.boundTokenAuthorizer e)))) e
  | formSigning (e : BoundTokenError) : FailedWith (.form (.err (.signing (.boundTokenSigning e)))) e

/-- The call panicked at `site`. -/
inductive AbortedAt : ApiResult → PanicSite → Prop
  | url (site : PanicSite) : AbortedAt (.url (.panic site)) site
  | form (site : PanicSite) : AbortedAt (.form (.panic site)) site

/-- What can go wrong with a request. -/
inductive Trouble where
  | notBuilt
  | unanswered
  | refused (status : Nat) (body : Str)
  | refusedUnread
  | unread

/-- The steps that a request leaves when this goes wrong with it: none if it cannot be built; otherwise it was sent, and
no answer came; or a status outside 200..=299 with the body or with a body that broke off; or a status in 200..=299 with
a body that broke off. -/
inductive Trouble.Leaves (env : Env) (r : Request) : Trouble → List Ev → Prop
  | notBuilt : env.canBuild r = false → Leaves env r .notBuilt []
  | unanswered : Leaves env r .unanswered [.sent r, .status none]
  | refused (s : Nat) (b : Str) : ¬ (200 ≤ s ∧ s ≤ 299) → Leaves env r (.refused s b) [.sent r, .status (some s), .body (some b)]
  | refusedUnread (s : Nat) : ¬ (200 ≤ s ∧ s ≤ 299) → Leaves env r .refusedUnread [.sent r, .status (some s), .body none]
  | unread (s : Nat) : 200 ≤ s → s ≤ 299 → Leaves env r .unread [.sent r, .status (some s), .body none]

/-- The e-mail request of a refresh that had become necessary was the last thing of the history, and went wrong. -/
def EmailTrouble (env : Env) (base : Str) (id : Nat) (tr : Trouble) (h : List Ev) : Prop :=
  ∃ before steps, h = before ++ steps ++ [.unlocked id] ∧ MustRefresh id before ∧
    tr.Leaves env (metadataGet (emailUrl base)) steps

/-- A call with the history `h` is in a refresh that had become necessary, and has just got the e-mail. -/
def HasEmail (base : Str) (id : Nat) (h : List Ev) : Prop :=
  ∃ before s email, h = before ++ [.sent (metadataGet (emailUrl base)), .status (some s), .body (some email)] ∧
    MustRefresh id before ∧ 200 ≤ s ∧ s ≤ 299

/-- The token request, after the e-mail had arrived, was the last thing of the history, and went wrong. -/
def TokenTrouble (env : Env) (base : Str) (id : Nat) (tr : Trouble) (h : List Ev) : Prop :=
  ∃ before steps, h = before ++ steps ++ [.unlocked id] ∧ HasEmail base id before ∧
    tr.Leaves env (metadataGet (tokenUrl base)) steps

/-- A call with the history `h` has just got the e-mail and then the document `doc` in answer to the token request. -/
def HasDocument (base : Str) (id : Nat) (doc : Str) (h : List Ev) : Prop :=
  ∃ before s, h = before ++ [.sent (metadataGet (tokenUrl base)), .status (some s), .body (some doc)] ∧
    HasEmail base id before ∧ 200 ≤ s ∧ s ≤ 299

/-- A signBlob request for the pair that the call had just got was the last thing of the history, and went wrong. -/
def BlobTrouble (env : Env) (base : Str) (id : Nat) (tr : Trouble) (h : List Ev) : Prop :=
  ∃ before steps email token body, h = before ++ steps ∧ GotPair base id before email token ∧
    tr.Leaves env (signBlobPost email token body) steps

/-- A signBlob request for the pair that the call had just got was answered with `text`, and nothing happened since. -/
def HasBlobText (base : Str) (id : Nat) (text : Str) (h : List Ev) : Prop :=
  ∃ before s email token body,
    h = before ++ [.sent (signBlobPost email token body), .status (some s), .body (some text)] ∧
    GotPair base id before email token ∧ 200 ≤ s ∧ s ≤ 299

/-- What the history of a call with the key `id` at the metadata server `base` ends with if the call fails with the error. -/
def Explains (env : Env) (base : Str) (id : Nat) (h : List Ev) : BoundTokenError → Prop
  | .emailRequestBuild => EmailTrouble env base id .notBuilt h
  | .emailRequestExecute => EmailTrouble env base id .unanswered h
  | .emailRequestStatus s b => EmailTrouble env base id (.refused s b) h
  | .emailRequestErrorResponse => EmailTrouble env base id .refusedUnread h
  | .emailRequestSuccessResponse => EmailTrouble env base id .unread h
  | .tokenRequestBuild => TokenTrouble env base id .notBuilt h
  | .tokenRequestExecute => TokenTrouble env base id .unanswered h
  | .tokenRequestStatus s b => TokenTrouble env base id (.refused s b) h
  | .tokenRequestErrorResponse => TokenTrouble env base id .refusedUnread h
  | .tokenRequestSuccessResponse => TokenTrouble env base id .unread h
  | .tokenRequestSuccessResponseDeserialize => ∃ before doc, h = before ++ [.unlocked id] ∧ HasDocument base id doc before ∧
      ¬ ∃ token life type, TokenText doc token life type
  | .tokenRequestInvalidTokenType type => ∃ before doc token life, h = before ++ [.unlocked id] ∧
      HasDocument base id doc before ∧ TokenText doc token life type ∧ type ≠ s% "Bearer"
  | .signBlobRequestBuild => BlobTrouble env base id .notBuilt h
  | .signBlobRequestExecute => BlobTrouble env base id .unanswered h
  | .signBlobRequestStatus s b => BlobTrouble env base id (.refused s b) h
  | .signBlobRequestErrorResponse => BlobTrouble env base id .refusedUnread h
  | .signBlobRequestSuccessResponse => BlobTrouble env base id .unread h
  | .signBlobRequestSuccessResponseDeserialize => ∃ text, HasBlobText base id text h ∧ ¬ ∃ blob, SignBlobText text blob
  | .signBlobRequestSuccessResponseBase64Decode => ∃ text blob, HasBlobText base id text h ∧ SignBlobText text blob ∧
      base64Decode blob = none

/-- What the history of such a call ends with if it panics while it gets a token: it found an expiry before 1970, or it
read a clock before 1970, or the new token lives beyond the last instant that `SystemTime` can represent. -/
def ExplainsPanic (base : Str) (id : Nat) (h : List Ev) (site : PanicSite) : Prop :=
  (site = .expiresBeforeEpoch ∧ ∃ before c, h = before ++ [.locked id (some c), .unlocked id] ∧ c.expires < 0) ∨
  (site = .nowBeforeEpoch ∧ ∃ before c t, h = before ++ [.locked id (some c), .clock t, .unlocked id] ∧ t < 0) ∨
  (site = .expiresOverflow ∧ ∃ before doc token life t, h = before ++ [.clock t, .unlocked id] ∧
    HasDocument base id doc before ∧ TokenText doc token life (s% "Bearer") ∧
    9223372036854775808 * 1000000000 ≤ t + (life : Int) * 1000000000)

/-- In this history no call reads a clock before 1970, and no token lives beyond the last instant that `SystemTime` can
represent. -/
structure SaneHistory (trace : List Event) : Prop where
  clock : ∀ i t, .did i (.clock t) ∈ trace → 0 ≤ t
  life : ∀ i t j doc token life type, .did i (.clock t) ∈ trace → .did j (.body (some doc)) ∈ trace → TokenText doc token life type →
    t + (life : Int) * 1000000000 < 9223372036854775808 * 1000000000

/-- A request of the call went wrong on the way: there was no answer, a status outside 200..=299, or a body that broke off. -/
def HadTrouble (h : List Ev) : Prop :=
  .status none ∈ h ∨ (∃ s, .status (some s) ∈ h ∧ ¬ (200 ≤ s ∧ s ≤ 299)) ∨ .body none ∈ h

end CSS.Spec
