import Verif.Spec.Secrets
import Verif.Spec.Concurrent
/-
C64 for histories: two histories that differ only in access tokens.
-/
namespace CSS.Spec

/-- A call that has done `h` is about to read the document with an access token: its last two steps sent the request
for one and received a successful status. -/
def AwaitsToken (h : List Ev) : Prop :=
  ∃ before r status, h = before ++ [.sent r, .status (some status)] ∧ AsksForToken r ∧ 200 ≤ status ∧ status ≤ 299

/-- `swap` puts other access tokens into token documents and leaves every other text as it is. -/
structure OnlyTokens (swap : Str → Str) : Prop where
  token : ∀ doc token life type, TokenText doc token life type → ∃ token', TokenText (swap doc) token' life type
  other : ∀ doc, (∀ token life type, ¬ TokenText doc token life type) → swap doc = doc

/-- Two cached values with the same account and the same end. -/
def SameButToken (c₁ c₂ : Option Cached) : Prop :=
  c₁.map (fun c => (c.email, c.expires)) = c₂.map fun c => (c.email, c.expires)

/-- Two steps that differ in access tokens only. `h` is what the call did before; the document with a token is swapped,
any other text is the same; what is sent may differ in the authorization; what is cached may differ in the token. -/
inductive SwappedStep (swap : Str → Str) (h : List Ev) : Ev → Ev → Prop where
  | clock (t : Time) : SwappedStep swap h (.clock t) (.clock t)
  | unlocked (id : Nat) : SwappedStep swap h (.unlocked id) (.unlocked id)
  | status (s : Option Nat) : SwappedStep swap h (.status s) (.status s)
  | body (t : Option Str) : ¬ AwaitsToken h → SwappedStep swap h (.body t) (.body t)
  | token (t : Option Str) : AwaitsToken h → SwappedStep swap h (.body t) (.body (t.map swap))
  | sent (r₁ r₂ : Request) : hideAuthorization r₁ = hideAuthorization r₂ → SwappedStep swap h (.sent r₁) (.sent r₂)
  | locked (id : Nat) (c₁ c₂ : Option Cached) : SameButToken c₁ c₂ → SwappedStep swap h (.locked id c₁) (.locked id c₂)
  | stored (id : Nat) (c₁ c₂ : Cached) : SameButToken (some c₁) (some c₂) →
      SwappedStep swap h (.stored id c₁) (.stored id c₂)

/-- Two histories in which the same calls are started, do the same steps but for access tokens, are dropped at the same
points and return the same results. -/
inductive Swapped (swap : Str → Str) : List Event → List Event → Prop where
  | nil : Swapped swap [] []
  | started (a b : List Event) (i : Nat) (call : ApiCall) : Swapped swap a b →
      Swapped swap (a ++ [.started i call]) (b ++ [.started i call])
  | returned (a b : List Event) (i : Nat) (r : ApiResult) : Swapped swap a b →
      Swapped swap (a ++ [.returned i r]) (b ++ [.returned i r])
  | cancelled (a b : List Event) (i : Nat) : Swapped swap a b →
      Swapped swap (a ++ [.cancelled i]) (b ++ [.cancelled i])
  | did (a b : List Event) (i : Nat) (e₁ e₂ : Ev) : Swapped swap a b → SwappedStep swap (did a i) e₁ e₂ →
      Swapped swap (a ++ [.did i e₁]) (b ++ [.did i e₂])

end CSS.Spec
