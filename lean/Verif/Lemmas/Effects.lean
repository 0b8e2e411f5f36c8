import Verif.Lemmas.TokenPanic
import Verif.Model.SignedUrl
import Verif.Model.HtmlForm
/-
Whatever holds between the states before and after each step of a call holds between the states before and after the
call, whether it succeeds, fails or panics.
-/
set_option linter.unusedSimpArgs false
namespace CSS
open Spec

/-- The states before and after `m` are always related by `R`. -/
def Keeps (R : World → World → Prop) (m : M ε α) : Prop := ∀ w, R w (m w).2

theorem Keeps.bind {R : World → World → Prop} (ht : ∀ a b c, R a b → R b c → R a c) {m : M ε α} {f : α → M ε β}
    (h : Keeps R m) (hf : ∀ a, Keeps R (f a)) : Keeps R (m >>= f) := by
  intro w
  rw [M.bind_run]
  have h1 := h w
  generalize m w = x at h1 ⊢
  obtain ⟨r, w'⟩ := x
  cases r with
  | ok a => exact ht _ _ _ h1 (hf a w')
  | err e => exact h1
  | panic p => exact h1

theorem Keeps.lift {R : World → World → Prop} (hr : ∀ a, R a a) (r : Res ε α) : Keeps R (M.lift r : M ε α) :=
  fun w => hr w

theorem Keeps.pure {R : World → World → Prop} (hr : ∀ a, R a a) (a : α) : Keeps R (Pure.pure a : M ε α) :=
  fun w => hr w

theorem Keeps.err {R : World → World → Prop} (hr : ∀ a, R a a) (e : ε) : Keeps R (M.err e : M ε α) :=
  fun w => hr w

theorem Keeps.panic {R : World → World → Prop} (hr : ∀ a, R a a) (p : PanicSite) : Keeps R (M.panic p : M ε α) :=
  fun w => hr w

theorem Keeps.mapErr {R : World → World → Prop} {m : M ε α} (h : Keeps R m) (f : ε → ε') : Keeps R (M.mapErr f m) := by
  intro w
  rw [M.mapErr_run]
  exact h w

theorem Keeps.timeOrNow {R : World → World → Prop} (hr : ∀ a, R a a) (htick : ∀ a : World, R a a.tick) (env : Env)
    (t : Option Time) : Keeps R (M.timeOrNow env t : M ε Time) := by
  intro w
  cases t with
  | some t => exact hr w
  | none => exact htick w

section
variable {R : World → World → Prop} (hr : ∀ a, R a a) (ht : ∀ a b c, R a b → R b c → R a c)
  (htick : ∀ a : World, R a a.tick) (env : Env)
include hr ht

theorem keeps_authorizer (key : SigningKey) (hg : ∀ bt, key = .boundToken bt → Keeps R (getEmailAndToken env bt)) :
    Keeps R (key.authorizer env) := by
  cases key with
  | boundToken bt => exact (Keeps.mapErr (hg bt rfl) _).bind ht fun p => Keeps.pure hr _
  | hmac a s => exact Keeps.pure hr _
  | serviceAccount a s => exact Keeps.pure hr _

omit ht in
theorem keeps_sign (key : SigningKey) (u : Bool) (m : Bytes)
    (hs : ∀ bt m, key = .boundToken bt → Keeps R (bt.sign env m)) : Keeps R (key.sign env u m) := by
  cases key with
  | boundToken bt =>
    unfold SigningKey.sign
    cases u
    · exact Keeps.err hr _
    · exact Keeps.mapErr (hs bt m rfl) _
  | hmac a s => exact Keeps.panic hr _
  | serviceAccount a s =>
    unfold SigningKey.sign
    cases u
    · exact Keeps.lift hr _
    · exact Keeps.panic hr _

include htick

theorem keeps_buildSignedUrl (o : UrlOptions)
    (hg : ∀ bt, o.signingKey = .boundToken bt → Keeps R (getEmailAndToken env bt))
    (hs : ∀ bt m, o.signingKey = .boundToken bt → Keeps R (bt.sign env m)) : Keeps R (buildSignedUrl env o) := by
  unfold buildSignedUrl
  refine (Keeps.timeOrNow hr htick _ _).bind ht fun at_ => ?_
  refine (Keeps.lift hr _).bind ht fun now => ?_
  refine (Keeps.lift hr _).bind ht fun life => ?_
  refine (Keeps.lift hr _).bind ht fun method => ?_
  refine (Keeps.lift hr _).bind ht fun uri => ?_
  refine (Keeps.lift hr _).bind ht fun userHeaders => ?_
  refine (Keeps.lift hr _).bind ht fun headers => ?_
  refine (Keeps.lift hr _).bind ht fun scope => ?_
  refine (Keeps.lift hr _).bind ht fun expiration => ?_
  refine Keeps.mapErr ?_ _
  unfold SignedUrl.new
  refine (Keeps.mapErr (keeps_authorizer hr ht env _ hg) _).bind ht fun email => ?_
  refine (Keeps.lift hr _).bind ht fun request => ?_
  refine (Keeps.lift hr _).bind ht fun canonical => ?_
  exact (Keeps.mapErr (keeps_sign hr env _ _ _ hs) _).bind ht fun digest => Keeps.pure hr _

theorem keeps_build (b : Builder)
    (hg : ∀ o bt, b.signingOptions = some o → o.signingKey = .boundToken bt → Keeps R (getEmailAndToken env bt))
    (hs : ∀ o bt m, b.signingOptions = some o → o.signingKey = .boundToken bt → Keeps R (bt.sign env m)) :
    Keeps R (b.build env) := by
  unfold Builder.build
  refine Keeps.bind ht ?_ fun p => ?_
  · unfold buildPolicyAndSignature
    cases ho : b.signingOptions with
    | none => exact Keeps.pure hr _
    | some o =>
      refine Keeps.bind ht ?_ fun p => Keeps.pure hr _
      unfold buildPolicy
      refine (Keeps.timeOrNow hr htick _ _).bind ht fun at_ => ?_
      split
      · exact Keeps.err hr _
      refine (Keeps.lift hr _).bind ht fun a => ?_
      refine (Keeps.lift hr _).bind ht fun e => ?_
      refine (Keeps.lift hr _).bind ht fun bucket => ?_
      refine (Keeps.lift hr _).bind ht fun key => ?_
      dsimp only
      split
      · exact Keeps.err hr _
      refine (Keeps.mapErr (keeps_authorizer hr ht env _ fun bt hk => hg o bt ho hk) _).bind ht fun email => ?_
      refine (Keeps.lift hr _).bind ht fun scope => ?_
      refine (Keeps.lift hr _).bind ht fun conditions => ?_
      exact (Keeps.mapErr (keeps_sign hr env _ _ _ fun bt m hk => hs o bt m ho hk) _).bind ht fun digest => Keeps.pure hr _
  · refine (Keeps.lift hr _).bind ht fun key => ?_
    exact (Keeps.lift hr _).bind ht fun metas => Keeps.pure hr _

end
end CSS
