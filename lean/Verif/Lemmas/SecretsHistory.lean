import Verif.Spec.SecretsHistory
import Verif.Lemmas.Critical
import Verif.Props.Secrets
/-
Programs that behave alike when only access tokens are exchanged.
-/
set_option linter.unusedSimpArgs false
namespace CSS
open Spec

/-- `p` and `q` do the same steps but for access tokens, and end in values related by `R`. `h` is what the first did before. -/
inductive Prog.Alike {α} (swap : Str → Str) (R : α → α → Prop) : List Ev → Prog α → Prog α → Prop where
  | ret (h a b) : R a b → Alike swap R h (.ret a) (.ret b)
  | now (h k k') : (∀ t, Alike swap R (h ++ [.clock t]) (k t) (k' t)) → Alike swap R h (.now k) (.now k')
  | lock (h id k k') : (∀ c c', SameButToken c c' → Alike swap R (h ++ [.locked id c]) (k c) (k' c')) →
      Alike swap R h (.lock id k) (.lock id k')
  | store (h id c c' k k') : SameButToken (some c) (some c') → Alike swap R (h ++ [.stored id c]) k k' →
      Alike swap R h (.store id c k) (.store id c' k')
  | unlock (h id k k') : Alike swap R (h ++ [.unlocked id]) k k' → Alike swap R h (.unlock id k) (.unlock id k')
  | send (h r r' k k') : hideAuthorization r = hideAuthorization r' → Alike swap R (h ++ [.sent r]) k k' →
      Alike swap R h (.send r k) (.send r' k')
  | recv (h k k') : (∀ s, Alike swap R (h ++ [.status s]) (k s) (k' s)) → Alike swap R h (.recv k) (.recv k')
  | text (h k k') : (∀ t t', SwappedStep swap h (.body t) (.body t') → Alike swap R (h ++ [.body t]) (k t) (k' t')) →
      Alike swap R h (.text k) (.text k')

variable {α β ε ε' : Type} {swap : Str → Str}

theorem Prog.Alike.bind {R : α → α → Prop} {Q : β → β → Prop} {h : List Ev} {p q : Prog α} {f g : α → Prog β}
    (hp : Prog.Alike swap R h p q) (hf : ∀ h a b, R a b → Prog.Alike swap Q h (f a) (g b)) :
    Prog.Alike swap Q h (p.bind f) (q.bind g) := by
  induction hp with
  | ret h a b hr => exact hf h a b hr
  | now h k k' _ ih => exact .now _ _ _ ih
  | lock h id k k' _ ih => exact .lock _ _ _ _ ih
  | store h id c c' k k' hc _ ih => exact .store _ _ _ _ _ _ hc ih
  | unlock h id k k' _ ih => exact .unlock _ _ _ _ ih
  | send h r r' k k' hr _ ih => exact .send _ _ _ _ _ hr ih
  | recv h k k' _ ih => exact .recv _ _ _ ih
  | text h k k' _ ih => exact .text _ _ _ ih

/-- The same outcome, but for what `V` allows in values. -/
inductive ResRel (V : α → α → Prop) : Res ε α → Res ε α → Prop
  | ok (a b : α) : V a b → ResRel V (.ok a) (.ok b)
  | err (e : ε) : ResRel V (.err e) (.err e)
  | panic (s : PanicSite) : ResRel V (.panic s) (.panic s)

theorem ResRel.rfl' {r : Res ε α} : ResRel (fun a b => b = a) r r := by
  cases r with
  | ok a => exact .ok _ _ rfl
  | err e => exact .err e
  | panic s => exact .panic s

theorem ResRel.eq {r r' : Res ε α} (h : ResRel (fun a b => b = a) r r') : r' = r := by
  cases h with
  | ok a b h => rw [h]
  | err e => rfl
  | panic s => rfl

/-- `Alike` for programs with outcomes, after any history. -/
def P.Alike (swap : Str → Str) (V : α → α → Prop) (p q : P ε α) : Prop :=
  ∀ h, Prog.Alike (α := Res ε α) swap (ResRel V) h p q

theorem P.Alike.bind {V : α → α → Prop} {W : β → β → Prop} {p q : P ε α} {f g : α → P ε β} (hp : P.Alike swap V p q)
    (hf : ∀ a b, V a b → P.Alike swap W (f a) (g b)) : P.Alike swap W (p >>= f) (q >>= g) := by
  intro h
  refine Prog.Alike.bind (hp h) ?_
  intro h a b hr
  cases hr with
  | ok a b hv => exact hf a b hv h
  | err e => exact .ret _ _ _ (.err e)
  | panic s => exact .ret _ _ _ (.panic s)

/-- The same values. -/
abbrev P.Alike1 (swap : Str → Str) (p q : P ε α) : Prop := P.Alike swap (fun a b => b = a) p q

theorem P.Alike1.bind {W : β → β → Prop} {p q : P ε α} {f g : α → P ε β} (hp : P.Alike1 swap p q)
    (hf : ∀ a, P.Alike swap W (f a) (g a)) : P.Alike swap W (p >>= f) (q >>= g) :=
  P.Alike.bind hp fun a b hv => by subst hv; exact hf _

theorem P.Alike.ret (r : Res ε α) : P.Alike1 swap (.ret r : Prog (Res ε α)) (.ret r : Prog (Res ε α)) := fun _ => .ret _ _ _ ResRel.rfl'

theorem P.Alike.err (V : α → α → Prop) (e : ε) : P.Alike swap V (P.err e) (P.err e) := fun _ => .ret _ _ _ (.err e)
theorem P.Alike.panic (V : α → α → Prop) (s : PanicSite) : P.Alike swap V (P.panic s : P ε α) (P.panic s) :=
  fun _ => .ret _ _ _ (.panic s)

theorem P.Alike.lift (r : Res ε α) {W : β → β → Prop} {f g : α → P ε β} (hf : ∀ a, P.Alike swap W (f a) (g a)) :
    P.Alike swap W (P.lift r >>= f) (P.lift r >>= g) := P.Alike1.bind (P.Alike.ret r) hf

theorem P.Alike.mapErr {V : α → α → Prop} {p q : P ε α} (f : ε → ε') (hp : P.Alike swap V p q) :
    P.Alike swap V (P.mapErr f p) (P.mapErr f q) := by
  intro h
  refine Prog.Alike.bind (hp h) ?_
  intro h a b hr
  cases hr with
  | ok a b hv => exact .ret _ _ _ (.ok _ _ hv)
  | err e => exact .ret _ _ _ (.err _)
  | panic s => exact .ret _ _ _ (.panic s)

theorem P.Alike.now : P.Alike1 swap (P.now : P ε Time) P.now := fun _ => .now _ _ _ fun _ => .ret _ _ _ ResRel.rfl'

variable {env : Env}

/-- The client treats requests alike that differ in the authorization only. -/
def SameBuilt (env : Env) : Prop :=
  ∀ r₁ r₂, hideAuthorization r₁ = hideAuthorization r₂ → env.canBuild r₁ = env.canBuild r₂

theorem awaits_iff (h : List Ev) (r : Request) (st : Nat) :
    AwaitsToken (h ++ [.sent r] ++ [.status (some st)]) ↔ AsksForToken r ∧ isSuccess st = true := by
  constructor
  · rintro ⟨b, r', st', he, ha, h1, h2⟩
    have he' : h ++ [.sent r, .status (some st)] = b ++ [.sent r', .status (some st')] := by
      rw [← he]; simp
    have hl : [Ev.sent r, .status (some st)] = [.sent r', .status (some st')] := (List.append_inj' he' rfl).2
    simp only [List.cons.injEq, Ev.sent.injEq, Ev.status.injEq, Option.some.injEq, and_true] at hl
    obtain ⟨rfl, rfl⟩ := hl
    exact ⟨ha, by simp only [isSuccess, Bool.and_eq_true, decide_eq_true_eq]; omega⟩
  · rintro ⟨ha, hs⟩
    simp only [isSuccess, Bool.and_eq_true, decide_eq_true_eq] at hs
    exact ⟨h, r, st, by simp, ha, hs.1, by omega⟩

/-- A request whose answer holds no token. -/
theorem alike_fetchText (hb : SameBuilt env) (e : FetchErrors) {r r' : Request}
    (hr : hideAuthorization r = hideAuthorization r') (hn : ¬ AsksForToken r) :
    P.Alike1 swap (fetchTextP env e r) (fetchTextP env e r') := by
  unfold fetchTextP
  rw [← hb _ _ hr]
  split
  · exact P.Alike.err _ _
  intro h
  refine .send _ _ _ _ _ hr (.recv _ _ _ fun s => ?_)
  cases s with
  | none => exact P.Alike.err _ _ _
  | some st =>
    simp only
    have key : ∀ t t', SwappedStep swap (h ++ [.sent r] ++ [.status (some st)]) (.body t) (.body t') → t' = t := by
      intro t t' ht
      cases ht with
      | body t _ => rfl
      | token t ha => exact absurd ((awaits_iff _ _ _).1 ha).1 hn
    split
    · refine .text _ _ _ fun t t' ht => ?_
      have := key t t' ht
      subst this
      cases t' with
      | none => exact P.Alike.err _ _ _
      | some t => exact P.Alike.ret _ _
    · refine .text _ _ _ fun t t' ht => ?_
      have := key t t' ht
      subst this
      cases t' with
      | none => exact P.Alike.err _ _ _
      | some t => exact P.Alike.err _ _ _

/-- The token request. -/
theorem alike_fetchToken (e : FetchErrors) (bt : BoundToken) :
    P.Alike swap (fun a b => b = swap a) (fetchTextP env e (tokenRequest bt)) (fetchTextP env e (tokenRequest bt)) := by
  unfold fetchTextP
  split
  · exact P.Alike.err _ _
  intro h
  refine .send _ _ _ _ _ rfl (.recv _ _ _ fun s => ?_)
  cases s with
  | none => exact P.Alike.err _ _ _
  | some st =>
    simp only
    have ha : AsksForToken (tokenRequest bt) := ⟨_, rfl⟩
    split
    · rename_i hs
      refine .text _ _ _ fun t t' ht => ?_
      have : t' = t.map swap := by
        cases ht with
        | body t hn => exact absurd ((awaits_iff _ _ _).2 ⟨ha, hs⟩) hn
        | token t _ => rfl
      subst this
      cases t with
      | none => exact P.Alike.err _ _ _
      | some t => exact .ret _ _ _ (.ok _ _ rfl)
    · rename_i hs
      refine .text _ _ _ fun t t' ht => ?_
      have : t' = t := by
        cases ht with
        | body t hn => rfl
        | token t hw => exact absurd ((awaits_iff _ _ _).1 hw).2 hs
      subst this
      cases t' with
      | none => exact P.Alike.err _ _ _
      | some t => exact P.Alike.err _ _ _

/-- A pair of the same account. -/
abbrev SameAccount (a b : Str × Str) : Prop := b.1 = a.1

theorem OnlyTokens.parse (ho : OnlyTokens swap) (doc : Str) :
    (∃ t t', parseAccessToken doc = some t ∧ parseAccessToken (swap doc) = some t' ∧ t'.expiresIn = t.expiresIn ∧
      t'.tokenType = t.tokenType) ∨ (parseAccessToken doc = none ∧ parseAccessToken (swap doc) = none) := by
  cases hp : parseAccessToken doc with
  | none =>
    right
    have : swap doc = doc := ho.other doc fun token life type ht => by
      rw [(C55_token_text _ _ _ _).2 ht] at hp
      cases hp
    rw [this]
    exact ⟨rfl, hp⟩
  | some t =>
    left
    obtain ⟨token', ht⟩ := ho.token doc _ _ _ ((C55_token_text doc t.accessToken t.expiresIn t.tokenType).1 hp)
    exact ⟨t, _, rfl, (C55_token_text _ _ _ _).2 ht, rfl, rfl⟩

theorem alike_refresh (hb : SameBuilt env) (ho : OnlyTokens swap) (bt : BoundToken) :
    P.Alike swap SameAccount (refreshP env bt) (refreshP env bt) := by
  unfold refreshP
  refine P.Alike1.bind (alike_fetchText hb _ rfl (email_not_token bt)) fun email => ?_
  refine P.Alike.bind (alike_fetchToken _ _) fun doc doc' hd => ?_
  subst hd
  rcases OnlyTokens.parse ho doc with ⟨t, t', h1, h2, h3, h4⟩ | ⟨h1, h2⟩
  · rw [h1, h2]
    simp only
    rw [h3, h4]
    split
    · exact P.Alike.err _ _
    · refine P.Alike1.bind P.Alike.now fun now => ?_
      show P.Alike swap SameAccount (if timeLimit ≤ now + (t.expiresIn : Int) * nsPerSec then _ else _)
        (if timeLimit ≤ now + (t.expiresIn : Int) * nsPerSec then _ else _)
      split
      · exact P.Alike.panic _ _
      · intro h
        exact .store _ _ _ _ _ _ rfl (.ret _ _ _ (.ok _ _ rfl))
  · rw [h1, h2]
    exact P.Alike.err _ _

theorem alike_locked (hb : SameBuilt env) (ho : OnlyTokens swap) (bt : BoundToken) {c c' : Option Cached}
    (hc : SameButToken c c') : P.Alike swap SameAccount (lockedP env bt c) (lockedP env bt c') := by
  cases c with
  | none =>
    cases c' with
    | none => exact alike_refresh hb ho bt
    | some c' => cases hc
  | some c =>
    cases c' with
    | none => cases hc
    | some c' =>
      simp only [SameButToken, Option.map_some, Option.some.injEq, Prod.mk.injEq] at hc
      unfold lockedP
      refine P.Alike1.bind ?_ fun b => ?_
      · unfold cacheFreshP
        rw [← hc.2]
        split
        · exact P.Alike.panic _ _
        · refine P.Alike1.bind P.Alike.now fun now => ?_
          split
          · exact P.Alike.panic _ _
          · exact P.Alike.ret _
      · cases b with
        | true => exact fun h => .ret _ _ _ (.ok _ _ hc.1.symm)
        | false => exact alike_refresh hb ho bt

theorem alike_get (hb : SameBuilt env) (ho : OnlyTokens swap) (bt : BoundToken) :
    P.Alike swap SameAccount (getP env bt) (getP env bt) := by
  intro h
  refine .lock _ _ _ _ fun c c' hc => ?_
  exact Prog.Alike.bind (alike_locked hb ho bt hc _) fun h a b hr => .unlock _ _ _ _ (.ret _ _ _ hr)

theorem alike_sign (hb : SameBuilt env) (ho : OnlyTokens swap) (bt : BoundToken) (m : Bytes) :
    P.Alike1 swap (signP env bt m) (signP env bt m) := by
  unfold signP
  refine P.Alike.bind (alike_get hb ho bt) fun p p' hp => ?_
  obtain ⟨e, t⟩ := p
  obtain ⟨e', t'⟩ := p'
  simp only [SameAccount] at hp
  subst hp
  refine P.Alike1.bind (alike_fetchText hb _ (signBlob_same _ _ _ _) (blob_not_token _ _ _)) fun text => ?_
  cases parseSignBlobResponse text with
  | none => exact P.Alike.err _ _
  | some blob =>
    simp only
    cases b64Decode blob with
    | none => exact P.Alike.err _ _
    | some s => exact P.Alike.ret _

theorem alike_authorizer (hb : SameBuilt env) (ho : OnlyTokens swap) (key : SigningKey) :
    P.Alike1 swap (key.authorizerP env) (key.authorizerP env) := by
  cases key with
  | boundToken bt =>
    refine P.Alike.bind (P.Alike.mapErr _ (alike_get hb ho bt)) fun p p' hp => ?_
    exact fun h => .ret _ _ _ (.ok _ _ hp)
  | hmac a s => exact P.Alike.ret _
  | serviceAccount a s => exact P.Alike.ret _

theorem alike_keySign (hb : SameBuilt env) (ho : OnlyTokens swap) (key : SigningKey) (u : Bool) (m : Bytes) :
    P.Alike1 swap (key.signP env u m) (key.signP env u m) := by
  cases key with
  | boundToken bt =>
    unfold SigningKey.signP
    cases u with
    | true => exact P.Alike.mapErr _ (alike_sign hb ho bt m)
    | false => exact P.Alike.ret _
  | hmac a s => exact P.Alike.ret _
  | serviceAccount a s =>
    unfold SigningKey.signP
    cases u with
    | true => exact P.Alike.ret _
    | false => exact P.Alike.ret _

theorem alike_time (t : Option Time) : P.Alike1 swap (P.timeOrNow t : P ε Time) (P.timeOrNow t) := by
  cases t with
  | some t => exact P.Alike.ret _
  | none => exact P.Alike.now

theorem alike_url (hb : SameBuilt env) (ho : OnlyTokens swap) (o : UrlOptions) :
    P.Alike1 swap (buildSignedUrlP env o) (buildSignedUrlP env o) := by
  unfold buildSignedUrlP
  refine P.Alike1.bind (alike_time _) fun t => ?_
  refine P.Alike.lift _ fun now => ?_
  refine P.Alike.lift _ fun life => ?_
  refine P.Alike.lift _ fun method => ?_
  generalize baseUrl env o = url
  refine P.Alike.lift _ fun uri => ?_
  refine P.Alike.lift _ fun userHeaders => ?_
  refine P.Alike.lift _ fun headers => ?_
  refine P.Alike.lift _ fun scope => ?_
  refine P.Alike.lift _ fun expiration => ?_
  refine P.Alike.mapErr _ ?_
  unfold SignedUrl.newP
  refine P.Alike1.bind (P.Alike.mapErr _ (alike_authorizer hb ho _)) fun email => ?_
  refine P.Alike.lift _ fun req => ?_
  refine P.Alike.lift _ fun canonical => ?_
  exact P.Alike1.bind (P.Alike.mapErr _ (alike_keySign hb ho _ _ _)) fun digest => P.Alike.ret _

theorem alike_form (hb : SameBuilt env) (ho : OnlyTokens swap) (b : Builder) :
    P.Alike1 swap (b.buildP env) (b.buildP env) := by
  unfold Builder.buildP
  refine P.Alike1.bind ?_ fun p => ?_
  · unfold buildPolicyAndSignatureP
    cases b.signingOptions with
    | none => exact P.Alike.ret _
    | some o =>
      refine P.Alike1.bind ?_ fun p => P.Alike.ret _
      unfold buildPolicyP
      refine P.Alike1.bind (alike_time _) fun t => ?_
      split
      · exact P.Alike.ret _
      refine P.Alike.lift _ fun a => ?_
      refine P.Alike.lift _ fun e => ?_
      refine P.Alike.lift _ fun bucket => ?_
      refine P.Alike.lift _ fun key => ?_
      dsimp only
      split
      · exact P.Alike.ret _
      refine P.Alike1.bind (P.Alike.mapErr _ (alike_authorizer hb ho _)) fun email => ?_
      refine P.Alike.lift _ fun scope => ?_
      refine P.Alike.lift _ fun conditions => ?_
      exact P.Alike1.bind (P.Alike.mapErr _ (alike_keySign hb ho _ _ _)) fun digest => P.Alike.ret _
  · refine P.Alike.lift _ fun key => ?_
    exact P.Alike.lift _ fun metas => P.Alike.ret _

theorem alike_prog (hb : SameBuilt env) (ho : OnlyTokens swap) (call : ApiCall) (h : List Ev) :
    Prog.Alike swap (fun a b => b = a) h (call.prog env) (call.prog env) := by
  cases call with
  | url o => exact Prog.Alike.bind (alike_url hb ho o h) fun h a b hr => .ret _ _ _ (by rw [hr.eq])
  | form cs => exact Prog.Alike.bind (alike_form hb ho _ h) fun h a b hr => .ret _ _ _ (by rw [hr.eq])

theorem Prog.Alike.awaits {R : α → α → Prop} {h : List Ev} {p q : Prog α} (hs : Prog.Alike swap R h p q) :
    q.awaits = p.awaits := by
  cases hs <;> rfl

/-- The state `s'` is `s` with other access tokens. -/
structure SameSys (swap : Str → Str) (s s' : Sys) : Prop where
  caches : ∀ i, SameButToken (s.caches i) (s'.caches i)
  holder : s'.holder = s.holder
  calls : ∀ i, (s.calls i = none ∧ s'.calls i = none) ∨
    ∃ p q, s.calls i = some p ∧ s'.calls i = some q ∧ Prog.Alike swap (fun a b => b = a) (did s.trace i) p q
  trace : Swapped swap s.trace s'.trace

theorem Spec.Swapped.calls {a b : List Event} (h : Swapped swap a b) : b.map Event.call = a.map Event.call := by
  induction h with
  | nil => rfl
  | _ => simp [*, Event.call]

end CSS
