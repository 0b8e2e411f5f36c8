import Verif.Spec.Concurrent
import Verif.Lemmas.Token
import Verif.Lemmas.Form
import Verif.Lemmas.UrlSigned
/-
What one call may do next, given what it has done (`Legal`), and the proof that the programs do nothing else.
-/
set_option linter.unusedSimpArgs false
namespace CSS
open Spec

/-- What a call with the bound-token key `bt` and the history `h` may do next. -/
def LegalBt (bt : BoundToken) (h : List Ev) : Ev → Prop
  | .clock _ => True
  | .locked id _ => id = bt.id ∧ holding bt.id h = false
  | .unlocked id => id = bt.id ∧ holding bt.id h = true
  | .stored id c => id = bt.id ∧ holding bt.id h = true ∧
      ∃ before steps t0 life, h ++ [.stored id c] = before ++ steps ∧ RefreshOf bt.baseUrl bt.id steps c t0 life ∧
        holding bt.id before = true ∧ MustRefresh bt.id before
  | .sent r =>
      (r = metadataGet (emailUrl bt.baseUrl) ∧ MustRefresh bt.id h ∧ holding bt.id h = true) ∨
      (r = metadataGet (tokenUrl bt.baseUrl) ∧ holding bt.id h = true ∧ ∃ before s email,
        h = before ++ [.sent (metadataGet (emailUrl bt.baseUrl)), .status (some s), .body (some email)] ∧
        200 ≤ s ∧ s ≤ 299 ∧ holding bt.id before = true) ∨
      (holding bt.id h = false ∧ ∃ email token payload, GotPair bt.baseUrl bt.id h email token ∧
        r = signBlobPost email token payload)
  | .status _ => True
  | .body _ => True

/-- The same for any call: without a bound-token key it may only read the clock. -/
def Legal (key : Option BoundToken) (h : List Ev) (e : Ev) : Prop :=
  (∃ t, e = .clock t) ∨ ∃ bt, key = some bt ∧ LegalBt bt h e

/-- Started with the history `h`, the program only does what `L` allows, and when it ends, `Q` holds of its value and
the history. -/
def Prog.Ok {α} (L : List Ev → Ev → Prop) : Prog α → List Ev → (α → List Ev → Prop) → Prop
  | .ret a, h, Q => Q a h
  | .now k, h, Q => ∀ t, L h (.clock t) ∧ (k t).Ok L (h ++ [.clock t]) Q
  | .lock id k, h, Q => ∀ c, L h (.locked id c) ∧ (k c).Ok L (h ++ [.locked id c]) Q
  | .store id c k, h, Q => L h (.stored id c) ∧ k.Ok L (h ++ [.stored id c]) Q
  | .unlock id k, h, Q => L h (.unlocked id) ∧ k.Ok L (h ++ [.unlocked id]) Q
  | .send r k, h, Q => L h (.sent r) ∧ k.Ok L (h ++ [.sent r]) Q
  | .recv k, h, Q => ∀ s, L h (.status s) ∧ (k s).Ok L (h ++ [.status s]) Q
  | .text k, h, Q => ∀ t, L h (.body t) ∧ (k t).Ok L (h ++ [.body t]) Q

variable {α β ε ε' : Type} {L : List Ev → Ev → Prop}

theorem Prog.Ok.mono {p : Prog α} {h : List Ev} {Q Q' : α → List Ev → Prop} (hp : p.Ok L h Q)
    (hq : ∀ a h, Q a h → Q' a h) : p.Ok L h Q' := by
  induction p generalizing h with
  | ret a => exact hq _ _ hp
  | now k ih => exact fun t => ⟨(hp t).1, ih t (hp t).2⟩
  | lock id k ih => exact fun t => ⟨(hp t).1, ih t (hp t).2⟩
  | store id c k ih => exact ⟨hp.1, ih hp.2⟩
  | unlock id k ih => exact ⟨hp.1, ih hp.2⟩
  | send r k ih => exact ⟨hp.1, ih hp.2⟩
  | recv k ih => exact fun t => ⟨(hp t).1, ih t (hp t).2⟩
  | text k ih => exact fun t => ⟨(hp t).1, ih t (hp t).2⟩

theorem Prog.Ok.bind {p : Prog α} {f : α → Prog β} {h : List Ev} {Q : β → List Ev → Prop}
    (hp : p.Ok L h fun a h' => (f a).Ok L h' Q) : (p.bind f).Ok L h Q := by
  induction p generalizing h with
  | ret a => exact hp
  | now k ih => exact fun t => ⟨(hp t).1, ih t (hp t).2⟩
  | lock id k ih => exact fun t => ⟨(hp t).1, ih t (hp t).2⟩
  | store id c k ih => exact ⟨hp.1, ih hp.2⟩
  | unlock id k ih => exact ⟨hp.1, ih hp.2⟩
  | send r k ih => exact ⟨hp.1, ih hp.2⟩
  | recv k ih => exact fun t => ⟨(hp t).1, ih t (hp t).2⟩
  | text k ih => exact fun t => ⟨(hp t).1, ih t (hp t).2⟩

theorem Prog.Ok.step {p q : Prog α} {h : List Ev} {e : Ev} {Q : α → List Ev → Prop} (hp : p.Ok L h Q)
    (hs : p.Step e q) : L h e ∧ q.Ok L (h ++ [e]) Q := by
  cases hs with
  | now k t => exact hp t
  | lock id k c => exact hp c
  | store id c k => exact hp
  | unlock id k => exact hp
  | send r k => exact hp
  | recv k s => exact hp s
  | text k t => exact hp t

/-- The history only grows. -/
theorem Prog.Ok.prefix {p : Prog α} {h : List Ev} {Q : α → List Ev → Prop} (hp : p.Ok L h Q) :
    p.Ok L h fun a h' => Q a h' ∧ h <+: h' := by
  have grow : ∀ (e : Ev) (h' : List Ev), h ++ [e] <+: h' → h <+: h' := fun e h' hh => (List.prefix_append h [e]).trans hh
  induction p generalizing h with
  | ret a => exact ⟨hp, List.prefix_refl h⟩
  | now k ih => exact fun t => ⟨(hp t).1, (ih t (hp t).2 fun e _ hh => (List.prefix_append _ [e]).trans hh).mono
      fun _ _ hq => ⟨hq.1, grow _ _ hq.2⟩⟩
  | lock id k ih => exact fun t => ⟨(hp t).1, (ih t (hp t).2 fun e _ hh => (List.prefix_append _ [e]).trans hh).mono
      fun _ _ hq => ⟨hq.1, grow _ _ hq.2⟩⟩
  | store id c k ih => exact ⟨hp.1, (ih hp.2 fun e _ hh => (List.prefix_append _ [e]).trans hh).mono
      fun _ _ hq => ⟨hq.1, grow _ _ hq.2⟩⟩
  | unlock id k ih => exact ⟨hp.1, (ih hp.2 fun e _ hh => (List.prefix_append _ [e]).trans hh).mono
      fun _ _ hq => ⟨hq.1, grow _ _ hq.2⟩⟩
  | send r k ih => exact ⟨hp.1, (ih hp.2 fun e _ hh => (List.prefix_append _ [e]).trans hh).mono
      fun _ _ hq => ⟨hq.1, grow _ _ hq.2⟩⟩
  | recv k ih => exact fun t => ⟨(hp t).1, (ih t (hp t).2 fun e _ hh => (List.prefix_append _ [e]).trans hh).mono
      fun _ _ hq => ⟨hq.1, grow _ _ hq.2⟩⟩
  | text k ih => exact fun t => ⟨(hp t).1, (ih t (hp t).2 fun e _ hh => (List.prefix_append _ [e]).trans hh).mono
      fun _ _ hq => ⟨hq.1, grow _ _ hq.2⟩⟩

/-- `Ok` for programs with outcomes: `Q` for values, `E` for errors and panics. -/
def P.Ok (L : List Ev → Ev → Prop) (p : P ε α) (h : List Ev) (Q : α → List Ev → Prop) (E : List Ev → Prop) : Prop :=
  Prog.Ok L p h fun r h' => match r with
    | .ok a => Q a h'
    | .err _ => E h'
    | .panic _ => E h'

theorem P.Ok.bind {p : P ε α} {f : α → P ε β} {h : List Ev} {Q : β → List Ev → Prop} {E : List Ev → Prop}
    (hp : p.Ok L h (fun a h' => (f a).Ok L h' Q E) E) : (p >>= f).Ok L h Q E := by
  refine Prog.Ok.bind (Prog.Ok.mono hp ?_)
  intro r h' hr
  cases r with
  | ok a => exact hr
  | err e => exact hr
  | panic s => exact hr

theorem P.Ok.mono {p : P ε α} {h : List Ev} {Q Q' : α → List Ev → Prop} {E E' : List Ev → Prop} (hp : p.Ok L h Q E)
    (hq : ∀ a h, Q a h → Q' a h) (he : ∀ h, E h → E' h) : p.Ok L h Q' E' := by
  refine Prog.Ok.mono hp ?_
  intro r h' hr
  cases r with
  | ok a => exact hq _ _ hr
  | err e => exact he _ hr
  | panic s => exact he _ hr

theorem P.Ok.prefix {p : P ε α} {h : List Ev} {Q : α → List Ev → Prop} {E : List Ev → Prop} (hp : p.Ok L h Q E) :
    p.Ok L h (fun a h' => Q a h' ∧ h <+: h') E := by
  refine Prog.Ok.mono (Prog.Ok.prefix hp) ?_
  rintro r h' ⟨hr, hpre⟩
  cases r with
  | ok a => exact ⟨hr, hpre⟩
  | err e => exact hr
  | panic s => exact hr

theorem P.Ok.mapErr {p : P ε α} {h : List Ev} {Q : α → List Ev → Prop} {E : List Ev → Prop} (f : ε → ε')
    (hp : p.Ok L h Q E) : (P.mapErr f p).Ok L h Q E := by
  refine Prog.Ok.bind (Prog.Ok.mono hp ?_)
  intro r h' hr
  cases r with
  | ok a => exact hr
  | err e => exact hr
  | panic s => exact hr

theorem P.Ok.lift {h : List Ev} {Q : α → List Ev → Prop} {E : List Ev → Prop} (r : Res ε α)
    (hq : ∀ a, r = .ok a → Q a h) (he : E h) : (P.lift r : P ε α).Ok L h Q E := by
  cases r with
  | ok a => exact hq a rfl
  | err e => exact he
  | panic s => exact he

/-- The same without the equation. -/
theorem P.Ok.lift' {h : List Ev} {Q : α → List Ev → Prop} {E : List Ev → Prop} (r : Res ε α)
    (hq : ∀ a, Q a h) (he : E h) : (P.lift r : P ε α).Ok L h Q E := P.Ok.lift r (fun a _ => hq a) he

theorem P.Ok.pure {h : List Ev} {Q : α → List Ev → Prop} {E : List Ev → Prop} (a : α) (hq : Q a h) :
    (Pure.pure a : P ε α).Ok L h Q E := hq

/-! ### Histories -/

theorem holding_snoc (id : Nat) (h : List Ev) (e : Ev) : holding id (h ++ [e]) = (match e with
    | .locked j _ => if j = id then true else holding id h
    | .unlocked j => if j = id then false else holding id h
    | _ => holding id h) := by
  unfold holding
  rw [List.foldl_append]
  rfl

/-! ### The programs -/

section
variable {env : Env} {bt : BoundToken}

/-- What a request block does: nothing, or send, status, text. -/
theorem ok_fetchText {e : FetchErrors} {r : Request} {h : List Ev} {Q : Str → List Ev → Prop} {E : List Ev → Prop}
    (hs : LegalBt bt h (.sent r)) (hE0 : E h)
    (hE1 : ∀ s, E (h ++ [.sent r, .status s])) (hE2 : ∀ s t, E (h ++ [.sent r, .status s, .body t]))
    (hQ : ∀ s t, 200 ≤ s → s ≤ 299 → Q t (h ++ [.sent r, .status (some s), .body (some t)])) :
    (fetchTextP env e r).Ok (LegalBt bt) h Q E := by
  unfold fetchTextP
  split
  · exact hE0
  · refine ⟨hs, fun s => ⟨trivial, ?_⟩⟩
    have app1 : ∀ s, h ++ [.sent r] ++ [.status s] = h ++ [.sent r, .status s] := by simp
    have app2 : ∀ s t, h ++ [.sent r, .status s] ++ [.body t] = h ++ [.sent r, .status s, .body t] := by simp
    rw [app1]
    cases s with
    | none => exact hE1 none
    | some s =>
      cases hsu : isSuccess s with
      | true =>
        simp only [hsu, if_true]
        refine fun t => ⟨trivial, ?_⟩
        rw [app2]
        cases t with
        | none => exact hE2 _ _
        | some t =>
          unfold isSuccess at hsu
          simp only [Bool.and_eq_true, decide_eq_true_eq] at hsu
          exact hQ s t hsu.1 (by omega)
      | false =>
        simp only [hsu, Bool.false_eq_true, if_false]
        refine fun t => ⟨trivial, ?_⟩
        rw [app2]
        cases t with
        | none => exact hE2 _ _
        | some t => exact hE2 _ _

theorem ok_refresh {h : List Ev} (hh : holding bt.id h = true) (hm : MustRefresh bt.id h) :
    (refreshP env bt).Ok (LegalBt bt) h
      (fun p h' => holding bt.id h' = true ∧ ∃ before steps c t0 life, h' = before ++ steps ∧
        RefreshOf bt.baseUrl bt.id steps c t0 life ∧ holding bt.id before = true ∧ c.email = p.1 ∧ c.token = p.2)
      (fun h' => holding bt.id h' = true) := by
  unfold refreshP
  have hold3 : ∀ (g : List Ev) (r : Request) s t, holding bt.id g = true →
      holding bt.id (g ++ [.sent r, .status s, .body t]) = true := by
    intro g r s t hg
    rw [show g ++ [Ev.sent r, .status s, .body t] = g ++ [.sent r] ++ [.status s] ++ [.body t] by simp,
      holding_snoc, holding_snoc, holding_snoc]
    exact hg
  have hold2 : ∀ (g : List Ev) (r : Request) s, holding bt.id g = true →
      holding bt.id (g ++ [.sent r, .status s]) = true := by
    intro g r s hg
    rw [show g ++ [Ev.sent r, .status s] = g ++ [.sent r] ++ [.status s] by simp, holding_snoc, holding_snoc]
    exact hg
  refine P.Ok.bind (ok_fetchText ?_ hh (fun s => hold2 _ _ _ hh) (fun s t => hold3 _ _ _ _ hh) fun s1 email a1 a2 => ?_)
  · rw [emailRequest_eq]; exact .inl ⟨rfl, hm, hh⟩
  have hh1 := hold3 h (emailRequest bt) (some s1) (some email) hh
  refine P.Ok.bind (ok_fetchText ?_ hh1 (fun s => hold2 _ _ _ hh1) (fun s t => hold3 _ _ _ _ hh1) fun s2 doc b1 b2 => ?_)
  · rw [tokenRequest_eq]; exact .inr (.inl ⟨rfl, hh1, h, s1, email, by rw [emailRequest_eq], a1, a2, hh⟩)
  have hh2 := hold3 _ (tokenRequest bt) (some s2) (some doc) hh1
  cases hp : parseAccessToken doc with
  | none => exact hh2
  | some t =>
    simp only
    split
    · exact hh2
    · rename_i hbearer
      have hbearer : t.tokenType = s% "Bearer" := Classical.not_not.1 hbearer
      refine P.Ok.bind fun now => ⟨trivial, ?_⟩
      simp only
      have hh3 : holding bt.id (h ++ [Ev.sent (emailRequest bt), .status (some s1), .body (some email)] ++
          [Ev.sent (tokenRequest bt), .status (some s2), .body (some doc)] ++ [.clock now]) = true := by
        rw [holding_snoc]; exact hh2
      show P.Ok _ (if timeLimit ≤ now + (t.expiresIn : Int) * nsPerSec then P.panic .expiresOverflow else _) _ _ _
      split
      · exact hh3
      · have hsteps : h ++ [Ev.sent (emailRequest bt), .status (some s1), .body (some email)] ++
            [Ev.sent (tokenRequest bt), .status (some s2), .body (some doc)] ++ [.clock now] ++
            [.stored bt.id ⟨email, t.accessToken, now + (t.expiresIn : Int) * nsPerSec⟩] = h ++
            refreshSteps bt.baseUrl bt.id s1 s2 doc now ⟨email, t.accessToken, now + (t.expiresIn : Int) * nsPerSec⟩ := by
          simp only [refreshSteps, emailRequest_eq, tokenRequest_eq]
          simp
        have hof : RefreshOf bt.baseUrl bt.id (refreshSteps bt.baseUrl bt.id s1 s2 doc now
            ⟨email, t.accessToken, now + (t.expiresIn : Int) * nsPerSec⟩)
            ⟨email, t.accessToken, now + (t.expiresIn : Int) * nsPerSec⟩ now t.expiresIn := by
          refine ⟨⟨s1, s2, doc, a1, a2, b1, b2, rfl, ?_⟩, rfl⟩
          rw [← parseAccessToken_iff, hp, ← hbearer]
        refine P.Ok.bind ⟨⟨rfl, hh3, h, _, now, t.expiresIn, hsteps, hof, hh, hm⟩, ?_⟩
        show holding bt.id _ = true ∧ _
        refine ⟨?_, h, _, _, now, t.expiresIn, hsteps, hof, hh, rfl, rfl⟩
        rw [holding_snoc]
        exact hh3

theorem ok_get {h : List Ev} (hh : holding bt.id h = false) :
    (getP env bt).Ok (LegalBt bt) h
      (fun p h' => holding bt.id h' = false ∧ GotPair bt.baseUrl bt.id h' p.1 p.2)
      (fun h' => holding bt.id h' = false) := by
  refine fun c => ⟨⟨rfl, hh⟩, Prog.Ok.bind ?_⟩
  have hl : holding bt.id (h ++ [.locked bt.id c]) = true := by rw [holding_snoc]; simp
  suffices hs : (lockedP env bt c).Ok (LegalBt bt) (h ++ [.locked bt.id c])
      (fun p h' => holding bt.id h' = true ∧ GotPair bt.baseUrl bt.id (h' ++ [.unlocked bt.id]) p.1 p.2)
      (fun h' => holding bt.id h' = true) by
    refine Prog.Ok.mono hs ?_
    intro r h' hr
    have hun : holding bt.id (h' ++ [.unlocked bt.id]) = false := by rw [holding_snoc]; simp
    cases r with
    | ok p => exact ⟨⟨rfl, hr.1⟩, hun, hr.2⟩
    | err e => exact ⟨⟨rfl, hr⟩, hun⟩
    | panic s => exact ⟨⟨rfl, hr⟩, hun⟩
  have href : ∀ g, holding bt.id g = true → MustRefresh bt.id g → (refreshP env bt).Ok (LegalBt bt) g
      (fun p h' => holding bt.id h' = true ∧ GotPair bt.baseUrl bt.id (h' ++ [.unlocked bt.id]) p.1 p.2)
      (fun h' => holding bt.id h' = true) := by
    intro g hg hm
    refine P.Ok.mono (ok_refresh hg hm) ?_ fun _ he => he
    rintro p h' ⟨h1, before, steps, c, t0, life, rfl, h3, h4, h5, h6⟩
    exact ⟨h1, .inr ⟨before, steps, c, t0, life, rfl, h3, h4, h5, h6⟩⟩
  cases c with
  | none => exact href _ hl (.inl ⟨h, rfl⟩)
  | some c =>
    unfold lockedP
    refine P.Ok.bind ?_
    unfold cacheFreshP
    split
    · exact hl
    · rename_i hexp
      refine P.Ok.bind fun now => ⟨trivial, ?_⟩
      have hl2 : holding bt.id (h ++ [.locked bt.id (some c)] ++ [.clock now]) = true := by
        rw [holding_snoc]; exact hl
      have happ : h ++ [Ev.locked bt.id (some c)] ++ [.clock now] = h ++ [.locked bt.id (some c), .clock now] := by simp
      show P.Ok _ (if now < 0 then P.panic .nowBeforeEpoch else _) _ _ _
      split
      · exact hl2
      · rename_i hnow
        show P.Ok _ (if (decide (c.expires > now + 30 * nsPerSec)) = true then _ else _) _ _ _
        by_cases hf : c.expires > now + 30 * nsPerSec
        · rw [if_pos (by simpa using hf)]
          refine ⟨hl2, .inl ⟨h, c, now, by simp, rfl, rfl, by omega, hf⟩⟩
        · rw [if_neg (by simpa using hf)]
          refine href _ hl2 (.inr ⟨h, c, now, happ, by omega, by omega, ?_⟩)
          unfold nsPerSec at hf; omega

/-- The bound token signed: the history ends with the signBlob exchange. -/
theorem ok_sign {h : List Ev} (hh : holding bt.id h = false) (m : Bytes) :
    (signP env bt m).Ok (LegalBt bt) h
      (fun sig h' => holding bt.id h' = false ∧ SignedIn env h' (.boundToken bt) m sig)
      (fun h' => holding bt.id h' = false) := by
  unfold signP
  refine P.Ok.bind (P.Ok.mono (ok_get hh) ?_ fun _ he => he)
  rintro ⟨email, token⟩ h' ⟨h1, h2⟩
  have hold3 : ∀ (g : List Ev) (r : Request) s t, holding bt.id g = false →
      holding bt.id (g ++ [.sent r, .status s, .body t]) = false := by
    intro g r s t hg
    rw [show g ++ [Ev.sent r, .status s, .body t] = g ++ [.sent r] ++ [.status s] ++ [.body t] by simp,
      holding_snoc, holding_snoc, holding_snoc]
    exact hg
  refine P.Ok.bind (ok_fetchText ?_ h1 (fun s => ?_) (fun s t => hold3 _ _ _ _ h1) fun s text a1 a2 => ?_)
  · exact .inr (.inr ⟨h1, email, token, _, h2, rfl⟩)
  · rw [show h' ++ [Ev.sent (signBlobRequest email token m), .status s] = h' ++ [.sent (signBlobRequest email token m)] ++ [.status s] by simp,
      holding_snoc, holding_snoc]
    exact h1
  · have h3 := hold3 h' (signBlobRequest email token m) (some s) (some text) h1
    cases hp : parseSignBlobResponse text with
    | none => exact h3
    | some blob =>
      show P.Ok _ (match b64Decode blob with | none => _ | some s => _) _ _ _
      cases hb : b64Decode blob with
      | none => exact h3
      | some sig =>
        refine ⟨h3, h', email, token, (Json.obj [(s% "payload", .str (b64Encode m))]).render, b64Encode m, s, text, blob, rfl, h2, a1, a2, ?_,
          base64Decode_b64Encode _, parseSignBlobResponse_iff.1 hp, by rw [← b64Decode_eq, hb]⟩
        exact render_text (.obj [(s% "payload", .str (b64Encode m))]) (by simp [AllNums, AllNumsMembers])

end
theorem Prog.Ok.weaken {L' : List Ev → Ev → Prop} {p : Prog α} {h : List Ev} {Q : α → List Ev → Prop} (hp : p.Ok L h Q)
    (hl : ∀ h e, L h e → L' h e) : p.Ok L' h Q := by
  induction p generalizing h with
  | ret a => exact hp
  | now k ih => exact fun t => ⟨hl _ _ (hp t).1, ih t (hp t).2⟩
  | lock id k ih => exact fun t => ⟨hl _ _ (hp t).1, ih t (hp t).2⟩
  | store id c k ih => exact ⟨hl _ _ hp.1, ih hp.2⟩
  | unlock id k ih => exact ⟨hl _ _ hp.1, ih hp.2⟩
  | send r k ih => exact ⟨hl _ _ hp.1, ih hp.2⟩
  | recv k ih => exact fun t => ⟨hl _ _ (hp t).1, ih t (hp t).2⟩
  | text k ih => exact fun t => ⟨hl _ _ (hp t).1, ih t (hp t).2⟩

theorem legal_of_legalBt (bt : BoundToken) (h : List Ev) (e : Ev) (hl : LegalBt bt h e) : Legal (some bt) h e :=
  .inr ⟨bt, rfl, hl⟩

/-- The call is outside its critical section. -/
def Outside (key : Option BoundToken) (h : List Ev) : Prop := ∀ bt, key = some bt → holding bt.id h = false

/-- The key can sign with this choice of `use_sign_blob`. -/
def CanSign (key : SigningKey) (u : Bool) : Prop :=
  (∃ e p, key = .serviceAccount e p ∧ u = false) ∨ ∃ bt, key = .boundToken bt ∧ u = true

/-- A finished call with the history `h` delivered the URL. -/
structure UrlDone (env : Env) (o : UrlOptions) (h : List Ev) (url : Str) (t : Time) (email : Str) (digest : Bytes) : Prop where
  time : ValidFrom o.accessibleAt h t
  accepted : urlRejection env o t = none
  fits : HeadersFit env o.headers
  named : ∃ h1, h1 <+: h ∧ Named o.signingKey h1 email
  short : (utf8 (fullUrl env o (required o t email))).length ≤ 65534
  values : ∀ h ∈ o.headers, headerToStrOk h.2 = true
  signed : SignedIn env h o.signingKey (utf8 ((partsOf env o t email).stringToSign)) digest
  usable : CanSign o.signingKey o.useSignBlob
  url_eq : url = (partsOf env o t email).url (hexEncode digest)

/-- A finished call with the history `h` computed the policy fields. -/
structure PolicyDone (env : Env) (b : Builder) (o : SigningOptions) (h : List Ev) (p : PolicyFields) (t : Time)
    (email bucket key : Str) (digest : Bytes) : Prop where
  time : ValidFrom o.accessibleAt h t
  order : t < o.expiration
  range : 0 ≤ t ∧ t < endOf9999 ∧ o.expiration < endOf9999
  hbucket : b.bucket = some bucket
  hkey : b.key = some key
  metas : ¬ ∃ m ∈ b.xGoogMeta, m.1 = []
  named : ∃ h1, h1 <+: h ∧ Named o.signingKey h1 email
  signed : SignedIn env h o.signingKey (utf8 p.policy) digest
  usable : CanSign o.signingKey o.useSignBlob
  fields : p = policyFields b bucket key o email t digest

/-- A form without signing options. -/
def UnsignedDone (b : Builder) (fs : List (Str × Str)) : Prop :=
  ∃ key, b.key = some key ∧ (¬ ∃ m ∈ b.xGoogMeta, m.1 = []) ∧ fs = fieldList b key none

/-- The result of a finished call is accounted for by its history. -/
def Done (env : Env) (call : ApiCall) (r : ApiResult) (h : List Ev) : Prop :=
  match call, r with
  | .url o, .url (.ok url) => ∃ t email digest, UrlDone env o h url t email digest
  | .form cs, .form (.ok fs) =>
    (∀ o, (Builder.ofCalls cs).signingOptions = some o → ∃ p t email bucket key digest,
      PolicyDone env (Builder.ofCalls cs) o h p t email bucket key digest ∧
      fs = fieldList (Builder.ofCalls cs) key (some p)) ∧
    ((Builder.ofCalls cs).signingOptions = none → UnsignedDone (Builder.ofCalls cs) fs)
  | .url _, .form _ => False
  | .form _, .url _ => False
  | _, _ => True

section
variable {env : Env}

theorem ok_authorizer (key : SigningKey) {h : List Ev} (hh : Outside key.boundToken? h) :
    (key.authorizerP env).Ok (Legal key.boundToken?) h
      (fun email h' => Outside key.boundToken? h' ∧ Named key h' email) (Outside key.boundToken?) := by
  cases key with
  | boundToken bt =>
    refine P.Ok.bind (P.Ok.mapErr _ ?_)
    refine P.Ok.mono (Prog.Ok.weaken (ok_get (hh bt rfl)) (legal_of_legalBt bt)) ?_ ?_
    · rintro p h' ⟨h1, h2⟩
      refine ⟨?_, p.2, h2⟩
      intro bt' hb
      cases hb
      exact h1
    · intro h' h1 bt' hb
      cases hb
      exact h1
  | hmac a s => exact ⟨hh, rfl⟩
  | serviceAccount a s => exact ⟨hh, rfl⟩

theorem ok_keySign (key : SigningKey) (u : Bool) (m : Bytes) {h : List Ev} (hh : Outside key.boundToken? h) :
    (key.signP env u m).Ok (Legal key.boundToken?) h
      (fun sig h' => Outside key.boundToken? h' ∧ SignedIn env h' key m sig ∧ CanSign key u) (Outside key.boundToken?) := by
  cases key with
  | boundToken bt =>
    unfold SigningKey.signP
    cases u with
    | false => exact hh
    | true =>
      refine P.Ok.mapErr _ ?_
      refine P.Ok.mono (Prog.Ok.weaken (ok_sign (hh bt rfl) m) (legal_of_legalBt bt)) ?_ ?_
      · rintro sig h' ⟨h1, h2⟩
        refine ⟨?_, h2, .inr ⟨bt, rfl, rfl⟩⟩
        intro bt' hb
        cases hb
        exact h1
      · intro h' h1 bt' hb
        cases hb
        exact h1
  | hmac a s => exact hh
  | serviceAccount a pem =>
    unfold SigningKey.signP
    cases u with
    | false =>
      refine P.Ok.lift _ (fun sig hs => ⟨hh, ?_, .inl ⟨a, pem, rfl, rfl⟩⟩) hh
      unfold rsaSignPem at hs
      cases hpem : env.pemParse pem with
      | none => simp [hpem] at hs
      | some der =>
        cases hd : env.rsaFromPkcs8 der with
        | false => simp [hpem, hd] at hs
        | true =>
          cases hr : env.rsaSign der m with
          | none => simp [hpem, hd, hr] at hs
          | some s =>
            simp [hpem, hd, hr] at hs
            exact ⟨der, hpem, hd, by rw [hr, hs]⟩
    | true => exact hh

theorem ok_timeOrNow {key : Option BoundToken} (t : Option Time) {E : List Ev → Prop} :
    (P.timeOrNow t : P ε Time).Ok (Legal key) [] (fun a h' => Outside key h' ∧ ValidFrom t h' a) E := by
  cases t with
  | some t => exact ⟨fun _ _ => rfl, .inl rfl⟩
  | none => exact fun t => ⟨.inl ⟨t, rfl⟩, fun _ _ => rfl, .inr ⟨rfl, rfl⟩⟩

theorem validFrom_prefix {a : Option Time} {h h' : List Ev} {t : Time} (hv : ValidFrom a h t) (hp : h <+: h') :
    ValidFrom a h' t := by
  rcases hv with hv | ⟨hv, hh⟩
  · exact .inl hv
  · refine .inr ⟨hv, ?_⟩
    obtain ⟨tl, rfl⟩ := hp
    cases h with
    | nil => cases hh
    | cons e h => exact hh

theorem ok_signedUrl (scope : CredentialScope) (date : ActiveDatetime) (expiration : Expiration) (request : HttpRequest)
    (key : SigningKey) (u : Bool) {h : List Ev} (hh : Outside key.boundToken? h) :
    (SignedUrl.newP env scope date expiration request key u).Ok (Legal key.boundToken?) h
      (fun url h' => Outside key.boundToken? h' ∧ ∃ email req canonical digest,
        (∃ h1, h1 <+: h' ∧ Named key h1 email) ∧
        addRequiredParams env request email key.xGoogAlgorithm date scope expiration = .ok req ∧
        canonicalRequest req = .ok canonical ∧
        SignedIn env h' key (utf8 (stringToSign key.xGoogAlgorithm date scope canonical)) digest ∧ CanSign key u ∧
        url = hostname ++ req.uri.path ++ s% "?" ++ canonicalQueryString req.uri ++ s% "&X-Goog-Signature=" ++ hexEncode digest)
      (Outside key.boundToken?) := by
  unfold SignedUrl.newP
  refine P.Ok.bind (P.Ok.mono (P.Ok.mapErr _ (ok_authorizer _ hh)) (fun email h hh => ?_) fun _ he => he)
  refine P.Ok.bind (P.Ok.lift _ (fun req hreq => ?_) hh.1)
  refine P.Ok.bind (P.Ok.lift _ (fun canonical hcan => ?_) hh.1)
  refine P.Ok.bind (P.Ok.mono (P.Ok.prefix (P.Ok.mapErr _ (ok_keySign _ _ _ hh.1))) ?_ fun _ he => he)
  rintro digest h' ⟨⟨h1, h2, h3⟩, h4⟩
  refine P.Ok.pure _ ⟨h1, email, req, canonical, digest, ⟨h, h4, hh.2⟩, hreq, ?_, h2, h3, rfl⟩
  cases hc : canonicalRequest req with
  | ok c => rw [hc] at hcan; cases hcan; rfl
  | err e => rw [hc] at hcan; cases hcan
  | panic s => rw [hc] at hcan; cases hcan

theorem ok_url (o : UrlOptions) :
    (buildSignedUrlP env o).Ok (Legal o.signingKey.boundToken?) []
      (fun url h' => Outside o.signingKey.boundToken? h' ∧ ∃ t email digest, UrlDone env o h' url t email digest)
      (Outside o.signingKey.boundToken?) := by
  unfold buildSignedUrlP
  refine P.Ok.bind (P.Ok.mono (ok_timeOrNow _) (fun t h hh => ?_) fun _ he => he)
  obtain ⟨hh, hv⟩ := hh
  refine P.Ok.bind (P.Ok.lift _ (fun now h1 => ?_) hh)
  rw [fromSystemTime_mapErr] at h1
  by_cases h1' : t < 0 ∨ endOf9999 ≤ t
  · rw [if_pos h1'] at h1; cases h1
  rw [if_neg h1'] at h1
  cases h1
  refine P.Ok.bind (P.Ok.lift _ (fun life h2 => ?_) hh)
  unfold lifetimeSecs at h2
  by_cases h2' : o.expires < t
  · rw [if_pos h2'] at h2; cases h2
  rw [if_neg h2'] at h2
  simp only at h2
  by_cases h3' : 9223372036854775807 < (o.expires - t) / nsPerSec
  · rw [if_pos h3'] at h2; cases h2
  rw [if_neg h3'] at h2
  cases h2
  refine P.Ok.bind (P.Ok.lift _ (fun method h4 => ?_) hh)
  have h4' : o.httpMethod ∈ methods ∧ method.toStr = o.httpMethod := by
    rcases httpVerb_cases o.httpMethod with ⟨_, hv⟩ | ⟨hm, v, hv, ht⟩
    · rw [hv] at h4; cases h4
    · rw [hv] at h4; cases h4; exact ⟨hm, ht⟩
  have hbase := baseUri_eq env o
  have hacc := @urlRejection_none env o t
  generalize baseUrl env o = url at hbase hacc
  refine P.Ok.bind (P.Ok.lift _ (fun uri h5 => ?_) hh)
  rw [hbase] at h5
  by_cases h5' : 65534 < (utf8 (hostname ++ url.toRest)).length
  · rw [if_pos h5'] at h5; cases h5
  rw [if_neg h5'] at h5
  cases h5
  refine P.Ok.bind (P.Ok.lift _ (fun headers h6 => ?_) hh)
  rw [checkHeaders_eq] at h6
  have h6' : headerRejection o.headers = none ∧ headers = lowered o.headers := by
    cases hr : headerRejection o.headers with
    | some e => rw [hr] at h6; cases h6
    | none => rw [hr] at h6; cases h6; exact ⟨rfl, rfl⟩
  obtain ⟨h6n, rfl⟩ := h6'
  refine P.Ok.bind (P.Ok.lift _ (fun map hmap => ?_) hh)
  have hfit : HeadersFit env o.headers := by
    refine Classical.byContradiction fun hn => ?_
    rw [extendHeaders_full hn] at hmap
    cases hmap
  rw [extendHeaders_fits hfit] at hmap
  cases hmap
  refine P.Ok.bind (P.Ok.lift _ (fun scope h7 => ?_) hh)
  cases h7
  refine P.Ok.bind (P.Ok.lift _ (fun expiration h8 => ?_) hh)
  have hpos : 0 ≤ (o.expires - t) / nsPerSec := Int.ediv_nonneg (by omega) (by decide)
  have h8' : (o.expires - t) / nsPerSec ≤ 604800 ∧ expiration = ⟨(o.expires - t) / nsPerSec⟩ := by
    unfold Expiration.tryFrom at h8
    split at h8
    · cases h8; exact ⟨by omega, rfl⟩
    · cases h8
  obtain ⟨h8n, rfl⟩ := h8'
  refine P.Ok.mapErr _ (P.Ok.mono (P.Ok.prefix (ok_signedUrl _ _ _ _ _ _ hh)) ?_ fun _ he => he)
  rintro u h' ⟨⟨hout, email, req, canonical, digest, hnamed, hreq, hcan, hsig, hcs, rfl⟩, hpre⟩
  refine ⟨hout, t, email, digest, ?_⟩
  have hreq' : addRequiredParams env ⟨method, ⟨(objectUrl env o).path, some (baseQuery env o)⟩, urlHeaderMap o.headers⟩ email
    o.signingKey.xGoogAlgorithm ⟨⟨t / nsPerSec⟩⟩
    ⟨Date.fromUnixTimestamp ⟨t / nsPerSec⟩, ⟨o.region.getD (s% "auto")⟩, .storage, .goog4Request⟩
    ⟨(o.expires - t) / nsPerSec⟩ = .ok req := hreq
  have hreq2 := (addRequiredParams_eq env o method email o.signingKey.xGoogAlgorithm ⟨⟨t / nsPerSec⟩⟩
    ⟨Date.fromUnixTimestamp ⟨t / nsPerSec⟩, ⟨o.region.getD (s% "auto")⟩, .storage, .goog4Request⟩
    ⟨(o.expires - t) / nsPerSec⟩).symm.trans hreq'
  change (if 65534 < (utf8 (fullUrl env o (required o t email))).length
      then Res.panic .urlToBeValid
      else .ok ⟨method, ⟨(objectUrl env o).path, some (extendPairs (baseQuery env o) (required o t email))⟩, urlHeaderMap o.headers⟩)
      = .ok req at hreq2
  by_cases h9 : 65534 < (utf8 (fullUrl env o (required o t email))).length
  · rw [if_pos h9] at hreq2; cases hreq2
  rw [if_neg h9] at hreq2
  cases hreq2
  rw [canonicalRequest_eq env o t email method h4'.2] at hcan
  by_cases h10 : ∀ h ∈ o.headers, headerToStrOk h.2 = true
  · rw [if_pos h10] at hcan
    cases hcan
    have hsts := stringToSign_eq env o t (by omega) email
    refine ⟨validFrom_prefix hv hpre, hacc.2 ⟨by omega, by omega, by omega, h8n, h4'.1, by omega, headerRejection_none.1 h6n⟩, hfit,
      hnamed, by omega, h10, ?_, hcs, ?_⟩
    · rw [← hsts]; exact hsig
    · rw [canonicalQuery_full]
      exact partsOf_url env o t email (hexEncode digest)
  · rw [if_neg h10] at hcan; cases hcan

theorem ok_policy (b : Builder) (o : SigningOptions) :
    (buildPolicyP env b o).Ok (Legal o.signingKey.boundToken?) []
      (fun p h' => Outside o.signingKey.boundToken? h' ∧ ∃ t email bucket key digest,
        PolicyDone env b o h' p t email bucket key digest)
      (Outside o.signingKey.boundToken?) := by
  unfold buildPolicyP
  refine P.Ok.bind (P.Ok.mono (ok_timeOrNow _) (fun t h hh => ?_) fun _ he => he)
  obtain ⟨hh, hv⟩ := hh
  split
  · exact hh
  rename_i hord
  refine P.Ok.bind (P.Ok.lift _ (fun a h1 => ?_) hh)
  rw [fromSystemTime_mapErr] at h1
  by_cases h1' : t < 0 ∨ endOf9999 ≤ t
  · rw [if_pos h1'] at h1; cases h1
  rw [if_neg h1'] at h1
  cases h1
  refine P.Ok.bind (P.Ok.lift _ (fun e h2 => ?_) hh)
  rw [fromSystemTime_mapErr] at h2
  by_cases h2' : o.expiration < 0 ∨ endOf9999 ≤ o.expiration
  · rw [if_pos h2'] at h2; cases h2
  rw [if_neg h2'] at h2
  cases h2
  refine P.Ok.bind (P.Ok.lift _ (fun bucket h3 => ?_) hh)
  have h3' : b.bucket = some bucket := by cases hb : b.bucket <;> rw [hb] at h3 <;> cases h3; rfl
  refine P.Ok.bind (P.Ok.lift _ (fun key h4 => ?_) hh)
  have h4' : b.key = some key := by cases hb : b.key <;> rw [hb] at h4 <;> cases h4; rfl
  dsimp only
  split
  · exact hh
  rename_i halg
  have halg : o.signingKey.xGoogAlgorithm = .goog4RsaSha256 := Classical.not_not.1 halg
  refine P.Ok.bind (P.Ok.mono (P.Ok.prefix (P.Ok.mapErr _ (ok_authorizer _ hh))) ?_ fun _ he => he)
  rintro email h1 ⟨⟨hout, hnamed⟩, hpre1⟩
  refine P.Ok.bind (P.Ok.lift _ (fun scope h5 => ?_) hout)
  cases h5
  refine P.Ok.bind (P.Ok.lift _ (fun conditions h6 => ?_) hout)
  rw [buildConditions_eq] at h6
  by_cases hm : ∃ m ∈ b.xGoogMeta, m.1 = []
  · rw [if_pos hm] at h6; cases h6
  rw [if_neg hm] at h6
  cases h6
  refine P.Ok.bind (P.Ok.mono (P.Ok.prefix (P.Ok.mapErr _ (ok_keySign _ _ _ hout))) ?_ fun _ he => he)
  rintro digest h2 ⟨⟨hout2, hsig, hcs⟩, hpre2⟩
  refine P.Ok.pure _ ⟨hout2, t, email, bucket, key, digest, validFrom_prefix hv (hpre1.trans hpre2), by omega,
    ⟨by omega, by omega, by omega⟩, h3', h4', hm, ⟨h1, hpre2, hnamed⟩, hsig, hcs, ?_⟩
  rw [halg]
  rfl

theorem ok_form (b : Builder) :
    (b.buildP env).Ok (Legal (b.signingOptions.bind (·.signingKey.boundToken?))) []
      (fun fs h' => Outside (b.signingOptions.bind (·.signingKey.boundToken?)) h' ∧
        (∀ o, b.signingOptions = some o → ∃ p t email bucket key digest,
          PolicyDone env b o h' p t email bucket key digest ∧ fs = fieldList b key (some p)) ∧
        (b.signingOptions = none → UnsignedDone b fs))
      (Outside (b.signingOptions.bind (·.signingKey.boundToken?))) := by
  unfold Builder.buildP
  refine P.Ok.bind (P.Ok.mono (Q := fun p h' => Outside (b.signingOptions.bind (·.signingKey.boundToken?)) h' ∧
      (∀ o, b.signingOptions = some o → ∃ p' t email bucket key digest, p = some p' ∧
        PolicyDone env b o h' p' t email bucket key digest) ∧ (b.signingOptions = none → p = none)) ?_ (fun p h hh => ?_) fun _ he => he)
  · unfold buildPolicyAndSignatureP
    cases ho : b.signingOptions with
    | none => exact ⟨fun _ _ => rfl, fun o h => (by cases h), fun _ => rfl⟩
    | some o =>
      show P.Ok (Legal o.signingKey.boundToken?) _ _ (fun _ h' => Outside o.signingKey.boundToken? h' ∧ _) (Outside o.signingKey.boundToken?)
      refine P.Ok.bind (P.Ok.mono (ok_policy b o) ?_ fun _ he => he)
      rintro p h' ⟨hout, t, email, bucket, key, digest, hd⟩
      refine ⟨hout, ?_, fun hn => (by cases hn)⟩
      intro o' ho'
      cases ho'
      exact ⟨p, t, email, bucket, key, digest, rfl, hd⟩
  · refine P.Ok.bind (P.Ok.lift _ (fun key h1 => ?_) hh.1)
    refine P.Ok.bind (P.Ok.lift _ (fun metas h2 => ?_) hh.1)
    refine P.Ok.pure _ ⟨hh.1, ?_, ?_⟩
    case refine_2 =>
      intro hn
      rw [hh.2.2 hn]
      refine ⟨key, ?_, ?_⟩
      · cases hb : b.key with
        | none => rw [hb] at h1; cases h1
        | some k => rw [hb] at h1; cases h1; rfl
      · rw [metaFields_eq] at h2
        split at h2
        · cases h2
        · rename_i hm
          cases h2
          exact ⟨hm, rfl⟩
    intro o ho
    obtain ⟨p', t, email, bucket, key', digest, rfl, hd⟩ := hh.2.1 o ho
    refine ⟨p', t, email, bucket, key', digest, hd, ?_⟩
    have hk : key' = key := by
      have := hd.hkey
      cases hb : b.key with
      | none => rw [hb] at this; cases this
      | some k => rw [hb] at this h1; cases this; cases h1; rfl
    subst hk
    rw [metaFields_eq, if_neg hd.metas] at h2
    cases h2
    rfl

/-- The program of an entry point only does what is legal, ends outside the critical section, and its result is
accounted for. -/
theorem ok_prog (call : ApiCall) :
    (call.prog env).Ok (Legal call.key?) [] fun r h => Outside call.key? h ∧ Done env call r h := by
  cases call with
  | url o =>
    refine Prog.Ok.bind (Prog.Ok.mono (ok_url o) ?_)
    intro r h hr
    cases r with
    | ok u => exact hr
    | err e => exact ⟨hr, trivial⟩
    | panic s => exact ⟨hr, trivial⟩
  | form cs =>
    refine Prog.Ok.bind (Prog.Ok.mono (ok_form (Builder.ofCalls cs)) ?_)
    intro r h hr
    cases r with
    | ok u => exact hr
    | err e => exact ⟨hr, trivial⟩
    | panic s => exact ⟨hr, trivial⟩

end

end CSS
