import Verif.Lemmas.Sends
/-
What a call does after it has asked for a signature.
-/
set_option linter.unusedSimpArgs false
namespace CSS
open Spec

/-- Whenever the program sends a POST, it sends nothing more, and once it is told a successful status and the text `answer`
it has ended with a value that is `ok`. -/
def Prog.Asks {α} (answer : Str) (ok : α → Prop) : Prog α → Prop
  | .ret _ => True
  | .now k => ∀ t, (k t).Asks answer ok
  | .lock _ k => ∀ c, (k c).Asks answer ok
  | .store _ _ k => k.Asks answer ok
  | .unlock _ k => k.Asks answer ok
  | .send r k => (r.method = s% "POST" → k.Sends 0 ∧ ∃ kr, k = .recv kr ∧ ∀ status, 200 ≤ status → status ≤ 299 →
      ∃ kt a, kr (some status) = .text kt ∧ kt (some answer) = .ret a ∧ ok a) ∧ k.Asks answer ok
  | .recv k => ∀ s, (k s).Asks answer ok
  | .text k => ∀ t, (k t).Asks answer ok

variable {α β ε ε' : Type} {answer : Str}

theorem Prog.Asks.ret (ok : α → Prop) (a : α) : (Prog.ret a).Asks answer ok := trivial

theorem Prog.Asks.bind {p : Prog α} {f : α → Prog β} {ok : α → Prop} {ok' : β → Prop} (hp : p.Asks answer ok)
    (hf : ∀ a, (f a).Asks answer ok') (ho : ∀ a, ok a → (∀ a, (f a).Sends 0) ∧ ∃ b, f a = .ret b ∧ ok' b) :
    (p.bind f).Asks answer ok' := by
  induction p with
  | ret a => exact hf a
  | send r k ih =>
    refine ⟨fun hr => ?_, ih hp.2⟩
    obtain ⟨h0, kr, rfl, hk⟩ := hp.1 hr
    obtain ⟨_, a, _, _, ha⟩ := hk 200 (by omega) (by omega)
    refine ⟨Prog.Sends.bind (m := 0) h0 (ho a ha).1, fun s => (kr s).bind f, rfl, fun status h1 h2 => ?_⟩
    obtain ⟨kt, a, e1, e2, ha⟩ := hk status h1 h2
    obtain ⟨b, e3, hb⟩ := (ho a ha).2
    refine ⟨fun t => (kt t).bind f, b, ?_, ?_, hb⟩
    · simp only [e1, Prog.bind]
    · simp only [e2, Prog.bind, e3]
  | _ =>
    rename_i ih
    first
    | exact fun t => ih t (hp t)
    | exact ih hp

theorem Prog.Asks.step {p q : Prog α} {e : Ev} {ok : α → Prop} (hp : p.Asks answer ok) (hs : p.Step e q) :
    q.Asks answer ok := by
  cases hs with
  | now k t => exact hp t
  | lock id k c => exact hp c
  | store id c k => exact hp
  | unlock id k => exact hp
  | send r k => exact hp.2
  | recv k s => exact hp s
  | text k t => exact hp t

/-- `Asks` for programs with outcomes. -/
def P.Asks (answer : Str) (ok : α → Prop) (p : P ε α) : Prop := Prog.Asks answer (fun r => ∃ a, r = .ok a ∧ ok a) p

/-- A program that sends no POST. -/
abbrev P.Quiet (answer : Str) (p : P ε α) : Prop := P.Asks answer (fun _ => False) p

theorem P.Asks.bind {p : P ε α} {f : α → P ε β} {ok : α → Prop} {ok' : β → Prop} (hp : p.Asks answer ok)
    (hf : ∀ a, (f a).Asks answer ok')
    (ho : ∀ a, ok a → (∀ a, (f a).Sends 0) ∧ ∃ b, f a = Prog.ret (.ok b) ∧ ok' b) : (p >>= f).Asks answer ok' := by
  refine Prog.Asks.bind hp ?_ ?_
  · intro r
    cases r with
    | ok a => exact hf a
    | err e => exact .ret _ _
    | panic s => exact .ret _ _
  · rintro r ⟨a, rfl, ha⟩
    obtain ⟨h1, b, h2, h3⟩ := ho a ha
    refine ⟨fun r => ?_, .ok b, h2, b, rfl, h3⟩
    cases r with
    | ok a => exact h1 a
    | err e => exact Prog.Sends.ret _ _
    | panic s => exact Prog.Sends.ret _ _

theorem P.Asks.quiet {p : P ε α} {f : α → P ε β} {ok' : β → Prop} (hp : p.Quiet answer)
    (hf : ∀ a, (f a).Asks answer ok') : (p >>= f).Asks answer ok' := P.Asks.bind hp hf fun _ h => h.elim

theorem P.Asks.ret (ok : α → Prop) (r : Res ε α) : P.Asks answer ok (Prog.ret r : P ε α) := Prog.Asks.ret _ _

theorem P.Asks.lift (r : Res ε α) {f : α → P ε β} {ok : β → Prop} (hf : ∀ a, r = .ok a → (f a).Asks answer ok) :
    (P.lift r >>= f).Asks answer ok := by
  cases r with
  | ok a => exact hf a rfl
  | err e => exact P.Asks.ret _ _
  | panic s => exact P.Asks.ret _ _

theorem P.Asks.mapErr {p : P ε α} {ok : α → Prop} (f : ε → ε') (hp : p.Asks answer ok) : (P.mapErr f p).Asks answer ok := by
  refine Prog.Asks.bind hp (fun _ => .ret _ _) ?_
  rintro r ⟨a, rfl, ha⟩
  exact ⟨fun _ => Prog.Sends.ret _ _, .ok a, rfl, a, rfl, ha⟩

variable {env : Env}

theorem quiet_fetchText (e : FetchErrors) (r : Request) (hr : r.method ≠ s% "POST") : (fetchTextP env e r).Quiet answer := by
  unfold fetchTextP
  split
  · exact .ret _ _
  · refine ⟨fun h => absurd h hr, fun s => ?_⟩
    cases s with
    | none => exact Prog.Asks.ret _ _
    | some s =>
      simp only
      split
      · intro t; cases t <;> exact Prog.Asks.ret _ _
      · intro t; cases t <;> exact Prog.Asks.ret _ _

theorem asks_fetchText (e : FetchErrors) (r : Request) : (fetchTextP env e r).Asks answer fun a => a = answer := by
  unfold fetchTextP
  split
  · exact .ret _ _
  · rename_i hb
    refine ⟨fun _ => ⟨?_, _, rfl, fun status h1 h2 => ?_⟩, fun s => ?_⟩
    · obtain ⟨m, hm, hs⟩ := (show (executeP e r).Sends 1 from by
        have := sends_fetchText (env := env) e r
        unfold fetchTextP at this
        rw [if_neg hb] at this
        exact this)
      have : m = 0 := by omega
      subst this
      exact hs
    · have hs : isSuccess status = true := by simp only [isSuccess, Bool.and_eq_true, decide_eq_true_eq]; omega
      simp only [hs, if_true]
      exact ⟨_, _, rfl, rfl, _, rfl, rfl⟩
    · cases s with
      | none => exact Prog.Asks.ret _ _
      | some s =>
        simp only
        split
        · intro t; cases t <;> exact Prog.Asks.ret _ _
        · intro t; cases t <;> exact Prog.Asks.ret _ _

theorem quiet_refresh (bt : BoundToken) : (refreshP env bt).Quiet answer := by
  unfold refreshP
  refine P.Asks.quiet (quiet_fetchText _ _ (by simp [emailRequest, tokenRequest])) fun email => ?_
  refine P.Asks.quiet (quiet_fetchText _ _ (by simp [emailRequest, tokenRequest])) fun doc => ?_
  cases parseAccessToken doc with
  | none => exact .ret _ _
  | some t =>
    simp only
    split
    · exact .ret _ _
    · refine P.Asks.quiet (fun t => Prog.Asks.ret _ _) fun now => ?_
      show P.Quiet answer (if timeLimit ≤ now + (t.expiresIn : Int) * nsPerSec then _ else _)
      split
      · exact .ret _ _
      · exact P.Asks.quiet (p := storeP _ _) trivial fun _ => .ret _ _

theorem quiet_get (bt : BoundToken) : (getP env bt).Quiet answer := by
  intro c
  show Prog.Asks answer _ (Prog.bind (lockedP env bt c) fun r => Prog.unlock bt.id (.ret r))
  refine Prog.Asks.bind (ok := fun _ => False) ?_ (fun r => trivial) fun _ h => h.elim
  have key : (lockedP env bt c).Quiet answer := by
    cases c with
    | none => exact quiet_refresh bt
    | some c =>
      unfold lockedP
      refine P.Asks.quiet ?_ ?_
      · unfold cacheFreshP
        split
        · exact .ret _ _
        · refine P.Asks.quiet (fun t => Prog.Asks.ret _ _) fun now => ?_
          split
          · exact .ret _ _
          · exact .ret _ _
      · intro b
        cases b with
        | true => exact .ret _ _
        | false => exact quiet_refresh bt
  have e : (fun r : Res BoundTokenError (Str × Str) => ∃ a, r = .ok a ∧ False) = fun _ => False := by simp
  unfold P.Quiet P.Asks at key
  rw [e] at key
  exact key

/-- The signature in the answer of the signing service. -/
def GoodAnswer (answer : Str) (signature : Bytes) : Prop := ∃ blob, SignBlobText answer blob ∧ base64Decode blob = some signature

variable {signature : Bytes}

theorem asks_sign (hg : GoodAnswer answer signature) (bt : BoundToken) (m : Bytes) :
    (signP env bt m).Asks answer fun a => a = signature := by
  obtain ⟨blob, h1, h2⟩ := hg
  unfold signP
  refine P.Asks.quiet (quiet_get bt) fun p => ?_
  refine P.Asks.bind (asks_fetchText _ _) (fun text => ?_) ?_
  · cases parseSignBlobResponse text with
    | none => exact .ret _ _
    | some blob =>
      simp only
      cases b64Decode blob <;> exact .ret _ _
  · rintro _ rfl
    refine ⟨fun text => ?_, signature, ?_, rfl⟩
    · cases parseSignBlobResponse text with
      | none => exact .ret _ _
      | some blob =>
        simp only
        cases b64Decode blob <;> exact .ret _ _
    · simp only [parseSignBlobResponse_iff.2 h1, b64Decode_eq, h2]
      rfl

theorem quiet_authorizer (key : SigningKey) : (key.authorizerP env).Quiet answer := by
  cases key with
  | boundToken bt => exact P.Asks.quiet (P.Asks.mapErr _ (quiet_get bt)) fun p => .ret _ _
  | hmac a s => exact .ret _ _
  | serviceAccount a s => exact .ret _ _

theorem asks_keySign (hg : GoodAnswer answer signature) (key : SigningKey) (u : Bool) (m : Bytes) :
    (key.signP env u m).Asks answer fun a => a = signature := by
  cases key with
  | boundToken bt =>
    unfold SigningKey.signP
    cases u with
    | true => exact P.Asks.mapErr _ (asks_sign hg bt m)
    | false => exact .ret _ _
  | hmac a s => exact .ret _ _
  | serviceAccount a s =>
    unfold SigningKey.signP
    cases u with
    | true => exact .ret _ _
    | false => exact .ret _ _

theorem quiet_time (t : Option Time) : (P.timeOrNow t : P ε Time).Quiet answer := by
  cases t with
  | some t => exact .ret _ _
  | none => exact fun t => Prog.Asks.ret _ _

theorem asks_url (hg : GoodAnswer answer signature) (o : UrlOptions) : (buildSignedUrlP env o).Asks answer fun _ => True := by
  unfold buildSignedUrlP
  refine P.Asks.quiet (quiet_time _) fun t => ?_
  refine P.Asks.lift _ fun now _ => ?_
  refine P.Asks.lift _ fun life _ => ?_
  refine P.Asks.lift _ fun method _ => ?_
  generalize baseUrl env o = url
  refine P.Asks.lift _ fun uri _ => ?_
  refine P.Asks.lift _ fun userHeaders _ => ?_
  refine P.Asks.lift _ fun headers _ => ?_
  refine P.Asks.lift _ fun scope _ => ?_
  refine P.Asks.lift _ fun expiration _ => ?_
  refine P.Asks.mapErr _ ?_
  unfold SignedUrl.newP
  refine P.Asks.quiet (P.Asks.mapErr _ (quiet_authorizer _)) fun email => ?_
  refine P.Asks.lift _ fun req _ => ?_
  refine P.Asks.lift _ fun canonical _ => ?_
  exact P.Asks.bind (P.Asks.mapErr _ (asks_keySign hg _ _ _)) (fun digest => .ret _ _)
    fun digest _ => ⟨fun _ => .ret _ _, _, rfl, trivial⟩

theorem asks_form (hg : GoodAnswer answer signature) (b : Builder) : (b.buildP env).Asks answer fun _ => True := by
  unfold Builder.buildP
  refine P.Asks.bind (ok := fun _ => (∃ key, b.key = some key) ∧ ¬ ∃ m ∈ b.xGoogMeta, m.1 = []) ?_ (fun p => ?_) ?_
  · unfold buildPolicyAndSignatureP
    cases b.signingOptions with
    | none => exact .ret _ _
    | some o =>
      refine P.Asks.bind (ok := fun _ => (∃ key, b.key = some key) ∧ ¬ ∃ m ∈ b.xGoogMeta, m.1 = []) ?_ (fun p => .ret _ _)
        fun p hp => ⟨fun _ => .ret _ _, _, rfl, hp⟩
      unfold buildPolicyP
      refine P.Asks.quiet (quiet_time _) fun t => ?_
      split
      · exact .ret _ _
      refine P.Asks.lift _ fun a _ => ?_
      refine P.Asks.lift _ fun e _ => ?_
      refine P.Asks.lift _ fun bucket _ => ?_
      refine P.Asks.lift _ fun key hk => ?_
      dsimp only
      split
      · exact .ret _ _
      refine P.Asks.quiet (P.Asks.mapErr _ (quiet_authorizer _)) fun email => ?_
      refine P.Asks.lift _ fun scope _ => ?_
      refine P.Asks.lift _ fun conditions hc => ?_
      refine P.Asks.bind (P.Asks.mapErr _ (asks_keySign hg _ _ _)) (fun digest => .ret _ _)
        fun digest _ => ⟨fun _ => .ret _ _, _, rfl, ?_, ?_⟩
      · cases hb : b.key with
        | none => rw [hb] at hk; cases hk
        | some k => exact ⟨k, rfl⟩
      · rw [buildConditions_eq] at hc
        split at hc
        · cases hc
        · assumption
  · refine P.Asks.lift _ fun key _ => ?_
    exact P.Asks.lift _ fun metas _ => .ret _ _
  · rintro p ⟨⟨key, hk⟩, hm⟩
    refine ⟨fun p => ?_, ?_⟩
    · refine P.Sends.lift _ fun key => ?_
      exact P.Sends.lift _ fun metas => .ret _ _
    · rw [hk, metaFields_eq, if_neg hm]
      exact ⟨_, rfl, trivial⟩

/-- The call returned a URL or a form. -/
def ApiResult.isOk : ApiResult → Prop
  | .url (.ok _) | .form (.ok _) => True
  | _ => False

theorem asks_prog (hg : GoodAnswer answer signature) (call : ApiCall) : (call.prog env).Asks answer ApiResult.isOk := by
  cases call with
  | url o =>
    refine Prog.Asks.bind (asks_url hg o) (fun _ => .ret _ _) ?_
    rintro r ⟨a, rfl, _⟩
    exact ⟨fun _ => .ret _ _, _, rfl, trivial⟩
  | form cs =>
    refine Prog.Asks.bind (asks_form hg _) (fun _ => .ret _ _) ?_
    rintro r ⟨a, rfl, _⟩
    exact ⟨fun _ => .ret _ _, _, rfl, trivial⟩

/-- Every call in progress is such a program. -/
theorem asks_reach {base : Nat → Str} {s : Sys} (hg : GoodAnswer answer signature) (h : Sys.Reach env base s) :
    ∀ i p, s.calls i = some p → p.Asks answer ApiResult.isOk := by
  induction h with
  | init => intro i p hp; simp [Sys.init] at hp
  | step s s' hr hs ih =>
    intro i p0 hp0
    rcases step_cases hs with ⟨j, call, ht, _, hf, hc⟩ | ⟨j, e, p, q, ht, hp, hpq, _, hc⟩ | ⟨j, r, ht, _, hp, hc⟩ |
        ⟨j, p, ht, _, hp, _, _, hc⟩ <;> rw [hc] at hp0 <;> by_cases hij : i = j
    · simp only [if_pos hij, Option.some.injEq] at hp0
      subst hp0
      exact asks_prog hg call
    · simp only [if_neg hij] at hp0; exact ih i p0 hp0
    · simp only [if_pos hij, Option.some.injEq] at hp0
      subst hp0
      exact (ih j p hp).step hpq
    · simp only [if_neg hij] at hp0; exact ih i p0 hp0
    · simp [hij] at hp0
    · simp only [if_neg hij] at hp0; exact ih i p0 hp0
    · simp [hij] at hp0
    · simp only [if_neg hij] at hp0; exact ih i p0 hp0

end CSS
