import Verif.Spec.Alone
import Verif.Lemmas.Sequential
import Verif.Lemmas.Runs
/-
A program run alone, step by step.
-/
set_option linter.unusedSimpArgs false
namespace CSS
open Spec

def statusOf : NetResult → Option Nat
  | .execErr => none
  | .response s _ => some s
def textOf : NetResult → Option Str
  | .execErr => none
  | .response _ b => b

/-- The steps are what a program sees that runs alone in the world `w`, while the response `n` is awaited; at the end
the world is `w'`. -/
def Fits (env : Env) : NetResult → World → List Ev → World → Prop
  | _, w, [], w' => w' = w
  | n, w, .clock t :: h, w' => t = env.now w.ticks ∧ Fits env n { w with ticks := w.ticks + 1 } h w'
  | n, w, .locked id c :: h, w' => c = w.caches id ∧ Fits env n w h w'
  | n, w, .stored id c :: h, w' => Fits env n { w with caches := fun i => if i = id then some c else w.caches i } h w'
  | n, w, .unlocked _ :: h, w' => Fits env n w h w'
  | _, w, .sent r :: h, w' => Fits env (env.net w.log.length r) { w with log := w.log ++ [r] } h w'
  | n, w, .status s :: h, w' => s = statusOf n ∧ Fits env n w h w'
  | n, w, .body t :: h, w' => t = textOf n ∧ Fits env n w h w'

variable {α β ε ε' : Type} {env : Env}

theorem statusOf_eq (n : NetResult) : (match n with | .execErr => none | .response s _ => some s) = statusOf n := by cases n <;> rfl
theorem textOf_eq (n : NetResult) : (match n with | .execErr => none | .response _ b => b) = textOf n := by cases n <;> rfl

/-- A program that runs alone makes steps that fit. -/
theorem run_fits (p : Prog α) (n : NetResult) (w : World) :
    ∃ h, p.Runs h (p.run env n w).1 ∧ Fits env n w h (p.run env n w).2.1 := by
  induction p generalizing n w with
  | ret a => exact ⟨[], .nil _, rfl⟩
  | now k ih =>
    obtain ⟨h, h1, h2⟩ := ih (env.now w.ticks) n { w with ticks := w.ticks + 1 }
    exact ⟨_ :: h, Prog.Does.cons (.now ..) h1, rfl, h2⟩
  | lock id k ih =>
    obtain ⟨h, h1, h2⟩ := ih (w.caches id) n w
    exact ⟨_ :: h, Prog.Does.cons (.lock ..) h1, rfl, h2⟩
  | store id c k ih =>
    obtain ⟨h, h1, h2⟩ := ih n { w with caches := fun i => if i = id then some c else w.caches i }
    exact ⟨_ :: h, Prog.Does.cons (.store ..) h1, h2⟩
  | unlock id k ih =>
    obtain ⟨h, h1, h2⟩ := ih n w
    exact ⟨_ :: h, Prog.Does.cons (.unlock ..) h1, h2⟩
  | send r k ih =>
    obtain ⟨h, h1, h2⟩ := ih (env.net w.log.length r) { w with log := w.log ++ [r] }
    exact ⟨_ :: h, Prog.Does.cons (.send ..) h1, h2⟩
  | recv k ih =>
    obtain ⟨h, h1, h2⟩ := ih (statusOf n) n w
    simp only [Prog.run, statusOf_eq]
    exact ⟨_ :: h, Prog.Does.cons (.recv ..) h1, rfl, h2⟩
  | text k ih =>
    obtain ⟨h, h1, h2⟩ := ih (textOf n) n w
    simp only [Prog.run, textOf_eq]
    exact ⟨_ :: h, Prog.Does.cons (.text ..) h1, rfl, h2⟩

/-- Steps that fit are the steps of the program run alone. -/
theorem fits_run {p : Prog α} {a : α} {h : List Ev} {n : NetResult} {w w' : World} (hr : p.Runs h a) (hf : Fits env n w h w') :
    ∃ n', p.run env n w = (a, w', n') := by
  induction h generalizing p n w with
  | nil =>
    rcases Prog.Does.uncons hr with ⟨_, hp⟩ | ⟨_, _, _, h, _⟩
    · cases hp; cases hf; exact ⟨_, rfl⟩
    · cases h
  | cons e h ih =>
    rcases Prog.Does.uncons hr with ⟨h, _⟩ | ⟨e, h', p', heq, hs, hd⟩
    · cases h
    cases heq
    cases hs with
    | now k t => obtain ⟨rfl, hf⟩ := hf; have := ih (p := k _) hd hf; exact this
    | lock id k c => obtain ⟨rfl, hf⟩ := hf; have := ih (p := k _) hd hf; exact this
    | store id c k => have := ih (p := p') hd hf; exact this
    | unlock id k => have := ih (p := p') hd hf; exact this
    | send r k => have := ih (p := p') hd hf; exact this
    | recv k s =>
      obtain ⟨rfl, hf⟩ := hf
      simp only [Prog.run, statusOf_eq]
      exact ih (p := k _) hd hf
    | text k t =>
      obtain ⟨rfl, hf⟩ := hf
      simp only [Prog.run, textOf_eq]
      exact ih (p := k _) hd hf

/-! ### What a fitting history says about the world -/

theorem fits_append {n : NetResult} {w w' : World} {a b : List Ev} (h : Fits env n w (a ++ b) w') :
    ∃ n1 w1, Fits env n w a w1 ∧ Fits env n1 w1 b w' := by
  induction a generalizing n w with
  | nil => exact ⟨n, w, rfl, h⟩
  | cons e a ih =>
    cases e with
    | locked id c => obtain ⟨h0, h⟩ := h; obtain ⟨n1, w1, h1, h2⟩ := ih h; exact ⟨n1, w1, ⟨h0, h1⟩, h2⟩
    | clock t => obtain ⟨h0, h⟩ := h; obtain ⟨n1, w1, h1, h2⟩ := ih h; exact ⟨n1, w1, ⟨h0, h1⟩, h2⟩
    | status t => obtain ⟨h0, h⟩ := h; obtain ⟨n1, w1, h1, h2⟩ := ih h; exact ⟨n1, w1, ⟨h0, h1⟩, h2⟩
    | body t => obtain ⟨h0, h⟩ := h; obtain ⟨n1, w1, h1, h2⟩ := ih h; exact ⟨n1, w1, ⟨h0, h1⟩, h2⟩
    | stored id c => obtain ⟨n1, w1, h1, h2⟩ := ih h; exact ⟨n1, w1, h1, h2⟩
    | unlocked id => obtain ⟨n1, w1, h1, h2⟩ := ih h; exact ⟨n1, w1, h1, h2⟩
    | sent r => obtain ⟨n1, w1, h1, h2⟩ := ih h; exact ⟨n1, w1, h1, h2⟩

theorem fits_counts {n : NetResult} {w w' : World} {h : List Ev} (hf : Fits env n w h w') :
    w'.log = w.log ++ sentIn h ∧ w'.ticks = w.ticks + (readings h).length := by
  induction h generalizing n w with
  | nil => cases hf; simp [sentIn, readings]
  | cons e h ih =>
    cases e with
    | locked id c => exact ih hf.2
    | clock t =>
      obtain ⟨h1, h2⟩ := ih hf.2
      refine ⟨h1, ?_⟩
      rw [h2]
      simp [readings]
      omega
    | status t => exact ih hf.2
    | body t => exact ih hf.2
    | stored id c => have := ih (w := { w with caches := fun i => if i = id then some c else w.caches i }) hf; exact this
    | unlocked id => exact ih hf
    | sent r =>
      obtain ⟨h1, h2⟩ := ih hf
      exact ⟨by rw [h1]; simp [sentIn], h2⟩

/-! ### Requests and their answers come in turn -/

inductive Phase where
  | idle
  | sent
  | received

/-- From here on, a status follows each request, and a text each status. -/
def Turns : Phase → List Ev → Prop
  | .idle, [] => True
  | _, [] => False
  | .idle, .sent _ :: h => Turns .sent h
  | .sent, .status none :: h => Turns .idle h
  | .sent, .status (some _) :: h => Turns .received h
  | .received, .body _ :: h => Turns .idle h
  | .idle, .locked _ _ :: h => Turns .idle h
  | .idle, .clock _ :: h => Turns .idle h
  | .idle, .stored _ _ :: h => Turns .idle h
  | .idle, .unlocked _ :: h => Turns .idle h
  | _, _ :: _ => False

theorem turns_append {ph : Phase} {a b : List Ev} (ha : Turns ph a) (hb : Turns .idle b) : Turns ph (a ++ b) := by
  induction a generalizing ph with
  | nil => cases ph <;> first | exact hb | exact ha.elim
  | cons e a ih =>
    cases ph <;> cases e <;> first | exact ih ha | exact ha.elim | skip
    rename_i s
    cases s <;> exact ih ha

theorem turns_split {ph : Phase} {a b : List Ev} (h : Turns ph (a ++ b)) : ∃ ph', Turns ph' b := by
  induction a generalizing ph with
  | nil => exact ⟨ph, h⟩
  | cons e a ih =>
    cases ph <;> cases e <;> first | exact ih h | exact h.elim | skip
    rename_i s
    cases s <;> exact ih h

theorem turns_sent {ph : Phase} {a b : List Ev} {r : Request} (h : Turns ph (a ++ .sent r :: b)) :
    (∃ rest, b = .status none :: rest) ∨ ∃ s t rest, b = .status (some s) :: .body t :: rest := by
  obtain ⟨ph', h⟩ := turns_split h
  cases ph' with
  | sent => exact h.elim
  | received => exact h.elim
  | idle =>
    match b, h with
    | .status none :: rest, _ => exact .inl ⟨rest, rfl⟩
    | .status (some s) :: .body t :: rest, _ => exact .inr ⟨s, t, rest, rfl⟩

theorem turns_status {ph : Phase} {a b : List Ev} {s : Option Nat} (h : Turns ph (a ++ .status s :: b)) :
    (ph = .sent ∧ a = []) ∨ ∃ a' r, a = a' ++ [.sent r] := by
  induction a generalizing ph with
  | nil => cases ph <;> first | exact h.elim | exact .inl ⟨rfl, rfl⟩
  | cons e a ih =>
    right
    have next : ∀ ph', Turns ph' (a ++ .status s :: b) → (ph' = .sent → ∃ r, e = .sent r) → ∃ a' r, e :: a = a' ++ [.sent r] := by
      intro ph' h' hs
      rcases ih h' with ⟨rfl, rfl⟩ | ⟨a', r, rfl⟩
      · obtain ⟨r, rfl⟩ := hs rfl
        exact ⟨[], r, rfl⟩
      · exact ⟨e :: a', r, rfl⟩
    cases ph <;> cases e <;> first
      | exact h.elim
      | exact next .idle h nofun
      | exact next .sent h fun _ => ⟨_, rfl⟩
      | skip
    rename_i t
    cases t with
    | none => exact next .idle h nofun
    | some t => exact next .received h nofun

theorem turns_text {ph : Phase} {a b : List Ev} {t : Option Str} (h : Turns ph (a ++ .body t :: b)) :
    (ph = .received ∧ a = []) ∨ (ph = .sent ∧ ∃ s, a = [.status (some s)]) ∨ ∃ a' r s, a = a' ++ [.sent r, .status (some s)] := by
  induction a generalizing ph with
  | nil => cases ph <;> first | exact h.elim | exact .inl ⟨rfl, rfl⟩
  | cons e a ih =>
    right
    have next : ∀ ph', Turns ph' (a ++ .body t :: b) → (ph' = .received → ph = .sent ∧ ∃ s, e = .status (some s)) →
        (ph' = .sent → ∃ r, e = .sent r) →
        (ph = .sent ∧ ∃ s, e :: a = [.status (some s)]) ∨ ∃ a' r s, e :: a = a' ++ [.sent r, .status (some s)] := by
      intro ph' h' h1 h2
      rcases ih h' with ⟨rfl, rfl⟩ | ⟨rfl, s, rfl⟩ | ⟨a', r, s, rfl⟩
      · obtain ⟨hp, s, rfl⟩ := h1 rfl
        exact .inl ⟨hp, s, rfl⟩
      · obtain ⟨r, rfl⟩ := h2 rfl
        exact .inr ⟨[], r, s, rfl⟩
      · exact .inr ⟨e :: a', r, s, rfl⟩
    cases ph <;> cases e <;> first
      | exact h.elim
      | exact next .idle h nofun nofun
      | exact next .sent h nofun fun _ => ⟨_, rfl⟩
      | skip
    rename_i t
    cases t with
    | none => exact next .idle h nofun nofun
    | some t => exact next .received h (fun _ => ⟨rfl, _, rfl⟩) nofun

/-- All runs of the program take turns. -/
def Prog.Turning (p : Prog α) : Prop := ∀ h a, p.Runs h a → Turns .idle h

theorem Prog.Turning.ret (a : α) : (Prog.ret a).Turning := by
  intro h b hr
  obtain ⟨rfl, _⟩ := Prog.Runs.ret hr
  trivial

theorem Prog.Turning.bind {p : Prog α} {f : α → Prog β} (hp : p.Turning) (hf : ∀ a, (f a).Turning) : (p.bind f).Turning := by
  intro h b hr
  obtain ⟨h1, a, h2, rfl, hr1, hr2⟩ := Prog.Runs.bind hr
  exact turns_append (hp _ _ hr1) (hf _ _ _ hr2)

theorem P.Turning.bind {p : P ε α} {f : α → P ε β} (hp : Prog.Turning p) (hf : ∀ a, Prog.Turning (f a)) :
    Prog.Turning (p >>= f : P ε β) := by
  refine Prog.Turning.bind (p := p) hp fun r => ?_
  cases r with
  | ok a => exact hf a
  | err e => exact .ret _
  | panic s => exact .ret _

theorem P.Turning.mapErr {p : P ε α} (f : ε → ε') (hp : Prog.Turning p) : Prog.Turning (P.mapErr f p) :=
  Prog.Turning.bind (p := p) hp fun _ => .ret _

theorem P.Turning.lift (r : Res ε α) {f : α → P ε β} (hf : ∀ a, Prog.Turning (f a)) : Prog.Turning (P.lift r >>= f : P ε β) :=
  P.Turning.bind (.ret _) hf

theorem turning_now : Prog.Turning (P.now : P ε Time) := by
  intro h a hr
  obtain ⟨t, h', rfl, hr'⟩ := Prog.Runs.now hr
  obtain ⟨rfl, _⟩ := Prog.Runs.ret hr'
  trivial

theorem turning_time (t : Option Time) : Prog.Turning (P.timeOrNow t : P ε Time) := by
  cases t with
  | none => exact turning_now
  | some t => exact .ret _

theorem turning_fetch (e : FetchErrors) (r : Request) : Prog.Turning (fetchTextP env e r) := by
  intro h a hr
  unfold fetchTextP at hr
  split at hr
  · obtain ⟨rfl, _⟩ := Prog.Runs.ret hr; trivial
  · obtain ⟨h1, rfl, hr1⟩ := Prog.Runs.send hr
    obtain ⟨s, h2, rfl, hr2⟩ := Prog.Runs.recv hr1
    cases s with
    | none => obtain ⟨rfl, _⟩ := Prog.Runs.ret hr2; trivial
    | some s =>
      dsimp only at hr2
      split at hr2
      all_goals
        obtain ⟨t, h3, rfl, hr3⟩ := Prog.Runs.text hr2
        cases t <;> (obtain ⟨rfl, _⟩ := Prog.Runs.ret hr3; trivial)

theorem turning_refresh (bt : BoundToken) : Prog.Turning (refreshP env bt) := by
  unfold refreshP
  refine P.Turning.bind (turning_fetch _ _) fun email => P.Turning.bind (turning_fetch _ _) fun body => ?_
  cases parseAccessToken body with
  | none => exact .ret _
  | some t =>
    dsimp only
    split
    · exact .ret _
    · refine P.Turning.bind turning_now fun now => ?_
      split
      · exact .ret _
      · refine P.Turning.bind ?_ fun _ => .ret _
        intro h a hr
        obtain ⟨h1, rfl, hr1⟩ := Prog.Runs.store hr
        obtain ⟨rfl, _⟩ := Prog.Runs.ret hr1
        trivial

theorem turning_get (bt : BoundToken) : Prog.Turning (getP env bt) := by
  have hl : ∀ c, Prog.Turning (lockedP env bt c) := by
    intro c
    cases c with
    | none => exact turning_refresh bt
    | some c =>
      unfold lockedP cacheFreshP
      refine P.Turning.bind ?_ fun fresh => ?_
      · split
        · exact .ret _
        · refine P.Turning.bind turning_now fun t => ?_
          split <;> exact .ret _
      · cases fresh with
        | true => exact .ret _
        | false => exact turning_refresh bt
  intro h a hr
  obtain ⟨c, h1, rfl, hr1⟩ := Prog.Runs.lock hr
  refine show Turns .idle h1 from Prog.Turning.bind (hl c) (fun r => ?_) _ _ hr1
  intro h a hr
  obtain ⟨h2, rfl, hr2⟩ := Prog.Runs.unlock hr
  obtain ⟨rfl, _⟩ := Prog.Runs.ret hr2
  trivial

theorem turning_sign (bt : BoundToken) (m : Bytes) : Prog.Turning (signP env bt m) := by
  unfold signP
  refine P.Turning.bind (turning_get bt) fun p => P.Turning.bind (turning_fetch _ _) fun body => ?_
  cases parseSignBlobResponse body with
  | none => exact .ret _
  | some blob =>
    dsimp only
    cases b64Decode blob <;> exact .ret _

theorem turning_authorizer (key : SigningKey) : Prog.Turning (key.authorizerP env) := by
  cases key with
  | boundToken bt => exact P.Turning.bind (P.Turning.mapErr _ (turning_get bt)) fun _ => .ret _
  | hmac a s => exact .ret _
  | serviceAccount a s => exact .ret _

theorem turning_keySign (key : SigningKey) (u : Bool) (m : Bytes) : Prog.Turning (key.signP env u m) := by
  cases key with
  | boundToken bt =>
    cases u with
    | true => exact P.Turning.mapErr _ (turning_sign bt m)
    | false => exact .ret _
  | hmac a s => exact .ret _
  | serviceAccount a s => cases u <;> exact .ret _

theorem turning_url (o : UrlOptions) : Prog.Turning (buildSignedUrlP env o) := by
  unfold buildSignedUrlP
  refine P.Turning.bind (turning_time _) fun at_ => ?_
  refine P.Turning.lift _ fun now => P.Turning.lift _ fun life => P.Turning.lift _ fun method => ?_
  refine P.Turning.lift _ fun uri => P.Turning.lift _ fun userHeaders => P.Turning.lift _ fun headers => P.Turning.lift _ fun scope => ?_
  refine P.Turning.lift _ fun expiration => P.Turning.mapErr _ ?_
  unfold SignedUrl.newP
  refine P.Turning.bind (P.Turning.mapErr _ (turning_authorizer _)) fun email => P.Turning.lift _ fun request => ?_
  refine P.Turning.lift _ fun canonical => ?_
  exact P.Turning.bind (P.Turning.mapErr _ (turning_keySign _ _ _)) fun digest => .ret _

theorem turning_policy (b : Builder) (o : SigningOptions) : Prog.Turning (buildPolicyP env b o) := by
  unfold buildPolicyP
  refine P.Turning.bind (turning_time _) fun at_ => ?_
  split
  · exact .ret _
  · refine P.Turning.lift _ fun a1 => P.Turning.lift _ fun a2 => P.Turning.lift _ fun a3 => P.Turning.lift _ fun a4 => ?_
    dsimp only
    split
    · exact .ret _
    · refine P.Turning.bind (P.Turning.mapErr _ (turning_authorizer _)) fun email => ?_
      refine P.Turning.lift _ fun scope => P.Turning.lift _ fun conditions => ?_
      exact P.Turning.bind (P.Turning.mapErr _ (turning_keySign _ _ _)) fun digest => .ret _

theorem turning_form (b : Builder) : Prog.Turning (b.buildP env) := by
  unfold Builder.buildP
  refine P.Turning.bind ?_ fun p => P.Turning.lift _ fun key => P.Turning.lift _ fun metas => .ret _
  unfold buildPolicyAndSignatureP
  cases b.signingOptions with
  | none => exact .ret _
  | some o => exact P.Turning.bind (turning_policy b o) fun _ => .ret _

theorem turning_prog (call : ApiCall) : (call.prog env).Turning := by
  cases call with
  | url o => exact Prog.Turning.bind (p := buildSignedUrlP env o) (turning_url o) fun _ => .ret _
  | form cs => exact Prog.Turning.bind (p := (Builder.ofCalls cs).buildP env) (turning_form _) fun _ => .ret _

/-! ### Showing and fitting -/

theorem shows_of_fits {n : NetResult} {w w' : World} {h : List Ev} (ht : Turns .idle h) (hf : Fits env n w h w') : Shows env w h := by
  refine ⟨?_, ?_, ?_, ?_⟩
  · clear ht
    induction h generalizing n w with
    | nil => intro k t hk; simp [readings] at hk
    | cons e h ih =>
      cases e with
      | clock t0 =>
        obtain ⟨rfl, hf⟩ := hf
        intro k t hk
        cases k with
        | zero => simpa [readings] using hk
        | succ k =>
          have := ih hf k t (by simpa [readings] using hk)
          rw [← this]
          show env.now _ = env.now _
          congr 1
          show _ = w.ticks + 1 + k
          omega
      | locked id c => exact ih hf.2
      | status t => exact ih hf.2
      | body t => exact ih hf.2
      | stored id c => exact ih (w := { w with caches := fun i => if i = id then some c else w.caches i }) hf
      | unlocked id => exact ih hf
      | sent r => exact ih (w := { w with log := w.log ++ [r] }) hf
  · intro a r b hb
    subst hb
    obtain ⟨n1, w1, h1, h2⟩ := fits_append hf
    have hl := (fits_counts h1).1
    have hlen : w1.log.length = w.log.length + (sentIn a).length := by rw [hl]; simp
    rcases turns_sent ht with ⟨rest, rfl⟩ | ⟨s, t, rest, rfl⟩
    · left
      refine ⟨?_, rest, rfl⟩
      have := h2.1
      rw [← hlen]
      revert this
      cases env.net w1.log.length r with
      | execErr => exact fun _ => rfl
      | response s b => exact fun h => nomatch h
    · right
      refine ⟨s, t, rest, ?_, rfl⟩
      have h3 := h2.1
      have h4 := h2.2.1
      rw [← hlen]
      revert h3 h4
      cases env.net w1.log.length r with
      | execErr => exact fun h => nomatch h
      | response s b =>
        intro h3 h4
        cases h3
        cases h4
        rfl

  · rintro a s b rfl
    rcases turns_status ht with ⟨h, _⟩ | h
    · cases h
    · exact h
  · rintro a t b rfl
    rcases turns_text ht with ⟨h, _⟩ | ⟨h, _⟩ | h
    · cases h
    · cases h
    · exact h

/-- The caches as a program saw them that runs alone. -/
def Sees : (Nat → Option Cached) → List Ev → Prop
  | _, [] => True
  | ca, .locked id c :: h => c = ca id ∧ Sees ca h
  | ca, .stored id c :: h => Sees (fun i => if i = id then some c else ca i) h
  | ca, _ :: h => Sees ca h

/-- The caches after these steps. -/
def storing : (Nat → Option Cached) → List Ev → Nat → Option Cached
  | ca, [] => ca
  | ca, .stored id c :: h => storing (fun i => if i = id then some c else ca i) h
  | ca, _ :: h => storing ca h

/-- The answers to the requests of these steps. -/
def answersIn : List Ev → List NetResult
  | [] => []
  | .sent _ :: .status none :: h => .execErr :: answersIn h
  | .sent _ :: .status (some s) :: .body t :: h => .response s t :: answersIn h
  | _ :: h => answersIn h

/-- The environment that computes like `env` and shows what a call with these steps saw. -/
def showing (env : Env) (h : List Ev) : Env :=
  { env with
    now := fun k => (readings h)[k]?.getD 0
    net := fun k _ => (answersIn h)[k]?.getD .execErr }

theorem fits_of_sees : ∀ (h : List Ev) (n : NetResult) (w : World), Turns .idle h → Sees w.caches h →
    (∀ k, env.now (w.ticks + k) = (readings h)[k]?.getD 0) →
    (∀ k r, env.net (w.log.length + k) r = (answersIn h)[k]?.getD .execErr) →
    Fits env n w h ⟨storing w.caches h, w.nextId, w.log ++ sentIn h, w.ticks + (readings h).length⟩
  | [], n, w, _, _, _, _ => by simp [Fits, storing, sentIn, readings]
  | .clock t :: h, n, w, ht, hs, hnow, hnet => by
    refine ⟨by simpa [readings] using (hnow 0).symm, ?_⟩
    have := fits_of_sees h n { w with ticks := w.ticks + 1 } ht hs (fun k => by
      have := hnow (k + 1)
      simp only [readings, List.filterMap_cons, List.getElem?_cons_succ] at this
      rw [← readings] at this
      rw [← this]
      show env.now _ = env.now _
      congr 1
      show w.ticks + 1 + k = _
      omega) hnet
    have hl : w.ticks + 1 + (readings h).length = w.ticks + (readings (.clock t :: h)).length := by
      simp [readings]; omega
    simp only [hl] at this
    exact this
  | .locked id c :: h, n, w, ht, hs, hnow, hnet => ⟨hs.1, fits_of_sees h n w ht hs.2 hnow hnet⟩
  | .stored id c :: h, n, w, ht, hs, hnow, hnet =>
    fits_of_sees h n { w with caches := fun i => if i = id then some c else w.caches i } ht hs hnow hnet
  | .unlocked id :: h, n, w, ht, hs, hnow, hnet => fits_of_sees h n w ht hs hnow hnet
  | .sent r :: .status none :: h, n, w, ht, hs, hnow, hnet => by
    have h0 : env.net w.log.length r = .execErr := by simpa [answersIn] using hnet 0 r
    have := fits_of_sees h .execErr { w with log := w.log ++ [r] } ht hs hnow (fun k r' => by
      have := hnet (k + 1) r'
      simp only [answersIn, List.getElem?_cons_succ] at this
      rw [← this]
      show env.net ((w.log ++ [r]).length + k) r' = _
      simp
      congr 1
      omega)
    simp only [Fits, h0]
    refine ⟨rfl, ?_⟩
    have hl : w.log ++ [r] ++ sentIn h = w.log ++ sentIn (.sent r :: .status none :: h) := by simp [sentIn]
    simp only [hl] at this
    exact this
  | .sent r :: .status (some s) :: .body t :: h, n, w, ht, hs, hnow, hnet => by
    have h0 : env.net w.log.length r = .response s t := by simpa [answersIn] using hnet 0 r
    have := fits_of_sees h (.response s t) { w with log := w.log ++ [r] } ht hs hnow (fun k r' => by
      have := hnet (k + 1) r'
      simp only [answersIn, List.getElem?_cons_succ] at this
      rw [← this]
      show env.net ((w.log ++ [r]).length + k) r' = _
      simp
      congr 1
      omega)
    simp only [Fits, h0]
    refine ⟨rfl, rfl, ?_⟩
    have hl : w.log ++ [r] ++ sentIn h = w.log ++ sentIn (.sent r :: .status (some s) :: .body t :: h) := by simp [sentIn]
    simp only [hl] at this
    exact this

end CSS
