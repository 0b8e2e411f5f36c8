import Verif.Lemmas.Critical
/-
Every call takes a bounded number of steps, and somebody can always take one.
-/
set_option linter.unusedSimpArgs false
namespace CSS
open Spec

/-- The program takes at most `n` steps, whatever it is told. -/
def Prog.Within {α} : Nat → Prog α → Prop
  | _, .ret _ => True
  | 0, _ => False
  | n + 1, .now k => ∀ t, (k t).Within n
  | n + 1, .lock _ k => ∀ c, (k c).Within n
  | n + 1, .store _ _ k => k.Within n
  | n + 1, .unlock _ k => k.Within n
  | n + 1, .send _ k => k.Within n
  | n + 1, .recv k => ∀ s, (k s).Within n
  | n + 1, .text k => ∀ t, (k t).Within n

variable {α β ε ε' : Type}

theorem Prog.Within.ret (n : Nat) (a : α) : (Prog.ret a).Within n := by cases n <;> trivial

theorem Prog.Within.mono {p : Prog α} {n m : Nat} (h : p.Within n) (hnm : n ≤ m) : p.Within m := by
  induction p generalizing n m with
  | ret a => exact .ret m a
  | _ =>
    rename_i ih
    cases n with
    | zero => exact h.elim
    | succ n =>
      cases m with
      | zero => omega
      | succ m =>
        first
        | exact fun t => ih t (h t) (by omega)
        | exact ih h (by omega)

theorem Prog.Within.bind {p : Prog α} {f : α → Prog β} {n m : Nat} (hp : p.Within n) (hf : ∀ a, (f a).Within m) :
    (p.bind f).Within (n + m) := by
  induction p generalizing n with
  | ret a => exact (hf a).mono (by omega)
  | _ =>
    rename_i ih
    cases n with
    | zero => exact hp.elim
    | succ n =>
      rw [Nat.add_right_comm]
      first
      | exact fun t => ih t (hp t)
      | exact ih hp

theorem Prog.Within.step {p q : Prog α} {e : Ev} {n : Nat} (hp : p.Within n) (hs : p.Step e q) :
    ∃ m, n = m + 1 ∧ q.Within m := by
  cases n with
  | zero => cases hs <;> exact hp.elim
  | succ n =>
    refine ⟨n, rfl, ?_⟩
    cases hs with
    | now k t => exact hp t
    | lock id k c => exact hp c
    | store id c k => exact hp
    | unlock id k => exact hp
    | send r k => exact hp
    | recv k s => exact hp s
    | text k t => exact hp t

/-- `Within` for programs with outcomes. -/
def P.Within (n : Nat) (p : P ε α) : Prop := Prog.Within n p

theorem P.Within.bind {p : P ε α} {f : α → P ε β} {n m : Nat} (hp : p.Within n) (hf : ∀ a, (f a).Within m) :
    (p >>= f).Within (n + m) := by
  refine Prog.Within.bind hp ?_
  intro r
  cases r with
  | ok a => exact hf a
  | err e => exact .ret _ _
  | panic s => exact .ret _ _

theorem P.Within.lift (r : Res ε α) {f : α → P ε β} {m : Nat} (hf : ∀ a, (f a).Within m) :
    (P.lift r >>= f).Within m := by
  cases r with
  | ok a => exact hf a
  | err e => exact Prog.Within.ret _ _
  | panic s => exact Prog.Within.ret _ _

theorem P.Within.mapErr {p : P ε α} {n : Nat} (f : ε → ε') (hp : p.Within n) : (P.mapErr f p).Within n :=
  Prog.Within.bind (m := 0) hp fun _ => .ret _ _

theorem P.Within.ret (n : Nat) (r : Res ε α) : P.Within n (Prog.ret r : P ε α) := Prog.Within.ret _ _

theorem P.Within.mono {p : P ε α} {n m : Nat} (h : p.Within n) (hnm : n ≤ m) : p.Within m := Prog.Within.mono h hnm

variable {env : Env}

theorem within_fetchText (e : FetchErrors) (r : Request) : (fetchTextP env e r).Within 3 := by
  unfold fetchTextP
  split
  · exact .ret _ _
  · intro s
    cases s with
    | none => exact Prog.Within.ret _ _
    | some s =>
      simp only
      split
      · intro t; cases t <;> exact Prog.Within.ret _ _
      · intro t; cases t <;> exact Prog.Within.ret _ _

theorem within_refresh (bt : BoundToken) : (refreshP env bt).Within 8 := by
  unfold refreshP
  refine P.Within.bind (n := 3) (m := 5) (within_fetchText _ _) fun email => ?_
  refine P.Within.bind (n := 3) (m := 2) (within_fetchText _ _) fun doc => ?_
  cases parseAccessToken doc with
  | none => exact .ret _ _
  | some t =>
    simp only
    split
    · exact .ret _ _
    · refine P.Within.bind (n := 1) (m := 1) (fun t => Prog.Within.ret _ _) fun now => ?_
      show P.Within 1 (if timeLimit ≤ now + (t.expiresIn : Int) * nsPerSec then _ else _)
      split
      · exact .ret _ _
      · exact P.Within.bind (n := 1) (m := 0) (Prog.Within.ret (α := Res BoundTokenError Unit) 0 (.ok ())) fun _ => .ret _ _

theorem within_get (bt : BoundToken) : (getP env bt).Within 11 := by
  intro c
  show Prog.Within 10 (Prog.bind (lockedP env bt c) fun r => Prog.unlock bt.id (.ret r))
  refine Prog.Within.bind (n := 9) (m := 1) ?_ fun r => Prog.Within.ret 0 r
  cases c with
  | none => exact (within_refresh bt).mono (by omega)
  | some c =>
    unfold lockedP
    refine P.Within.bind (n := 1) (m := 8) ?_ ?_
    · unfold cacheFreshP
      split
      · exact .ret _ _
      · refine P.Within.bind (n := 1) (m := 0) (fun t => Prog.Within.ret _ _) fun now => ?_
        split
        · exact .ret _ _
        · exact .ret _ _
    · intro b
      cases b with
      | true => exact .ret _ _
      | false => exact within_refresh bt

theorem within_sign (bt : BoundToken) (m : Bytes) : (signP env bt m).Within 14 := by
  unfold signP
  refine P.Within.bind (n := 11) (m := 3) (within_get bt) fun p => ?_
  refine P.Within.bind (n := 3) (m := 0) (within_fetchText _ _) fun text => ?_
  cases parseSignBlobResponse text with
  | none => exact .ret _ _
  | some blob =>
    simp only
    cases b64Decode blob <;> exact .ret _ _

theorem within_authorizer (key : SigningKey) : (key.authorizerP env).Within 11 := by
  cases key with
  | boundToken bt => exact P.Within.bind (n := 11) (m := 0) (P.Within.mapErr _ (within_get bt)) fun p => .ret _ _
  | hmac a s => exact .ret _ _
  | serviceAccount a s => exact .ret _ _

theorem within_keySign (key : SigningKey) (u : Bool) (m : Bytes) : (key.signP env u m).Within 14 := by
  cases key with
  | boundToken bt =>
    unfold SigningKey.signP
    cases u with
    | true => exact P.Within.mapErr _ (within_sign bt m)
    | false => exact .ret _ _
  | hmac a s => exact .ret _ _
  | serviceAccount a s =>
    unfold SigningKey.signP
    cases u with
    | true => exact .ret _ _
    | false => exact .ret _ _

theorem within_time (t : Option Time) : (P.timeOrNow t : P ε Time).Within 1 := by
  cases t with
  | some t => exact .ret _ _
  | none => exact fun t => Prog.Within.ret _ _

theorem within_url (o : UrlOptions) : (buildSignedUrlP env o).Within 26 := by
  unfold buildSignedUrlP
  refine P.Within.bind (n := 1) (m := 25) (within_time _) fun t => ?_
  refine P.Within.lift _ fun now => ?_
  refine P.Within.lift _ fun life => ?_
  refine P.Within.lift _ fun method => ?_
  generalize baseUrl env o = url
  refine P.Within.lift _ fun uri => ?_
  refine P.Within.lift _ fun userHeaders => ?_
  refine P.Within.lift _ fun headers => ?_
  refine P.Within.lift _ fun scope => ?_
  refine P.Within.lift _ fun expiration => ?_
  refine P.Within.mapErr _ ?_
  unfold SignedUrl.newP
  refine P.Within.bind (n := 11) (m := 14) (P.Within.mapErr _ (within_authorizer _)) fun email => ?_
  refine P.Within.lift _ fun req => ?_
  refine P.Within.lift _ fun canonical => ?_
  exact P.Within.bind (n := 14) (m := 0) (P.Within.mapErr _ (within_keySign _ _ _)) fun digest => .ret _ _

theorem within_form (b : Builder) : (b.buildP env).Within 26 := by
  unfold Builder.buildP
  refine P.Within.bind (n := 26) (m := 0) ?_ fun p => ?_
  · unfold buildPolicyAndSignatureP
    cases b.signingOptions with
    | none => exact .ret _ _
    | some o =>
      refine P.Within.bind (n := 26) (m := 0) ?_ fun p => .ret _ _
      unfold buildPolicyP
      refine P.Within.bind (n := 1) (m := 25) (within_time _) fun t => ?_
      split
      · exact .ret _ _
      refine P.Within.lift _ fun a => ?_
      refine P.Within.lift _ fun e => ?_
      refine P.Within.lift _ fun bucket => ?_
      refine P.Within.lift _ fun key => ?_
      dsimp only
      split
      · exact .ret _ _
      refine P.Within.bind (n := 11) (m := 14) (P.Within.mapErr _ (within_authorizer _)) fun email => ?_
      refine P.Within.lift _ fun scope => ?_
      refine P.Within.lift _ fun conditions => ?_
      exact P.Within.bind (n := 14) (m := 0) (P.Within.mapErr _ (within_keySign _ _ _)) fun digest => .ret _ _
  · refine P.Within.lift _ fun key => ?_
    exact P.Within.lift _ fun metas => .ret _ _

theorem within_prog (call : ApiCall) : (call.prog env).Within 26 := by
  cases call with
  | url o => exact Prog.Within.bind (m := 0) (within_url o) fun _ => .ret _ _
  | form cs => exact Prog.Within.bind (m := 0) (within_form _) fun _ => .ret _ _

/-- No call takes more than 26 steps. -/
theorem steps_bound {base : Nat → Str} {s : Sys} (h : Sys.Reach env base s) (i : Nat) :
    (did s.trace i).length ≤ 26 ∧ ∀ p, s.calls i = some p → p.Within (26 - (did s.trace i).length) := by
  induction h with
  | init => exact ⟨by simp [Sys.init, did], fun p hp => by simp [Sys.init] at hp⟩
  | step s s' hr hs ih =>
    rcases step_cases hs with ⟨j, call, ht, _, hf, hc⟩ | ⟨j, e, p, q, ht, hp, hpq, _, hc⟩ | ⟨j, r, ht, _, hp, hc⟩ |
        ⟨j, p, ht, _, hp, _, _, hc⟩
    · have hd : did s'.trace i = did s.trace i := by rw [ht, did_snoc]; simp
      rw [hd, hc]
      refine ⟨ih.1, fun p hp => ?_⟩
      by_cases hij : i = j
      · subst hij
        simp only [if_true, Option.some.injEq] at hp
        subst hp
        rw [did_unused hf]
        exact within_prog call
      · simp only [if_neg hij] at hp
        exact ih.2 p hp
    · rw [ht, hc]
      by_cases hij : j = i
      · subst hij
        rw [did_snoc_self]
        obtain ⟨m, hm, hq⟩ := (ih.2 p hp).step hpq
        refine ⟨by simp; omega, fun p' hp' => ?_⟩
        simp only [if_true, Option.some.injEq] at hp'
        subst hp'
        exact hq.mono (by simp; omega)
      · rw [did_snoc_other _ _ hij]
        refine ⟨ih.1, fun p' hp' => ?_⟩
        simp only [if_neg (Ne.symm hij)] at hp'
        exact ih.2 p' hp'
    · have hd : did s'.trace i = did s.trace i := by rw [ht, did_snoc]; simp
      rw [hd, hc]
      refine ⟨ih.1, fun p hp => ?_⟩
      by_cases hij : i = j
      · simp [hij] at hp
      · simp only [if_neg hij] at hp
        exact ih.2 p hp
    · have hd : did s'.trace i = did s.trace i := by rw [ht, did_snoc]; simp
      rw [hd, hc]
      refine ⟨ih.1, fun p hp => ?_⟩
      by_cases hij : i = j
      · simp [hij] at hp
      · simp only [if_neg hij] at hp
        exact ih.2 p hp

/-- A call that does not wait for a lock can go on. -/
theorem can_go {base : Nat → Str} {s : Sys} {i : Nat} {p : Prog ApiResult} (hp : s.calls i = some p)
    (hl : ∀ id k, p = .lock id k → s.holder id = none) :
    ∃ s' e, Sys.Step env base s s' ∧ s'.trace = s.trace ++ [e] ∧ ((∃ x, e = .did i x) ∨ ∃ r, e = .returned i r) := by
  cases p with
  | ret r => exact ⟨_, _, .finish s i r hp, rfl, .inr ⟨r, rfl⟩⟩
  | now k => exact ⟨_, _, .act s i _ _ _ _ _ hp (.now k 0) (.clock s 0), rfl, .inl ⟨_, rfl⟩⟩
  | lock id k => exact ⟨_, _, .act s i _ _ _ _ _ hp (.lock id k _) (.locked s id (hl id k rfl)), rfl, .inl ⟨_, rfl⟩⟩
  | store id c k => exact ⟨_, _, .act s i _ _ _ _ _ hp (.store id c k) (.stored s id c), rfl, .inl ⟨_, rfl⟩⟩
  | unlock id k => exact ⟨_, _, .act s i _ _ _ _ _ hp (.unlock id k) (.unlocked s id), rfl, .inl ⟨_, rfl⟩⟩
  | send r k => exact ⟨_, _, .act s i _ _ _ _ _ hp (.send r k) (.sent s r), rfl, .inl ⟨_, rfl⟩⟩
  | recv k => exact ⟨_, _, .act s i _ _ _ _ _ hp (.recv k none) (.status s none), rfl, .inl ⟨_, rfl⟩⟩
  | text k => exact ⟨_, _, .act s i _ _ _ _ _ hp (.text k none) (.body s none), rfl, .inl ⟨_, rfl⟩⟩

end CSS
