import Verif.Lemmas.Progress
import Verif.Spec.Liveness
/-
Every call sends a bounded number of requests.
-/
set_option linter.unusedSimpArgs false
namespace CSS
open Spec

/-- The program sends at most `n` requests, whatever it is told. -/
def Prog.Sends {α} : Nat → Prog α → Prop
  | _, .ret _ => True
  | n, .now k => ∀ t, (k t).Sends n
  | n, .lock _ k => ∀ c, (k c).Sends n
  | n, .store _ _ k => k.Sends n
  | n, .unlock _ k => k.Sends n
  | n, .send _ k => ∃ m, n = m + 1 ∧ k.Sends m
  | n, .recv k => ∀ s, (k s).Sends n
  | n, .text k => ∀ t, (k t).Sends n

variable {α β ε ε' : Type}

theorem Prog.Sends.ret (n : Nat) (a : α) : (Prog.ret a).Sends n := trivial

theorem Prog.Sends.mono {p : Prog α} {n m : Nat} (h : p.Sends n) (hnm : n ≤ m) : p.Sends m := by
  induction p generalizing n m with
  | ret a => exact .ret m a
  | send r k ih =>
    obtain ⟨n', rfl, h⟩ := h
    exact ⟨m - 1, by omega, ih h (by omega)⟩
  | _ =>
    rename_i ih
    first
    | exact fun t => ih t (h t) hnm
    | exact ih h hnm

theorem Prog.Sends.bind {p : Prog α} {f : α → Prog β} {n m : Nat} (hp : p.Sends n) (hf : ∀ a, (f a).Sends m) :
    (p.bind f).Sends (n + m) := by
  induction p generalizing n with
  | ret a => exact (hf a).mono (by omega)
  | send r k ih =>
    obtain ⟨n', rfl, hp⟩ := hp
    exact ⟨n' + m, by omega, ih hp⟩
  | _ =>
    rename_i ih
    first
    | exact fun t => ih t (hp t)
    | exact ih hp

theorem Prog.Sends.step {p q : Prog α} {e : Ev} {n : Nat} (hp : p.Sends n) (hs : p.Step e q) :
    (sentIn [e]).length ≤ n ∧ q.Sends (n - (sentIn [e]).length) := by
  cases hs with
  | now k t => exact ⟨Nat.zero_le _, hp t⟩
  | lock id k c => exact ⟨Nat.zero_le _, hp c⟩
  | store id c k => exact ⟨Nat.zero_le _, hp⟩
  | unlock id k => exact ⟨Nat.zero_le _, hp⟩
  | send r k =>
    obtain ⟨n', rfl, hp⟩ := hp
    exact ⟨by simp [sentIn], hp⟩
  | recv k s => exact ⟨Nat.zero_le _, hp s⟩
  | text k t => exact ⟨Nat.zero_le _, hp t⟩

/-- `Sends` for programs with outcomes. -/
def P.Sends (n : Nat) (p : P ε α) : Prop := Prog.Sends n p

theorem P.Sends.bind {p : P ε α} {f : α → P ε β} {n m : Nat} (hp : p.Sends n) (hf : ∀ a, (f a).Sends m) :
    (p >>= f).Sends (n + m) := by
  refine Prog.Sends.bind hp ?_
  intro r
  cases r with
  | ok a => exact hf a
  | err e => exact .ret _ _
  | panic s => exact .ret _ _

theorem P.Sends.lift (r : Res ε α) {f : α → P ε β} {m : Nat} (hf : ∀ a, (f a).Sends m) :
    (P.lift r >>= f).Sends m := by
  cases r with
  | ok a => exact hf a
  | err e => exact Prog.Sends.ret _ _
  | panic s => exact Prog.Sends.ret _ _

theorem P.Sends.mapErr {p : P ε α} {n : Nat} (f : ε → ε') (hp : p.Sends n) : (P.mapErr f p).Sends n :=
  Prog.Sends.bind (m := 0) hp fun _ => .ret _ _

theorem P.Sends.ret (n : Nat) (r : Res ε α) : P.Sends n (Prog.ret r : P ε α) := Prog.Sends.ret _ _

theorem P.Sends.mono {p : P ε α} {n m : Nat} (h : p.Sends n) (hnm : n ≤ m) : p.Sends m := Prog.Sends.mono h hnm

variable {env : Env}

theorem sends_fetchText (e : FetchErrors) (r : Request) : (fetchTextP env e r).Sends 1 := by
  unfold fetchTextP
  split
  · exact .ret _ _
  · refine ⟨0, rfl, ?_⟩
    intro s
    cases s with
    | none => exact Prog.Sends.ret _ _
    | some s =>
      simp only
      split
      · intro t; cases t <;> exact Prog.Sends.ret _ _
      · intro t; cases t <;> exact Prog.Sends.ret _ _

theorem sends_refresh (bt : BoundToken) : (refreshP env bt).Sends 2 := by
  unfold refreshP
  refine P.Sends.bind (n := 1) (m := 1) (sends_fetchText _ _) fun email => ?_
  refine P.Sends.bind (n := 1) (m := 0) (sends_fetchText _ _) fun doc => ?_
  cases parseAccessToken doc with
  | none => exact .ret _ _
  | some t =>
    simp only
    split
    · exact .ret _ _
    · refine P.Sends.bind (n := 0) (m := 0) (fun t => Prog.Sends.ret _ _) fun now => ?_
      show P.Sends 0 (if timeLimit ≤ now + (t.expiresIn : Int) * nsPerSec then _ else _)
      split
      · exact .ret _ _
      · exact P.Sends.bind (n := 0) (m := 0) (Prog.Sends.ret (α := Res BoundTokenError Unit) 0 (.ok ())) fun _ => .ret _ _

theorem sends_get (bt : BoundToken) : (getP env bt).Sends 2 := by
  intro c
  show Prog.Sends 2 (Prog.bind (lockedP env bt c) fun r => Prog.unlock bt.id (.ret r))
  refine Prog.Sends.bind (n := 2) (m := 0) ?_ fun r => Prog.Sends.ret 0 r
  cases c with
  | none => exact sends_refresh bt
  | some c =>
    unfold lockedP
    refine P.Sends.bind (n := 0) (m := 2) ?_ ?_
    · unfold cacheFreshP
      split
      · exact .ret _ _
      · refine P.Sends.bind (n := 0) (m := 0) (fun t => Prog.Sends.ret _ _) fun now => ?_
        split
        · exact .ret _ _
        · exact .ret _ _
    · intro b
      cases b with
      | true => exact .ret _ _
      | false => exact sends_refresh bt

theorem sends_sign (bt : BoundToken) (m : Bytes) : (signP env bt m).Sends 3 := by
  unfold signP
  refine P.Sends.bind (n := 2) (m := 1) (sends_get bt) fun p => ?_
  refine P.Sends.bind (n := 1) (m := 0) (sends_fetchText _ _) fun text => ?_
  cases parseSignBlobResponse text with
  | none => exact .ret _ _
  | some blob =>
    simp only
    cases b64Decode blob <;> exact .ret _ _

theorem sends_authorizer (key : SigningKey) : (key.authorizerP env).Sends 2 := by
  cases key with
  | boundToken bt => exact P.Sends.bind (n := 2) (m := 0) (P.Sends.mapErr _ (sends_get bt)) fun p => .ret _ _
  | hmac a s => exact .ret _ _
  | serviceAccount a s => exact .ret _ _

theorem sends_keySign (key : SigningKey) (u : Bool) (m : Bytes) : (key.signP env u m).Sends 3 := by
  cases key with
  | boundToken bt =>
    unfold SigningKey.signP
    cases u with
    | true => exact P.Sends.mapErr _ (sends_sign bt m)
    | false => exact .ret _ _
  | hmac a s => exact .ret _ _
  | serviceAccount a s =>
    unfold SigningKey.signP
    cases u with
    | true => exact .ret _ _
    | false => exact .ret _ _

theorem sends_time (t : Option Time) : (P.timeOrNow t : P ε Time).Sends 0 := by
  cases t with
  | some t => exact .ret _ _
  | none => exact fun t => Prog.Sends.ret _ _

theorem sends_url (o : UrlOptions) : (buildSignedUrlP env o).Sends 5 := by
  unfold buildSignedUrlP
  refine P.Sends.bind (n := 0) (m := 5) (sends_time _) fun t => ?_
  refine P.Sends.lift _ fun now => ?_
  refine P.Sends.lift _ fun life => ?_
  refine P.Sends.lift _ fun method => ?_
  generalize baseUrl env o = url
  refine P.Sends.lift _ fun uri => ?_
  refine P.Sends.lift _ fun userHeaders => ?_
  refine P.Sends.lift _ fun headers => ?_
  refine P.Sends.lift _ fun scope => ?_
  refine P.Sends.lift _ fun expiration => ?_
  refine P.Sends.mapErr _ ?_
  unfold SignedUrl.newP
  refine P.Sends.bind (n := 2) (m := 3) (P.Sends.mapErr _ (sends_authorizer _)) fun email => ?_
  refine P.Sends.lift _ fun req => ?_
  refine P.Sends.lift _ fun canonical => ?_
  exact P.Sends.bind (n := 3) (m := 0) (P.Sends.mapErr _ (sends_keySign _ _ _)) fun digest => .ret _ _

theorem sends_form (b : Builder) : (b.buildP env).Sends 5 := by
  unfold Builder.buildP
  refine P.Sends.bind (n := 5) (m := 0) ?_ fun p => ?_
  · unfold buildPolicyAndSignatureP
    cases b.signingOptions with
    | none => exact .ret _ _
    | some o =>
      refine P.Sends.bind (n := 5) (m := 0) ?_ fun p => .ret _ _
      unfold buildPolicyP
      refine P.Sends.bind (n := 0) (m := 5) (sends_time _) fun t => ?_
      split
      · exact .ret _ _
      refine P.Sends.lift _ fun a => ?_
      refine P.Sends.lift _ fun e => ?_
      refine P.Sends.lift _ fun bucket => ?_
      refine P.Sends.lift _ fun key => ?_
      dsimp only
      split
      · exact .ret _ _
      refine P.Sends.bind (n := 2) (m := 3) (P.Sends.mapErr _ (sends_authorizer _)) fun email => ?_
      refine P.Sends.lift _ fun scope => ?_
      refine P.Sends.lift _ fun conditions => ?_
      exact P.Sends.bind (n := 3) (m := 0) (P.Sends.mapErr _ (sends_keySign _ _ _)) fun digest => .ret _ _
  · refine P.Sends.lift _ fun key => ?_
    exact P.Sends.lift _ fun metas => .ret _ _

theorem sends_prog (call : ApiCall) : (call.prog env).Sends 5 := by
  cases call with
  | url o => exact Prog.Sends.bind (m := 0) (sends_url o) fun _ => .ret _ _
  | form cs => exact Prog.Sends.bind (m := 0) (sends_form _) fun _ => .ret _ _

theorem sentIn_append (a b : List Ev) : sentIn (a ++ b) = sentIn a ++ sentIn b := by
  unfold sentIn
  rw [List.filterMap_append]

/-- No call sends more than five requests. -/
theorem sends_bound {base : Nat → Str} {s : Sys} (h : Sys.Reach env base s) (i : Nat) :
    (sentIn (did s.trace i)).length ≤ 5 ∧ ∀ p, s.calls i = some p → p.Sends (5 - (sentIn (did s.trace i)).length) := by
  induction h with
  | init => exact ⟨by simp [Sys.init, did, sentIn], fun p hp => by simp [Sys.init] at hp⟩
  | step s s' hr hs ih =>
    rcases step_cases hs with ⟨j, call, ht, _, hf, hc⟩ | ⟨j, e, p, q, ht, hp, hpq, _, hc⟩ | ⟨j, r, ht, _, hp, hc⟩ |
        ⟨j, p, ht, _, hp, _, _, hc⟩
    · have hd : did s'.trace i = did s.trace i := by rw [ht, did_snoc]; simp
      rw [hd, hc]
      refine ⟨ih.1, fun p hp => ?_⟩
      by_cases hij : i = j
      · subst hij
        simp only [if_true, Option.some.injEq] at hp
        subst hp
        rw [did_unused hf]
        exact sends_prog call
      · simp only [if_neg hij] at hp
        exact ih.2 p hp
    · rw [ht, hc]
      by_cases hij : j = i
      · subst hij
        rw [did_snoc_self, sentIn_append, List.length_append]
        obtain ⟨hm, hq⟩ := (ih.2 p hp).step hpq
        refine ⟨by omega, fun p' hp' => ?_⟩
        simp only [if_true, Option.some.injEq] at hp'
        subst hp'
        exact hq.mono (by omega)
      · rw [did_snoc_other _ _ hij]
        refine ⟨ih.1, fun p' hp' => ?_⟩
        simp only [if_neg (Ne.symm hij)] at hp'
        exact ih.2 p' hp'
    · have hd : did s'.trace i = did s.trace i := by rw [ht, did_snoc]; simp
      rw [hd, hc]
      refine ⟨ih.1, fun p hp => ?_⟩
      by_cases hij : i = j
      · simp [hij] at hp
      · simp only [if_neg hij] at hp
        exact ih.2 p hp
    · have hd : did s'.trace i = did s.trace i := by rw [ht, did_snoc]; simp
      rw [hd, hc]
      refine ⟨ih.1, fun p hp => ?_⟩
      by_cases hij : i = j
      · simp [hij] at hp
      · simp only [if_neg hij] at hp
        exact ih.2 p hp

end CSS
