import Verif.Model.Concurrent
import Verif.Lemmas.Token
/-
A program that runs alone computes the sequential function. This ties the interleaved model (Model/Concurrent) to the
functions that the properties of single calls are about.
-/
namespace CSS

/-- Run a program alone in the sequential world: the clock and the network answer as `env` says; `n` is the response
whose status or text is awaited. -/
def Prog.run {α} (env : Env) : Prog α → NetResult → World → α × World × NetResult
  | .ret a, n, w => (a, w, n)
  | .now k, n, w => (k (env.now w.ticks)).run env n { w with ticks := w.ticks + 1 }
  | .lock id k, n, w => (k (w.caches id)).run env n w
  | .store id c k, n, w => k.run env n { w with caches := fun i => if i = id then some c else w.caches i }
  | .unlock _ k, n, w => k.run env n w
  | .send r k, _, w => k.run env (env.net w.log.length r) { w with log := w.log ++ [r] }
  | .recv k, n, w => (k (match n with | .execErr => none | .response s _ => some s)).run env n w
  | .text k, n, w => (k (match n with | .execErr => none | .response _ b => b)).run env n w

theorem Prog.run_bind {α β} (env : Env) (p : Prog α) (f : α → Prog β) (n : NetResult) (w : World) :
    (p.bind f).run env n w = (f (p.run env n w).1).run env (p.run env n w).2.2 (p.run env n w).2.1 := by
  induction p generalizing n w with
  | ret a => rfl
  | now k ih => exact ih _ _ _
  | lock id k ih => exact ih _ _ _
  | store id c k ih => exact ih _ _
  | unlock id k ih => exact ih _ _
  | send r k ih => exact ih _ _
  | recv k ih => exact ih _ _ _
  | text k ih => exact ih _ _ _

/-- The same for programs with outcomes. -/
def P.run {ε α} (env : Env) (p : P ε α) (n : NetResult) (w : World) : Res ε α × World × NetResult := Prog.run env p n w

theorem P.run_bind {ε α β} (env : Env) (p : P ε α) (f : α → P ε β) (n : NetResult) (w : World) :
    P.run env (p >>= f) n w = match P.run env p n w with
      | (.ok a, w', n') => P.run env (f a) n' w'
      | (.err e, w', n') => (.err e, w', n')
      | (.panic s, w', n') => (.panic s, w', n') := by
  refine (Prog.run_bind env p _ n w).trans ?_
  show _ = match Prog.run env p n w with
      | (.ok a, w', n') => P.run env (f a) n' w'
      | (.err e, w', n') => (.err e, w', n')
      | (.panic s, w', n') => (.panic s, w', n')
  generalize Prog.run env p n w = x
  obtain ⟨r, w', n'⟩ := x
  cases r <;> rfl

theorem P.run_mapErr {ε ε' α} (env : Env) (f : ε → ε') (p : P ε α) (n : NetResult) (w : World) :
    P.run env (P.mapErr f p) n w = ((P.run env p n w).1.mapErr f, (P.run env p n w).2) :=
  Prog.run_bind env p _ n w

/-- The program run alone is the sequential function. -/
def Sim {ε α} (env : Env) (p : P ε α) (m : M ε α) : Prop :=
  ∀ n w, ∃ n', P.run env p n w = ((m w).1, (m w).2, n')

variable {ε ε' α β : Type} {env : Env}

theorem Sim.pure (a : α) : Sim env (Pure.pure a : P ε α) (Pure.pure a) := fun n _ => ⟨n, rfl⟩
theorem Sim.lift (r : Res ε α) : Sim env (P.lift r) (M.lift r) := fun n _ => ⟨n, rfl⟩
theorem Sim.err (e : ε) : Sim env (P.err e : P ε α) (M.err e) := fun n _ => ⟨n, rfl⟩
theorem Sim.panic (s : PanicSite) : Sim env (P.panic s : P ε α) (M.panic s) := fun n _ => ⟨n, rfl⟩

theorem Sim.bind {p : P ε α} {m : M ε α} {f : α → P ε β} {g : α → M ε β} (h : Sim env p m)
    (hf : ∀ a, Sim env (f a) (g a)) : Sim env (p >>= f) (m >>= g) := by
  intro n w
  obtain ⟨n1, h1⟩ := h n w
  rw [P.run_bind, h1, M.bind_run]
  generalize m w = x
  obtain ⟨r, w'⟩ := x
  cases r with
  | ok a => exact hf a n1 w'
  | err e => exact ⟨n1, rfl⟩
  | panic s => exact ⟨n1, rfl⟩

theorem Sim.mapErr {p : P ε α} {m : M ε α} (f : ε → ε') (h : Sim env p m) : Sim env (P.mapErr f p) (M.mapErr f m) := by
  intro n w
  obtain ⟨n1, h1⟩ := h n w
  refine ⟨n1, ?_⟩
  rw [P.run_mapErr, h1]
  rfl

theorem Sim.now : Sim env (P.now : P ε Time) (M.now env) := fun n _ => ⟨n, rfl⟩
theorem Sim.timeOrNow (t : Option Time) : Sim env (P.timeOrNow t : P ε Time) (M.timeOrNow env t) := by
  cases t with
  | none => exact Sim.now
  | some t => exact fun n _ => ⟨n, rfl⟩

theorem sim_fetchText (e : FetchErrors) (r : Request) : Sim env (fetchTextP env e r) (fetchText env e r) := by
  intro n w
  unfold fetchTextP fetchText
  by_cases h : env.canBuild r = false
  · rw [if_pos h, if_pos h]; exact ⟨n, rfl⟩
  · rw [if_neg h, if_neg h, M.bind_run]
    simp only [P.run, executeP, Prog.run, M.execute]
    refine ⟨env.net w.log.length r, ?_⟩
    cases hn : env.net w.log.length r with
    | execErr => rfl
    | response status body =>
      simp only
      cases hs : isSuccess status with
      | true => cases body <;> rfl
      | false => cases body <;> rfl

theorem sim_cacheFresh (c : Cached) : Sim env (cacheFreshP c) (cacheFresh env c) := by
  unfold cacheFreshP cacheFresh
  split
  · exact Sim.panic _
  · refine Sim.now.bind fun t => ?_
    split
    · exact Sim.panic _
    · exact Sim.pure _

theorem sim_refresh (bt : BoundToken) : Sim env (refreshP env bt) (refresh env bt) := by
  unfold refreshP refresh
  refine (sim_fetchText _ _).bind fun email => (sim_fetchText _ _).bind fun body => ?_
  cases parseAccessToken body with
  | none => exact Sim.err _
  | some t =>
    dsimp only
    split
    · exact Sim.err _
    · refine Sim.now.bind fun now => ?_
      split
      · exact Sim.panic _
      · have hstore : Sim env (storeP bt.id ⟨email, t.accessToken, now + (t.expiresIn : Int) * nsPerSec⟩)
            (M.setCache bt.id ⟨email, t.accessToken, now + (t.expiresIn : Int) * nsPerSec⟩) := fun n w => ⟨n, rfl⟩
        exact hstore.bind fun _ => Sim.pure _

theorem sim_get (bt : BoundToken) : Sim env (getP env bt) (getEmailAndToken env bt) := by
  have hlocked : ∀ c, Sim env (lockedP env bt c) (match c with
      | none => refresh env bt
      | some c => do
        let fresh ← cacheFresh env c
        if fresh then pure (c.email, c.token) else refresh env bt) := by
    intro c
    cases c with
    | none => exact sim_refresh bt
    | some c =>
      refine (sim_cacheFresh c).bind fun fresh => ?_
      cases fresh with
      | true => exact Sim.pure _
      | false => exact sim_refresh bt
  intro n w
  obtain ⟨n', h⟩ := hlocked (w.caches bt.id) n w
  refine ⟨n', ?_⟩
  refine (Prog.run_bind env (lockedP env bt (w.caches bt.id)) _ n w).trans ?_
  unfold P.run at h
  rw [h]
  rfl

theorem sim_signBlob (bt : BoundToken) (m : Bytes) : Sim env (signP env bt m) (bt.sign env m) := by
  unfold signP BoundToken.sign
  refine (sim_get bt).bind fun p => ?_
  obtain ⟨email, token⟩ := p
  refine (sim_fetchText _ _).bind fun body => ?_
  cases parseSignBlobResponse body with
  | none => exact Sim.err _
  | some blob =>
    dsimp only
    cases b64Decode blob with
    | none => exact Sim.err _
    | some s => exact Sim.pure _

theorem sim_authorizer (key : SigningKey) : Sim env (key.authorizerP env) (key.authorizer env) := by
  cases key with
  | boundToken bt => exact ((sim_get bt).mapErr _).bind fun p => Sim.pure _
  | hmac a s => exact Sim.pure _
  | serviceAccount a s => exact Sim.pure _

theorem sim_sign (key : SigningKey) (u : Bool) (m : Bytes) : Sim env (key.signP env u m) (key.sign env u m) := by
  cases key with
  | boundToken bt =>
    unfold SigningKey.signP SigningKey.sign
    cases u with
    | true => exact (sim_signBlob bt m).mapErr _
    | false => exact Sim.err _
  | hmac a s => exact Sim.panic _
  | serviceAccount a s =>
    unfold SigningKey.signP SigningKey.sign
    cases u with
    | true => exact Sim.panic _
    | false => exact Sim.lift _

theorem sim_url (o : UrlOptions) : Sim env (buildSignedUrlP env o) (buildSignedUrl env o) := by
  unfold buildSignedUrlP buildSignedUrl
  refine (Sim.timeOrNow _).bind fun at_ => ?_
  refine (Sim.lift _).bind fun now => (Sim.lift _).bind fun life => (Sim.lift _).bind fun method => ?_
  refine (Sim.lift _).bind fun uri => (Sim.lift _).bind fun headers => (Sim.lift _).bind fun map => ?_
  refine (Sim.lift _).bind fun scope => (Sim.lift _).bind fun expiration => Sim.mapErr _ ?_
  unfold SignedUrl.newP SignedUrl.new
  refine ((sim_authorizer _).mapErr _).bind fun email => (Sim.lift _).bind fun request => ?_
  refine (Sim.lift _).bind fun canonical => ?_
  exact ((sim_sign _ _ _).mapErr _).bind fun digest => Sim.pure _

theorem sim_policy (b : Builder) (o : SigningOptions) : Sim env (buildPolicyP env b o) (buildPolicy env b o) := by
  unfold buildPolicyP buildPolicy
  refine (Sim.timeOrNow _).bind fun at_ => ?_
  split
  · exact Sim.err _
  refine (Sim.lift _).bind fun a => (Sim.lift _).bind fun e => (Sim.lift _).bind fun bucket => ?_
  refine (Sim.lift _).bind fun key => ?_
  dsimp only
  split
  · exact Sim.err _
  refine ((sim_authorizer _).mapErr _).bind fun email => (Sim.lift _).bind fun scope => ?_
  refine (Sim.lift _).bind fun conditions => ?_
  exact ((sim_sign _ _ _).mapErr _).bind fun digest => Sim.pure _

theorem sim_form (b : Builder) : Sim env (b.buildP env) (b.build env) := by
  unfold Builder.buildP Builder.build
  refine Sim.bind ?_ fun p => ?_
  · unfold buildPolicyAndSignatureP buildPolicyAndSignature
    cases b.signingOptions with
    | none => exact Sim.pure _
    | some o => exact (sim_policy b o).bind fun p => Sim.pure _
  · exact (Sim.lift _).bind fun key => (Sim.lift _).bind fun metas => Sim.pure _

/-- Alone, the program of an entry point returns what the sequential function returns and leaves the same world. -/
theorem prog_run (call : ApiCall) (n : NetResult) (w : World) :
    ∃ n', (call.prog env).run env n w = match call with
      | .url o => (.url (buildSignedUrl env o w).1, (buildSignedUrl env o w).2, n')
      | .form cs => (.form ((Builder.ofCalls cs).build env w).1, ((Builder.ofCalls cs).build env w).2, n') := by
  cases call with
  | url o =>
    obtain ⟨n', h⟩ := sim_url (env := env) o n w
    refine ⟨n', ?_⟩
    refine (Prog.run_bind env (buildSignedUrlP env o) _ n w).trans ?_
    unfold P.run at h
    rw [h]
    rfl
  | form cs =>
    obtain ⟨n', h⟩ := sim_form (env := env) (Builder.ofCalls cs) n w
    refine ⟨n', ?_⟩
    refine (Prog.run_bind env ((Builder.ofCalls cs).buildP env) _ n w).trans ?_
    unfold P.run at h
    rw [h]
    rfl

end CSS
