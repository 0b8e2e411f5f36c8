import Verif.Lemmas.CallRuns
import Verif.Props.ConcurrentResults
/-
Any outcome of a call in a concurrent history is one that the call can have alone.
-/
set_option linter.unusedSimpArgs false
namespace CSS
open Spec

/-- An environment that computes like `env`, with the given clock readings (after the start of validity `t`, if that is
read), answers and requests that can be built. -/
def scripted (env : Env) (given : Option Time) (t : Time) (clock : Nat → Time) (net : Nat → NetResult) (cb : Request → Bool) : Env :=
  { env with
    now := fun k => if given = none then (if k = 0 then t else clock (k - 1)) else clock k,
    net := fun k _ => net k,
    canBuild := cb }

/-- A world in which every key has this cache. -/
def cachedWorld (c : Option Cached) : World := ⟨fun _ => c, 0, [], 0⟩

theorem scripted_same (env : Env) (given : Option Time) (t : Time) (clock : Nat → Time) (net : Nat → NetResult) (cb : Request → Bool) :
    SameComputation (scripted env given t clock net cb) env := ⟨rfl, rfl, rfl, rfl, rfl, rfl⟩

theorem scripted_valid (env : Env) {given : Option Time} {t : Time} (ht : given = some t ∨ given = none) (clock : Nat → Time)
    (net : Nat → NetResult) (cb : Request → Bool) (c : Option Cached) :
    validFrom (scripted env given t clock net cb) given (cachedWorld c) = t := by
  rcases ht with rfl | rfl <;> simp [validFrom, scripted, cachedWorld]

theorem scripted_now (env : Env) (given : Option Time) (t : Time) (clock : Nat → Time) (net : Nat → NetResult) (cb : Request → Bool)
    (c : Option Cached) {n : Nat} {w : World} (hn : w.ticks = (clocked given (cachedWorld c)).ticks + n) :
    (scripted env given t clock net cb).now w.ticks = clock n := by
  rw [hn]
  cases given <;> simp [scripted, clocked, cachedWorld, World.tick]

theorem scripted_caches (given : Option Time) (c : Option Cached) : (clocked given (cachedWorld c)).caches = fun _ => c := by
  cases given <;> rfl

theorem scripted_log (given : Option Time) (c : Option Cached) : (clocked given (cachedWorld c)).log = [] := by
  cases given <;> rfl

/-! ### Requests and refreshes -/

theorem fetch_possible {env : Env} {e : FetchErrors} {r : Request} {h : List Ev} {x : Res BoundTokenError Str}
    (hf : FetchRuns env e r h x) : (x = .err e.build) ∨ ∃ n, fetchOutcome e n = x := by
  have no : ∀ s, (s < 200 ∨ 299 < s) → isSuccess s = false := by intro s hs; simp [isSuccess]; omega
  have yes : ∀ s, 200 ≤ s → s ≤ 299 → isSuccess s = true := by intro s h1 h2; simp [isSuccess]; omega
  cases hf with
  | build => exact .inl rfl
  | execute => exact .inr ⟨.execErr, rfl⟩
  | unread s h1 h2 => exact .inr ⟨.response s none, by simp [fetchOutcome, yes s h1 h2]⟩
  | ok s t h1 h2 => exact .inr ⟨.response s (some t), by simp [fetchOutcome, yes s h1 h2]⟩
  | refusedUnread s h1 => exact .inr ⟨.response s none, by simp [fetchOutcome, no s h1]⟩
  | refused s t h1 => exact .inr ⟨.response s (some t), by simp [fetchOutcome, no s h1]⟩

theorem metadata_requests_differ (bt : BoundToken) : emailRequest bt ≠ tokenRequest bt := by
  intro h
  have := List.append_cancel_left (congrArg Request.url h)
  exact absurd this (by decide)

/-- Whatever a refresh ended with, one that is alone can end with. -/
theorem refresh_possible {env : Env} {bt : BoundToken} {h : List Ev} {x : Res BoundTokenError (Str × Str)}
    (hr : RefreshRuns env bt h x) : ∃ (cb : Request → Bool) (n0 n1 : NetResult) (c : Time), ∀ (env' : Env) (w : World),
      env'.canBuild = cb → (∀ r, env'.net w.log.length r = n0) → (∀ r, env'.net (w.log.length + 1) r = n1) →
      env'.now w.ticks = c → (refresh env' bt w).1 = x := by
  have answered : ∀ s t e, 200 ≤ s → s ≤ 299 → fetchOutcome e (.response s (some t)) = .ok t := by
    intro s t e h1 h2
    exact fetchOutcome_ok.2 ⟨s, h1, h2, rfl⟩
  cases hr with
  | email hf =>
    rcases fetch_possible hf with h | ⟨n, hn⟩
    · cases h
      refine ⟨fun _ => false, .execErr, .execErr, 0, fun env' w hcb _ _ _ => ?_⟩
      rw [refresh_eq, hcb, if_pos rfl]
      rfl
    · refine ⟨fun _ => true, n, .execErr, 0, fun env' w hcb h0 _ _ => ?_⟩
      rw [refresh_eq, hcb, if_neg (by simp), h0, hn]
  | @token h1 h2 email e hf1 hf2 =>
    obtain ⟨s, a1, a2, rfl⟩ := fetchRuns_ok hf1
    rcases fetch_possible hf2 with h | ⟨n, hn⟩
    · cases h
      refine ⟨fun r => decide (r ≠ tokenRequest bt), .response s (some email), .execErr, 0, fun env' w hcb h0 _ _ => ?_⟩
      rw [refresh_eq, hcb, if_neg (by simpa using metadata_requests_differ bt), h0, answered s email _ a1 a2]
      simp only
      rw [if_pos (by simp)]
      rfl
    · refine ⟨fun _ => true, .response s (some email), n, 0, fun env' w hcb h0 h1 _ => ?_⟩
      rw [refresh_eq, hcb, if_neg (by simp), h0, answered s email _ a1 a2]
      simp only
      rw [if_neg (by simp), h1, hn]
  | @unreadable h1 h2 email body hf1 hf2 hp =>
    obtain ⟨s1, a1, a2, rfl⟩ := fetchRuns_ok hf1
    obtain ⟨s2, b1, b2, rfl⟩ := fetchRuns_ok hf2
    refine ⟨fun _ => true, .response s1 (some email), .response s2 (some body), 0, fun env' w hcb h0 h1 _ => ?_⟩
    rw [refresh_eq, hcb, if_neg (by simp), h0, answered s1 email _ a1 a2]
    simp only
    rw [if_neg (by simp), h1, answered s2 body _ b1 b2]
    simp only [refreshEnd, hp]
  | @type h1 h2 email body t hf1 hf2 hp ht =>
    obtain ⟨s1, a1, a2, rfl⟩ := fetchRuns_ok hf1
    obtain ⟨s2, b1, b2, rfl⟩ := fetchRuns_ok hf2
    refine ⟨fun _ => true, .response s1 (some email), .response s2 (some body), 0, fun env' w hcb h0 h1 _ => ?_⟩
    rw [refresh_eq, hcb, if_neg (by simp), h0, answered s1 email _ a1 a2]
    simp only
    rw [if_neg (by simp), h1, answered s2 body _ b1 b2]
    simp only [refreshEnd, hp]
    rw [if_pos ht]
  | @overflow h1 h2 email body t now hf1 hf2 hp ht hl =>
    obtain ⟨s1, a1, a2, rfl⟩ := fetchRuns_ok hf1
    obtain ⟨s2, b1, b2, rfl⟩ := fetchRuns_ok hf2
    refine ⟨fun _ => true, .response s1 (some email), .response s2 (some body), now, fun env' w hcb h0 h1 hc => ?_⟩
    rw [refresh_eq, hcb, if_neg (by simp), h0, answered s1 email _ a1 a2]
    simp only
    rw [if_neg (by simp), h1, answered s2 body _ b1 b2]
    simp only [refreshEnd, hp]
    rw [if_neg (by simp [ht]), show env'.now ((w.sent (emailRequest bt)).sent (tokenRequest bt)).ticks = now from hc, if_pos hl]
  | @ok h1 h2 email body t now hf1 hf2 hp ht hl =>
    obtain ⟨s1, a1, a2, rfl⟩ := fetchRuns_ok hf1
    obtain ⟨s2, b1, b2, rfl⟩ := fetchRuns_ok hf2
    refine ⟨fun _ => true, .response s1 (some email), .response s2 (some body), now, fun env' w hcb h0 h1 hc => ?_⟩
    rw [refresh_eq, hcb, if_neg (by simp), h0, answered s1 email _ a1 a2]
    simp only
    rw [if_neg (by simp), h1, answered s2 body _ b1 b2]
    simp only [refreshEnd, hp]
    rw [if_neg (by simp [ht]), show env'.now ((w.sent (emailRequest bt)).sent (tokenRequest bt)).ticks = now from hc, if_neg (by omega)]

/-- A call that fails while it gets a token fails in a refresh. -/
theorem get_err_refresh {env : Env} {bt : BoundToken} {h : List Ev} {e : BoundTokenError}
    (hr : GetRuns env bt h (.err e)) : ∃ h', RefreshRuns env bt h' (.err e) := by
  generalize hx : Res.err e = y at hr
  cases hr with
  | empty hr => subst hx; exact ⟨_, hr⟩
  | stale _ _ _ hr => subst hx; exact ⟨_, hr⟩
  | _ => cases hx

theorem get_panic_refresh {env : Env} {bt : BoundToken} {h : List Ev} {s : PanicSite}
    (hr : GetRuns env bt h (.panic s)) : (∃ h', RefreshRuns env bt h' (.panic s)) ∨ s = .expiresBeforeEpoch ∨ s = .nowBeforeEpoch := by
  generalize hx : Res.panic s = y at hr
  cases hr with
  | empty hr => subst hx; exact .inl ⟨_, hr⟩
  | stale _ _ _ hr => subst hx; exact .inl ⟨_, hr⟩
  | expires => cases hx; exact .inr (.inl rfl)
  | clock => cases hx; exact .inr (.inr rfl)
  | fresh => cases hx

/-! ### The identity of the key -/

/-- The script for one refresh after `n` clock readings. -/
def twoAnswers (n0 n1 : NetResult) : Nat → NetResult := fun k => if k = 0 then n0 else n1

theorem pair_of {env : Env} {bt : BoundToken} {h : List Ev} {x : Res BoundTokenError (Str × Str)} (hg : GetRuns env bt h x)
    {given : Option Time} {t : Time} (ht : given = some t ∨ given = none) :
    ∃ env' w, SameComputation env' env ∧ validFrom env' given w = t ∧ (getEmailAndToken env' bt (clocked given w)).1 = x := by
  have fromRefresh : ∀ {h' : List Ev} {x : Res BoundTokenError (Str × Str)}, RefreshRuns env bt h' x →
      ∃ env' w, SameComputation env' env ∧ validFrom env' given w = t ∧ (getEmailAndToken env' bt (clocked given w)).1 = x := by
    intro h' x hr
    obtain ⟨cb, n0, n1, c, hp⟩ := refresh_possible hr
    refine ⟨scripted env given t (fun _ => c) (twoAnswers n0 n1) cb, cachedWorld none, scripted_same .., scripted_valid env ht .., ?_⟩
    rw [getEmailAndToken_eq, scripted_caches]
    refine hp _ _ rfl ?_ ?_ (scripted_now env given t _ _ _ none (n := 0) rfl)
    · intro r; rw [scripted_log]; rfl
    · intro r; rw [scripted_log]; rfl
  cases hg with
  | empty hr => exact fromRefresh hr
  | stale _ _ _ hr => exact fromRefresh hr
  | expires =>
    refine ⟨scripted env given t (fun _ => 0) (fun _ => .execErr) (fun _ => true), cachedWorld (some ⟨[], [], -1⟩), scripted_same ..,
      scripted_valid env ht .., ?_⟩
    rw [getEmailAndToken_eq, scripted_caches]
    rfl
  | clock =>
    refine ⟨scripted env given t (fun _ => -1) (fun _ => .execErr) (fun _ => true), cachedWorld (some ⟨[], [], 0⟩), scripted_same ..,
      scripted_valid env ht .., ?_⟩
    rw [getEmailAndToken_eq, show (clocked given (cachedWorld (some ⟨[], [], 0⟩))).caches bt.id = some ⟨[], [], 0⟩ by rw [scripted_caches],
      scripted_now env given t _ _ _ _ (n := 0) rfl]
    rfl
  | @fresh c t' a1 a2 a3 =>
    refine ⟨scripted env given t (fun _ => t') (fun _ => .execErr) (fun _ => true), cachedWorld (some c), scripted_same ..,
      scripted_valid env ht .., ?_⟩
    rw [getEmailAndToken_eq, show (clocked given (cachedWorld (some c))).caches bt.id = some c by rw [scripted_caches],
      scripted_now env given t _ _ _ _ (n := 0) rfl]
    simp only
    rw [if_neg (by omega), if_neg (by omega), if_pos (by omega)]

theorem auth_replay {env : Env} {key : SigningKey} {h : List Ev} {x : Res KeyError Str} (ha : AuthRuns env key h x)
    {given : Option Time} {t : Time} (ht : given = some t ∨ given = none) :
    ∃ env' w, SameComputation env' env ∧ validFrom env' given w = t ∧ (key.authorizer env' (clocked given w)).1 = x := by
  rcases ha with ⟨bt, email, token, rfl, hg, rfl⟩ | ⟨bt, e, rfl, hg, rfl⟩ | ⟨bt, s, rfl, hg, rfl⟩ | ⟨rfl, email, rfl, _, ha⟩
  · obtain ⟨env', w, h1, h2, h3⟩ := pair_of hg ht
    refine ⟨env', w, h1, h2, ?_⟩
    rw [authorizer_boundToken_eq]
    revert h3
    rcases getEmailAndToken env' bt (clocked given w) with ⟨y, w'⟩
    rintro rfl
    rfl
  · obtain ⟨env', w, h1, h2, h3⟩ := pair_of hg ht
    refine ⟨env', w, h1, h2, ?_⟩
    rw [authorizer_boundToken_eq]
    revert h3
    rcases getEmailAndToken env' bt (clocked given w) with ⟨y, w'⟩
    rintro rfl
    rfl
  · obtain ⟨env', w, h1, h2, h3⟩ := pair_of hg ht
    refine ⟨env', w, h1, h2, ?_⟩
    rw [authorizer_boundToken_eq]
    revert h3
    rcases getEmailAndToken env' bt (clocked given w) with ⟨y, w'⟩
    rintro rfl
    rfl
  · refine ⟨scripted env given t (fun _ => 0) (fun _ => .execErr) (fun _ => true), cachedWorld none, scripted_same ..,
      scripted_valid env ht .., ?_⟩
    rw [ha]

/-! ### Identity and signature -/

/-- A cached token of `email` that is fresh at 0 s and not at 1 s. -/
def brief (email : Str) : Cached := ⟨email, [], 31 * nsPerSec⟩

theorem brief_fresh {env : Env} {bt : BoundToken} {email : Str} {w : World} (hc : w.caches bt.id = some (brief email))
    (hn : env.now w.ticks = 0) : getEmailAndToken env bt w = (.ok (email, []), w.tick) := by
  rw [getEmailAndToken_eq, hc]
  simp only [brief, hn]
  rw [if_neg (by decide), if_neg (by decide), if_pos (by decide)]

theorem brief_stale {env : Env} {bt : BoundToken} {email : Str} {w : World} (hc : w.caches bt.id = some (brief email))
    (hn : env.now w.ticks = nsPerSec) : getEmailAndToken env bt w = refresh env bt w.tick := by
  rw [getEmailAndToken_eq, hc]
  simp only [brief, hn]
  rw [if_neg (by decide), if_neg (by decide), if_neg (by decide)]

theorem brief_early {env : Env} {bt : BoundToken} {email : Str} {w : World} (hc : w.caches bt.id = some (brief email))
    (hn : env.now w.ticks = -1) : getEmailAndToken env bt w = (.panic .nowBeforeEpoch, w.tick) := by
  rw [getEmailAndToken_eq, hc]
  simp only [brief, hn]
  rw [if_neg (by decide), if_pos (by decide)]

/-- A token document, and the answers that bring it. -/
def anyToken : Str := s% "{\"access_token\":\"\",\"expires_in\":0,\"token_type\":\"Bearer\"}"

theorem anyToken_reads : parseAccessToken anyToken = some ⟨[], 0, s% "Bearer"⟩ := by decide +kernel

/-- The panic about a cached expiry before 1970, also right after another use of the key: the first use got a token when
the clock stood before 1970. -/
theorem early_expiry {env : Env} {bt : BoundToken} {email : Str} {w : World} (hc : w.caches bt.id = none) (hb : env.canBuild = fun _ => true)
    (h0 : ∀ r, env.net w.log.length r = .response 200 (some email))
    (h1 : ∀ r, env.net (w.log.length + 1) r = .response 200 (some anyToken)) (hn : env.now w.ticks = -1) :
    ∃ w', getEmailAndToken env bt w = (.ok (email, []), w') ∧ ∃ c, w'.caches bt.id = some c ∧ c.expires < 0 := by
  have answered : ∀ t e, fetchOutcome e (.response 200 (some t)) = .ok t := fun t e =>
    fetchOutcome_ok.2 ⟨200, by decide, by decide, rfl⟩
  rw [getEmailAndToken_eq, hc]
  simp only
  rw [refresh_eq, hb, if_neg (by simp), h0, answered]
  simp only
  rw [if_neg (by simp), h1, answered]
  simp only [refreshEnd, anyToken_reads]
  rw [if_neg (by simp), show env.now ((w.sent (emailRequest bt)).sent (tokenRequest bt)).ticks = -1 from hn, if_neg (by decide)]
  refine ⟨_, rfl, ⟨email, [], -1 + (0 : Int) * nsPerSec⟩, ?_, ?_⟩
  · simp [World.store]
  · show -1 + (0 : Int) * nsPerSec < 0
    decide

theorem sign_replay {env : Env} {key : SigningKey} {u : Bool} {m : Bytes} {h1 h2 : List Ev} {email : Str} {x : Res KeyError Bytes}
    (ha : AuthRuns env key h1 (.ok email)) (hs : KeySignRuns env key u m h2 x)
    {given : Option Time} {t : Time} (ht : given = some t ∨ given = none) :
    ∃ env' w w2, SameComputation env' env ∧ validFrom env' given w = t ∧
      key.authorizer env' (clocked given w) = (.ok email, w2) ∧ (key.sign env' u m w2).1 = x := by
  -- keys that need nobody's help
  have alone : (∀ env' w, SameComputation env' env → key.sign env' u m w = (x, w)) →
      ∃ env' w w2, SameComputation env' env ∧ validFrom env' given w = t ∧
        key.authorizer env' (clocked given w) = (.ok email, w2) ∧ (key.sign env' u m w2).1 = x := by
    intro hsig
    obtain ⟨env', w, c1, c2, c3⟩ := auth_replay ha ht
    refine ⟨env', w, (key.authorizer env' (clocked given w)).2, c1, c2, ?_, by rw [hsig _ _ c1]⟩
    rw [← c3]
  -- bound tokens
  have bound : ∀ (bt : BoundToken) (y : Res BoundTokenError Bytes), key = .boundToken bt → u = true → SignRuns env bt m h2 y →
      x = y.mapErr .boundTokenSigning → ∃ env' w w2, SameComputation env' env ∧ validFrom env' given w = t ∧
        key.authorizer env' (clocked given w) = (.ok email, w2) ∧ (key.sign env' u m w2).1 = x := by
    rintro bt y rfl rfl hr rfl
    have lift : (∃ env' w w2 p, SameComputation env' env ∧ validFrom env' given w = t ∧
        getEmailAndToken env' bt (clocked given w) = (.ok (email, p), w2) ∧ (bt.sign env' m w2).1 = y) →
        ∃ env' w w2, SameComputation env' env ∧ validFrom env' given w = t ∧
          (SigningKey.boundToken bt).authorizer env' (clocked given w) = (.ok email, w2) ∧
          ((SigningKey.boundToken bt).sign env' true m w2).1 = y.mapErr .boundTokenSigning := by
      rintro ⟨env', w, w2, p, c1, c2, c3, c4⟩
      refine ⟨env', w, w2, c1, c2, ?_, ?_⟩
      · rw [authorizer_boundToken_eq, c3]
      · unfold SigningKey.sign
        simp only [if_true]
        rw [M.mapErr_run, ← c4]
    apply lift
    have caches : ∀ c, (clocked given (cachedWorld c)).caches bt.id = c := fun c => by rw [scripted_caches]
    -- the first use of the key finds a fresh token
    have start : ∀ (clock : Nat → Time) (net : Nat → NetResult) (cb : Request → Bool), clock 0 = 0 →
        (bt.sign (scripted env given t clock net cb) m (clocked given (cachedWorld (some (brief email)))).tick).1 = y →
        ∃ env' w w2 p, SameComputation env' env ∧ validFrom env' given w = t ∧
          getEmailAndToken env' bt (clocked given w) = (.ok (email, p), w2) ∧ (bt.sign env' m w2).1 = y := by
      intro clock net cb hc hy
      refine ⟨_, _, _, [], scripted_same env given t clock net cb, scripted_valid env ht clock net cb (some (brief email)), ?_, hy⟩
      refine brief_fresh (caches _) ?_
      rw [scripted_now env given t clock net cb _ (n := 0) rfl, hc]
    have tick1 : (clocked given (cachedWorld (some (brief email)))).tick.ticks =
        (clocked given (cachedWorld (some (brief email)))).ticks + 1 := rfl
    have tick2 : (clocked given (cachedWorld (some (brief email)))).tick.tick.ticks =
        (clocked given (cachedWorld (some (brief email)))).ticks + 2 := rfl
    have log1 : (clocked given (cachedWorld (some (brief email)))).tick.tick.log = [] := scripted_log ..
    -- the second use refreshes
    have refreshes : ∀ {h' : List Ev} {z : Res BoundTokenError (Str × Str)}, RefreshRuns env bt h' z →
        (∀ (env' : Env) (w w' : World), getEmailAndToken env' bt w = (z, w') → (bt.sign env' m w).1 = y) →
        ∃ env' w w2 p, SameComputation env' env ∧ validFrom env' given w = t ∧
          getEmailAndToken env' bt (clocked given w) = (.ok (email, p), w2) ∧ (bt.sign env' m w2).1 = y := by
      intro h' z hr hz
      obtain ⟨cb, n0, n1, c, hp⟩ := refresh_possible hr
      apply start (fun k => if k = 0 then 0 else if k = 1 then nsPerSec else c) (twoAnswers n0 n1) cb rfl
      have hst := brief_stale (env := scripted env given t (fun k => if k = 0 then 0 else if k = 1 then nsPerSec else c) (twoAnswers n0 n1) cb)
        (bt := bt) (email := email) (w := (clocked given (cachedWorld (some (brief email)))).tick) (caches _)
        (scripted_now env given t _ _ _ _ tick1)
      have := hp (scripted env given t (fun k => if k = 0 then 0 else if k = 1 then nsPerSec else c) (twoAnswers n0 n1) cb)
        (clocked given (cachedWorld (some (brief email)))).tick.tick rfl (by intro r; rw [log1]; rfl) (by intro r; rw [log1]; rfl)
        (scripted_now env given t _ _ _ _ tick2)
      refine hz _ _ (refresh (scripted env given t (fun k => if k = 0 then 0 else if k = 1 then nsPerSec else c) (twoAnswers n0 n1) cb) bt
        (clocked given (cachedWorld (some (brief email)))).tick.tick).2 ?_
      rw [hst, ← this]
    have answered : ∀ s text, 200 ≤ s → s ≤ 299 → fetchOutcome signBlobErrors (.response s (some text)) = .ok text := by
      intro s text h1 h2
      exact fetchOutcome_ok.2 ⟨s, h1, h2, rfl⟩
    -- both uses find a fresh token
    have posts : ∀ (net : NetResult) (cb : Bool),
        (if cb = false then Res.err .signBlobRequestBuild else
          match fetchOutcome signBlobErrors net with
          | .err e => .err e
          | .panic p => .panic p
          | .ok body =>
            match parseSignBlobResponse body with
            | none => .err .signBlobRequestSuccessResponseDeserialize
            | some blob =>
              match b64Decode blob with
              | none => .err .signBlobRequestSuccessResponseBase64Decode
              | some s => .ok s) = y →
        ∃ env' w w2 p, SameComputation env' env ∧ validFrom env' given w = t ∧
          getEmailAndToken env' bt (clocked given w) = (.ok (email, p), w2) ∧ (bt.sign env' m w2).1 = y := by
      intro net cb hy
      apply start (fun _ => 0) (fun _ => net) (fun _ => cb) rfl
      rw [sign_eq, brief_fresh (w := (clocked given (cachedWorld (some (brief email)))).tick) (caches _)
        (scripted_now env given t (fun _ => 0) _ _ _ tick1)]
      simp only [scripted]
      rw [← hy]
      split <;> rfl
    cases hr with
    | getErr hg =>
      obtain ⟨h', hr⟩ := get_err_refresh hg
      exact refreshes hr (fun env' w w' hw => by rw [sign_eq, hw])
    | @getPanic _ s hg =>
      rcases get_panic_refresh hg with ⟨h', hr⟩ | rfl | rfl
      · exact refreshes hr (fun env' w w' hw => by rw [sign_eq, hw])
      · obtain ⟨w', c1, c, c2, c3⟩ := early_expiry (env := scripted env given t (fun _ => -1)
          (twoAnswers (.response 200 (some email)) (.response 200 (some anyToken))) (fun _ => true)) (bt := bt) (email := email)
          (w := clocked given (cachedWorld none)) (caches _) rfl (by intro r; rw [scripted_log]; rfl) (by intro r; rw [scripted_log]; rfl)
          (scripted_now env given t _ _ _ _ (n := 0) rfl)
        refine ⟨_, _, w', [], scripted_same .., scripted_valid env ht .., c1, ?_⟩
        rw [sign_eq, getEmailAndToken_eq, c2]
        simp only
        rw [if_pos c3]
      · apply start (fun k => if k = 0 then 0 else -1) (fun _ => .execErr) (fun _ => true) rfl
        rw [sign_eq, brief_early (w := (clocked given (cachedWorld (some (brief email)))).tick) (caches _)
          (scripted_now env given t (fun k => if k = 0 then 0 else -1) _ _ _ tick1)]
    | post hg hf =>
      rcases fetch_possible hf with h | ⟨n, hn⟩
      · cases h; exact posts .execErr false rfl
      · exact posts n true (by rw [if_neg (by simp), hn])
    | @unreadable _ _ _ _ body hg hf hp =>
      obtain ⟨s, a1, a2, rfl⟩ := fetchRuns_ok hf
      exact posts (.response s (some body)) true (by rw [if_neg (by simp), answered s _ a1 a2]; simp only [hp])
    | @base64 _ _ _ _ body _ hg hf hp hb =>
      obtain ⟨s, a1, a2, rfl⟩ := fetchRuns_ok hf
      exact posts (.response s (some body)) true (by rw [if_neg (by simp), answered s _ a1 a2]; simp only [hp, hb])
    | @ok _ _ _ _ body _ _ hg hf hp hb =>
      obtain ⟨s, a1, a2, rfl⟩ := fetchRuns_ok hf
      exact posts (.response s (some body)) true (by rw [if_neg (by simp), answered s _ a1 a2]; simp only [hp, hb])
  rcases hs with ⟨bt, d, hk, hu, hr, hx⟩ | ⟨bt, e, hk, hu, hr, hx⟩ | ⟨bt, s, hk, hu, hr, hx⟩ | ⟨_, _, _, hsig⟩
  · exact bound bt _ hk hu hr hx
  · exact bound bt _ hk hu hr hx
  · exact bound bt _ hk hu hr hx
  · exact alone hsig

end CSS
