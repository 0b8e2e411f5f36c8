import Verif.Spec.Token
import Verif.Lemmas.StructText
/- The sequential behaviour of bound-token keys. -/
set_option linter.unusedSimpArgs false
namespace CSS
open Spec

/-- What a response means for `fetchText`. -/
def fetchOutcome (e : FetchErrors) : NetResult → Res BoundTokenError Str
  | .execErr => .err e.execute
  | .response status (some text) => if isSuccess status then .ok text else .err (e.status status text)
  | .response status none => if isSuccess status then .err e.successResponse else .err e.errorResponse

/-- `w` after one more executed request. -/
def World.sent (w : World) (r : Request) : World := { w with log := w.log ++ [r] }
/-- `w` after one more clock read. -/
def World.tick (w : World) : World := { w with ticks := w.ticks + 1 }
/-- `w` with cache `id` overwritten. -/
def World.store (w : World) (id : Nat) (c : Cached) : World :=
  { w with caches := fun i => if i = id then some c else w.caches i }

theorem fetchText_eq (env : Env) (e : FetchErrors) (r : Request) (w : World) :
    fetchText env e r w = if env.canBuild r = false then (.err e.build, w)
      else (fetchOutcome e (env.net w.log.length r), w.sent r) := by
  unfold fetchText
  by_cases h : env.canBuild r = false
  · rw [if_pos h, if_pos h]; rfl
  · rw [if_neg h, if_neg h, M.bind_run]
    simp only [M.execute]
    cases env.net w.log.length r with
    | execErr => rfl
    | response status body =>
      cases body with
      | none => by_cases hs : isSuccess status <;> simp [hs, fetchOutcome, World.sent]
      | some t => by_cases hs : isSuccess status <;> simp [hs, fetchOutcome, World.sent]

theorem fetchOutcome_not_panic (e : FetchErrors) (n : NetResult) (p : PanicSite) : fetchOutcome e n ≠ .panic p := by
  cases n with
  | execErr => simp [fetchOutcome]
  | response s b => cases b <;> simp only [fetchOutcome] <;> split <;> simp

theorem fetchOutcome_ok {e : FetchErrors} {n : NetResult} {t : Str} :
    fetchOutcome e n = .ok t ↔ ∃ status, 200 ≤ status ∧ status ≤ 299 ∧ n = .response status (some t) := by
  constructor
  · intro h
    cases n with
    | execErr => simp [fetchOutcome] at h
    | response s b =>
      cases b with
      | none => simp only [fetchOutcome] at h; split at h <;> cases h
      | some x =>
        simp only [fetchOutcome] at h
        split at h
        · rename_i hs
          cases h
          simp [isSuccess] at hs
          exact ⟨s, hs.1, by omega, rfl⟩
        · cases h
  · rintro ⟨s, h1, h2, rfl⟩
    have : isSuccess s = true := by simp [isSuccess]; omega
    simp [fetchOutcome, this]

/-- The outcome of the refresh after both requests succeeded. -/
def refreshEnd (env : Env) (bt : BoundToken) (email body : Str) (w : World) :
    Res BoundTokenError (Str × Str) × World :=
  match parseAccessToken body with
  | none => (.err .tokenRequestSuccessResponseDeserialize, w)
  | some t =>
    if t.tokenType ≠ s% "Bearer" then (.err (.tokenRequestInvalidTokenType t.tokenType), w)
    else
      let expires := env.now w.ticks + (t.expiresIn : Int) * nsPerSec
      if timeLimit ≤ expires then (.panic .expiresOverflow, w.tick)
      else (.ok (email, t.accessToken), w.tick.store bt.id ⟨email, t.accessToken, expires⟩)

theorem refresh_eq (env : Env) (bt : BoundToken) (w : World) :
    refresh env bt w =
      if env.canBuild (emailRequest bt) = false then (.err .emailRequestBuild, w)
      else match fetchOutcome emailErrors (env.net w.log.length (emailRequest bt)) with
        | .err e => (.err e, w.sent (emailRequest bt))
        | .panic p => (.panic p, w.sent (emailRequest bt))
        | .ok email =>
          if env.canBuild (tokenRequest bt) = false then (.err .tokenRequestBuild, w.sent (emailRequest bt))
          else match fetchOutcome tokenErrors (env.net (w.log.length + 1) (tokenRequest bt)) with
            | .err e => (.err e, (w.sent (emailRequest bt)).sent (tokenRequest bt))
            | .panic p => (.panic p, (w.sent (emailRequest bt)).sent (tokenRequest bt))
            | .ok body => refreshEnd env bt email body ((w.sent (emailRequest bt)).sent (tokenRequest bt)) := by
  unfold refresh
  rw [M.bind_run, fetchText_eq]
  by_cases h1 : env.canBuild (emailRequest bt) = false
  · rw [if_pos h1, if_pos h1]; rfl
  rw [if_neg h1, if_neg h1]
  cases h2 : fetchOutcome emailErrors (env.net w.log.length (emailRequest bt)) with
  | err e => rfl
  | panic p => rfl
  | ok email =>
    simp only
    rw [M.bind_run, fetchText_eq]
    by_cases h3 : env.canBuild (tokenRequest bt) = false
    · rw [if_pos h3, if_pos h3]; rfl
    rw [if_neg h3, if_neg h3]
    have hl : (w.sent (emailRequest bt)).log.length = w.log.length + 1 := by simp [World.sent]
    rw [hl]
    cases h4 : fetchOutcome tokenErrors (env.net (w.log.length + 1) (tokenRequest bt)) with
    | err e => rfl
    | panic p => rfl
    | ok body =>
      simp only [refreshEnd]
      cases parseAccessToken body with
      | none => rfl
      | some t =>
        simp only
        by_cases h5 : t.tokenType ≠ s% "Bearer"
        · rw [if_pos h5, if_pos h5]; rfl
        rw [if_neg h5, if_neg h5, M.bind_run]
        simp only [M.now]
        by_cases h6 : timeLimit ≤ env.now ((w.sent (emailRequest bt)).sent (tokenRequest bt)).ticks + (t.expiresIn : Int) * nsPerSec
        · rw [if_pos h6, if_pos h6]; rfl
        · rw [if_neg h6, if_neg h6]; rfl

theorem cacheFresh_eq (env : Env) (c : Cached) (w : World) :
    cacheFresh env c w =
      if c.expires < 0 then (.panic .expiresBeforeEpoch, w)
      else if env.now w.ticks < 0 then (.panic .nowBeforeEpoch, w.tick)
      else (.ok (decide (c.expires > env.now w.ticks + 30 * nsPerSec)), w.tick) := by
  unfold cacheFresh
  by_cases h1 : c.expires < 0
  · rw [if_pos h1, if_pos h1]; rfl
  rw [if_neg h1, if_neg h1, M.bind_run]
  simp only [M.now]
  by_cases h2 : env.now w.ticks < 0
  · rw [if_pos h2, if_pos h2]; rfl
  · rw [if_neg h2, if_neg h2]; rfl

theorem getEmailAndToken_eq (env : Env) (bt : BoundToken) (w : World) :
    getEmailAndToken env bt w =
      match w.caches bt.id with
      | none => refresh env bt w
      | some c =>
        if c.expires < 0 then (.panic .expiresBeforeEpoch, w)
        else if env.now w.ticks < 0 then (.panic .nowBeforeEpoch, w.tick)
        else if c.expires > env.now w.ticks + 30 * nsPerSec then (.ok (c.email, c.token), w.tick)
        else refresh env bt w.tick := by
  unfold getEmailAndToken
  rw [M.bind_run]
  simp only [M.getCache]
  cases h : w.caches bt.id with
  | none => rfl
  | some c =>
    simp only
    rw [M.bind_run, cacheFresh_eq]
    by_cases h1 : c.expires < 0
    · rw [if_pos h1, if_pos h1]
    rw [if_neg h1, if_neg h1]
    by_cases h2 : env.now w.ticks < 0
    · rw [if_pos h2, if_pos h2]
    rw [if_neg h2, if_neg h2]
    by_cases h3 : c.expires > env.now w.ticks + 30 * nsPerSec
    · rw [if_pos h3]; simp [h3]
    · rw [if_neg h3]; simp [h3]

theorem sign_eq (env : Env) (bt : BoundToken) (m : Bytes) (w : World) :
    bt.sign env m w =
      match getEmailAndToken env bt w with
      | (.err e, w') => (.err e, w')
      | (.panic p, w') => (.panic p, w')
      | (.ok (email, token), w') =>
        if env.canBuild (signBlobRequest email token m) = false then (.err .signBlobRequestBuild, w')
        else
          (match fetchOutcome signBlobErrors (env.net w'.log.length (signBlobRequest email token m)) with
            | .err e => .err e
            | .panic p => .panic p
            | .ok body =>
              match parseSignBlobResponse body with
              | none => .err .signBlobRequestSuccessResponseDeserialize
              | some blob =>
                match b64Decode blob with
                | none => .err .signBlobRequestSuccessResponseBase64Decode
                | some s => .ok s, w'.sent (signBlobRequest email token m)) := by
  unfold BoundToken.sign
  rw [M.bind_run]
  generalize getEmailAndToken env bt w = x
  obtain ⟨r, w'⟩ := x
  cases r with
  | err e => rfl
  | panic p => rfl
  | ok p =>
    obtain ⟨email, token⟩ := p
    simp only
    rw [M.bind_run, fetchText_eq]
    by_cases h1 : env.canBuild (signBlobRequest email token m) = false
    · rw [if_pos h1, if_pos h1]; rfl
    rw [if_neg h1, if_neg h1]
    cases h2 : fetchOutcome signBlobErrors (env.net w'.log.length (signBlobRequest email token m)) with
    | err e => rfl
    | panic p => rfl
    | ok body =>
      simp only
      cases parseSignBlobResponse body with
      | none => rfl
      | some blob =>
        simp only
        cases b64Decode blob <;> rfl

theorem answered_of {env : Env} {log : List Request} {r : Request} {text : Str} {e : FetchErrors}
    (h : fetchOutcome e (env.net log.length r) = .ok text) (rest : List Request) :
    Answered env (log ++ r :: rest) log.length r text := by
  obtain ⟨st, h1, h2, h3⟩ := fetchOutcome_ok.1 h
  exact ⟨by simp, st, h1, h2, h3⟩

theorem emailRequest_eq (bt : BoundToken) : emailRequest bt = metadataGet (emailUrl bt.baseUrl) := rfl
theorem tokenRequest_eq (bt : BoundToken) : tokenRequest bt = metadataGet (tokenUrl bt.baseUrl) := rfl

/-- A successful refresh, in full. -/
theorem refresh_ok {env : Env} {bt : BoundToken} {w w' : World} {email token : Str}
    (h : refresh env bt w = (.ok (email, token), w')) :
    ∃ life : Nat, w' = ((w.sent (emailRequest bt)).sent (tokenRequest bt)).tick.store bt.id
        ⟨email, token, env.now w.ticks + (life : Int) * nsPerSec⟩ ∧
      FromRefresh env bt.baseUrl w'.log w.log.length email token life ∧
      env.now w.ticks + (life : Int) * nsPerSec < timeLimit := by
  rw [refresh_eq] at h
  split at h
  · cases h
  · cases h2 : fetchOutcome emailErrors (env.net w.log.length (emailRequest bt)) with
    | err e => rw [h2] at h; cases h
    | panic p => rw [h2] at h; cases h
    | ok email' =>
      rw [h2] at h
      simp only at h
      split at h
      · cases h
      · cases h4 : fetchOutcome tokenErrors (env.net (w.log.length + 1) (tokenRequest bt)) with
        | err e => rw [h4] at h; cases h
        | panic p => rw [h4] at h; cases h
        | ok body =>
          rw [h4] at h
          simp only [refreshEnd] at h
          cases hp : parseAccessToken body with
          | none => rw [hp] at h; cases h
          | some t =>
            rw [hp] at h
            simp only at h
            split at h
            · cases h
            · rename_i ht
              split at h
              · cases h
              · rename_i hlim
                have ht : t.tokenType = s% "Bearer" := by simpa using ht
                cases h
                refine ⟨t.expiresIn, rfl, ⟨?_, body, ?_, ?_⟩, ?_⟩
                · have := answered_of h2 [tokenRequest bt]
                  simpa [World.sent, World.tick, World.store, emailRequest_eq] using this
                · have h4' : fetchOutcome tokenErrors (env.net (w.log ++ [emailRequest bt]).length (tokenRequest bt)) = .ok body := by
                    simpa using h4
                  have := answered_of h4' []
                  simpa [World.sent, World.tick, World.store, tokenRequest_eq] using this
                · rw [← parseAccessToken_iff, hp, ← ht]
                · exact Int.not_le.1 hlim

/-- A successful call, in full: from the cache without any request, or from a refresh. -/
theorem getEmailAndToken_ok {env : Env} {bt : BoundToken} {w w' : World} {email token : Str}
    (h : getEmailAndToken env bt w = (.ok (email, token), w')) :
    (∃ c, w.caches bt.id = some c ∧ c.email = email ∧ c.token = token ∧ 0 ≤ c.expires ∧ 0 ≤ env.now w.ticks ∧
        env.now w.ticks + 30 * nsPerSec < c.expires ∧ w' = w.tick) ∨
    (∃ w1, (w1 = w ∨ w1 = w.tick) ∧ refresh env bt w1 = (.ok (email, token), w')) := by
  rw [getEmailAndToken_eq] at h
  cases hc : w.caches bt.id with
  | none => rw [hc] at h; exact .inr ⟨w, .inl rfl, h⟩
  | some c =>
    rw [hc] at h
    simp only at h
    split at h
    · cases h
    · split at h
      · cases h
      · split at h
        · cases h
          rename_i h1 h2 h3
          exact .inl ⟨c, rfl, rfl, rfl, by omega, by omega, h3, rfl⟩
        · exact .inr ⟨_, .inr rfl, h⟩

/-- A successful signBlob, in full. -/
theorem sign_ok {env : Env} {bt : BoundToken} {m : Bytes} {w w' : World} {sig : Bytes}
    (h : bt.sign env m w = (.ok sig, w')) :
    ∃ email token w1 body blob, getEmailAndToken env bt w = (.ok (email, token), w1) ∧
      w' = w1.sent (signBlobRequest email token m) ∧
      Answered env w'.log w1.log.length (signBlobRequest email token m) body ∧
      SignBlobText body blob ∧ b64Decode blob = some sig := by
  rw [sign_eq] at h
  cases hg : getEmailAndToken env bt w with
  | mk r w1 =>
  rw [hg] at h
  cases r with
  | err e => cases h
  | panic e => cases h
  | ok p =>
    obtain ⟨email, token⟩ := p
    simp only at h
    split at h
    · cases h
    · cases h2 : fetchOutcome signBlobErrors (env.net w1.log.length (signBlobRequest email token m)) with
      | err e => rw [h2] at h; cases h
      | panic e => rw [h2] at h; cases h
      | ok body =>
        rw [h2] at h
        simp only at h
        cases hp : parseSignBlobResponse body with
        | none => rw [hp] at h; cases h
        | some blob =>
          rw [hp] at h
          simp only at h
          cases hb : b64Decode blob with
          | none => rw [hb] at h; cases h
          | some s =>
            rw [hb] at h
            cases h
            exact ⟨email, token, w1, body, blob, rfl, rfl, answered_of h2 [], parseSignBlobResponse_iff.1 hp, hb⟩

/-! ### the log only grows -/

theorem prefix_sent (w : World) (r : Request) : w.log <+: (w.sent r).log := List.prefix_append _ _

theorem answered_prefix {env : Env} {log log' : List Request} {k : Nat} {r : Request} {t : Str}
    (h : Answered env log k r t) (hp : log <+: log') : Answered env log' k r t := by
  obtain ⟨h1, h2⟩ := h
  obtain ⟨e, rfl⟩ := hp
  refine ⟨?_, h2⟩
  have := List.getElem?_eq_some_iff.1 h1
  obtain ⟨hl, he⟩ := this
  rw [List.getElem?_append_left hl, h1]

theorem refreshEnd_log (env : Env) (bt : BoundToken) (email body : Str) (w : World) :
    (refreshEnd env bt email body w).2.log = w.log := by
  unfold refreshEnd
  split
  · rfl
  · split
    · rfl
    · simp only
      split <;> rfl

theorem refresh_log (env : Env) (bt : BoundToken) (w : World) :
    (refresh env bt w).2.log = w.log ∨ (refresh env bt w).2.log = w.log ++ [emailRequest bt] ∨
      (refresh env bt w).2.log = w.log ++ [emailRequest bt, tokenRequest bt] := by
  rw [refresh_eq]
  split
  · exact .inl rfl
  · cases fetchOutcome emailErrors (env.net w.log.length (emailRequest bt)) with
    | err e => exact .inr (.inl rfl)
    | panic e => exact .inr (.inl rfl)
    | ok email =>
      simp only
      split
      · exact .inr (.inl rfl)
      · cases fetchOutcome tokenErrors (env.net (w.log.length + 1) (tokenRequest bt)) with
        | err e => right; right; simp [World.sent]
        | panic e => right; right; simp [World.sent]
        | ok body => right; right; simp [refreshEnd_log, World.sent]

theorem getEmailAndToken_log (env : Env) (bt : BoundToken) (w : World) :
    (getEmailAndToken env bt w).2.log = w.log ∨ (getEmailAndToken env bt w).2.log = w.log ++ [emailRequest bt] ∨
      (getEmailAndToken env bt w).2.log = w.log ++ [emailRequest bt, tokenRequest bt] := by
  rw [getEmailAndToken_eq]
  cases w.caches bt.id with
  | none => exact refresh_log env bt w
  | some c =>
    simp only
    split
    · exact .inl rfl
    · split
      · exact .inl rfl
      · split
        · exact .inl rfl
        · exact refresh_log env bt w.tick

theorem getEmailAndToken_prefix (env : Env) (bt : BoundToken) (w : World) :
    w.log <+: (getEmailAndToken env bt w).2.log := by
  rcases getEmailAndToken_log env bt w with h | h | h <;> rw [h]
  · exact List.prefix_refl _
  · exact List.prefix_append _ _
  · exact List.prefix_append _ _

theorem sign_prefix (env : Env) (bt : BoundToken) (m : Bytes) (w : World) : w.log <+: (bt.sign env m w).2.log := by
  rw [sign_eq]
  have h := getEmailAndToken_prefix env bt w
  generalize getEmailAndToken env bt w = x at h
  obtain ⟨r, w'⟩ := x
  cases r with
  | err e => exact h
  | panic p => exact h
  | ok p =>
    simp only
    split
    · exact h
    · exact List.IsPrefix.trans h (prefix_sent _ _)

theorem getEmailAndToken_authorizes {env : Env} {bt : BoundToken} {w w' : World} {email token : Str}
    (h : getEmailAndToken env bt w = (.ok (email, token), w')) : Authorizes env w w'.log (.boundToken bt) email := by
  rcases getEmailAndToken_ok h with ⟨c, hc, he, _⟩ | ⟨w1, hw1, hr⟩
  · exact .inl ⟨c, hc, he.symm⟩
  · obtain ⟨life, _, hf, _⟩ := refresh_ok hr
    refine .inr ⟨w1.log.length, ?_, hf.1⟩
    rcases hw1 with rfl | rfl <;> exact Nat.le_refl _

theorem authorizer_boundToken_eq (env : Env) (bt : BoundToken) (w : World) :
    (SigningKey.boundToken bt).authorizer env w =
      match getEmailAndToken env bt w with
      | (.ok p, w') => (.ok p.1, w')
      | (.err e, w') => (.err (.boundTokenAuthorizer e), w')
      | (.panic s, w') => (.panic s, w') := by
  show (M.mapErr KeyError.boundTokenAuthorizer (getEmailAndToken env bt) >>= fun p => pure p.1) w = _
  rw [M.bind_run, M.mapErr_run]
  generalize getEmailAndToken env bt w = x
  obtain ⟨r, w'⟩ := x
  cases r <;> rfl

theorem authorizer_prefix (env : Env) (key : SigningKey) (w : World) : w.log <+: (key.authorizer env w).2.log := by
  cases key with
  | boundToken bt =>
    have h := getEmailAndToken_prefix env bt w
    rw [authorizer_boundToken_eq]
    generalize getEmailAndToken env bt w = x at h
    obtain ⟨r, w'⟩ := x
    cases r <;> exact h
  | hmac a s => exact List.prefix_refl _
  | serviceAccount a s => exact List.prefix_refl _

theorem authorizer_boundToken {env : Env} {bt : BoundToken} {w w' : World} {email : Str}
    (h : (SigningKey.boundToken bt).authorizer env w = (.ok email, w')) :
    ∃ token, getEmailAndToken env bt w = (.ok (email, token), w') := by
  rw [authorizer_boundToken_eq] at h
  cases hg : getEmailAndToken env bt w with
  | mk r w1 =>
  rw [hg] at h
  cases r with
  | ok p =>
    obtain ⟨e, t⟩ := p
    simp at h
    obtain ⟨rfl, rfl⟩ := h
    exact ⟨t, rfl⟩
  | err e => simp at h
  | panic e => simp at h

theorem authorizer_authorizes {env : Env} {key : SigningKey} {w w' : World} {email : Str}
    (h : key.authorizer env w = (.ok email, w')) : Authorizes env w w'.log key email := by
  cases key with
  | boundToken bt =>
    obtain ⟨token, hg⟩ := authorizer_boundToken h
    exact getEmailAndToken_authorizes hg
  | hmac a s => simp [SigningKey.authorizer] at h; exact h.1.symm
  | serviceAccount a s => simp [SigningKey.authorizer] at h; exact h.1.symm

theorem keySign_prefix (env : Env) (key : SigningKey) (u : Bool) (m : Bytes) (w : World) :
    w.log <+: (key.sign env u m w).2.log := by
  cases key with
  | boundToken bt =>
    unfold SigningKey.sign
    cases u with
    | true => simp only [if_true]; rw [M.mapErr_run]; exact sign_prefix env bt m w
    | false => exact List.prefix_refl _
  | hmac a s => exact List.prefix_refl _
  | serviceAccount a s => cases u <;> exact List.prefix_refl _

theorem authorizes_prefix {env : Env} {w : World} {log log' : List Request} {key : SigningKey} {email : Str}
    (h : Authorizes env w log key email) (hp : log <+: log') : Authorizes env w log' key email := by
  cases key with
  | boundToken bt =>
    rcases h with h | ⟨k, hk, ha⟩
    · exact .inl h
    · exact .inr ⟨k, hk, answered_prefix ha hp⟩
  | hmac a s => exact h
  | serviceAccount a s => exact h

theorem authorizer_log (env : Env) (key : SigningKey) (w : World) :
    ∃ more, (key.authorizer env w).2.log = w.log ++ more ∧
      (more = [] ∨ ∃ bt, key = .boundToken bt ∧
        more <+: [metadataGet (emailUrl bt.baseUrl), metadataGet (tokenUrl bt.baseUrl)]) := by
  cases key with
  | hmac a b => exact ⟨[], by simp [SigningKey.authorizer], .inl rfl⟩
  | serviceAccount a b => exact ⟨[], by simp [SigningKey.authorizer], .inl rfl⟩
  | boundToken bt =>
    have hl : ((SigningKey.boundToken bt).authorizer env w).2.log = (getEmailAndToken env bt w).2.log := by
      rw [authorizer_boundToken_eq]
      generalize getEmailAndToken env bt w = x
      obtain ⟨r, w1⟩ := x
      cases r <;> rfl
    rw [hl]
    rcases getEmailAndToken_log env bt w with h | h | h
    · exact ⟨[], by simp [h], .inl rfl⟩
    · exact ⟨_, h, .inr ⟨bt, rfl, [metadataGet (tokenUrl bt.baseUrl)], rfl⟩⟩
    · exact ⟨_, h, .inr ⟨bt, rfl, [], rfl⟩⟩

end CSS
