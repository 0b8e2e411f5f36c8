import Verif.Props.Token
import Verif.Props.FormPolicy
import Verif.Props.UrlParams
/-
C42, C58: the account named in the credential and the account that signs.
-/
set_option linter.unusedSimpArgs false
namespace CSS
open Spec

theorem asked_of_sign {env : Env} {bt : BoundToken} {m sig : Bytes} {w w' : World}
    (h : bt.sign env m w = (.ok sig, w')) :
    ∃ email token w1, getEmailAndToken env bt w = (.ok (email, token), w1) ∧ AskedToSign w'.log email := by
  obtain ⟨email, token, w1, body, blob, hg, hw, _⟩ := sign_ok h
  refine ⟨email, token, w1, hg, signBlobRequest email token m, ?_, rfl, rfl⟩
  rw [hw]
  simp [World.sent]

/-- The e-mail that a call returns is `account` if the account is stable, and the account stays stable. -/
theorem stable_get {env : Env} {bt : BoundToken} {w w' : World} {email token account : Str}
    (hs : StableAccount env bt w account) (h : getEmailAndToken env bt w = (.ok (email, token), w')) :
    email = account ∧ StableAccount env bt w' account := by
  rcases getEmailAndToken_ok h with ⟨c, hc, he, ht, _, _, _, hw⟩ | ⟨w1, hw1, hr⟩
  · subst hw
    exact ⟨he.symm.trans (hs.1 c hc), hs⟩
  · obtain ⟨life, hw', hf, _⟩ := refresh_ok hr
    have hl : w1.log = w.log := by rcases hw1 with rfl | rfl <;> rfl
    obtain ⟨⟨_, status, h1, h2, h3⟩, _⟩ := hf
    have he : email = account := hs.2 w1.log.length status email (by rw [hl]; exact Nat.le_refl _) h1 h2 h3
    refine ⟨he, ?_, ?_⟩
    · intro c hc
      subst hw'
      simp only [World.store, if_true, Option.some.injEq] at hc
      rw [← hc]; exact he
    · intro k status text hk h1 h2 h3
      refine hs.2 k status text ?_ h1 h2 h3
      have : w.log.length ≤ w'.log.length := by
        subst hw'
        simp only [World.store, World.tick, World.sent, hl, List.length_append]
        omega
      omega

/-- In a quick call, the e-mail that the first fetch returned is still cached and fresh at the second. -/
theorem quick_get {env : Env} {bt : BoundToken} {w w1 w2 w3 : World} {d : Int} {e1 t1 e2 t2 : Str}
    (hq : QuickCall env bt w d) (hl : w1.log = w.log) (hc : w1.caches = w.caches) (ht : w.ticks ≤ w1.ticks)
    (h1 : getEmailAndToken env bt w1 = (.ok (e1, t1), w2)) (h2 : getEmailAndToken env bt w2 = (.ok (e2, t2), w3)) :
    e2 = e1 := by
  have hd : 0 ≤ d := by have := hq.clock w.ticks (Nat.le_refl _); omega
  have key : ∃ c, w2.caches bt.id = some c ∧ c.email = e1 ∧ w.ticks ≤ w2.ticks ∧
      env.now w.ticks + d + 30 * 1000000000 < c.expires := by
    rcases getEmailAndToken_ok h1 with ⟨c, hc', he, _, _, _, hx, hw⟩ | ⟨w', hw', hr⟩
    · subst hw
      refine ⟨c, hc', he, Nat.le_succ_of_le ht, ?_⟩
      rw [hc] at hc'
      have hcl := (hq.clock _ ht).1
      rcases hq.cached c hc' with h | h
      · unfold nsPerSec at hx; omega
      · exact h
    · obtain ⟨life, hw2, hf, _⟩ := refresh_ok hr
      have hl' : w'.log = w.log ∧ w.ticks ≤ w'.ticks := by
        rcases hw' with rfl | rfl
        · exact ⟨hl, ht⟩
        · exact ⟨hl, Nat.le_succ_of_le ht⟩
      obtain ⟨_, body, ⟨_, status, _, _, hn⟩, hp⟩ := hf
      have hlife := hq.life (w'.log.length + 1) status body t1 life (s% "Bearer") (by rw [hl'.1]; omega) hn hp
      subst hw2
      refine ⟨_, by simp [World.store]; rfl, rfl, ?_, ?_⟩
      · simp only [World.store, World.tick, World.sent]
        omega
      · have := (hq.clock _ hl'.2).1
        simp only [nsPerSec]
        omega
  obtain ⟨c, hc2, he, ht2, hx⟩ := key
  rw [← he]
  rw [getEmailAndToken_eq, hc2] at h2
  simp only at h2
  have hcl := (hq.clock _ ht2).2
  have hx' : env.now w2.ticks + 30 * nsPerSec < c.expires := by unfold nsPerSec; omega
  rw [if_pos hx'] at h2
  split at h2
  · cases h2
  · split at h2
    · cases h2
    · simp only [Prod.mk.injEq, Res.ok.injEq] at h2
      exact h2.1.1.symm

theorem sign_boundToken {env : Env} {bt : BoundToken} {u : Bool} {m sig : Bytes} {w w' : World}
    (h : (SigningKey.boundToken bt).sign env u m w = (.ok sig, w')) : bt.sign env m w = (.ok sig, w') := by
  unfold SigningKey.sign at h
  cases u with
  | false => cases h
  | true =>
    simp only [if_true, M.mapErr_run] at h
    generalize bt.sign env m w = x at h ⊢
    obtain ⟨r, w1⟩ := x
    cases r with
    | ok s => simpa using h
    | err e => simp at h
    | panic e => simp at h

/-- The account named by the authorizer and the account asked to sign are the same if the account is stable or the
call is quick. -/
theorem same_account {env : Env} {bt : BoundToken} {w w1 w2 w' : World} {u : Bool} {m sig : Bytes} {email : Str}
    (hs : (∃ account, StableAccount env bt w account) ∨ ∃ d, QuickCall env bt w d)
    (hl : w1.log = w.log) (hc : w1.caches = w.caches) (ht : w.ticks ≤ w1.ticks)
    (ha : (SigningKey.boundToken bt).authorizer env w1 = (.ok email, w2))
    (h : (SigningKey.boundToken bt).sign env u m w2 = (.ok sig, w')) : AskedToSign w'.log email := by
  obtain ⟨token, hg⟩ := authorizer_boundToken ha
  obtain ⟨e2, t2, w3, hg2, hasked⟩ := asked_of_sign (sign_boundToken h)
  rcases hs with ⟨account, hst⟩ | ⟨d, hq⟩
  · have hst1 : StableAccount env bt w1 account := by
      unfold StableAccount
      rw [hl, hc]
      exact hst
    obtain ⟨he, hst2⟩ := stable_get hst1 hg
    rw [he, ← (stable_get hst2 hg2).1]
    exact hasked
  · rw [← quick_get hq hl hc ht hg hg2]
    exact hasked

theorem timeOrNow_clocked {ε : Type} (env : Env) (given : Option Time) (w w1 : World) (t : Time)
    (h : M.timeOrNow (ε := ε) env given w = (.ok t, w1)) :
    w1.log = w.log ∧ w1.caches = w.caches ∧ w.ticks ≤ w1.ticks := by
  cases given with
  | some t' =>
    have h' : (Res.ok t', w) = (Res.ok t, w1) := h
    simp only [Prod.mk.injEq] at h'
    rw [← h'.2]
    exact ⟨rfl, rfl, Nat.le_refl _⟩
  | none =>
    have h' : (Res.ok (env.now w.ticks), w.tick) = (Res.ok t, w1) := h
    simp only [Prod.mk.injEq] at h'
    rw [← h'.2]
    exact ⟨rfl, rfl, Nat.le_succ _⟩

/-- C42, form. If the account does not change, or no token expires during the call, the account named in
`x-goog-credential` is the one that the call asked to sign. Missing: the general case, which is false
(`C42_counterexample`). -/
theorem C42_form_same_account_partial (env : Env) (cs : List Call) (o : SigningOptions) (bt : BoundToken) (w w' : World)
    (fs : List (Str × Str)) (ho : (cs.filterMap callOptions).getLast? = some o) (hk : o.signingKey = .boundToken bt)
    (h : (Builder.ofCalls cs).build env w = (.ok fs, w'))
    (hs : (∃ account, StableAccount env bt w account) ∨ ∃ d, QuickCall env bt w d) :
    ∃ email date, fieldValues fs (s% "x-goog-date") = [date] ∧
      fieldValues fs (s% "x-goog-credential") =
        [email ++ s% "/" ++ date.take 8 ++ s% "/" ++ o.region.getD (s% "auto") ++ s% "/storage/goog4_request"] ∧
      AskedToSign w'.log email := by
  obtain ⟨pf, key, ⟨hpo⟩, _, rfl⟩ := build_ok_signed ((ofCalls_spec cs).options.trans ho) h
  refine ⟨hpo.email, pf.date, values_date _ _ _, ?_, ?_⟩
  · have hr := fromSystemTime_inRange hpo.hat
    have hd : (Date.fromUnixTimestamp hpo.at_).toStr = pf.date.take 8 := by
      rw [hpo.hdate, date_eq _ hr, toIso8601_eq _ hr]
      simp [DateTime.basic, DateTime.yyyymmdd, d4, d2]
    rw [values_credential, hpo.hcred]
    simp [CredentialScope.toStr, hd, Service.asStr, RequestType.asStr]
  · obtain ⟨hl, hc, ht⟩ := timeOrNow_clocked _ _ _ _ _ hpo.time
    have ha := hpo.auth
    have hsig := hpo.sign
    rw [hk] at ha hsig
    exact same_account hs hl hc ht ha hsig

/-- C42, signed URL. The same for the X-Goog-Credential parameter. -/
theorem C42_url_same_account_partial (env : Env) (o : UrlOptions) (bt : BoundToken) (w w' : World) (url : Str)
    (hk : o.signingKey = .boundToken bt) (h : buildSignedUrl env o w = (.ok url, w'))
    (hs : (∃ account, StableAccount env bt w account) ∨ ∃ d, QuickCall env bt w d) :
    ∃ email date, BasicDenotes date (validFrom env o.accessibleAt w / 1000000000) ∧
      (utf8 (s% "X-Goog-Credential"), percentDecode (email ++ s% "/" ++ date.take 8 ++ s% "/" ++
          o.region.getD (s% "auto") ++ s% "/storage/goog4_request")) ∈ queryParams (urlQuery url) ∧
      AskedToSign w'.log email := by
  obtain ⟨hu⟩ := buildSignedUrl_ok h
  obtain ⟨email', digest, hr, ht, _⟩ := signed_ok h
  have hq := urlQuery_decoded (env := env) (o := o) ht (email := hu.email) hu.digest
  rw [← hu.url_eq] at hq
  obtain ⟨c, hc, hiso, hsec⟩ := iso_chars _ ht
  refine ⟨hu.email, _, ⟨c, hc, hiso, hsec⟩, ?_, ?_⟩
  · rw [hq.mem_iff]
    simp only [List.append_assoc, List.mem_append, List.mem_cons]
    exact .inr (.inr (.inr (.inl (by simp [credentialOf]))))
  · have ha := hu.auth
    have hsig := hu.sign
    rw [hk] at ha hsig
    refine same_account hs ?_ ?_ ?_ ha hsig <;> unfold clocked <;> cases o.accessibleAt <;>
      simp [World.tick]

/-! ### C58 -/

theorem fromRefresh_prefix {env : Env} {base : Str} {log log' : List Request} {k : Nat} {email token : Str} {life : Nat}
    (h : FromRefresh env base log k email token life) (hp : log <+: log') : FromRefresh env base log' k email token life := by
  obtain ⟨h1, body, h2, h3⟩ := h
  exact ⟨answered_prefix h1 hp, body, answered_prefix h2 hp, h3⟩

/-- What a successful fetch leaves in the cache, and where it came from. -/
theorem get_cached {env : Env} {bt : BoundToken} {w w' : World} {email token : Str}
    (h : getEmailAndToken env bt w = (.ok (email, token), w')) :
    ∃ c, w'.caches bt.id = some c ∧ c.email = email ∧ w.ticks ≤ w'.ticks ∧
      ((w.caches bt.id = some c ∧ w'.log = w.log) ∨
        w'.log = w.log ++ [emailRequest bt, tokenRequest bt] ∧ ∃ (life : Nat) (j : Nat), w.ticks ≤ j ∧ j ≤ w'.ticks ∧
          c.expires = env.now j + (life : Int) * 1000000000 ∧
          FromRefresh env bt.baseUrl w'.log w.log.length email c.token life) := by
  rcases getEmailAndToken_ok h with ⟨c, hc, he, _, _, _, _, hw⟩ | ⟨w1, hw1, hr⟩
  · subst hw
    exact ⟨c, hc, he, Nat.le_succ _, .inl ⟨hc, rfl⟩⟩
  · obtain ⟨life, hw', hf, _⟩ := refresh_ok hr
    have hl : w1.log = w.log ∧ w.ticks ≤ w1.ticks := by
      rcases hw1 with rfl | rfl
      · exact ⟨rfl, Nat.le_refl _⟩
      · exact ⟨rfl, Nat.le_succ _⟩
    rw [hl.1] at hf
    have ht : w1.ticks ≤ w'.ticks := by
      rw [hw']
      simp only [World.store, World.tick, World.sent]
      omega
    have hlog : w'.log = w.log ++ [emailRequest bt, tokenRequest bt] := by
      rw [hw']
      simp [World.store, World.tick, World.sent, hl.1]
    have hcache : w'.caches bt.id = some ⟨email, token, env.now w1.ticks + (life : Int) * nsPerSec⟩ := by
      rw [hw']
      simp [World.store]
    exact ⟨_, hcache, rfl, Nat.le_trans hl.2 ht, .inr ⟨hlog, life, w1.ticks, hl.2, ht, rfl, hf⟩⟩

/-- The second fetch of a call returns the e-mail of the first, or comes from a new refresh. -/
theorem get_again {env : Env} {bt : BoundToken} {w w' : World} {c : Cached} {email token : Str}
    (hc : w.caches bt.id = some c) (h : getEmailAndToken env bt w = (.ok (email, token), w')) :
    email = c.email ∨ (c.expires ≤ env.now w.ticks + 30 * 1000000000 ∧
      w'.log = w.log ++ [emailRequest bt, tokenRequest bt] ∧
      ∃ life, FromRefresh env bt.baseUrl w'.log w.log.length email token life) := by
  rw [getEmailAndToken_eq, hc] at h
  simp only at h
  split at h
  · cases h
  · split at h
    · cases h
    · split at h
      · simp only [Prod.mk.injEq, Res.ok.injEq] at h
        exact .inl h.1.1.symm
      · rename_i hx
        obtain ⟨life, hw', hf, _⟩ := refresh_ok h
        refine .inr ⟨by unfold nsPerSec at hx; omega, ?_, life, hf⟩
        rw [hw']
        simp [World.store, World.tick, World.sent]

theorem account_replaced {env : Env} {bt : BoundToken} {w w1 w2 w' : World} {u : Bool} {m sig : Bytes} {email : Str}
    (hl : w1.log = w.log) (hc : w1.caches = w.caches) (ht : w.ticks ≤ w1.ticks)
    (ha : (SigningKey.boundToken bt).authorizer env w1 = (.ok email, w2))
    (h : (SigningKey.boundToken bt).sign env u m w2 = (.ok sig, w')) :
    ∃ signer, AskedToSign w'.log signer ∧ (signer = email ∨ AccountReplaced env bt w w'.log email signer) := by
  obtain ⟨token, hg⟩ := authorizer_boundToken ha
  obtain ⟨signer, t2, w3, body, blob, hg2, hw', _⟩ := sign_ok (sign_boundToken h)
  have hlog : w'.log = w3.log ++ [signBlobRequest signer t2 m] := by rw [hw']; simp [World.sent]
  refine ⟨signer, ⟨signBlobRequest signer t2 m, by rw [hlog]; simp, rfl, rfl⟩, ?_⟩
  obtain ⟨c, hc2, hce, ht2, hfrom⟩ := get_cached hg
  rcases get_again hc2 hg2 with he | ⟨hx, hlog3, life, hf⟩
  · exact .inl (he.trans hce)
  · right
    have hp3 : w3.log <+: w'.log := by rw [hlog]; exact List.prefix_append _ _
    have hp2 : w2.log <+: w'.log := by
      refine List.IsPrefix.trans ?_ hp3
      rw [hlog3]; exact List.prefix_append _ _
    refine ⟨c.token, c.expires, w2.log.length, w2.ticks, t2, life, Nat.le_trans ht ht2, hx, ?_,
      fromRefresh_prefix hf hp3, ?_⟩
    · rw [hlog, hlog3]; simp
    · rcases hfrom with ⟨hw, hl2⟩ | ⟨hl2, life', j, hj, hj2, hex, hf2⟩
      · rw [hc] at hw
        exact .inl ⟨by rw [hl2, hl], by rw [hw, ← hce]⟩
      · refine .inr ⟨by rw [hl2, hl]; simp, life', j, Nat.le_trans ht hj, hj2, hex, ?_⟩
        rw [hl] at hf2
        exact fromRefresh_prefix hf2 hp2

/-- C58, form: the exact scope of C42. Whenever `build` succeeds with a bound token, the account that it asks to sign
is the one named in `x-goog-credential`, unless the account was replaced during the call. -/
theorem C58_form_signer (env : Env) (cs : List Call) (o : SigningOptions) (bt : BoundToken) (w w' : World)
    (fs : List (Str × Str)) (ho : (cs.filterMap callOptions).getLast? = some o) (hk : o.signingKey = .boundToken bt)
    (h : (Builder.ofCalls cs).build env w = (.ok fs, w')) :
    ∃ email date signer, fieldValues fs (s% "x-goog-date") = [date] ∧
      fieldValues fs (s% "x-goog-credential") =
        [email ++ s% "/" ++ date.take 8 ++ s% "/" ++ o.region.getD (s% "auto") ++ s% "/storage/goog4_request"] ∧
      AskedToSign w'.log signer ∧ (signer = email ∨ AccountReplaced env bt w w'.log email signer) := by
  obtain ⟨pf, key, ⟨hpo⟩, _, rfl⟩ := build_ok_signed ((ofCalls_spec cs).options.trans ho) h
  obtain ⟨hl, hc, ht⟩ := timeOrNow_clocked _ _ _ _ _ hpo.time
  have ha := hpo.auth
  have hsig := hpo.sign
  rw [hk] at ha hsig
  obtain ⟨signer, h1, h2⟩ := account_replaced hl hc ht ha hsig
  refine ⟨hpo.email, pf.date, signer, values_date _ _ _, ?_, h1, h2⟩
  have hr := fromSystemTime_inRange hpo.hat
  have hd : (Date.fromUnixTimestamp hpo.at_).toStr = pf.date.take 8 := by
    rw [hpo.hdate, date_eq _ hr, toIso8601_eq _ hr]
    simp [DateTime.basic, DateTime.yyyymmdd, d4, d2]
  rw [values_credential, hpo.hcred]
  simp [CredentialScope.toStr, hd, Service.asStr, RequestType.asStr]

/-- C58, signed URL. -/
theorem C58_url_signer (env : Env) (o : UrlOptions) (bt : BoundToken) (w w' : World) (url : Str)
    (hk : o.signingKey = .boundToken bt) (h : buildSignedUrl env o w = (.ok url, w')) :
    ∃ email date signer, BasicDenotes date (validFrom env o.accessibleAt w / 1000000000) ∧
      (utf8 (s% "X-Goog-Credential"), percentDecode (email ++ s% "/" ++ date.take 8 ++ s% "/" ++
          o.region.getD (s% "auto") ++ s% "/storage/goog4_request")) ∈ queryParams (urlQuery url) ∧
      AskedToSign w'.log signer ∧ (signer = email ∨ AccountReplaced env bt w w'.log email signer) := by
  obtain ⟨hu⟩ := buildSignedUrl_ok h
  obtain ⟨email', digest, hr, ht, _⟩ := signed_ok h
  have hq := urlQuery_decoded (env := env) (o := o) ht (email := hu.email) hu.digest
  rw [← hu.url_eq] at hq
  obtain ⟨c, hc, hiso, hsec⟩ := iso_chars _ ht
  have ha := hu.auth
  have hsig := hu.sign
  rw [hk] at ha hsig
  obtain ⟨signer, h1, h2⟩ := account_replaced (w := w) (by simp) (by simp)
    (by unfold clocked; cases o.accessibleAt <;> simp [World.tick]) ha hsig
  refine ⟨hu.email, _, signer, ⟨c, hc, hiso, hsec⟩, ?_, h1, h2⟩
  rw [hq.mem_iff]
  simp only [List.append_assoc, List.mem_append, List.mem_cons]
  exact .inr (.inr (.inr (.inl (by simp [credentialOf]))))

/-- The account changes between two requests for the e-mail, and tokens live for 0 s. -/
def movingNet : Nat → Request → NetResult
  | 0, _ => .response 200 (some (s% "a@b.c"))
  | 2, _ => .response 200 (some (s% "x@y.z"))
  | 4, _ => .response 200 (some (s% "{\"keyId\":\"k\",\"signedBlob\":\"AAH/\"}"))
  | _, _ => .response 200 (some (s% "{\"access_token\":\"t\",\"expires_in\":0,\"token_type\":\"Bearer\"}"))

/-- C42, the violation: the credential names `a@b.c`, but `x@y.z` is asked to sign. -/
theorem C42_counterexample : ∃ env fs w' r, (Builder.ofCalls Conformance.btCalls).build env Conformance.world = (.ok fs, w') ∧
    fieldValues fs (s% "x-goog-credential") = [s% "a@b.c/20220101/us-central1/storage/goog4_request"] ∧
    w'.log.getLast? = some r ∧
    r.url = s% "https://iamcredentials.googleapis.com/v1/projects/-/serviceAccounts/x@y.z:signBlob" := by
  refine ⟨{ Conformance.env with net := movingNet }, _, _, _, rfl, ?_, rfl, ?_⟩ <;> decide +kernel

/-- Non-vacuity of C58's second case: in that call the account was replaced. -/
example : ∃ fs w', (Builder.ofCalls Conformance.btCalls).build { Conformance.env with net := movingNet } Conformance.world = (.ok fs, w') ∧
    AccountReplaced { Conformance.env with net := movingNet } Conformance.btKey Conformance.world w'.log (s% "a@b.c") (s% "x@y.z") := by
  refine ⟨_, _, rfl, s% "t", Conformance.env.now 0, 2, 1, s% "t", 0, by decide +kernel, by decide +kernel, by decide +kernel, ?_,
    .inr ⟨by decide +kernel, 0, 0, by decide +kernel, by decide +kernel, by decide +kernel, ?_⟩⟩
  · exact ⟨⟨by decide +kernel, 200, by decide, by decide, rfl⟩, _, ⟨by decide +kernel, 200, by decide, by decide, rfl⟩,
      parseAccessToken_iff.1 (by decide +kernel)⟩
  · exact ⟨⟨by decide +kernel, 200, by decide, by decide, rfl⟩, _, ⟨by decide +kernel, 200, by decide, by decide, rfl⟩,
      parseAccessToken_iff.1 (by decide +kernel)⟩

/-- A server with one account whose tokens live for 3599 s, whenever it is asked. -/
def steadyNet (r : Request) : NetResult :=
  if r.url = tokenUrl Conformance.btKey.baseUrl then Conformance.btNet 1 r
  else if r.url = emailUrl Conformance.btKey.baseUrl then .response 200 (some (s% "a@b.c"))
  else Conformance.btNet 2 r
def steadyEnv : Env := { Conformance.env with net := fun _ r => steadyNet r }

/-- Both hypotheses of C42 are met by the running example: its server has one account, and its token lives longer
than the call. -/
example : Conformance.btOptions.signingKey = .boundToken Conformance.btKey ∧
    (∃ fs w', (Builder.ofCalls Conformance.btCalls).build steadyEnv Conformance.world = (.ok fs, w')) ∧
    QuickCall steadyEnv Conformance.btKey Conformance.world 0 ∧
    StableAccount steadyEnv Conformance.btKey Conformance.world (s% "a@b.c") := by
  refine ⟨rfl, Conformance.succeeds_iff (by decide +kernel), ⟨?_, ?_, ?_⟩, ?_, ?_⟩
  · intro j _
    exact ⟨Int.le_refl _, Int.le_of_eq (Int.add_zero _).symm⟩
  · intro k status text token life type _ hn hp
    simp only [steadyEnv, steadyNet, metadataGet, if_true, Conformance.btNet, NetResult.response.injEq, Option.some.injEq] at hn
    rw [← hn.2] at hp
    have : parseAccessToken (s% "{\"access_token\":\"tok\",\"expires_in\":3599,\"scope\":[1,{}],\"token_type\":\"Bearer\"}") = some ⟨s% "tok", 3599, s% "Bearer"⟩ := by
      decide +kernel
    rw [← parseAccessToken_iff, this] at hp
    cases hp
    decide
  · intro c hc; cases hc
  · intro c hc; cases hc
  · intro k status text _ _ _ hn
    have hne : emailUrl Conformance.btKey.baseUrl ≠ tokenUrl Conformance.btKey.baseUrl := by decide +kernel
    simp only [steadyEnv, steadyNet, metadataGet, if_neg hne, if_true, NetResult.response.injEq, Option.some.injEq] at hn
    exact hn.2.symm

end CSS
