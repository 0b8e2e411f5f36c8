import Verif.Lemmas.Effects
import Verif.Lemmas.UrlSigned
import Verif.Props.UrlErrors
import Verif.Lemmas.TokenGets
import Verif.Conformance
/-
C33, C34, C39-C44 for one call of a bound-token key; histories and interleavings of calls are in Props/Concurrent.
`getEmailAndToken` is what `build` and `build_signed_url` call for the authorizer and again for signing.
-/
set_option linter.unusedSimpArgs false
namespace CSS
open Spec

/-! ### C33 -/

/-- C33. While the cached token expires more than 30 s from now, it is returned and no request is sent. -/
theorem C33_cached (env : Env) (bt : BoundToken) (w : World) (c : Cached) (hc : w.caches bt.id = some c)
    (h0 : 0 ≤ env.now w.ticks) (h : env.now w.ticks + 30 * 1000000000 < c.expires) :
    ∃ w', getEmailAndToken env bt w = (.ok (c.email, c.token), w') ∧ w'.log = w.log ∧ w'.caches = w.caches := by
  rw [getEmailAndToken_eq, hc]
  have h' : env.now w.ticks + 30 * nsPerSec < c.expires := h
  simp only
  rw [if_neg (by omega), if_neg (by omega), if_pos h']
  exact ⟨_, rfl, rfl, rfl⟩

/-- A token that expires in 30.000000001 s is used. -/
example : ∃ w' : World, getEmailAndToken Conformance.btEnv Conformance.btKey { Conformance.world with
      caches := fun _ => some ⟨s% "e", s% "t", 1640995200 * nsPerSec + 30 * nsPerSec + 1⟩ } = (.ok (s% "e", s% "t"), w') ∧
      w'.log = [] := by
  obtain ⟨w', h, hl, _⟩ := C33_cached Conformance.btEnv Conformance.btKey { Conformance.world with
      caches := fun _ => some ⟨s% "e", s% "t", 1640995200 * nsPerSec + 30 * nsPerSec + 1⟩ } _ rfl (by decide) (by decide)
  exact ⟨w', h, hl⟩

theorem fetchOutcome_dec (e : FetchErrors) (n : NetResult) :
    (∃ t, fetchOutcome e n = .ok t) ∨ ∃ k, fetchOutcome e n = .err k := by
  cases h : fetchOutcome e n with
  | ok t => exact .inl ⟨t, rfl⟩
  | err k => exact .inr ⟨k, rfl⟩
  | panic p => exact absurd h (fetchOutcome_not_panic e n p)

/-- The requests of a refresh, exactly. -/
theorem refresh_requests (env : Env) (bt : BoundToken) (w : World) :
    (env.canBuild (metadataGet (emailUrl bt.baseUrl)) = false → (refresh env bt w).2.log = w.log) ∧
    (env.canBuild (metadataGet (emailUrl bt.baseUrl)) = true →
      ((∀ status text, 200 ≤ status → status ≤ 299 →
          env.net w.log.length (metadataGet (emailUrl bt.baseUrl)) ≠ .response status (some text)) →
        (refresh env bt w).2.log = w.log ++ [metadataGet (emailUrl bt.baseUrl)]) ∧
      (∀ status text, 200 ≤ status → status ≤ 299 →
          env.net w.log.length (metadataGet (emailUrl bt.baseUrl)) = .response status (some text) →
        (refresh env bt w).2.log = w.log ++ metadataGet (emailUrl bt.baseUrl) ::
          (if env.canBuild (metadataGet (tokenUrl bt.baseUrl)) = true then [metadataGet (tokenUrl bt.baseUrl)] else []))) := by
  rw [← emailRequest_eq, ← tokenRequest_eq, refresh_eq]
  refine ⟨fun h => by rw [if_pos h], fun h => ?_⟩
  rw [if_neg (by rw [h]; simp)]
  constructor
  · intro hn
    rcases fetchOutcome_dec emailErrors (env.net w.log.length (emailRequest bt)) with ⟨t, ht⟩ | ⟨k, hk⟩
    · obtain ⟨s, h1, h2, h3⟩ := fetchOutcome_ok.1 ht
      exact absurd h3 (hn s t h1 h2)
    · rw [hk]; rfl
  · intro status text h1 h2 h3
    rw [fetchOutcome_ok.2 ⟨status, h1, h2, h3⟩]
    simp only
    by_cases hb : env.canBuild (tokenRequest bt) = false
    · rw [if_pos hb, if_neg (by rw [hb]; simp)]; rfl
    · rw [if_neg hb, if_pos (by simpa using hb)]
      have he : ((w.sent (emailRequest bt)).sent (tokenRequest bt)).log = w.log ++ [emailRequest bt, tokenRequest bt] := by
        simp [World.sent]
      rcases fetchOutcome_dec tokenErrors (env.net (w.log.length + 1) (tokenRequest bt)) with ⟨t, ht⟩ | ⟨k, hk⟩
      · rw [ht]; simp only; rw [refreshEnd_log]; exact he
      · rw [hk]; exact he

/-- C33. With nothing cached, or a token that expires within 30 s, the e-mail request is sent; if it is answered with
a 2xx status and a text, the token request is sent; no other request is sent. (A request that the HTTP client refuses
to build is not sent.) -/
theorem C33_refresh (env : Env) (bt : BoundToken) (w : World)
    (h : w.caches bt.id = none ∨ ∃ c, w.caches bt.id = some c ∧ 0 ≤ c.expires ∧ 0 ≤ env.now w.ticks ∧
      c.expires ≤ env.now w.ticks + 30 * 1000000000) :
    (env.canBuild (metadataGet (emailUrl bt.baseUrl)) = false → (getEmailAndToken env bt w).2.log = w.log) ∧
    (env.canBuild (metadataGet (emailUrl bt.baseUrl)) = true →
      ((∀ status text, 200 ≤ status → status ≤ 299 →
          env.net w.log.length (metadataGet (emailUrl bt.baseUrl)) ≠ .response status (some text)) →
        (getEmailAndToken env bt w).2.log = w.log ++ [metadataGet (emailUrl bt.baseUrl)]) ∧
      (∀ status text, 200 ≤ status → status ≤ 299 →
          env.net w.log.length (metadataGet (emailUrl bt.baseUrl)) = .response status (some text) →
        (getEmailAndToken env bt w).2.log = w.log ++ metadataGet (emailUrl bt.baseUrl) ::
          (if env.canBuild (metadataGet (tokenUrl bt.baseUrl)) = true then [metadataGet (tokenUrl bt.baseUrl)] else []))) := by
  have key : (∃ w1 : World, w1.log = w.log ∧ getEmailAndToken env bt w = refresh env bt w1) := by
    rw [getEmailAndToken_eq]
    rcases h with h | ⟨c, h, h1, h2, h3⟩
    · rw [h]; exact ⟨w, rfl, rfl⟩
    · rw [h]
      simp only
      have h3' : ¬ env.now w.ticks + 30 * nsPerSec < c.expires := by unfold nsPerSec; omega
      rw [if_neg (by omega), if_neg (by omega), if_neg h3']
      exact ⟨w.tick, rfl, rfl⟩
  obtain ⟨w1, hl, he⟩ := key
  rw [he, ← hl]
  exact refresh_requests env bt w1

/-- The empty cache of the running example, and a token with exactly 30 s left. -/
example : Conformance.world.caches Conformance.btKey.id = none ∧
    (getEmailAndToken Conformance.btEnv Conformance.btKey { Conformance.world with
      caches := fun _ => some ⟨s% "e", s% "t", 1640995200 * nsPerSec + 30 * nsPerSec⟩ }).2.log.length = 2 := by
  refine ⟨rfl, by decide +kernel⟩

/-! ### C34 -/

theorem refresh_not_ok {env : Env} {bt : BoundToken} {w : World}
    (h : ∀ p, (refresh env bt w).1 ≠ .ok p) : (refresh env bt w).2.caches = w.caches := by
  rw [refresh_eq] at h ⊢
  by_cases h1 : env.canBuild (emailRequest bt) = false
  · rw [if_pos h1]
  rw [if_neg h1] at h ⊢
  cases h2 : fetchOutcome emailErrors (env.net w.log.length (emailRequest bt)) with
  | err e => rfl
  | panic p => rfl
  | ok email =>
    rw [h2] at h
    simp only at h ⊢
    by_cases h3 : env.canBuild (tokenRequest bt) = false
    · rw [if_pos h3]; rfl
    rw [if_neg h3] at h ⊢
    cases h4 : fetchOutcome tokenErrors (env.net (w.log.length + 1) (tokenRequest bt)) with
    | err e => rfl
    | panic p => rfl
    | ok body =>
      rw [h4] at h
      simp only [refreshEnd] at h ⊢
      cases hp : parseAccessToken body with
      | none => rfl
      | some t =>
        rw [hp] at h
        simp only at h ⊢
        by_cases h5 : t.tokenType ≠ s% "Bearer"
        · rw [if_pos h5]; rfl
        rw [if_neg h5] at h ⊢
        split
        · rfl
        · rename_i h6
          rw [if_neg h6] at h
          exact absurd rfl (h _)

/-- C34. A call that does not succeed, for whatever reason, leaves every cache as it was. -/
theorem C34_failure_keeps_cache (env : Env) (bt : BoundToken) (w : World)
    (h : ∀ p, (getEmailAndToken env bt w).1 ≠ .ok p) : (getEmailAndToken env bt w).2.caches = w.caches := by
  rw [getEmailAndToken_eq] at h ⊢
  cases hc : w.caches bt.id with
  | none => rw [hc] at h; exact refresh_not_ok h
  | some c =>
    rw [hc] at h
    simp only at h ⊢
    by_cases h1 : c.expires < 0
    · rw [if_pos h1]
    rw [if_neg h1] at h ⊢
    by_cases h2 : env.now w.ticks < 0
    · rw [if_pos h2]; rfl
    rw [if_neg h2] at h ⊢
    split
    · rfl
    · rename_i h3
      rw [if_neg h3] at h
      have := refresh_not_ok h
      rw [this]; rfl

/-- C34. A failing signBlob request does not change a cache either: signing changes the caches exactly as fetching
the token does. -/
theorem C34_sign_caches (env : Env) (bt : BoundToken) (m : Bytes) (w : World) :
    (bt.sign env m w).2.caches = (getEmailAndToken env bt w).2.caches := by
  rw [sign_eq]
  generalize getEmailAndToken env bt w = x
  obtain ⟨r, w'⟩ := x
  cases r with
  | err e => rfl
  | panic p => rfl
  | ok p =>
    simp only
    split
    · rfl
    · rfl

/-- The conformance environment with a server that always gives the same answer. -/
def answering (status : Nat) (text : Str) : Env :=
  { Conformance.env with net := fun _ _ => .response status (some text) }

/-- Failures of each kind: no network, status 404, a token that is not a Bearer token. -/
example : (getEmailAndToken Conformance.env Conformance.btKey Conformance.world).1 = .err .emailRequestExecute ∧
    (getEmailAndToken (answering 404 (s% "no")) Conformance.btKey Conformance.world).1 = .err (.emailRequestStatus 404 (s% "no")) ∧
    (getEmailAndToken (answering 200 (s% "{\"access_token\":\"a\",\"expires_in\":1,\"token_type\":\"MAC\"}"))
      Conformance.btKey Conformance.world).1 = .err (.tokenRequestInvalidTokenType (s% "MAC")) := by decide +kernel

/-- C34. If the key has no token with more than 30 s left and the metadata server does not give one — a request cannot be
built, is not answered, is answered with a status other than 2xx, without a text, or with anything but a Bearer token
document — then the call fails and every cache is as before. -/
theorem C34_refused_keeps_cache (env : Env) (bt : BoundToken) (w : World) (k : Nat) (hm : MustAsk env bt w k)
    (hs : ∀ email token life, ¬ ServerGives env bt w email token life) :
    (∀ p, (getEmailAndToken env bt w).1 ≠ .ok p) ∧ (getEmailAndToken env bt w).2.caches = w.caches := by
  have h : ∀ p, (getEmailAndToken env bt w).1 ≠ .ok p := by
    rintro ⟨email, token⟩ h
    obtain ⟨w', hw⟩ : ∃ w', getEmailAndToken env bt w = (.ok (email, token), w') := ⟨_, Prod.ext h rfl⟩
    cases getEmailAndToken_ok_iff.1 hw with
    | cached c hc h1 h2 h3 =>
      rcases hm with ⟨hn, _⟩ | ⟨c', hc', _, _, h4, _⟩
      · rw [hn] at hc; cases hc
      · rw [hc'] at hc; cases hc; omega
    | asked _ life _ _ _ hg _ => exact hs _ _ _ hg
  exact ⟨h, C34_failure_keeps_cache env bt w h⟩

/-- Both hypotheses are met by a server that answers 404, and by one that redirects. -/
example : MustAsk (answering 404 (s% "no")) Conformance.btKey Conformance.world Conformance.world.ticks ∧
    (∀ email token life, ¬ ServerGives (answering 404 (s% "no")) Conformance.btKey Conformance.world email token life) ∧
    ∀ text email token life, ¬ ServerGives (answering 302 text) Conformance.btKey Conformance.world email token life := by
  refine ⟨.inl ⟨rfl, rfl⟩, ?_, ?_⟩
  · rintro _ _ _ ⟨_, _, st, _, _, _, h, _, _, h1, _⟩
    simp only [answering, NetResult.response.injEq] at h1
    omega
  · rintro text _ _ _ ⟨_, _, st, _, _, _, h, _, _, h1, _⟩
    simp only [answering, NetResult.response.injEq] at h1
    omega

/-! ### C39 -/

/-- C39. What a successful call returns is a token it found in the cache, or one it has just received in a document
whose token type is exactly `Bearer`; and whatever a call leaves in the cache that was not there before is such a
token, with the lifetime of that document counted from the clock. -/
theorem C39_bearer_only (env : Env) (bt : BoundToken) (w : World) :
    (∀ email token w', getEmailAndToken env bt w = (.ok (email, token), w') →
      (∃ c, w.caches bt.id = some c ∧ c.email = email ∧ c.token = token) ∨
      ∃ k life, w.log.length ≤ k ∧ FromRefresh env bt.baseUrl w'.log k email token life) ∧
    (∀ c, (getEmailAndToken env bt w).2.caches bt.id = some c → w.caches bt.id = some c ∨
      ∃ k life j, w.log.length ≤ k ∧
        FromRefresh env bt.baseUrl (getEmailAndToken env bt w).2.log k c.email c.token life ∧
        c.expires = env.now j + (life : Int) * 1000000000) := by
  constructor
  · intro email token w' h
    rcases getEmailAndToken_ok h with ⟨c, hc, he, ht, _⟩ | ⟨w1, hw1, hr⟩
    · exact .inl ⟨c, hc, he, ht⟩
    · obtain ⟨life, _, hf, _⟩ := refresh_ok hr
      refine .inr ⟨w1.log.length, life, ?_, hf⟩
      rcases hw1 with rfl | rfl <;> exact Nat.le_refl _
  · intro c hc
    have hfail := C34_failure_keeps_cache env bt w
    generalize hg : getEmailAndToken env bt w = x at hc hfail ⊢
    obtain ⟨r, w'⟩ := x
    cases r with
    | ok p =>
      obtain ⟨email, token⟩ := p
      rcases getEmailAndToken_ok hg with ⟨c', hc', _, _, _, _, _, hw⟩ | ⟨w1, hw1, hr'⟩
      · left
        subst hw
        exact hc
      · obtain ⟨life, hw', hf, _⟩ := refresh_ok hr'
        right
        have hc' : c = ⟨email, token, env.now w1.ticks + life * nsPerSec⟩ := by
          subst hw'
          simp only [World.store, if_true, Option.some.injEq] at hc
          exact hc.symm
        subst hc'
        refine ⟨w1.log.length, life, w1.ticks, ?_, hf, rfl⟩
        rcases hw1 with rfl | rfl <;> exact Nat.le_refl _
    | err e =>
      left
      rw [← hfail (by simp)]
      exact hc
    | panic e =>
      left
      rw [← hfail (by simp)]
      exact hc

/-- Both cases occur. -/
example : (getEmailAndToken Conformance.btEnv Conformance.btKey Conformance.world).1 = .ok (s% "a@b.c", s% "tok") := by
  decide +kernel

/-! ### C40, C41 -/

/-- C40, for one call. Fetching the token sends only GETs of the two metadata URLs; signing sends these and at most
one more request: a POST to the IAM endpoint of the e-mail that was fetched with the token it carries. -/
theorem C40_requests (env : Env) (bt : BoundToken) (m : Bytes) (w : World) :
    (∃ more, (getEmailAndToken env bt w).2.log = w.log ++ more ∧
      ∀ r ∈ more, r = metadataGet (emailUrl bt.baseUrl) ∨ r = metadataGet (tokenUrl bt.baseUrl)) ∧
    ((bt.sign env m w).2.log = (getEmailAndToken env bt w).2.log ∨
      ∃ email token body, (getEmailAndToken env bt w).1 = .ok (email, token) ∧
        (bt.sign env m w).2.log = (getEmailAndToken env bt w).2.log ++ [
          { method := s% "POST",
            url := s% "https://iamcredentials.googleapis.com/v1/projects/-/serviceAccounts/" ++ email ++ s% ":signBlob",
            headers := [(s% "authorization", s% "Bearer " ++ token), (s% "content-type", s% "application/json")],
            body := some body }]) := by
  constructor
  · rcases getEmailAndToken_log env bt w with h | h | h
    · exact ⟨[], by simp [h], by simp⟩
    · exact ⟨_, h, by simp [emailRequest_eq]⟩
    · exact ⟨_, h, by simp [emailRequest_eq, tokenRequest_eq]⟩
  · have hs := sign_eq env bt m w
    generalize getEmailAndToken env bt w = x at hs ⊢
    generalize bt.sign env m w = y at hs ⊢
    obtain ⟨r, w'⟩ := x
    subst hs
    cases r with
    | err e => exact .inl rfl
    | panic p => exact .inl rfl
    | ok p =>
      obtain ⟨email, token⟩ := p
      simp only
      split
      · exact .inl rfl
      · right
        exact ⟨email, token, Json.render (.obj [(s% "payload", .str (b64Encode m))]), rfl, rfl⟩

/-- C41. The signBlob request carries the message, and the result is the server's blob: exactly the base64-decodings
of `payload` and of `signedBlob`, with the strict alphabet and padding of RFC 4648. -/
theorem C41_sign_blob (env : Env) (bt : BoundToken) (m sig : Bytes) (w w' : World)
    (h : bt.sign env m w = (.ok sig, w')) :
    ∃ r body payload text blob, w'.log.getLast? = some r ∧ r.body = some body ∧
      JsonText (.obj [(s% "payload", .str payload)]) body ∧ base64Decode payload = some m ∧
      Answered env w'.log (w'.log.length - 1) r text ∧ SignBlobText text blob ∧
      base64Decode blob = some sig := by
  have hk : SigningKey.sign env (.boundToken bt) true m w = (.ok sig, w') := by
    show M.mapErr KeyError.boundTokenSigning (bt.sign env m) w = _
    rw [M.mapErr_run, h]; rfl
  obtain ⟨r, body, payload, text, blob, h1, _, h3⟩ := (keySign_ok hk).1
  exact ⟨r, body, payload, text, blob, h1, h3⟩

/-- C41. A blob that is not base64, or an answer without one, is an error; nothing is guessed. The request here is the
last one of the log, whatever it is. -/
theorem C41_bad_blob (env : Env) (bt : BoundToken) (m : Bytes) (w : World) (email token text : Str) (w1 : World) (r : Request)
    (hg : GetsToken env bt w email token w1) (hl : (bt.sign env m w).2.log = w1.log ++ [r])
    (ha : Answered env (bt.sign env m w).2.log w1.log.length r text)
    (hbad : ∀ blob, SignBlobText text blob → base64Decode blob = none) :
    ∃ e, (bt.sign env m w).1 = .err e := by
  have hg' := getEmailAndToken_ok_iff.2 hg
  rw [sign_eq, hg'] at hl ha ⊢
  simp only at hl ha ⊢
  by_cases hb : env.canBuild (signBlobRequest email token m) = false
  · rw [if_pos hb]; exact ⟨_, rfl⟩
  rw [if_neg hb] at hl ha ⊢
  simp only [World.sent, List.append_cancel_left_eq, List.cons.injEq, and_true] at hl
  obtain ⟨_, status, h1, h2, hn⟩ := ha
  rw [← hl] at hn
  rw [fetchOutcome_ok.2 ⟨status, h1, h2, hn⟩]
  simp only
  cases hp : parseSignBlobResponse text with
  | none => exact ⟨_, rfl⟩
  | some blob =>
    simp only
    have := hbad blob (parseSignBlobResponse_iff.1 hp)
    rw [← b64Decode_eq] at this
    rw [this]
    exact ⟨_, rfl⟩

/-- The running example signs; a blob with a wrong character is an error. -/
example : (Conformance.btKey.sign Conformance.btEnv [1, 2] Conformance.world).1 = .ok [0, 1, 255] ∧
    (Conformance.btKey.sign { Conformance.btEnv with net := fun k r => match k with
      | 2 => .response 200 (some (s% "{\"keyId\":\"k\",\"signedBlob\":\"AA*/\"}"))
      | _ => Conformance.btNet k r } [1, 2] Conformance.world).1 =
      .err .signBlobRequestSuccessResponseBase64Decode := by decide +kernel

/-! ### C43 -/

/-- C43, the violation: `expires_in = u64::MAX` panics. -/
theorem C43_counterexample : ∃ env bt w, (∀ k, 0 ≤ env.now k) ∧ w.caches bt.id = none ∧
    (getEmailAndToken env bt w).1 = .panic .expiresOverflow := by
  refine ⟨{ Conformance.btEnv with net := fun k r => match k with
      | 1 => .response 200 (some (s% "{\"access_token\":\"\",\"expires_in\":18446744073709551615,\"token_type\":\"Bearer\"}"))
      | _ => Conformance.btNet k r }, Conformance.btKey, Conformance.world, ?_, rfl, by decide +kernel⟩
  intro k
  exact (by decide : (0 : Int) ≤ 1640995200 * nsPerSec)

/-- C43. Getting e-mail and token panics exactly when the cached expiry or the clock is before 1970, or when both metadata
requests are answered, the token is a Bearer token, and it lives beyond the last instant that the clock type can
represent. -/
theorem C43_panic_iff (env : Env) (bt : BoundToken) (w : World) (s : PanicSite) :
    (getEmailAndToken env bt w).1 = .panic s ↔ TokenPanics env bt w s := getEmailAndToken_panic_iff

/-- Each of the three cases occurs. -/
example : TokenPanics { Conformance.btEnv with net := fun k r => match k with
      | 1 => .response 200 (some (s% "{\"access_token\":\"\",\"expires_in\":18446744073709551615,\"token_type\":\"Bearer\"}"))
      | _ => Conformance.btNet k r } Conformance.btKey Conformance.world .expiresOverflow ∧
    TokenPanics { Conformance.btEnv with now := fun _ => -1 } Conformance.btKey
      { Conformance.world with caches := fun _ => some ⟨[], [], 5⟩ } .nowBeforeEpoch ∧
    TokenPanics Conformance.btEnv Conformance.btKey
      { Conformance.world with caches := fun _ => some ⟨[], [], -1⟩ } .expiresBeforeEpoch := by
  refine ⟨(C43_panic_iff _ _ _ _).1 (by decide +kernel), (C43_panic_iff _ _ _ _).1 (by decide +kernel),
    (C43_panic_iff _ _ _ _).1 (by decide +kernel)⟩

/-! ### C44 -/

theorem refresh_other (env : Env) (bt : BoundToken) (w : World) (i : Nat) (hi : i ≠ bt.id) :
    (refresh env bt w).2.caches i = w.caches i := by
  have hfail := refresh_not_ok (env := env) (bt := bt) (w := w)
  generalize hg : refresh env bt w = x at hfail ⊢
  obtain ⟨r, w'⟩ := x
  cases r with
  | ok p =>
    obtain ⟨email, token⟩ := p
    obtain ⟨life, hw, _⟩ := refresh_ok hg
    subst hw
    simp [World.store, World.sent, World.tick, hi]
  | err e => rw [← hfail (by simp)]
  | panic e => rw [← hfail (by simp)]

theorem getEmailAndToken_other (env : Env) (bt : BoundToken) (w : World) (i : Nat) (hi : i ≠ bt.id) :
    (getEmailAndToken env bt w).2.caches i = w.caches i := by
  rw [getEmailAndToken_eq]
  cases w.caches bt.id with
  | none => exact refresh_other env bt w i hi
  | some c =>
    simp only
    split
    · rfl
    · split
      · rfl
      · split
        · rfl
        · rw [refresh_other env bt _ i hi]; rfl

/-- C44. A call on one key leaves the cache of every other key alone (keys are told apart by the identity of their
shared cache). -/
theorem C44_other_keys_untouched (env : Env) (bt other : BoundToken) (m : Bytes) (w : World) (h : other.id ≠ bt.id) :
    (getEmailAndToken env bt w).2.caches other.id = w.caches other.id ∧
    (bt.sign env m w).2.caches other.id = w.caches other.id := by
  refine ⟨getEmailAndToken_other env bt w _ h, ?_⟩
  rw [C34_sign_caches]
  exact getEmailAndToken_other env bt w _ h

/-- C44. A new key has an identity of its own, different from that of every key made before, and an empty cache; the
caches of the other keys stay. Its base URL is the metadata host. -/
theorem C44_new_key_is_fresh (env : Env) (w : World) :
    ∃ bt w', (BoundToken.new env : M BoundTokenError BoundToken) w = (.ok bt, w') ∧ bt.id = w.nextId ∧ w'.nextId = w.nextId + 1 ∧
      w'.caches bt.id = none ∧ (∀ i, i < w.nextId → w'.caches i = w.caches i) ∧
      bt.baseUrl = s% "http://" ++ env.metadataHost.getD (s% "metadata.google.internal") := by
  refine ⟨_, _, rfl, rfl, rfl, by simp, ?_, rfl⟩
  intro i hi
  simp only
  rw [if_neg (by omega)]

/-- C44. A clone (the same identity) sees the token that the original cached: it returns it without any request. -/
theorem C44_clones_share (env : Env) (bt clone : BoundToken) (w w' : World) (email token : Str)
    (hid : clone.id = bt.id) (h : getEmailAndToken env bt w = (.ok (email, token), w')) :
    ∃ c, w'.caches clone.id = some c ∧ c.email = email ∧ c.token = token ∧
      (0 ≤ env.now w'.ticks → env.now w'.ticks + 30 * 1000000000 < c.expires →
        ∃ w'', getEmailAndToken env clone w' = (.ok (email, token), w'') ∧ w''.log = w'.log) := by
  have hcache : ∃ c, w'.caches bt.id = some c ∧ c.email = email ∧ c.token = token := by
    rcases getEmailAndToken_ok h with ⟨c, hc, he, ht, _, _, _, hw⟩ | ⟨w1, hw1, hr⟩
    · exact ⟨c, by rw [hw]; exact hc, he, ht⟩
    · obtain ⟨life, hw', _⟩ := refresh_ok hr
      exact ⟨_, by rw [hw']; simp [World.store]; rfl, rfl, rfl⟩
  obtain ⟨c, hc, he, ht⟩ := hcache
  refine ⟨c, by rw [hid]; exact hc, he, ht, fun h0 h1 => ?_⟩
  obtain ⟨w'', hg, hl, _⟩ := C33_cached env clone w' c (by rw [hid]; exact hc) h0 h1
  exact ⟨w'', by rw [hg, he, ht], hl⟩

/-- The running example's key and a second one. -/
example : (2 : Nat) ≠ Conformance.btKey.id ∧
    (getEmailAndToken Conformance.btEnv ⟨0, s% "http://metadata.google.internal"⟩
      (getEmailAndToken Conformance.btEnv Conformance.btKey Conformance.world).2).2.log.length = 2 := by
  refine ⟨by decide, by decide +kernel⟩

/-! ### The builders -/

/-- C44. Building a form or a URL changes at most the cache of its own key. -/
theorem C44_builds_touch_own_key_only (env : Env) (cs : List Call) (u : UrlOptions) (w : World) (i : Nat) :
    ((∀ o bt, (cs.filterMap callOptions).getLast? = some o → o.signingKey = .boundToken bt → i ≠ bt.id) →
      ((Builder.ofCalls cs).build env w).2.caches i = w.caches i) ∧
    ((∀ bt, u.signingKey = .boundToken bt → i ≠ bt.id) → (buildSignedUrl env u w).2.caches i = w.caches i) := by
  constructor
  · intro h
    refine keeps_build (R := fun a b => b.caches i = a.caches i) (fun _ => rfl) (fun _ _ _ h1 h2 => h2.trans h1)
      (fun _ => rfl) env _ (fun o bt ho hk w => ?_) (fun o bt m ho hk w => ?_) w
    · exact getEmailAndToken_other env bt w i (h o bt ((ofCalls_spec cs).options.symm.trans ho) hk)
    · exact (C44_other_keys_untouched env bt ⟨i, []⟩ m w (h o bt ((ofCalls_spec cs).options.symm.trans ho) hk)).2
  · intro h
    refine keeps_buildSignedUrl (R := fun a b => b.caches i = a.caches i) (fun _ => rfl) (fun _ _ _ h1 h2 => h2.trans h1)
      (fun _ => rfl) env _ (fun bt hk w => ?_) (fun bt m hk w => ?_) w
    · exact getEmailAndToken_other env bt w i (h bt hk)
    · exact (C44_other_keys_untouched env bt ⟨i, []⟩ m w (h bt hk)).2

/-- The pair is in the cache of the key before the call, or came from one refresh recorded in the log. -/
def KnownPair (env : Env) (bt : BoundToken) (w : World) (log : List Request) (email token : Str) : Prop :=
  (∃ c, w.caches bt.id = some c ∧ c.email = email ∧ c.token = token) ∨
  ∃ k life, FromRefresh env bt.baseUrl log k email token life

/-- A request that a bound-token key may send: one of the two metadata GETs, or the signBlob POST of a known pair. -/
def Allowed (env : Env) (bt : BoundToken) (w : World) (log : List Request) (r : Request) : Prop :=
  r = metadataGet (emailUrl bt.baseUrl) ∨ r = metadataGet (tokenUrl bt.baseUrl) ∨
  ∃ email token body, KnownPair env bt w log email token ∧ r =
    { method := s% "POST",
      url := s% "https://iamcredentials.googleapis.com/v1/projects/-/serviceAccounts/" ++ email ++ s% ":signBlob",
      headers := [(s% "authorization", s% "Bearer " ++ token), (s% "content-type", s% "application/json")],
      body := some body }

theorem fromRefresh_append {env : Env} {base : Str} {log : List Request} {k : Nat} {e t : Str} {life : Nat}
    (h : FromRefresh env base log k e t life) (more : List Request) : FromRefresh env base (log ++ more) k e t life := by
  have app : ∀ (j : Nat) (r : Request), log[j]? = some r → (log ++ more)[j]? = some r := by
    intro j r hj
    have : j < log.length := by
      rcases Nat.lt_or_ge j log.length with h | h
      · exact h
      · rw [List.getElem?_eq_none h] at hj; cases hj
    rw [List.getElem?_append_left this, hj]
  obtain ⟨⟨h1, h2⟩, body, ⟨h3, h4⟩, h5⟩ := h
  exact ⟨⟨app _ _ h1, h2⟩, body, ⟨app _ _ h3, h4⟩, h5⟩

/-- What C40 says of a step from `a` to `b`. -/
structure Honest (env : Env) (bt : BoundToken) (a b : World) : Prop where
  sent : ∃ more, b.log = a.log ++ more ∧ ∀ r ∈ more, Allowed env bt a b.log r
  cached : ∀ c, b.caches bt.id = some c → KnownPair env bt a b.log c.email c.token

theorem Honest.refl (env : Env) (bt : BoundToken) (a : World) : Honest env bt a a :=
  ⟨⟨[], by simp, by simp⟩, fun c hc => .inl ⟨c, hc, rfl, rfl⟩⟩

theorem Honest.trans {env : Env} {bt : BoundToken} {a b c : World} (h1 : Honest env bt a b) (h2 : Honest env bt b c) :
    Honest env bt a c := by
  obtain ⟨⟨m1, hl1, hs1⟩, hc1⟩ := h1
  obtain ⟨⟨m2, hl2, hs2⟩, hc2⟩ := h2
  have known : ∀ e t, KnownPair env bt a b.log e t → KnownPair env bt a c.log e t := by
    intro e t h
    rcases h with h | ⟨k, life, h⟩
    · exact .inl h
    · exact .inr ⟨k, life, by rw [hl2]; exact fromRefresh_append h _⟩
  have known' : ∀ e t, KnownPair env bt b c.log e t → KnownPair env bt a c.log e t := by
    intro e t h
    rcases h with ⟨x, hx, rfl, rfl⟩ | h
    · exact known _ _ (hc1 x hx)
    · exact .inr h
  refine ⟨⟨m1 ++ m2, by rw [hl2, hl1, List.append_assoc], fun r hr => ?_⟩, fun x hx => known' _ _ (hc2 x hx)⟩
  rcases List.mem_append.1 hr with hr | hr
  · rcases hs1 r hr with h | h | ⟨e, t, body, h, hr⟩
    · exact .inl h
    · exact .inr (.inl h)
    · exact .inr (.inr ⟨e, t, body, known e t h, hr⟩)
  · rcases hs2 r hr with h | h | ⟨e, t, body, h, hr⟩
    · exact .inl h
    · exact .inr (.inl h)
    · exact .inr (.inr ⟨e, t, body, known' e t h, hr⟩)

theorem honest_get (env : Env) (bt : BoundToken) (w : World) : Honest env bt w (getEmailAndToken env bt w).2 := by
  obtain ⟨more, hl, hm⟩ := (C40_requests env bt [] w).1
  refine ⟨⟨more, hl, fun r hr => ?_⟩, fun c hc => ?_⟩
  · rcases hm r hr with h | h
    · exact .inl h
    · exact .inr (.inl h)
  · rcases (C39_bearer_only env bt w).2 c hc with h | ⟨k, life, j, _, h, _⟩
    · exact .inl ⟨c, h, rfl, rfl⟩
    · exact .inr ⟨k, life, h⟩

theorem honest_sign (env : Env) (bt : BoundToken) (m : Bytes) (w : World) : Honest env bt w (bt.sign env m w).2 := by
  have hg := honest_get env bt w
  have hc := C34_sign_caches env bt m w
  have ho := fun email token w' h => C44_clones_share env bt bt w w' email token rfl h
  have hs := (C40_requests env bt m w).2
  generalize getEmailAndToken env bt w = x at hg hc ho hs
  generalize bt.sign env m w = y at hc hs ⊢
  obtain ⟨r, w1⟩ := x
  obtain ⟨r', w2⟩ := y
  refine hg.trans ?_
  simp only at hc hs ⊢
  rcases hs with h | ⟨email, token, body, hr, h⟩
  · exact ⟨⟨[], by simp [h], by simp⟩, fun c hc' => .inl ⟨c, by rw [← hc]; exact hc', rfl, rfl⟩⟩
  · refine ⟨⟨_, h, fun r hm => ?_⟩, fun c hc' => .inl ⟨c, by rw [← hc]; exact hc', rfl, rfl⟩⟩
    refine .inr (.inr ⟨email, token, body, ?_, List.mem_singleton.1 hm⟩)
    subst hr
    obtain ⟨c, hc1, h1, h2, _⟩ := ho email token w1 rfl
    exact .inl ⟨c, hc1, h1, h2⟩

/-- C40. Whatever a form build or a URL build with a bound-token key sends, it is a metadata GET of that key's host or
a signBlob POST whose URL and token belong to one pair: the pair cached before the call, or a pair of one refresh. -/
theorem C40_build_requests (env : Env) (cs : List Call) (o : SigningOptions) (u : UrlOptions) (bt : BoundToken) (w : World) :
    ((cs.filterMap callOptions).getLast? = some o → o.signingKey = .boundToken bt →
      ∃ more, ((Builder.ofCalls cs).build env w).2.log = w.log ++ more ∧
        ∀ r ∈ more, Allowed env bt w ((Builder.ofCalls cs).build env w).2.log r) ∧
    (u.signingKey = .boundToken bt →
      ∃ more, (buildSignedUrl env u w).2.log = w.log ++ more ∧
        ∀ r ∈ more, Allowed env bt w (buildSignedUrl env u w).2.log r) := by
  constructor
  · intro ho hk
    have hbt : ∀ o' bt', (Builder.ofCalls cs).signingOptions = some o' → o'.signingKey = .boundToken bt' → bt' = bt := by
      intro o' bt' ho' hk'
      rw [(ofCalls_spec cs).options, ho] at ho'
      cases ho'
      rw [hk] at hk'
      cases hk'
      rfl
    refine (keeps_build (R := Honest env bt) (Honest.refl env bt) (fun _ _ _ => Honest.trans)
      (fun a => ⟨⟨[], by simp [World.tick], by simp⟩, fun c hc => .inl ⟨c, hc, rfl, rfl⟩⟩) env _
      (fun o' bt' ho' hk' w => ?_) (fun o' bt' m ho' hk' w => ?_) w).sent
    · rw [hbt o' bt' ho' hk']; exact honest_get env bt w
    · rw [hbt o' bt' ho' hk']; exact honest_sign env bt m w
  · intro hk
    have hbt : ∀ bt', u.signingKey = .boundToken bt' → bt' = bt := by
      intro bt' hk'
      rw [hk] at hk'
      cases hk'
      rfl
    refine (keeps_buildSignedUrl (R := Honest env bt) (Honest.refl env bt) (fun _ _ _ => Honest.trans)
      (fun a => ⟨⟨[], by simp [World.tick], by simp⟩, fun c hc => .inl ⟨c, hc, rfl, rfl⟩⟩) env _
      (fun bt' hk' w => ?_) (fun bt' m hk' w => ?_) w).sent
    · rw [hbt bt' hk']; exact honest_get env bt w
    · rw [hbt bt' hk']; exact honest_sign env bt m w

/-- Both builds of the running example send three requests, the last of them a POST. -/
example : ((Builder.ofCalls Conformance.btCalls).build Conformance.btEnv Conformance.world).2.log.map (·.method) =
      [s% "GET", s% "GET", s% "POST"] ∧
    (buildSignedUrl Conformance.btEnv Conformance.btUrlOptions Conformance.world).2.log.map (·.method) =
      [s% "GET", s% "GET", s% "POST"] := by decide +kernel

end CSS
