import Verif.Spec.Secrets
import Verif.Props.Documents
import Verif.Props.UrlErrors
import Verif.Props.FormErrors
import Verif.Props.FormReturns
import Verif.Props.UrlReturns
import Verif.Conformance
/-
C64: what a result reveals about private keys, HMAC secrets and access tokens: a service account's key only through
its signature, the others nothing.
-/
set_option linter.unusedSimpArgs false
namespace CSS
open Spec

/-- Two results of a token request: same failure, or the same e-mail. -/
inductive SameEmail : Res BoundTokenError (Str × Str) → Res BoundTokenError (Str × Str) → Prop
  | ok (email t₁ t₂ : Str) : SameEmail (.ok (email, t₁)) (.ok (email, t₂))
  | err (e : BoundTokenError) : SameEmail (.err e) (.err e)
  | panic (s : PanicSite) : SameEmail (.panic s) (.panic s)

variable {env₁ env₂ : Env} {w₁ w₂ : World}

theorem Spec.SameButCachedTokens.length (h : SameButCachedTokens w₁ w₂) : w₁.log.length = w₂.log.length := by
  have := congrArg List.length h.log
  simpa using this

theorem Spec.SameButCachedTokens.sent (h : SameButCachedTokens w₁ w₂) {r₁ r₂ : Request}
    (hr : hideAuthorization r₁ = hideAuthorization r₂) : SameButCachedTokens (w₁.sent r₁) (w₂.sent r₂) :=
  ⟨h.nextId, h.ticks, by simp [World.sent, h.log, hr], h.caches⟩

theorem Spec.SameButCachedTokens.tick (h : SameButCachedTokens w₁ w₂) : SameButCachedTokens w₁.tick w₂.tick :=
  ⟨h.nextId, by simp [World.tick, h.ticks], h.log, h.caches⟩

theorem Spec.SameButCachedTokens.store (h : SameButCachedTokens w₁ w₂) (id : Nat) (email t₁ t₂ : Str) (x : Time) :
    SameButCachedTokens (w₁.store id ⟨email, t₁, x⟩) (w₂.store id ⟨email, t₂, x⟩) :=
  ⟨h.nextId, h.ticks, h.log, fun i => by
    simp only [World.store]
    split
    · rfl
    · exact h.caches i⟩

theorem Spec.SameButTokens.now (h : SameButTokens env₁ env₂) : env₂.now = env₁.now := by
  obtain ⟨_, _, he⟩ := h.rest
  rw [he]

theorem getLast_append_ne {a b c d : Str} (h : a ++ c = b ++ d) (hc : c.getLast? ≠ d.getLast?) (h1 : c ≠ []) (h2 : d ≠ []) :
    False := by
  apply hc
  have := congrArg List.getLast? h
  rw [List.getLast?_append, List.getLast?_append, List.getLast?_eq_some_getLast h1, List.getLast?_eq_some_getLast h2] at this
  rw [List.getLast?_eq_some_getLast h1, List.getLast?_eq_some_getLast h2]
  exact this

theorem Spec.SameAnswer.eq {r : Request} {a₁ a₂ : NetResult} (h : SameAnswer r a₁ a₂) (hr : ¬ AsksForToken r) : a₁ = a₂ := by
  rcases h with h | ⟨h, _⟩
  · exact h
  · exact absurd h hr

theorem email_not_token (bt : BoundToken) : ¬ AsksForToken (emailRequest bt) := by
  rintro ⟨base, h⟩
  exact getLast_append_ne h (by decide) (by decide) (by decide)

theorem blob_not_token (email token : Str) (m : Bytes) : ¬ AsksForToken (signBlobRequest email token m) := by
  rintro ⟨base, h⟩
  exact getLast_append_ne h (by decide) (by decide) (by decide)

theorem signBlob_same (email t₁ t₂ : Str) (m : Bytes) :
    hideAuthorization (signBlobRequest email t₁ m) = hideAuthorization (signBlobRequest email t₂ m) := by
  simp [hideAuthorization, signBlobRequest]

theorem refreshEnd_same (he : SameButTokens env₁ env₂) (hw : SameButCachedTokens w₁ w₂) (bt : BoundToken) (email : Str)
    {b₁ b₂ : Str} (hb : (∃ t₁ t₂, parseAccessToken b₁ = some t₁ ∧ parseAccessToken b₂ = some t₂ ∧
      t₁.expiresIn = t₂.expiresIn ∧ t₁.tokenType = t₂.tokenType) ∨ b₁ = b₂) :
    SameEmail (refreshEnd env₁ bt email b₁ w₁).1 (refreshEnd env₂ bt email b₂ w₂).1 ∧
      SameButCachedTokens (refreshEnd env₁ bt email b₁ w₁).2 (refreshEnd env₂ bt email b₂ w₂).2 := by
  have key : ∀ t₁ t₂, t₁.expiresIn = t₂.expiresIn → t₁.tokenType = t₂.tokenType →
      parseAccessToken b₁ = some t₁ → parseAccessToken b₂ = some t₂ →
      SameEmail (refreshEnd env₁ bt email b₁ w₁).1 (refreshEnd env₂ bt email b₂ w₂).1 ∧
      SameButCachedTokens (refreshEnd env₁ bt email b₁ w₁).2 (refreshEnd env₂ bt email b₂ w₂).2 := by
    intro t₁ t₂ h1 h2 h3 h4
    unfold refreshEnd
    rw [h3, h4]
    simp only
    rw [h1, h2, he.now, hw.ticks]
    split
    · exact ⟨.err _, hw⟩
    · split
      · exact ⟨.panic _, hw.tick⟩
      · exact ⟨.ok _ _ _, hw.tick.store _ _ _ _ _⟩
  rcases hb with ⟨t₁, t₂, h3, h4, h1, h2⟩ | rfl
  · exact key t₁ t₂ h1 h2 h3 h4
  · cases hp : parseAccessToken b₁ with
    | none =>
      unfold refreshEnd
      rw [hp]
      exact ⟨.err _, hw⟩
    | some t => exact key t t rfl rfl hp hp

theorem refresh_same (he : SameButTokens env₁ env₂) (hw : SameButCachedTokens w₁ w₂) (bt : BoundToken) :
    SameEmail (refresh env₁ bt w₁).1 (refresh env₂ bt w₂).1 ∧
      SameButCachedTokens (refresh env₁ bt w₁).2 (refresh env₂ bt w₂).2 := by
  rw [refresh_eq, refresh_eq, ← he.built _ _ rfl, ← he.built _ _ rfl, hw.length]
  split
  · exact ⟨.err _, hw⟩
  have e1 : env₁.net w₂.log.length (emailRequest bt) = env₂.net w₂.log.length (emailRequest bt) :=
    (he.answers _ _ _ rfl).eq (email_not_token bt)
  rw [e1]
  have hw1 := hw.sent (r₁ := emailRequest bt) (r₂ := emailRequest bt) rfl
  split
  · exact ⟨.err _, hw1⟩
  · exact ⟨.panic _, hw1⟩
  rename_i email _
  split
  · exact ⟨.err _, hw1⟩
  have hw2 := hw1.sent (r₁ := tokenRequest bt) (r₂ := tokenRequest bt) rfl
  have ha := he.answers (w₂.log.length + 1) _ _ (rfl : hideAuthorization (tokenRequest bt) = _)
  rcases ha with ha | ⟨_, st, x₁, x₂, t₁, t₂, life, type, s1, s2, a1, a2, d1, d2⟩
  · rw [ha]
    split
    · exact ⟨.err _, hw2⟩
    · exact ⟨.panic _, hw2⟩
    · exact refreshEnd_same he hw2 bt _ (.inr rfl)
  · rw [fetchOutcome_ok.2 ⟨st, s1, s2, a1⟩, fetchOutcome_ok.2 ⟨st, s1, s2, a2⟩]
    exact refreshEnd_same he hw2 bt _ (.inl ⟨_, _, (C55_token_text _ _ _ _).2 d1, (C55_token_text _ _ _ _).2 d2, rfl, rfl⟩)

theorem getEmailAndToken_same (he : SameButTokens env₁ env₂) (hw : SameButCachedTokens w₁ w₂) (bt : BoundToken) :
    SameEmail (getEmailAndToken env₁ bt w₁).1 (getEmailAndToken env₂ bt w₂).1 ∧
      SameButCachedTokens (getEmailAndToken env₁ bt w₁).2 (getEmailAndToken env₂ bt w₂).2 := by
  rw [getEmailAndToken_eq, getEmailAndToken_eq]
  have hc := hw.caches bt.id
  cases h1 : w₁.caches bt.id with
  | none =>
    cases h2 : w₂.caches bt.id with
    | none => exact refresh_same he hw bt
    | some c => rw [h1, h2] at hc; cases hc
  | some c₁ =>
    cases h2 : w₂.caches bt.id with
    | none => rw [h1, h2] at hc; cases hc
    | some c₂ =>
      rw [h1, h2] at hc
      simp only [Option.map_some, Option.some.injEq, Prod.mk.injEq] at hc
      simp only
      rw [hc.1, hc.2, he.now, hw.ticks]
      split
      · exact ⟨.panic _, hw⟩
      · split
        · exact ⟨.panic _, hw.tick⟩
        · split
          · exact ⟨.ok _ _ _, hw.tick⟩
          · exact refresh_same he hw.tick bt

theorem authorizer_same (he : SameButTokens env₁ env₂) (hw : SameButCachedTokens w₁ w₂) (key : SigningKey) :
    (key.authorizer env₁ w₁).1 = (key.authorizer env₂ w₂).1 ∧
      SameButCachedTokens (key.authorizer env₁ w₁).2 (key.authorizer env₂ w₂).2 := by
  cases key with
  | hmac a s => exact ⟨rfl, hw⟩
  | serviceAccount a s => exact ⟨rfl, hw⟩
  | boundToken bt =>
    rw [authorizer_boundToken_eq, authorizer_boundToken_eq]
    obtain ⟨h1, h2⟩ := getEmailAndToken_same he hw bt
    generalize getEmailAndToken env₁ bt w₁ = x at *
    generalize getEmailAndToken env₂ bt w₂ = y at *
    obtain ⟨x, v₁⟩ := x
    obtain ⟨y, v₂⟩ := y
    simp only at h1 h2
    cases h1 <;> exact ⟨rfl, h2⟩

theorem boundSign_same (he : SameButTokens env₁ env₂) (hw : SameButCachedTokens w₁ w₂) (bt : BoundToken) (m : Bytes) :
    (bt.sign env₁ m w₁).1 = (bt.sign env₂ m w₂).1 ∧
      SameButCachedTokens (bt.sign env₁ m w₁).2 (bt.sign env₂ m w₂).2 := by
  rw [sign_eq, sign_eq]
  obtain ⟨h1, h2⟩ := getEmailAndToken_same he hw bt
  generalize getEmailAndToken env₁ bt w₁ = x at *
  generalize getEmailAndToken env₂ bt w₂ = y at *
  obtain ⟨x, v₁⟩ := x
  obtain ⟨y, v₂⟩ := y
  simp only at h1 h2
  cases h1 with
  | err e => exact ⟨rfl, h2⟩
  | panic e => exact ⟨rfl, h2⟩
  | ok email t₁ t₂ =>
    simp only
    rw [← he.built _ _ (signBlob_same email t₁ t₂ m), h2.length]
    split
    · exact ⟨rfl, h2⟩
    · have := (he.answers v₂.log.length _ _ (signBlob_same email t₁ t₂ m)).eq (blob_not_token email t₁ m)
      rw [this]
      exact ⟨rfl, h2.sent (signBlob_same email t₁ t₂ m)⟩

theorem sign_same (he : SameButTokens env₁ env₂) (hw : SameButCachedTokens w₁ w₂) (key : SigningKey) (u : Bool) (m : Bytes) :
    (key.sign env₁ u m w₁).1 = (key.sign env₂ u m w₂).1 ∧
      SameButCachedTokens (key.sign env₁ u m w₁).2 (key.sign env₂ u m w₂).2 := by
  obtain ⟨cb, net, hen⟩ := he.rest
  cases key with
  | hmac a s => unfold SigningKey.sign; exact ⟨rfl, hw⟩
  | serviceAccount a s =>
    unfold SigningKey.sign
    cases u with
    | true => exact ⟨rfl, hw⟩
    | false => rw [hen]; exact ⟨rfl, hw⟩
  | boundToken bt =>
    unfold SigningKey.sign
    cases u with
    | false => exact ⟨rfl, hw⟩
    | true =>
      obtain ⟨h1, h2⟩ := boundSign_same he hw bt m
      simp only [if_true, M.mapErr_run]
      exact ⟨by rw [h1], h2⟩

theorem Spec.SameButCachedTokens.clocked (h : SameButCachedTokens w₁ w₂) (t : Option Time) :
    SameButCachedTokens (clocked t w₁) (clocked t w₂) := by
  cases t with
  | none => exact h.tick
  | some t => exact h

/-- C64. Access tokens do not influence URLs: if two runs differ only in the tokens the metadata server hands out (or that
are cached), `build_signed_url` returns the same URL, the same error or the same panic, and sends the same requests up to
the value of their authorization header. -/
theorem C64_url_hides_tokens (he : SameButTokens env₁ env₂) (hw : SameButCachedTokens w₁ w₂) (o : UrlOptions) :
    (buildSignedUrl env₁ o w₁).1 = (buildSignedUrl env₂ o w₂).1 ∧
      SameButCachedTokens (buildSignedUrl env₁ o w₁).2 (buildSignedUrl env₂ o w₂).2 := by
  have ht : validFrom env₂ o.accessibleAt w₂ = validFrom env₁ o.accessibleAt w₁ := by
    unfold validFrom; rw [he.now, hw.ticks]
  have hr : ∀ t, urlRejection env₂ o t = urlRejection env₁ o t := by
    obtain ⟨_, _, hen⟩ := he.rest; intro t; rw [hen]; rfl
  have hf : ∀ ps, fullUrl env₂ o ps = fullUrl env₁ o ps := by
    obtain ⟨_, _, hen⟩ := he.rest; intro t; rw [hen]; rfl
  have hp : ∀ t e, partsOf env₂ o t e = partsOf env₁ o t e := by
    obtain ⟨_, _, hen⟩ := he.rest; intro t e; rw [hen]; rfl
  have ho : ∀ t, Overflows env₂ o t ↔ Overflows env₁ o t := by
    obtain ⟨_, _, hen⟩ := he.rest; intro t; rw [hen]; exact Iff.rfl
  by_cases hover : Overflows env₁ o (validFrom env₁ o.accessibleAt w₁)
  · rw [buildSignedUrl_overflows _ _ _ hover, buildSignedUrl_overflows _ _ _ (ht ▸ (ho _).2 hover)]
    exact ⟨rfl, hw.clocked o.accessibleAt⟩
  rw [buildSignedUrl_eq _ _ _ hover, buildSignedUrl_eq _ _ _ (ht ▸ fun h => hover ((ho _).1 h))]
  rw [ht, hr]
  generalize validFrom env₁ o.accessibleAt w₁ = t
  have hw1 := hw.clocked o.accessibleAt
  cases urlRejection env₁ o t with
  | some e => exact ⟨rfl, hw1⟩
  | none =>
    obtain ⟨h1, h2⟩ := authorizer_same he hw1 o.signingKey
    simp only
    generalize o.signingKey.authorizer env₁ (clocked o.accessibleAt w₁) = x at *
    generalize o.signingKey.authorizer env₂ (clocked o.accessibleAt w₂) = y at *
    obtain ⟨x, v₁⟩ := x
    obtain ⟨y, v₂⟩ := y
    simp only at h1 h2
    cases h1
    cases x with
    | err e => exact ⟨rfl, h2⟩
    | panic e => exact ⟨rfl, h2⟩
    | ok email =>
      simp only
      rw [hf, hp]
      split
      · exact ⟨rfl, h2⟩
      split
      · exact ⟨rfl, h2⟩
      obtain ⟨h3, h4⟩ := sign_same he h2 o.signingKey o.useSignBlob (utf8 ((partsOf env₁ o t email).stringToSign))
      generalize o.signingKey.sign env₁ o.useSignBlob (utf8 ((partsOf env₁ o t email).stringToSign)) v₁ = x at *
      generalize o.signingKey.sign env₂ o.useSignBlob (utf8 ((partsOf env₁ o t email).stringToSign)) v₂ = y at *
      obtain ⟨x, u₁⟩ := x
      obtain ⟨y, u₂⟩ := y
      simp only at h3 h4
      cases h3
      cases x <;> exact ⟨rfl, h4⟩

/-- C64. Access tokens do not influence forms. -/
theorem C64_form_hides_tokens (he : SameButTokens env₁ env₂) (hw : SameButCachedTokens w₁ w₂) (cs : List Call) :
    ((Builder.ofCalls cs).build env₁ w₁).1 = ((Builder.ofCalls cs).build env₂ w₂).1 ∧
      SameButCachedTokens ((Builder.ofCalls cs).build env₁ w₁).2 ((Builder.ofCalls cs).build env₂ w₂).2 := by
  cases ho : (cs.filterMap callOptions).getLast? with
  | none =>
    have hn : ∀ c ∈ cs, callOptions c = none :=
      List.filterMap_eq_nil_iff.1 (List.getLast?_eq_none_iff.1 ho)
    rw [C01_unsigned_form env₁ cs w₁ hn, C01_unsigned_form env₂ cs w₂ hn]
    exact ⟨rfl, hw⟩
  | some o =>
    rw [build_signed_eq env₁ cs o w₁ ho, build_signed_eq env₂ cs o w₂ ho]
    have ht : validFrom env₂ o.accessibleAt w₂ = validFrom env₁ o.accessibleAt w₁ := by
      unfold validFrom; rw [he.now, hw.ticks]
    rw [ht]
    generalize validFrom env₁ o.accessibleAt w₁ = t
    have hw1 := hw.clocked o.accessibleAt
    cases formRejection cs o t with
    | some e => exact ⟨rfl, hw1⟩
    | none =>
      obtain ⟨h1, h2⟩ := authorizer_same he hw1 o.signingKey
      simp only
      generalize o.signingKey.authorizer env₁ (clocked o.accessibleAt w₁) = x at *
      generalize o.signingKey.authorizer env₂ (clocked o.accessibleAt w₂) = y at *
      obtain ⟨x, v₁⟩ := x
      obtain ⟨y, v₂⟩ := y
      simp only at h1 h2
      cases h1
      cases x with
      | err e => exact ⟨rfl, h2⟩
      | panic e => exact ⟨rfl, h2⟩
      | ok email =>
        simp only
        split
        · exact ⟨rfl, h2⟩
        generalize (policyFields (Builder.ofCalls cs) ((lastValue cs (s% "bucket")).getD []) ((lastValue cs (s% "key")).getD [])
          o email t []).policy = policy
        obtain ⟨h3, h4⟩ := sign_same he h2 o.signingKey o.useSignBlob (utf8 policy)
        generalize o.signingKey.sign env₁ o.useSignBlob (utf8 policy) v₁ = x at *
        generalize o.signingKey.sign env₂ o.useSignBlob (utf8 policy) v₂ = y at *
        obtain ⟨x, u₁⟩ := x
        obtain ⟨y, u₂⟩ := y
        simp only at h3 h4
        cases h3
        cases x <;> exact ⟨rfl, h4⟩

/-- Two metadata servers that hand out different tokens. -/
def tokenNet (token : Str) (k : Nat) (r : Request) : NetResult :=
  if r.url = s% "http://metadata.google.internal/computeMetadata/v1/instance/service-accounts/default/token" then
    .response 200 (some (s% "{\"access_token\":\"" ++ token ++ s% "\",\"expires_in\":3599,\"token_type\":\"Bearer\"}"))
  else Conformance.btNet k r

def tokenEnv (token : Str) : Env := { Conformance.btEnv with net := tokenNet token }

/-- They meet the conditions; with either, a form and a URL are signed and different authorizations are sent. -/
example : SameButTokens (tokenEnv (s% "tok")) (tokenEnv (s% "other")) ∧
    SameButCachedTokens Conformance.world Conformance.world ∧
    Conformance.succeeds ((Builder.ofCalls Conformance.btCalls).build (tokenEnv (s% "tok")) Conformance.world) = true ∧
    Conformance.succeeds (buildSignedUrl (tokenEnv (s% "tok")) { Conformance.urlOptions with
      signingKey := .boundToken Conformance.btKey, useSignBlob := true } Conformance.world) = true ∧
    ((Builder.ofCalls Conformance.btCalls).build (tokenEnv (s% "tok")) Conformance.world).2.log ≠
      ((Builder.ofCalls Conformance.btCalls).build (tokenEnv (s% "other")) Conformance.world).2.log := by
  refine ⟨⟨⟨_, _, rfl⟩, fun _ _ _ => rfl, ?_⟩, ⟨rfl, rfl, rfl, fun _ => rfl⟩, by decide +kernel, by decide +kernel,
    by decide +kernel⟩
  intro k r₁ r₂ h
  have hu : r₁.url = r₂.url := show (hideAuthorization r₁).url = (hideAuthorization r₂).url by rw [h]
  by_cases hr : r₂.url = s% "http://metadata.google.internal/computeMetadata/v1/instance/service-accounts/default/token"
  · refine .inr ⟨⟨s% "http://metadata.google.internal", by rw [hu, hr]; rfl⟩, 200, s% "{\"access_token\":\"tok\",\"expires_in\":3599,\"token_type\":\"Bearer\"}",
      s% "{\"access_token\":\"other\",\"expires_in\":3599,\"token_type\":\"Bearer\"}", _, _, 3599, s% "Bearer",
      by decide, by decide, ?_, ?_, (C55_token_text _ (s% "tok") 3599 (s% "Bearer")).1 (by decide +kernel),
      (C55_token_text _ (s% "other") 3599 (s% "Bearer")).1 (by decide +kernel)⟩
    · simp only [tokenEnv, tokenNet]
      rw [if_pos (hu.trans hr)]
      rfl
    · simp only [tokenEnv, tokenNet]
      rw [if_pos hr]
      rfl
  · left
    simp only [tokenEnv, tokenNet]
    rw [if_neg hr, if_neg (by rw [hu]; exact hr)]
    cases k with
    | zero => rfl
    | succ k => cases k with
      | zero => rfl
      | succ k => cases k <;> rfl

/-! ### the other secrets -/

/-- C64. A URL depends on a service account's private key only through the signature at its end, and two keys are asked to
sign the same message. -/
theorem C64_url_hides_private_key (env : Env) (o : UrlOptions) (email pem₁ pem₂ : Str) (w w₁ w₂ : World) (url₁ url₂ : Str)
    (h₁ : buildSignedUrl env { o with signingKey := .serviceAccount email pem₁ } w = (.ok url₁, w₁))
    (h₂ : buildSignedUrl env { o with signingKey := .serviceAccount email pem₂ } w = (.ok url₂, w₂)) :
    w₁ = w₂ ∧ ∃ front message der₁ der₂ signature₁ signature₂ hex₁ hex₂,
      url₁ = front ++ hex₁ ∧ url₂ = front ++ hex₂ ∧
      env.pemParse pem₁ = some der₁ ∧ env.rsaSign der₁ message = some signature₁ ∧ hexDecode hex₁ = some signature₁ ∧
      env.pemParse pem₂ = some der₂ ∧ env.rsaSign der₂ message = some signature₂ ∧ hexDecode hex₂ = some signature₂ := by
  obtain ⟨t, e, v, p, sig, hex, rfl, hv, hid, hl, hp, hparts, hsg, hx, rfl⟩ := (C62_returns_url_iff ..).1 h₁
  obtain ⟨t', e', v', p', sig', hex', rfl, hv', hid', hl', hp', hparts', hsg', hx', rfl⟩ := (C62_returns_url_iff ..).1 h₂
  cases hid
  cases hid'
  have e1 := (urlParts_iff ⟨hv.1, hv.2.1⟩ rfl).1 hparts
  have e2 := (urlParts_iff ⟨hv'.1, hv'.2.1⟩ rfl).1 hparts'
  have e3 : p = p' := by rw [e1, e2]; rfl
  subst e3
  simp only at hsg hsg'
  generalize o.useSignBlob = u at hsg hsg'
  cases hsg with
  | locally _ _ der _ _ k1 k2 k3 =>
    cases hsg' with
    | locally _ _ der' _ _ k1' k2' k3' =>
      exact ⟨rfl, _, _, der, der', sig, sig', hex, hex', rfl, rfl, k1, k3, hx, k1', k3', hx'⟩

/-- Two texts of a private key with which a URL is returned. -/
example : Conformance.succeeds (buildSignedUrl Conformance.env { Conformance.urlOptions with
      signingKey := .serviceAccount (s% "a@b.c") (s% "KEY 1") } Conformance.world) = true ∧
    Conformance.succeeds (buildSignedUrl Conformance.env { Conformance.urlOptions with
      signingKey := .serviceAccount (s% "a@b.c") (s% "KEY 2") } Conformance.world) = true := by decide +kernel

theorem withKey_sets (k : SigningKey) (cs : List Call) : (cs.map (withKey k)).filterMap callSets = cs.filterMap callSets := by
  rw [List.filterMap_map]
  congr 1
  funext c
  cases c <;> rfl

theorem withKey_meta (k : SigningKey) (cs : List Call) : (cs.map (withKey k)).filterMap callMeta = cs.filterMap callMeta := by
  rw [List.filterMap_map]
  congr 1
  funext c
  cases c <;> rfl

theorem withKey_options (k : SigningKey) (cs : List Call) :
    (cs.map (withKey k)).filterMap callOptions = (cs.filterMap callOptions).map fun o => { o with signingKey := k } := by
  induction cs with
  | nil => rfl
  | cons c cs ih =>
    rw [List.map_cons]
    cases c <;> simp only [withKey, List.filterMap_cons, callOptions, ih, List.map_cons]

theorem withKey_lastValue (k : SigningKey) (cs : List Call) (n : Str) : lastValue (cs.map (withKey k)) n = lastValue cs n := by
  unfold lastValue
  rw [withKey_sets]

theorem withKey_signedForm (k : SigningKey) (cs : List Call) (l : List (Str × Str)) :
    signedForm (cs.map (withKey k)) l = signedForm cs l := by
  unfold signedForm
  rw [withKey_meta]
  congr 2
  funext n
  rw [withKey_lastValue]

/-- What is left of a signed form without the fields `drop`. -/
theorem signedForm_filter (cs : List Call) (a c d p p' h h' : Str) (keep : Str → Bool)
    (hp : keep (s% "policy") = false ∨ p = p') (hs : keep (s% "x-goog-signature") = false ∨ h = h') :
    (signedForm cs [(s% "policy", p), (s% "x-goog-algorithm", a), (s% "x-goog-credential", c), (s% "x-goog-date", d),
      (s% "x-goog-signature", h)]).filter (fun f => keep f.1) =
    (signedForm cs [(s% "policy", p'), (s% "x-goog-algorithm", a), (s% "x-goog-credential", c), (s% "x-goog-date", d),
      (s% "x-goog-signature", h')]).filter fun f => keep f.1 := by
  unfold signedForm
  rw [List.filter_append, List.filter_append]
  congr 1
  simp only [filterMap_eq_flatMap, signedOrder, List.flatMap_cons, List.flatMap_nil, List.filter_append, List.append_assoc,
    List.lookup]
  rcases hp with hp | rfl <;> rcases hs with hs | rfl <;> simp [List.filter_cons, *]

/-- C64. A form depends on a service account's private key only through its `x-goog-signature`, and two keys are asked to
sign the same message. -/
theorem C64_form_hides_private_key (env : Env) (cs : List Call) (email pem₁ pem₂ : Str) (w w₁ w₂ : World)
    (fs₁ fs₂ : List (Str × Str)) (hs : ∃ c ∈ cs, callOptions c ≠ none)
    (h₁ : (Builder.ofCalls (cs.map (withKey (.serviceAccount email pem₁)))).build env w = (.ok fs₁, w₁))
    (h₂ : (Builder.ofCalls (cs.map (withKey (.serviceAccount email pem₂)))).build env w = (.ok fs₂, w₂)) :
    w₁ = w₂ ∧
    fs₁.filter (fun f => f.1 ≠ s% "x-goog-signature") = fs₂.filter (fun f => f.1 ≠ s% "x-goog-signature") ∧
    ∃ message der₁ der₂ signature₁ signature₂ hex₁ hex₂,
      (s% "x-goog-signature", hex₁) ∈ fs₁ ∧ (s% "x-goog-signature", hex₂) ∈ fs₂ ∧
      env.pemParse pem₁ = some der₁ ∧ env.rsaSign der₁ message = some signature₁ ∧ hexDecode hex₁ = some signature₁ ∧
      env.pemParse pem₂ = some der₂ ∧ env.rsaSign der₂ message = some signature₂ ∧ hexDecode hex₂ = some signature₂ := by
  have r₁ := (C63_returns_form_iff ..).1 h₁
  have r₂ := (C63_returns_form_iff ..).1 h₂
  unfold ReturnsForm at r₁ r₂
  rw [withKey_options] at r₁ r₂
  cases ho : (cs.filterMap callOptions).getLast? with
  | none =>
    obtain ⟨c, hc, hn⟩ := hs
    exact absurd (List.filterMap_eq_nil_iff.1 (List.getLast?_eq_none_iff.1 ho) c hc) hn
  | some o =>
    rw [List.getLast?_map, ho] at r₁ r₂
    simp only [Option.map_some] at r₁ r₂
    obtain ⟨t, e, d, x, pol, hex, v, sig, ht, _, _, _, _, _, _, hid, hd, hx, hf, hp, hsg, hh⟩ := r₁
    obtain ⟨t', e', d', x', pol', hex', v', sig', ht', _, _, _, _, _, _, hid', hd', hx', hf', hp', hsg', hh'⟩ := r₂
    cases hid
    cases hid'
    simp only at *
    rw [ht'] at hd'
    rw [ht] at hd
    have e1 := basic_unique hd hd'
    have e2 := rfc3339_unique hx hx'
    rw [withKey_signedForm] at hf hf'
    rw [← e1] at hf'
    have hex1 : fs₁.filter (fun f => ¬ exempt f.1) = fs₂.filter (fun f => ¬ exempt f.1) := by
      rw [hf, hf']
      exact signedForm_filter cs _ _ _ _ _ _ _ (fun n => decide (¬ exempt n)) (.inl (by decide)) (.inl (by decide))
    have e3 : pol = pol' := by
      rw [base64Decode_some hp, base64Decode_some hp', hex1, e2]
    rw [← e3] at hf' hsg'
    generalize o.useSignBlob = u at hsg hsg'
    cases hsg with
    | locally _ _ der _ _ k1 k2 k3 =>
      cases hsg' with
      | locally _ _ der' _ _ k1' k2' k3' =>
        refine ⟨rfl, ?_, _, der, der', sig, sig', hex, hex', ?_, ?_, k1, k3, hh, k1', k3', hh'⟩
        · rw [hf, hf']
          exact signedForm_filter cs _ _ _ _ _ _ _ (fun n => decide (n ≠ s% "x-goog-signature")) (.inr rfl) (.inl (by decide))
        · rw [hf]
          refine List.mem_append_left _ (List.mem_filterMap.2 ⟨s% "x-goog-signature", by decide, ?_⟩)
          simp [List.lookup]
        · rw [hf']
          refine List.mem_append_left _ (List.mem_filterMap.2 ⟨s% "x-goog-signature", by decide, ?_⟩)
          simp [List.lookup]

/-- Two texts of a private key with which a form is returned. -/
example : (∃ c ∈ Conformance.testCalls, callOptions c ≠ none) ∧
    Conformance.succeeds ((Builder.ofCalls (Conformance.testCalls.map (withKey (.serviceAccount (s% "a@b.c") (s% "KEY 1"))))).build
      Conformance.env Conformance.world) = true ∧
    Conformance.succeeds ((Builder.ofCalls (Conformance.testCalls.map (withKey (.serviceAccount (s% "a@b.c") (s% "KEY 2"))))).build
      Conformance.env Conformance.world) = true := by
  refine ⟨⟨_, List.mem_of_getLast? (by rfl), by simp [callOptions]⟩, by decide +kernel, by decide +kernel⟩

/-- C64. The secret of an HMAC key is not used at all. -/
theorem C64_hmac_secret_unused (env : Env) (o : UrlOptions) (cs : List Call) (accessId secret₁ secret₂ : Str) (w : World) :
    buildSignedUrl env { o with signingKey := .hmac accessId secret₁ } w =
      buildSignedUrl env { o with signingKey := .hmac accessId secret₂ } w ∧
    (Builder.ofCalls (cs.map (withKey (.hmac accessId secret₁)))).build env w =
      (Builder.ofCalls (cs.map (withKey (.hmac accessId secret₂)))).build env w := by
  constructor
  · by_cases hover : Overflows env { o with signingKey := .hmac accessId secret₁ } (validFrom env o.accessibleAt w)
    · rw [buildSignedUrl_overflows _ _ _ hover, buildSignedUrl_overflows env { o with signingKey := .hmac accessId secret₂ } w hover]
    · rw [buildSignedUrl_eq _ _ _ hover, buildSignedUrl_eq env { o with signingKey := .hmac accessId secret₂ } w hover]
      rfl
  · cases ho : (cs.filterMap callOptions).getLast? with
    | none =>
      have hn : ∀ k, ∀ c ∈ cs.map (withKey k), callOptions c = none := by
        intro k
        rw [← List.filterMap_eq_nil_iff, withKey_options, List.getLast?_eq_none_iff.1 ho]
        rfl
      rw [C01_unsigned_form _ _ _ (hn _), C01_unsigned_form _ _ _ (hn _)]
      unfold unsignedForm
      simp only [withKey_lastValue, withKey_meta]
    | some o =>
      have ho' : ∀ k, ((cs.map (withKey k)).filterMap callOptions).getLast? = some { o with signingKey := k } := by
        intro k
        rw [withKey_options, List.getLast?_map, ho]
        rfl
      rw [build_signed_eq _ _ _ _ (ho' _), build_signed_eq _ _ _ _ (ho' _)]
      have hr : ∀ s t, formRejection (cs.map (withKey (.hmac accessId s))) { o with signingKey := .hmac accessId s } t =
          formRejection cs { o with signingKey := .hmac accessId [] } t := by
        intro s t
        unfold formRejection
        simp only [withKey_lastValue]
        rfl
      have hn : ∀ t, ∃ e, formRejection cs { o with signingKey := .hmac accessId [] } t = some e := by
        intro t
        unfold formRejection
        simp only [isHmac, if_true]
        repeat' split
        all_goals exact ⟨_, rfl⟩
      rw [hr, hr]
      obtain ⟨e, he⟩ := hn (validFrom env o.accessibleAt w)
      rw [he]

end CSS
