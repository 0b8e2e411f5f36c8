import Verif.Lemmas.Calls
import Verif.Props.UrlErrors
import Verif.Conformance
/-
C62: exactly when `build_signed_url` returns a URL, which one, and what happens in the world.
-/
set_option linter.unusedSimpArgs false
namespace CSS
open Spec

theorem keySigns_rsa {env : Env} {w w' : World} {key : SigningKey} {u : Bool} {m sig : Bytes}
    (h : KeySigns env w key u m sig w') : key.xGoogAlgorithm = .goog4RsaSha256 := by
  cases h <;> rfl

/-- C62. `build_signed_url` returns `url` and leaves the world `w'` if and only if the specification says so. -/
theorem C62_returns_url_iff (env : Env) (o : UrlOptions) (w w' : World) (url : Str) :
    buildSignedUrl env o w = (.ok url, w') ↔ ReturnsUrl env o w url w' := by
  have hplain : (∀ h ∈ o.headers, headerToStrOk h.2 = true) ↔ ∀ h ∈ o.headers, PlainValue h.2 :=
    ⟨fun h x hx => plain_iff.1 (h x hx), fun h x hx => plain_iff.2 (h x hx)⟩
  constructor
  · intro h
    obtain ⟨hs⟩ := buildSignedUrl_ok h
    have hv := validUrl_iff.2 ⟨hs.accepted, hs.fits⟩
    have hsg := keySigns_iff.1 hs.sign
    refine ⟨_, hs.email, hs.w2, _, hs.digest, _, rfl, hv, ?_, ?_, hplain.1 hs.values,
      (urlParts_iff ⟨hv.1, hv.2.1⟩ (keySigns_rsa hsg)).2 rfl, hsg, hexDecode_hexEncode _, hs.url_eq⟩
    · rw [afterStart_eq]; exact identifies_iff.1 hs.auth
    · exact fun hl => Nat.not_lt.2 hs.short ((tooLong_iff ⟨hv.1, hv.2.1⟩).1 hl)
  · rintro ⟨t, email, w1, p, sig, hex, ht, hv, hid, hl, hp, hparts, hsg, hhex, rfl⟩
    have hr := (validUrl_iff.1 hv).1
    have htt : 0 ≤ t ∧ t < endOf9999 := ⟨hv.1, hv.2.1⟩
    cases (urlParts_iff htt (keySigns_rsa hsg)).1 hparts
    cases hexDecode_some hhex
    rw [tooLong_iff htt] at hl
    have ht' : validFrom env o.accessibleAt w = t := ht.symm
    rw [buildSignedUrl_eq env o w (ht' ▸ not_overflows_of_valid hv), ht', hr]
    simp only
    rw [afterStart_eq] at hid
    rw [identifies_iff.2 hid]
    simp only
    rw [if_neg hl, if_neg (by simpa using hplain.2 hp), keySigns_iff.2 hsg]

/-- Both kinds of keys return URLs. -/
example : (∃ url w', ReturnsUrl Conformance.env Conformance.urlOptions Conformance.world url w') ∧
    ∃ url w', ReturnsUrl Conformance.btEnv { Conformance.urlOptions with
      signingKey := .boundToken Conformance.btKey, useSignBlob := true } Conformance.world url w' ∧
      w'.log.length = 3 := by
  constructor
  · obtain ⟨url, w', h⟩ := Conformance.succeeds_iff (by decide +kernel :
      Conformance.succeeds (buildSignedUrl Conformance.env Conformance.urlOptions Conformance.world) = true)
    exact ⟨url, w', (C62_returns_url_iff ..).1 h⟩
  · obtain ⟨url, w', h⟩ := Conformance.succeeds_iff (by decide +kernel :
      Conformance.succeeds (buildSignedUrl Conformance.btEnv { Conformance.urlOptions with
      signingKey := .boundToken Conformance.btKey, useSignBlob := true } Conformance.world) = true)
    refine ⟨url, w', (C62_returns_url_iff ..).1 h, ?_⟩
    have : (buildSignedUrl Conformance.btEnv { Conformance.urlOptions with
      signingKey := .boundToken Conformance.btKey, useSignBlob := true } Conformance.world).2.log.length = 3 := by
      decide +kernel
    rw [h] at this
    exact this

/-- C62. The specification determines URL and world. -/
theorem C62_returns_url_unique (env : Env) (o : UrlOptions) (w w₁ w₂ : World) (url₁ url₂ : Str)
    (h₁ : ReturnsUrl env o w url₁ w₁) (h₂ : ReturnsUrl env o w url₂ w₂) : url₁ = url₂ ∧ w₁ = w₂ := by
  have e := (C62_returns_url_iff ..).2 h₁
  rw [(C62_returns_url_iff ..).2 h₂] at e
  cases e
  exact ⟨rfl, rfl⟩

/-- C62. With a service account key and local signing, a URL is returned exactly if the options are in order, the URL is
not too long for the e-mail, the header values are plain, and the private key can be read and signs. Nothing else in the
world matters. -/
theorem C62_service_account (env : Env) (o : UrlOptions) (w : World) (email pem : Str) (t : Time)
    (ht : t = o.accessibleAt.getD (env.now w.ticks)) (hk : o.signingKey = .serviceAccount email pem) (hu : o.useSignBlob = false) :
    (∃ url, (buildSignedUrl env o w).1 = .ok url) ↔
      ValidUrl env o t ∧ ¬ TooLong env o t email ∧ (∀ h ∈ o.headers, PlainValue h.2) ∧
      ∃ p der signature, UrlParts env o t email p ∧ env.pemParse pem = some der ∧ env.rsaFromPkcs8 der = true ∧
        env.rsaSign der (utf8 (p.stringToSign)) = some signature := by
  constructor
  · rintro ⟨url, h⟩
    obtain ⟨t', e, w1, p, sig, hex, rfl, hv, hid, hl, hp, hparts, hsg, _, _⟩ :=
      (C62_returns_url_iff env o w (buildSignedUrl env o w).2 url).1 (Prod.ext h rfl)
    generalize (buildSignedUrl env o w).2 = w' at hsg
    rw [hk] at hid
    rw [hk, hu] at hsg
    cases hid
    cases ht
    cases hsg with
    | locally _ _ der _ _ h1 h2 h3 => exact ⟨hv, hl, hp, p, der, sig, hparts, h1, h2, h3⟩
  · rintro ⟨hv, hl, hp, p, der, sig, hparts, h1, h2, h3⟩
    refine ⟨p.url (hexEncode sig), ?_⟩
    have := (C62_returns_url_iff env o w (afterStart o.accessibleAt w) (p.url (hexEncode sig))).2
      ⟨t, email, afterStart o.accessibleAt w, p, sig, _, ht, hv, by rw [hk]; exact .account _ _, hl, hp, hparts,
        by rw [hk, hu]; exact .locally _ _ der _ _ h1 h2 h3, hexDecode_hexEncode _, rfl⟩
    rw [this]

/-- The crate's own test options meet the conditions. -/
example : Conformance.urlOptions.useSignBlob = false ∧ (∃ e p, Conformance.urlOptions.signingKey = .serviceAccount e p) ∧
    Conformance.succeeds (buildSignedUrl Conformance.env Conformance.urlOptions Conformance.world) = true :=
  ⟨rfl, ⟨_, _, rfl⟩, by decide +kernel⟩

end CSS
