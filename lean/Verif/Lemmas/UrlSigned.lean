import Verif.Lemmas.UrlQuery
import Verif.Lemmas.TokenPanic
import Verif.Lemmas.Base64
/- What a successful `build_signed_url` signed. -/
set_option linter.unusedSimpArgs false
namespace CSS
open Spec

theorem keySign_ok {env : Env} {key : SigningKey} {u : Bool} {m sig : Bytes} {w w' : World}
    (h : key.sign env u m w = (.ok sig, w')) :
    Signs env w'.log key m sig ∧ ((∃ e p, key = .serviceAccount e p ∧ u = false) ∨ ∃ bt, key = .boundToken bt ∧ u = true) := by
  cases key with
  | hmac a b =>
    unfold SigningKey.sign at h
    cases u <;> simp at h
  | serviceAccount email pem =>
    unfold SigningKey.sign at h
    cases u with
    | true => simp at h
    | false =>
      simp only [Bool.false_eq_true, if_false, M.lift_run] at h
      unfold rsaSignPem at h
      cases hpem : env.pemParse pem with
      | none => simp [hpem] at h
      | some der =>
        cases hd : env.rsaFromPkcs8 der with
        | false => simp [hpem, hd] at h
        | true =>
          cases hr : env.rsaSign der m with
          | none => simp [hpem, hd, hr] at h
          | some s =>
            simp [hpem, hd, hr] at h
            exact ⟨⟨der, hpem, hd, by rw [hr, h.1]⟩, .inl ⟨_, _, rfl, rfl⟩⟩
  | boundToken bt =>
    unfold SigningKey.sign at h
    cases u with
    | false => simp at h
    | true =>
      simp only [if_true, M.mapErr_run] at h
      cases hsg : bt.sign env m w with
      | mk r w3 =>
      rw [hsg] at h
      cases r with
      | err e => simp at h
      | panic e => simp at h
      | ok s =>
        simp at h
        obtain ⟨rfl, rfl⟩ := h
        obtain ⟨email, token, w4, body, blob, hg, rfl, hans, hparse, hb⟩ := sign_ok hsg
        refine ⟨⟨signBlobRequest email token m, _, _, body, blob, by simp [World.sent], rfl, rfl,
          render_text (.obj [(s% "payload", .str (b64Encode m))]) (by simp [AllNums, AllNumsMembers]),
          base64Decode_b64Encode _, ?_, hparse, by rw [← b64Decode_eq, hb]⟩, .inr ⟨_, rfl, rfl⟩⟩
        have e : (w4.sent (signBlobRequest email token m)).log.length - 1 = w4.log.length := by simp [World.sent]
        rw [e]; exact hans

/-- Everything known about a successful call, in one place. -/
theorem signed_ok {env : Env} {o : UrlOptions} {w w' : World} {url : Str} (h : buildSignedUrl env o w = (.ok url, w')) :
    ∃ email digest, urlRejection env o (validFrom env o.accessibleAt w) = none ∧
      (0 ≤ validFrom env o.accessibleAt w ∧ validFrom env o.accessibleAt w < endOf9999) ∧
      url = (partsOf env o (validFrom env o.accessibleAt w) email).url (hexEncode digest) ∧
      IsSigned env w'.log o.signingKey url (partsOf env o (validFrom env o.accessibleAt w) email) ∧
      Authorizes env w w'.log o.signingKey email ∧
      (∀ x ∈ o.headers, headerToStrOk x.2 = true) ∧ o.signingKey.xGoogAlgorithm.asStr = s% "GOOG4-RSA-SHA256" := by
  obtain ⟨hs⟩ := buildSignedUrl_ok h
  have ht : 0 ≤ validFrom env o.accessibleAt w ∧ validFrom env o.accessibleAt w < endOf9999 := by
    have := hs.accepted
    unfold urlRejection at this
    split at this
    · cases this
    · omega
  have hsign := keySign_ok hs.sign
  refine ⟨hs.email, hs.digest, hs.accepted, ht, hs.url_eq, ⟨_, hs.digest, hs.url_eq, hexEncode_chars _, hexDecode_hexEncode _, hsign.1⟩,
    ?_, hs.values, ?_⟩
  · have ha := authorizer_authorizes hs.auth
    have hp := keySign_prefix env o.signingKey o.useSignBlob
      (utf8 ((partsOf env o (validFrom env o.accessibleAt w) hs.email).stringToSign)) hs.w2
    rw [hs.sign] at hp
    have := authorizes_prefix ha hp
    revert this
    cases o.signingKey <;> simp [Authorizes]
  · rcases hsign.2 with ⟨e, p, hk, _⟩ | ⟨bt, hk, _⟩ <;> rw [hk] <;> rfl

theorem url_accepted_err {env : Env} {o : UrlOptions} {w : World} {e : BuildUrlError}
    (hr : urlRejection env o (validFrom env o.accessibleAt w) = none) (he : (buildSignedUrl env o w).1 = .err e) :
    ∃ k, e = .signedUrl k := by
  by_cases hover : Overflows env o (validFrom env o.accessibleAt w)
  · rw [buildSignedUrl_overflows env o w hover] at he; simp at he
  rw [buildSignedUrl_eq env o w hover, hr] at he
  simp only at he
  split at he
  · simp only [Res.err.injEq] at he; exact ⟨_, he.symm⟩
  · simp at he
  · split at he
    · simp at he
    · split at he
      · simp only [Res.err.injEq] at he; exact ⟨_, he.symm⟩
      · split at he
        · simp only [Res.err.injEq] at he; exact ⟨_, he.symm⟩
        · simp at he
        · simp at he

theorem url_err_iff {env : Env} {o : UrlOptions} {w : World} {e : BuildUrlError} (hne : ∀ k, e ≠ .signedUrl k)
    (hnx : ∀ x, e ≠ .expiration x) :
    (buildSignedUrl env o w).1 = .err e ↔ urlRejection env o (validFrom env o.accessibleAt w) = some e := by
  cases hr : urlRejection env o (validFrom env o.accessibleAt w) with
  | none =>
    refine ⟨fun h => ?_, fun h => by cases h⟩
    obtain ⟨k, hk⟩ := url_accepted_err hr h
    exact absurd hk (hne k)
  | some e' =>
    by_cases hover : Overflows env o (validFrom env o.accessibleAt w)
    · rw [buildSignedUrl_overflows env o w hover]
      simp only [reduceCtorEq, Option.some.injEq, false_iff]
      rintro rfl
      exact not_overflows_of_early hr hnx hover
    · rw [buildSignedUrl_eq env o w hover, hr]; simp

end CSS
