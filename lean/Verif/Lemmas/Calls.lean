import Verif.Spec.Calls
import Verif.Lemmas.Unique
import Verif.Lemmas.TokenGets
import Verif.Lemmas.FormRead
/- Keys and URL parts in the words of `Spec/Calls`. -/
set_option linter.unusedSimpArgs false
namespace CSS
open Spec

theorem identifies_iff {env : Env} {key : SigningKey} {email : Str} {w w' : World} :
    key.authorizer env w = (.ok email, w') ↔ Identifies env w key email w' := by
  cases key with
  | hmac a s =>
    simp only [SigningKey.authorizer, M.pure_run, Prod.mk.injEq, Res.ok.injEq]
    exact ⟨by rintro ⟨rfl, rfl⟩; exact .accessId a s, by rintro ⟨⟩; exact ⟨rfl, rfl⟩⟩
  | serviceAccount a s =>
    simp only [SigningKey.authorizer, M.pure_run, Prod.mk.injEq, Res.ok.injEq]
    exact ⟨by rintro ⟨rfl, rfl⟩; exact .account a s, by rintro ⟨⟩; exact ⟨rfl, rfl⟩⟩
  | boundToken bt =>
    rw [authorizer_boundToken_eq]
    constructor
    · intro h
      cases hg : getEmailAndToken env bt w with
      | mk r w2 =>
        rw [hg] at h
        cases r with
        | err e => simp at h
        | panic e => simp at h
        | ok p =>
          obtain ⟨e, token⟩ := p
          simp only [Prod.mk.injEq, Res.ok.injEq] at h
          obtain ⟨rfl, rfl⟩ := h
          exact .token bt e token w2 (getEmailAndToken_ok_iff.1 hg)
    · intro h
      cases h with
      | token _ _ token _ h => rw [getEmailAndToken_ok_iff.2 h]

theorem b64Encode_chars : ∀ bs : Bytes, ∀ c ∈ b64Encode bs, c ∈ b64Alphabet ∨ c = '='
  | [], c, h => by simp [b64Encode] at h
  | [a], c, h => by
    have := byte_lt a
    simp only [b64Encode, List.mem_cons, List.not_mem_nil, or_false] at h
    rcases h with rfl | rfl | rfl | rfl
    · exact .inl (b64Char_mem (by omega))
    · exact .inl (b64Char_mem (by omega))
    · exact .inr rfl
    · exact .inr rfl
  | [a, b], c, h => by
    have := byte_lt a
    have := byte_lt b
    simp only [b64Encode, List.mem_cons, List.not_mem_nil, or_false] at h
    rcases h with rfl | rfl | rfl | rfl
    · exact .inl (b64Char_mem (by omega))
    · exact .inl (b64Char_mem (by omega))
    · exact .inl (b64Char_mem (by omega))
    · exact .inr rfl
  | a :: b :: c' :: r, c, h => by
    have := byte_lt a
    have := byte_lt b
    have := byte_lt c'
    simp only [b64Encode, List.mem_cons] at h
    rcases h with rfl | rfl | rfl | rfl | h
    · exact .inl (b64Char_mem (by omega))
    · exact .inl (b64Char_mem (by omega))
    · exact .inl (b64Char_mem (by omega))
    · exact .inl (b64Char_mem (by omega))
    · exact b64Encode_chars r c h

theorem signBlobPost_iff {email token : Str} {m : Bytes} {r : Request} :
    SignBlobPost email token m r ↔ r = signBlobRequest email token m := by
  have key : Json.render (.obj [(s% "payload", .str (b64Encode m))]) = s% "{\"payload\":\"" ++ b64Encode m ++ s% "\"}" := by
    have hb : ∀ s : Str, (∀ c ∈ s, c ∈ b64Alphabet ∨ c = '=') → s.flatMap jsonEscapeChar = s := by
      intro s
      induction s with
      | nil => intro _; rfl
      | cons c s ih =>
        intro h
        rw [List.flatMap_cons, ih fun x hx => h x (List.mem_cons_of_mem _ hx)]
        have hc : ∀ c ∈ b64Alphabet ++ ['='], jsonEscapeChar c = [c] := by decide +kernel
        rw [hc c (by simpa using h c List.mem_cons_self)]
        rfl
    have he : ∀ bs : Bytes, ∀ c ∈ b64Encode bs, c ∈ b64Alphabet ∨ c = '=' := b64Encode_chars
    simp only [Json.render, Json.renderMembers, jsonStr, hb _ (he m)]
    simp [jsonEscapeChar]
  unfold SignBlobPost signBlobRequest
  rw [key]
  constructor
  · rintro ⟨payload, hp, rfl⟩
    rw [base64Decode_some hp]
  · intro h
    exact ⟨_, base64Decode_b64Encode m, h⟩

theorem keySigns_iff {env : Env} {key : SigningKey} {u : Bool} {m sig : Bytes} {w w' : World} :
    key.sign env u m w = (.ok sig, w') ↔ KeySigns env w key u m sig w' := by
  cases key with
  | hmac a s =>
    refine ⟨fun h => ?_, fun h => nomatch h⟩
    unfold SigningKey.sign at h
    simp at h
  | serviceAccount a pem =>
    unfold SigningKey.sign
    cases u with
    | true => exact ⟨fun h => by simp at h, fun h => nomatch h⟩
    | false =>
      simp only [Bool.false_eq_true, if_false, M.lift_run, Prod.mk.injEq]
      unfold rsaSignPem
      constructor
      · rintro ⟨h, rfl⟩
        cases hp : env.pemParse pem with
        | none => rw [hp] at h; cases h
        | some der =>
          rw [hp] at h
          simp only at h
          split at h
          · cases h
          · rename_i hd
            split at h
            · cases h
            · rename_i s hs
              cases h
              exact .locally a pem der m sig hp (by simpa using hd) hs
      · intro h
        cases h with
        | locally _ _ der _ _ hp hd hs => simp [hp, hd, hs]
  | boundToken bt =>
    unfold SigningKey.sign
    cases u with
    | false => exact ⟨fun h => by simp at h, fun h => nomatch h⟩
    | true =>
      simp only [if_true, M.mapErr_run]
      constructor
      · intro h
        cases hsg : bt.sign env m w with
        | mk r w3 =>
          rw [hsg] at h
          cases r with
          | err e => simp at h
          | panic e => simp at h
          | ok s =>
            simp at h
            obtain ⟨rfl, rfl⟩ := h
            rw [sign_eq] at hsg
            cases hg : getEmailAndToken env bt w with
            | mk r w1 =>
              rw [hg] at hsg
              cases r with
              | err e => simp at hsg
              | panic e => simp at hsg
              | ok p =>
                obtain ⟨email, token⟩ := p
                simp only at hsg
                split at hsg
                · simp at hsg
                · rename_i hb
                  cases hf : fetchOutcome signBlobErrors (env.net w1.log.length (signBlobRequest email token m)) with
                  | err e => rw [hf] at hsg; simp at hsg
                  | panic e => rw [hf] at hsg; simp at hsg
                  | ok body =>
                    rw [hf] at hsg
                    simp only at hsg
                    cases hp : parseSignBlobResponse body with
                    | none => rw [hp] at hsg; simp at hsg
                    | some blob =>
                      rw [hp] at hsg
                      simp only at hsg
                      cases hd : b64Decode blob with
                      | none => rw [hd] at hsg; simp at hsg
                      | some x =>
                        rw [hd] at hsg
                        simp only [Prod.mk.injEq, Res.ok.injEq] at hsg
                        obtain ⟨rfl, rfl⟩ := hsg
                        obtain ⟨st, a1, a2, a3⟩ := fetchOutcome_ok.1 hf
                        exact .remotely bt email token w1 m x _ st body blob (getEmailAndToken_ok_iff.1 hg)
                          (signBlobPost_iff.2 rfl) (by simpa using hb) a1 a2 a3 (parseSignBlobResponse_iff.1 hp) (by rw [← b64Decode_eq, hd])
      · intro h
        cases h with
        | remotely _ email token w1 _ _ r st text blob hg hr hb a1 a2 hn hp hd =>
          cases signBlobPost_iff.1 hr
          rw [sign_eq, getEmailAndToken_ok_iff.2 hg]
          simp only
          rw [if_neg (by rw [hb]; simp), fetchOutcome_ok.2 ⟨st, a1, a2, hn⟩]
          simp only [parseSignBlobResponse_iff.2 hp]
          rw [← b64Decode_eq] at hd
          simp only [hd]
          rfl

theorem urlParts_iff {env : Env} {o : UrlOptions} {t : Time} {email : Str} {p : SignedParts} (ht : 0 ≤ t ∧ t < endOf9999)
    (hk : o.signingKey.xGoogAlgorithm = .goog4RsaSha256) :
    UrlParts env o t email p ↔ p = partsOf env o t email := by
  obtain ⟨h1, h2, _⟩ := objectParts_eq env o
  obtain ⟨c, hc, hiso, hsec⟩ := iso_chars _ ht
  have hq : ∀ x ∈ (objectParts env o).query, x.toNat < 128 := by
    rw [← h2]; intro x hx; exact ((objectUrl_normal env o).2 x hx).1
  have hitems : (formParse (utf8 (objectParts env o).query) ++ o.queryParameters ++ required o t email).map
      (fun q => canonicalText q.1 ++ s% "=" ++ canonicalText q.2) = (allParams env o (required o t email)).map canonicalItem := by
    unfold allParams canonicalItem
    rw [h2]
    simp only [canonicalText_eq]
  have hparts : partsOf env o t email = {
      algorithm := s% "GOOG4-RSA-SHA256"
      date := UnixTimestamp.toIso8601 ⟨t / nsPerSec⟩
      region := o.region.getD (s% "auto")
      method := o.httpMethod
      path := (objectParts env o).path
      pathLine := canonicalText (objectParts env o).path
      query := join (s% "&") (sortStr ((allParams env o (required o t email)).map canonicalItem))
      headers := (signedNames o.headers).map fun n => (n, headerValues (requestHeaders o) n) } := by
    rw [← partsOf_headers env o t email, ← h1, canonicalText_eq]
    unfold partsOf
    rw [hk]
    rfl
  constructor
  · rintro ⟨extra, goog, items, names, date, hx, hg, hperm, hsort, hn, hm, hd, rfl⟩
    cases formParams_unique hx (formParse_ascii hq)
    cases (googParams_iff ht).1 hg
    rw [hitems] at hperm
    have e1 : items = sortStr ((allParams env o (required o t email)).map canonicalItem) :=
      sorted_perm_unique (hsort.imp fun h => (strLe_iff _ _).2 h) (sortStr_sorted _) (hperm.trans (sortStr_perm _).symm)
    have e2 : names = signedNames o.headers :=
      pairwise_lexLt_ext hn (signedNames_lt _) fun x => (hm x).trans (mem_signedNames_iff o x).symm
    have e3 : date = UnixTimestamp.toIso8601 ⟨t / nsPerSec⟩ := by
      obtain ⟨c', hc', rfl, hs'⟩ := hd
      rw [hiso]
      rcases stamp_cases c c' hc hc' with ⟨h, _, _⟩ | ⟨h, _, _⟩ | h
      · rw [hsec, hs'] at h; exact absurd h (Int.lt_irrefl _)
      · rw [hsec, hs'] at h; exact absurd h (Int.lt_irrefl _)
      · rw [h]
    rw [hparts, e1, e2, e3]
  · rintro rfl
    exact ⟨_, _, _, _, _, formParse_ascii hq, (googParams_iff ht).2 rfl, by rw [hitems]; exact sortStr_perm _,
      (sortStr_sorted _).imp fun h => (strLe_iff _ _).1 h, signedNames_lt _, mem_signedNames_iff o,
      ⟨c, hc, hiso, hsec⟩, hparts⟩

end CSS
