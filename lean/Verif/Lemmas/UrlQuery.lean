import Verif.Lemmas.UrlBuild
import Verif.Lemmas.Order
/- The query of a signed URL as a server reads it. -/
set_option linter.unusedSimpArgs false
namespace CSS
open Spec

theorem mem_sortStr {l : List Str} {x : Str} : x ∈ sortStr l ↔ x ∈ l := (sortStr_perm l).mem_iff

theorem sortStr_ne_nil {l : List Str} (h : l ≠ []) : sortStr l ≠ [] := by
  intro he
  have := (sortStr_perm l).length_eq
  rw [he] at this
  simp at this
  exact h (List.length_eq_zero_iff.1 this.symm)

theorem canonicalItem_no {c : Char} (h1 : c ∈ reserved) (h2 : c ≠ '=') (p : Str × Str) : c ∉ canonicalItem p := by
  unfold canonicalItem
  simp only [List.mem_append, not_or, List.mem_singleton]
  exact ⟨⟨percentEncode_no h1 _, h2⟩, percentEncode_no h1 _⟩

theorem query_no_hash (ps : List (Str × Str)) : '#' ∉ join (s% "&") (sortStr (ps.map canonicalItem)) := by
  intro h
  rcases mem_join h with h | ⟨x, hx, h⟩
  · exact absurd h (by decide)
  · rw [mem_sortStr, List.mem_map] at hx
    obtain ⟨p, _, rfl⟩ := hx
    exact canonicalItem_no (by decide) (by decide) p h

theorem partsOf_query (env : Env) (o : UrlOptions) (t : Time) (email : Str) :
    (partsOf env o t email).query = join (s% "&") (sortStr ((allParams env o (required o t email)).map canonicalItem)) := by
  simp only [partsOf]

theorem allParams_ne_nil (env : Env) (o : UrlOptions) (t : Time) (email : Str) : allParams env o (required o t email) ≠ [] := by
  unfold allParams required requiredParams
  simp

theorem path_no {env : Env} {o : UrlOptions} : '?' ∉ (objectUrl env o).path ∧ '#' ∉ (objectUrl env o).path := by
  have h := normalPath_chars (objectUrl_normal env o).1
  exact ⟨fun hc => (kept_path (h _ hc)).2.2.1 rfl, fun hc => (kept_path (h _ hc)).2.2.2.1 rfl⟩

theorem hostname_eq : hostname = s% "https://storage.googleapis.com" := rfl

theorem urlQuery_cut {host path q amp hex : Str} (h : '?' ∉ host ++ path) (h2 : '#' ∉ q ++ amp ++ hex) :
    urlQuery (host ++ path ++ ['?'] ++ q ++ amp ++ hex) = q ++ amp ++ hex := by
  have e : host ++ path ++ ['?'] ++ q ++ amp ++ hex = (host ++ path) ++ '?' :: (q ++ amp ++ hex) := by
    simp only [List.append_assoc, List.singleton_append, List.cons_append, List.nil_append]
  unfold urlQuery
  rw [e, cutAt_append h]
  simp only
  rw [cutAt_none h2]

theorem urlPath_cut {host path q amp hex : Str} (h : '?' ∉ path) (h2 : '#' ∉ path) :
    urlPath host (host ++ path ++ ['?'] ++ q ++ amp ++ hex) = some path := by
  have e : host ++ path ++ ['?'] ++ q ++ amp ++ hex = host ++ (path ++ '?' :: (q ++ amp ++ hex)) := by
    simp only [List.append_assoc, List.singleton_append, List.cons_append, List.nil_append]
  unfold urlPath
  rw [e, if_pos (List.isPrefixOf_iff_prefix.2 (List.prefix_append _ _)), List.drop_left, cutAt_append h]
  simp only
  rw [cutAt_none h2]

theorem urlQuery_parts {env : Env} {o : UrlOptions} {t : Time} {email : Str} (digest : Bytes) :
    urlQuery ((partsOf env o t email).url (hexEncode digest)) =
      (partsOf env o t email).query ++ s% "&X-Goog-Signature=" ++ hexEncode digest := by
  unfold SignedParts.url
  apply urlQuery_cut
  · rw [List.mem_append, not_or]
    exact ⟨by decide, path_no.1⟩
  · simp only [List.mem_append, not_or]
    rw [partsOf_query]
    refine ⟨⟨query_no_hash _, by decide⟩, ?_⟩
    intro h
    exact absurd (hexEncode_chars digest _ h) (by decide)

theorem urlPath_parts {env : Env} {o : UrlOptions} {t : Time} {email hex : Str} :
    urlPath (s% "https://storage.googleapis.com") ((partsOf env o t email).url hex) = some (objectUrl env o).path := by
  unfold SignedParts.url
  exact urlPath_cut path_no.1 path_no.2

theorem sig_item (hex : Str) (h : ∀ c ∈ hex, c ∈ s% "0123456789abcdef") :
    (percentDecode (cutAt '=' (s% "X-Goog-Signature=" ++ hex)).1, percentDecode (cutAt '=' (s% "X-Goog-Signature=" ++ hex)).2) =
      (utf8 (s% "X-Goog-Signature"), utf8 hex) := by
  have e : s% "X-Goog-Signature=" ++ hex = s% "X-Goog-Signature" ++ '=' :: hex := rfl
  rw [e, cutAt_append (by decide)]
  simp only
  rw [percentDecode_plain (by decide), percentDecode_plain (fun hc => absurd (h _ hc) (by decide))]

theorem queryParams_snoc {l : List Str} (hne : l ≠ []) (h : ∀ x ∈ l, '&' ∉ x) {x : Str} (hx : '&' ∉ x) :
    queryParams (join (s% "&") l ++ '&' :: x) =
      queryParams (join (s% "&") l) ++ [(percentDecode (cutAt '=' x).1, percentDecode (cutAt '=' x).2)] := by
  have e : join (s% "&") l ++ '&' :: x = join (s% "&") (l ++ [x]) := by
    rw [join_append _ hne (by simp)]
    simp [join]
  rw [e, queryParams_join (by simp), List.map_append, queryParams_join hne h]
  · rfl
  · intro y hy
    rcases List.mem_append.1 hy with hy | hy
    · exact h y hy
    · rw [List.mem_singleton.1 hy]; exact hx

/-- The items of the canonical query. -/
theorem queryParams_parts {env : Env} {o : UrlOptions} {t : Time} {email : Str} (digest : Bytes) :
    queryParams ((partsOf env o t email).query ++ s% "&X-Goog-Signature=" ++ hexEncode digest) =
      queryParams (partsOf env o t email).query ++ [(utf8 (s% "X-Goog-Signature"), utf8 (hexEncode digest))] := by
  have hne : sortStr ((allParams env o (required o t email)).map canonicalItem) ≠ [] :=
    sortStr_ne_nil (by simp [allParams_ne_nil])
  have hamp : ∀ x ∈ sortStr ((allParams env o (required o t email)).map canonicalItem), '&' ∉ x := by
    intro x hx
    rw [mem_sortStr, List.mem_map] at hx
    obtain ⟨p, _, rfl⟩ := hx
    exact canonicalItem_no_amp p
  have hsig : '&' ∉ s% "X-Goog-Signature=" ++ hexEncode digest := by
    rw [List.mem_append, not_or]
    exact ⟨by decide, fun h => absurd (hexEncode_chars digest _ h) (by decide)⟩
  rw [partsOf_query]
  generalize sortStr ((allParams env o (required o t email)).map canonicalItem) = L at hne hamp
  rw [← sig_item _ (hexEncode_chars digest), ← queryParams_snoc hne hamp hsig]
  congr 1
  rw [List.append_assoc]
  rfl

theorem queryParams_query {env : Env} {o : UrlOptions} {t : Time} {email : Str} :
    List.Perm (queryParams (partsOf env o t email).query) ((allParams env o (required o t email)).map decoded) := by
  rw [partsOf_query]
  exact queryParams_canonical _ (allParams_ne_nil env o t email)

theorem percentDecode_slash (s : Str) : percentDecode (replaceSlash s) = percentDecode s := by
  have hs : ∀ r, percentDecode ('%' :: '2' :: 'F' :: r) = 47 :: percentDecode r :=
    fun r => pd_hex (x := 2) (y := 15) (by decide +kernel) (by decide +kernel) r
  have hsl : ∀ r, percentDecode ('/' :: r) = 47 :: percentDecode r := fun r => by
    rw [pd_plain (by decide)]; rfl
  have cons : ∀ c s, replaceSlash (c :: s) = (if c = '/' then s% "%2F" else [c]) ++ replaceSlash s := fun _ _ => rfl
  match s with
  | [] => rfl
  | c :: r =>
    by_cases hc : c = '/'
    · subst hc
      rw [cons, if_pos rfl, hsl]
      show percentDecode ('%' :: '2' :: 'F' :: replaceSlash r) = _
      rw [hs, percentDecode_slash r]
    · rw [cons, if_neg hc]
      by_cases hp : c = '%'
      · subst hp
        -- a percent sign: the escape survives, or there is none on either side
        match r with
        | [] => rfl
        | [a] =>
          have h1 : percentDecode ['%', a] = 37 :: percentDecode [a] := pd_raw (by simp)
          rw [h1]
          by_cases ha : a = '/'
          · subst ha
            have : percentDecode (['%'] ++ replaceSlash ['/']) = 37 :: percentDecode (replaceSlash ['/']) := by
              apply pd_raw
              intro a b r' he
              have : a = '%' := by
                have h2 : replaceSlash ['/'] = ['%', '2', 'F'] := rfl
                rw [h2] at he; simp at he; exact he.1.symm
              subst this; exact .inl hexVal?_percent
            rw [this, percentDecode_slash ['/']]
          · have h2 : replaceSlash [a] = [a] := by simp [replaceSlash, ha]
            rw [h2]; exact h1
        | a :: b :: r' =>
          by_cases hab : (∃ x, hexVal? a = some x) ∧ ∃ y, hexVal? b = some y
          · obtain ⟨⟨x, hx⟩, y, hy⟩ := hab
            have ha : a ≠ '/' := by rintro rfl; rw [show hexVal? '/' = none by decide +kernel] at hx; cases hx
            have hb : b ≠ '/' := by rintro rfl; rw [show hexVal? '/' = none by decide +kernel] at hy; cases hy
            rw [cons, if_neg ha, cons, if_neg hb, pd_hex hx hy]
            show percentDecode ('%' :: a :: b :: replaceSlash r') = _
            rw [pd_hex hx hy, percentDecode_slash r']
          · have hab' : hexVal? a = none ∨ hexVal? b = none := by
              cases ha : hexVal? a with
              | none => exact .inl rfl
              | some x =>
                cases hb : hexVal? b with
                | none => exact .inr rfl
                | some y => exact absurd ⟨⟨x, ha⟩, y, hb⟩ hab
            have h1 : percentDecode ('%' :: a :: b :: r') = 37 :: percentDecode (a :: b :: r') := by
              apply pd_raw
              intro a' b' r'' he
              simp only [List.cons.injEq] at he
              obtain ⟨rfl, rfl, _⟩ := he
              exact hab'
            have h2 : percentDecode ('%' :: replaceSlash (a :: b :: r')) = 37 :: percentDecode (replaceSlash (a :: b :: r')) := by
              apply pd_raw
              intro a' b' r'' he
              by_cases ha : a = '/'
              · subst ha
                rw [cons, if_pos rfl] at he
                simp only [List.cons_append, List.cons.injEq] at he
                rw [← he.1]; exact .inl hexVal?_percent
              · rw [cons, if_neg ha, List.singleton_append, List.cons.injEq] at he
                obtain ⟨rfl, he⟩ := he
                rcases hab' with h | h
                · exact .inl h
                · right
                  by_cases hb : b = '/'
                  · subst hb
                    rw [cons, if_pos rfl] at he
                    simp only [List.cons_append, List.cons.injEq] at he
                    rw [← he.1]; exact hexVal?_percent
                  · rw [cons, if_neg hb, List.singleton_append, List.cons.injEq] at he
                    rw [← he.1]; exact h
            rw [h1, List.singleton_append, h2, percentDecode_slash (a :: b :: r')]
      · rw [pd_plain hp, List.singleton_append, pd_plain hp, percentDecode_slash r]
  termination_by s.length

/-- The credential of the URL. -/
def credentialOf (o : UrlOptions) (t : Time) (email : Str) : Str :=
  email ++ s% "/" ++ (UnixTimestamp.toIso8601 ⟨t / nsPerSec⟩).take 8 ++ s% "/" ++ o.region.getD (s% "auto") ++ s% "/storage/goog4_request"

theorem required_eq (o : UrlOptions) (t : Time) (ht : 0 ≤ t ∧ t < endOf9999) (email : Str) :
    required o t email = [
      (s% "X-Goog-Algorithm", o.signingKey.xGoogAlgorithm.asStr),
      (s% "X-Goog-Credential", replaceSlash (credentialOf o t email)),
      (s% "X-Goog-Date", UnixTimestamp.toIso8601 ⟨t / nsPerSec⟩),
      (s% "X-Goog-Expires", natDec ((o.expires - t) / nsPerSec).toNat),
      (s% "X-Goog-SignedHeaders", join (s% ";") (signedNames o.headers))] := by
  unfold required requiredParams
  rw [scope_eq t ht, signedHeaders_url]
  simp only [credentialOf, ActiveDatetime.toStr, Expiration.toStr, List.append_assoc]

theorem iso_chars (t : Time) (ht : 0 ≤ t ∧ t < endOf9999) :
    ∃ c : DateTime, c.Valid ∧ UnixTimestamp.toIso8601 ⟨t / nsPerSec⟩ = c.basic ∧ c.unix = t / nsPerSec := by
  have hf : UnixTimestamp.fromSystemTime t = .ok ⟨t / nsPerSec⟩ :=
    fromSystemTime_ok.2 ⟨ht.1, by have := ht.2; unfold endOf9999 at this; unfold nsPerSec; omega, rfl⟩
  have hr := fromSystemTime_inRange hf
  have hc := civil_spec ⟨t / nsPerSec⟩ hr
  exact ⟨_, hc.1, toIso8601_eq _ hr, hc.2⟩

theorem digit_no {c : Char} (hc : c.toNat < 48 ∨ 57 < c.toNat) {n : Nat} : c ∉ d2 n ∧ c ∉ d4 n := by
  have : ∀ k, c ≠ digit (k % 10) := by
    intro k he
    rw [he, digit_toNat (by omega)] at hc
    omega
  have h2 : ∀ k, c ≠ digit k ∨ 10 ≤ k := by
    intro k
    rcases Nat.lt_or_ge k 10 with h | h
    · left; intro he; rw [he, digit_toNat h] at hc; omega
    · exact .inr h
  constructor
  · simp only [d2, List.mem_cons, List.not_mem_nil, or_false, not_or]
    exact ⟨this _, this _⟩
  · simp only [d4, List.mem_cons, List.not_mem_nil, or_false, not_or]
    exact ⟨this _, this _, this _, this _⟩

theorem basic_no {c : Char} (hc : c.toNat < 48 ∨ 57 < c.toNat) (h1 : c ≠ 'T') (h2 : c ≠ 'Z') (d : DateTime) : c ∉ d.basic := by
  unfold DateTime.basic DateTime.yyyymmdd
  simp only [List.mem_append, List.mem_singleton, not_or]
  have h := fun n => digit_no hc (n := n)
  exact ⟨⟨⟨⟨⟨⟨⟨(h _).2, (h _).1⟩, (h _).1⟩, h1⟩, (h _).1⟩, (h _).1⟩, (h _).1⟩, h2⟩

theorem alg_no_pct (k : SigningKey) : '%' ∉ k.xGoogAlgorithm.asStr := by
  cases k <;> simp [SigningKey.xGoogAlgorithm, SigningAlgorithm.asStr]

theorem natDec_no_pct (n : Nat) : '%' ∉ natDec n := by
  intro h
  have := natDec_digits n _ h
  exact absurd this (by decide)

/-- The required parameters as a server reads them. -/
theorem required_decoded (o : UrlOptions) (t : Time) (ht : 0 ≤ t ∧ t < endOf9999) (email : Str) :
    (required o t email).map decoded = [
      (utf8 (s% "X-Goog-Algorithm"), utf8 o.signingKey.xGoogAlgorithm.asStr),
      (utf8 (s% "X-Goog-Credential"), percentDecode (credentialOf o t email)),
      (utf8 (s% "X-Goog-Date"), utf8 (UnixTimestamp.toIso8601 ⟨t / nsPerSec⟩)),
      (utf8 (s% "X-Goog-Expires"), utf8 (natDec ((o.expires - t) / nsPerSec).toNat)),
      (utf8 (s% "X-Goog-SignedHeaders"), percentDecode (join (s% ";") (signedNames o.headers)))] := by
  rw [required_eq o t ht]
  obtain ⟨c, _, hc, _⟩ := iso_chars t ht
  have hdate : '%' ∉ UnixTimestamp.toIso8601 ⟨t / nsPerSec⟩ := by
    rw [hc]; exact basic_no (by decide) (by decide) (by decide) c
  simp only [List.map_cons, List.map_nil, decoded, percentDecode_slash]
  rw [percentDecode_plain (s := s% "X-Goog-Algorithm") (by decide),
    percentDecode_plain (s := s% "X-Goog-Credential") (by decide),
    percentDecode_plain (s := s% "X-Goog-Date") (by decide),
    percentDecode_plain (s := s% "X-Goog-Expires") (by decide),
    percentDecode_plain (s := s% "X-Goog-SignedHeaders") (by decide),
    percentDecode_plain (alg_no_pct _), percentDecode_plain hdate, percentDecode_plain (natDec_no_pct _)]

/-- The whole query of a signed URL. -/
theorem urlQuery_decoded {env : Env} {o : UrlOptions} {t : Time} (ht : 0 ≤ t ∧ t < endOf9999) {email : Str} (digest : Bytes) :
    List.Perm (queryParams (urlQuery ((partsOf env o t email).url (hexEncode digest))))
      ((formParse (utf8 ((objectUrl env o).query.getD []))).map decoded ++ o.queryParameters.map decoded ++ [
        (utf8 (s% "X-Goog-Algorithm"), utf8 o.signingKey.xGoogAlgorithm.asStr),
        (utf8 (s% "X-Goog-Credential"), percentDecode (credentialOf o t email)),
        (utf8 (s% "X-Goog-Date"), utf8 (UnixTimestamp.toIso8601 ⟨t / nsPerSec⟩)),
        (utf8 (s% "X-Goog-Expires"), utf8 (natDec ((o.expires - t) / nsPerSec).toNat)),
        (utf8 (s% "X-Goog-SignedHeaders"), percentDecode (join (s% ";") (signedNames o.headers))),
        (utf8 (s% "X-Goog-Signature"), utf8 (hexEncode digest))]) := by
  rw [urlQuery_parts, queryParams_parts]
  refine (List.Perm.append_right _ queryParams_query).trans ?_
  unfold allParams
  rw [List.map_append, List.map_append, required_decoded o t ht, List.append_assoc _ _ [_]]
  exact List.Perm.refl _

theorem natDec_decimal (n : Nat) : Decimal (natDec n) n := by
  refine ⟨natDec_ne_nil n, ?_, decVal_natDec n⟩
  intro c hc
  have hd := natDec_digits n c hc
  have : c.toNat < 128 := by unfold isDigit at hd; simp at hd; omega
  exact forall_ascii (P := fun c => isDigit c = true → c ∈ s% "0123456789") (by decide +kernel) c this hd

/-! ### names without a question mark -/

theorem splitFirst_no {sep : Char} {a : Str} (h : sep ∉ a) : (splitFirst sep a).2 = none := by
  rw [splitFirst_none h]

theorem splitFirst_fst_sub {sep x : Char} {a : Str} (h : x ∈ (splitFirst sep a).1) : x ∈ a := by
  induction a with
  | nil => simp [splitFirst] at h
  | cons c a ih =>
    simp only [splitFirst] at h
    split at h
    · simp at h
    · simp only [List.mem_cons] at h ⊢
      rcases h with h | h
      · exact .inl h
      · exact .inr (ih h)

theorem trimEndC0_sub {a : Str} {x : Char} (h : x ∈ trimEndC0 a) : x ∈ a := by
  unfold trimEndC0 at h
  rw [List.mem_reverse] at h
  have := (List.dropWhile_sublist (p := fun c : Char => decide (c.toNat ≤ 32)) (l := a.reverse)).subset h
  simpa using this

theorem objectUrl_query_none {env : Env} {o : UrlOptions} (hb : '?' ∉ o.bucketName) (ho : '?' ∉ o.objectName) :
    (objectUrl env o).query = none := by
  have hq : '?' ∉ (trimEndC0 (s% "/" ++ o.bucketName ++ s% "/" ++ o.objectName)).filter (fun c => !isTabNl c) := by
    intro h
    have := trimEndC0_sub (List.mem_filter.1 h).1
    simp only [List.mem_append, List.mem_singleton] at this
    rcases this with ((h | h) | h) | h
    · exact absurd h (by decide)
    · exact hb h
    · exact absurd h (by decide)
    · exact ho h
  unfold objectUrl Url.parse Url.splitParts
  simp only
  rw [splitFirst_none (fun h => hq (splitFirst_fst_sub h))]
  rfl

end CSS
