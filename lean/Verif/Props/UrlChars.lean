import Verif.Props.UrlPath
import Verif.Lemmas.FormRead
/-
C60: exactly when a signed URL consists of URI characters.
-/
set_option linter.unusedSimpArgs false
namespace CSS
open Spec

/-- Characters that are in a URL as URI characters: those, and the double quote, which is escaped. -/
def WillBeLegal (s : Str) : Prop := ∀ c ∈ s, c ∈ '"' :: uriChars

theorem willBeLegal_append {a b : Str} : WillBeLegal (a ++ b) ↔ WillBeLegal a ∧ WillBeLegal b := by
  unfold WillBeLegal; exact List.forall_mem_append

theorem encoded_legal {s : Str} : (∀ c ∈ percentEncode s, c ∈ uriChars) ↔ WillBeLegal s := by
  constructor
  · intro h c hc
    by_cases hr : c ∈ reserved
    · exact (by decide : ∀ c ∈ reserved, c ∈ '"' :: uriChars) c hr
    · refine List.mem_cons_of_mem _ (h c ?_)
      unfold percentEncode
      rw [List.mem_flatMap]
      exact ⟨c, hc, by rw [percentEncodeChar_not hr]; simp⟩
  · intro hs c hc
    have hnr := percentEncode_not_reserved s c hc
    rcases percentEncode_mem hc with hc | hc
    · have := hs c hc
      rw [List.mem_cons] at this
      rcases this with rfl | this
      · exact absurd (by decide) hnr
      · exact this
    · exact (by decide : ∀ c ∈ s% "%0123456789ABCDEF", c ∈ uriChars) c hc

theorem replaceSlash_legal {s : Str} : WillBeLegal (replaceSlash s) ↔ WillBeLegal s := by
  unfold WillBeLegal replaceSlash
  constructor
  · intro h c hc
    by_cases hs : c = '/'
    · subst hs; decide
    · exact h c (List.mem_flatMap.2 ⟨c, hc, by rw [if_neg hs]; simp⟩)
  · intro h c hc
    rw [List.mem_flatMap] at hc
    obtain ⟨d, hd, hc⟩ := hc
    split at hc
    · exact (by decide : ∀ c ∈ s% "%2F", c ∈ '"' :: uriChars) c hc
    · simp only [List.mem_singleton] at hc; subst hc; exact h _ hd

theorem asciiLower_legal {s : Str} : WillBeLegal (asciiLower s) ↔ WillBeLegal s := by
  unfold WillBeLegal asciiLower
  simp only [List.forall_mem_map]
  have key : ∀ c : Char, asciiLowerChar c ∈ '"' :: uriChars ↔ c ∈ '"' :: uriChars := by
    intro c
    by_cases hc : c.toNat < 128
    · exact forall_ascii (P := fun c => asciiLowerChar c ∈ '"' :: uriChars ↔ c ∈ '"' :: uriChars) (by decide +kernel) c hc
    · have : asciiLowerChar c = c := by
        unfold asciiLowerChar
        rw [if_neg (by omega)]
      rw [this]
  exact ⟨fun h c hc => (key c).1 (h c hc), fun h c hc => (key c).2 (h c hc)⟩

theorem date_legal {t : Time} (ht : 0 ≤ t ∧ t < endOf9999) : WillBeLegal (UnixTimestamp.toIso8601 ⟨t / nsPerSec⟩) := by
  intro c hc
  obtain ⟨dt, _, e, _⟩ := iso_chars _ ht
  rw [e] at hc
  by_cases hd : c.toNat < 48 ∨ 57 < c.toNat
  · by_cases h1 : c = 'T'
    · subst h1; decide
    · by_cases h2 : c = 'Z'
      · subst h2; decide
      · exact absurd hc (basic_no hd h1 h2 dt)
  · exact forall_ascii (P := fun c => ¬ (c.toNat < 48 ∨ 57 < c.toNat) → c ∈ '"' :: uriChars) (by decide +kernel) c (by omega) hd

theorem legal_lit {s : Str} (h : s.all (fun c => ('"' :: uriChars).contains c) = true) : WillBeLegal s := by
  intro c hc
  have := List.all_eq_true.1 h c hc
  simpa using this

theorem join_legal {sep : Str} (hsep : WillBeLegal sep) {l : List Str} : WillBeLegal (join sep l) ↔ ∀ x ∈ l, WillBeLegal x := by
  constructor
  · intro h x hx c hc
    exact h c (mem_join_of hx hc)
  · intro h c hc
    rcases mem_join hc with hc | ⟨x, hx, hc⟩
    · exact hsep c hc
    · exact h x hx c hc

theorem required_legal {o : UrlOptions} {t : Time} {email : Str} (ht : 0 ≤ t ∧ t < endOf9999) :
    (∀ p ∈ required o t email, WillBeLegal (p.1 ++ p.2)) ↔
      WillBeLegal email ∧ WillBeLegal (o.region.getD (s% "auto")) ∧ ∀ x ∈ o.headers, WillBeLegal x.1 := by
  have hdate := date_legal ht
  have hd8 : WillBeLegal ((UnixTimestamp.toIso8601 ⟨t / nsPerSec⟩).take 8) := fun c hc => hdate c (List.mem_of_mem_take hc)
  have hdec : WillBeLegal (natDec ((o.expires - t) / nsPerSec).toNat) := fun c hc =>
    (by decide : ∀ c ∈ s% "0123456789", c ∈ '"' :: uriChars) c ((natDec_decimal _).2.1 c hc)
  have halg : WillBeLegal o.signingKey.xGoogAlgorithm.asStr := by
    cases o.signingKey <;> simp only [SigningKey.xGoogAlgorithm, SigningAlgorithm.asStr] <;> exact legal_lit (by decide +kernel)
  have hnames : (∀ x ∈ signedNames o.headers, WillBeLegal x) ↔ ∀ x ∈ o.headers, WillBeLegal x.1 := by
    constructor
    · intro h x hx
      exact asciiLower_legal.1 (h _ ((mem_signedNames_iff o _).2 ⟨x, by simp [requestHeaders, hx], rfl⟩))
    · intro h x hx
      obtain ⟨y, hy, rfl⟩ := (mem_signedNames_iff o x).1 hx
      rw [asciiLower_legal]
      simp only [requestHeaders, List.mem_cons] at hy
      rcases hy with rfl | hy
      · exact legal_lit (by decide +kernel)
      · exact h y hy
  have l1 : WillBeLegal (s% "X-Goog-Algorithm") := legal_lit (by decide +kernel)
  have l2 : WillBeLegal (s% "X-Goog-Credential") := legal_lit (by decide +kernel)
  have l3 : WillBeLegal (s% "X-Goog-Date") := legal_lit (by decide +kernel)
  have l4 : WillBeLegal (s% "X-Goog-Expires") := legal_lit (by decide +kernel)
  have l5 : WillBeLegal (s% "X-Goog-SignedHeaders") := legal_lit (by decide +kernel)
  have l6 : WillBeLegal (s% "/") := legal_lit (by decide +kernel)
  have l7 : WillBeLegal (s% "/storage/goog4_request") := legal_lit (by decide +kernel)
  have l8 : WillBeLegal (s% ";") := legal_lit (by decide +kernel)
  rw [required_eq o _ ht]
  simp only [List.forall_mem_cons, willBeLegal_append, replaceSlash_legal, credentialOf, join_legal l8, hnames]
  constructor
  · rintro ⟨_, ⟨_, ⟨⟨⟨⟨he, _⟩, _⟩, _⟩, hr⟩, _⟩, _, _, ⟨_, hn⟩, _⟩
    exact ⟨he, hr, hn⟩
  · rintro ⟨he, hr, hn⟩
    exact ⟨⟨l1, halg⟩, ⟨l2, ⟨⟨⟨⟨he, l6⟩, hd8⟩, l6⟩, hr⟩, l7⟩, ⟨l3, hdate⟩, ⟨l4, hdec⟩, ⟨l5, hn⟩, by simp⟩

/-- C60, the exact scope of C29: a returned URL consists of URI characters if and only if its path contains no `|` and no
`^`, and all parameters (the user's and those a form reader finds after a `?` in the names), the region, the e-mail in the
credential and the header names consist of URI characters and double quotes. -/
theorem C60_uri_chars_exact (env : Env) (o : UrlOptions) (w w' : World) (url : Str)
    (h : buildSignedUrl env o w = (.ok url, w')) :
    ∃ path email date extra, urlPath (s% "https://storage.googleapis.com") url = some path ∧
      BasicDenotes date (validFrom env o.accessibleAt w / 1000000000) ∧
      (utf8 (s% "X-Goog-Credential"), percentDecode (email ++ s% "/" ++ date.take 8 ++ s% "/" ++
          o.region.getD (s% "auto") ++ s% "/storage/goog4_request")) ∈ queryParams (urlQuery url) ∧
      Authorizes env w w'.log o.signingKey email ∧
      FormParams (queryItems (objectParts env o).query) extra ∧
      ((∀ c ∈ url, c ∈ uriChars) ↔
        (∀ c ∈ path, c ≠ '|' ∧ c ≠ '^') ∧
        (∀ p ∈ extra ++ o.queryParameters, ∀ c ∈ p.1 ++ p.2, c ∈ '"' :: uriChars) ∧
        (∀ c ∈ email, c ∈ '"' :: uriChars) ∧ (∀ c ∈ o.region.getD (s% "auto"), c ∈ '"' :: uriChars) ∧
        ∀ x ∈ o.headers, ∀ c ∈ x.1, c ∈ '"' :: uriChars) := by
  obtain ⟨email, digest, _, ht, hu, _, hauth, _⟩ := signed_ok h
  have hqd := urlQuery_decoded (env := env) (o := o) ht (email := email) digest
  rw [← hu] at hqd
  obtain ⟨dt, hdt, hiso, hsec⟩ := iso_chars _ ht
  have hqa : ∀ x ∈ (objectParts env o).query, x.toNat < 128 := by
    rw [← (objectParts_eq env o).2.1]; intro x hx; exact ((objectUrl_normal env o).2 x hx).1
  refine ⟨(objectUrl env o).path, email, _, _, by rw [hu, urlPath_parts], ⟨dt, hdt, hiso, hsec⟩, ?_, hauth,
    formParse_ascii hqa, ?_⟩
  · rw [hqd.mem_iff]
    simp only [List.append_assoc, List.mem_append, List.mem_cons]
    exact .inr (.inr (.inr (.inl (by simp [credentialOf]))))
  have hreq := required_legal (o := o) (email := email) ht
  have hpath : (∀ c ∈ (objectUrl env o).path, c ∈ uriChars) ↔ ∀ c ∈ (objectUrl env o).path, c ≠ '|' ∧ c ≠ '^' := by
    constructor
    · intro h c hc
      have := h c hc
      exact ⟨fun e => absurd (e ▸ this) (by decide), fun e => absurd (e ▸ this) (by decide)⟩
    · intro h c hc
      have hk := normalPath_chars (objectUrl_normal env o).1 c hc
      have hb : c ≠ '\\' := by rintro rfl; exact normalPath_no_backslash (objectUrl_normal env o).1 hc
      have : ∀ caret, (fun c : Char => pathEncSet caret c.toNat = false → c ≠ '|' ∧ c ≠ '^' → c ≠ '\\' → c ∈ uriChars) c := by
        intro caret
        exact forall_ascii (P := fun c : Char => pathEncSet caret c.toNat = false → c ≠ '|' ∧ c ≠ '^' → c ≠ '\\' → c ∈ uriChars)
          (by cases caret <;> decide +kernel) c hk.1
      exact this _ hk.2 (h c hc) hb
  have hall : ∀ p, p ∈ allParams env o (required o (validFrom env o.accessibleAt w) email) ↔
      p ∈ formParse (utf8 (objectParts env o).query) ++ o.queryParameters ∨ p ∈ required o (validFrom env o.accessibleAt w) email := by
    intro p
    unfold allParams
    rw [(objectParts_eq env o).2.1, List.mem_append]
  have hitem : ∀ p, (∀ c ∈ canonicalItem p, c ∈ uriChars) ↔ WillBeLegal (p.1 ++ p.2) := by
    intro p
    unfold canonicalItem
    rw [willBeLegal_append, ← encoded_legal, ← encoded_legal, List.forall_mem_append, List.forall_mem_append]
    have : ∀ c ∈ s% "=", c ∈ uriChars := by decide
    exact ⟨fun h => ⟨h.1.1, h.2⟩, fun h => ⟨⟨h.1, this⟩, h.2⟩⟩
  have hquery : (∀ c ∈ (partsOf env o (validFrom env o.accessibleAt w) email).query, c ∈ uriChars) ↔
      ∀ p, (p ∈ formParse (utf8 (objectParts env o).query) ++ o.queryParameters ∨ p ∈ required o (validFrom env o.accessibleAt w) email) → WillBeLegal (p.1 ++ p.2) := by
    rw [partsOf_query]
    constructor
    · intro h p hp
      refine (hitem p).1 fun c hc => h c (mem_join_of (x := canonicalItem p) ?_ hc)
      rw [mem_sortStr, List.mem_map]
      exact ⟨p, (hall p).2 hp, rfl⟩
    · intro h c hc
      rcases mem_join hc with hc | ⟨x, hx, hc⟩
      · exact (by decide : ∀ c ∈ s% "&", c ∈ uriChars) c hc
      · rw [mem_sortStr, List.mem_map] at hx
        obtain ⟨p, hp, rfl⟩ := hx
        exact (hitem p).2 (h p ((hall p).1 hp)) c hc
  have hurl : (∀ c ∈ url, c ∈ uriChars) ↔ (∀ c ∈ (objectUrl env o).path, c ∈ uriChars) ∧
      ∀ c ∈ (partsOf env o (validFrom env o.accessibleAt w) email).query, c ∈ uriChars := by
    have h1 : ∀ c ∈ s% "https://storage.googleapis.com", c ∈ uriChars := by decide
    have h2 : ∀ c ∈ s% "?", c ∈ uriChars := by decide
    have h3 : ∀ c ∈ s% "&X-Goog-Signature=", c ∈ uriChars := by decide
    have h4 : ∀ c ∈ hexEncode digest, c ∈ uriChars := fun c hc =>
      (by decide : ∀ c ∈ s% "0123456789abcdef", c ∈ uriChars) c (hexEncode_chars digest c hc)
    rw [hu]
    unfold SignedParts.url
    have hp : (partsOf env o (validFrom env o.accessibleAt w) email).path = (objectUrl env o).path := rfl
    rw [hp]
    simp only [List.forall_mem_append]
    exact ⟨fun h => ⟨h.1.1.1.1.2, h.1.1.2⟩, fun h => ⟨⟨⟨⟨⟨h1, h.1⟩, h2⟩, h.2⟩, h3⟩, h4⟩⟩
  rw [hurl, hpath, hquery]
  constructor
  · rintro ⟨hp, hl⟩
    obtain ⟨he, hr, hh⟩ := hreq.1 fun p hp => hl p (.inr hp)
    exact ⟨hp, fun p hp => hl p (.inl hp), he, hr, hh⟩
  · rintro ⟨hp, hl, he, hr, hh⟩
    refine ⟨hp, fun p hpm => ?_⟩
    rcases hpm with hpm | hpm
    · exact hl p hpm
    · exact hreq.2 ⟨he, hr, hh⟩ p hpm

/-- Non-vacuity: a call that succeeds and whose URL is legal, and two whose URL is not (a `|` in the object name, and in a
parameter in the object name). -/
example :
    Conformance.yields (buildSignedUrl Conformance.env Conformance.urlOptions Conformance.world)
      (fun url => url.all uriChars.contains) = true ∧
    Conformance.yields (buildSignedUrl Conformance.env { Conformance.urlOptions with objectName := s% "a|b" } Conformance.world)
      (fun url => !url.all uriChars.contains) = true ∧
    Conformance.yields (buildSignedUrl Conformance.env { Conformance.urlOptions with objectName := s% "a?b=%7C" } Conformance.world)
      (fun url => !url.all uriChars.contains) = true := by decide +kernel

end CSS
