import Verif.Lemmas.UrlPath
import Verif.Lemmas.UrlPathExact
import Verif.Props.UrlParams
/-
C27, C28, C29, C57: the path of a signed URL, and the characters of a signed URL.
-/
set_option linter.unusedSimpArgs false
namespace CSS
open Spec

/-- C27, names with `%` allowed: if the names contain no `?`, `#`, backslash, tab, LF or CR, the object name does not
end in a space or control character, and no path segment percent-decodes to `.` or `..`, then the path of a returned
URL percent-decodes, segment by segment, to what `/BUCKET/OBJECT` percent-decodes to. -/
theorem C27_path_decodes_partial (env : Env) (o : UrlOptions) (w w' : World) (url : Str)
    (h : buildSignedUrl env o w = (.ok url, w'))
    (hc : ∀ c ∈ o.bucketName ++ o.objectName, c ∉ s% "?#\\\t\n\r")
    (hl : ∀ c, o.objectName.getLast? = some c → 32 < c.toNat)
    (hd : ∀ s ∈ splitOn '/' (o.bucketName ++ s% "/" ++ o.objectName), percentDecode s ≠ utf8 (s% ".") ∧ percentDecode s ≠ utf8 (s% "..")) :
    ∃ path, urlPath (s% "https://storage.googleapis.com") url = some path ∧
      percentDecode path = percentDecode (s% "/" ++ o.bucketName ++ s% "/" ++ o.objectName) ∧
      (splitOn '/' path).map percentDecode =
        (splitOn '/' (s% "/" ++ o.bucketName ++ s% "/" ++ o.objectName)).map percentDecode := by
  obtain ⟨email, digest, _, ht, hu, _⟩ := signed_ok h
  have hp := objectUrl_path (env := env) hc hl hd
  refine ⟨_, by rw [hu, urlPath_parts], ?_, ?_⟩
  · rw [hp, percentDecode_pathEncode]
  · rw [hp]
    generalize s% "/" ++ o.bucketName ++ s% "/" ++ o.objectName = s
    have e : utf8PercentEncode (pathEncSet env.encodeCaret) s =
        join (s% "/") ((splitOn '/' s).map (utf8PercentEncode (pathEncSet env.encodeCaret))) := by
      rw [← encode_join, join_splitOn]
    rw [e, splitOn_join]
    · rw [List.map_map]
      apply List.map_congr_left
      intro x _
      exact percentDecode_pathEncode _ _
    · simpa using splitOn_ne_nil _ _
    · intro x hx
      rw [List.mem_map] at hx
      obtain ⟨y, hy, rfl⟩ := hx
      intro hm
      rcases encode_mem (pathEncSet_enc _) hm with hm | hm
      · exact splitOn_no hy hm
      · exact absurd hm (by decide)

/-- C27 (partial: names without the characters listed). The path of a returned URL percent-decodes to exactly
`/BUCKET/OBJECT`, segment by segment, for all names without `?`, `#`, `%`, backslash, tab, LF, CR, without `.` and `..`
segments, and without a space or control character at the end. -/
theorem C27_path_exact_partial (env : Env) (o : UrlOptions) (w w' : World) (url : Str)
    (h : buildSignedUrl env o w = (.ok url, w'))
    (hc : ∀ c ∈ o.bucketName ++ o.objectName, c ∉ s% "?#%\\\t\n\r")
    (hl : ∀ c, o.objectName.getLast? = some c → 32 < c.toNat)
    (hd : ∀ s ∈ splitOn '/' (o.bucketName ++ s% "/" ++ o.objectName), s ≠ s% "." ∧ s ≠ s% "..") :
    ∃ path, urlPath (s% "https://storage.googleapis.com") url = some path ∧
      percentDecode path = utf8 (s% "/" ++ o.bucketName ++ s% "/" ++ o.objectName) ∧
      (splitOn '/' path).map percentDecode =
        (splitOn '/' (s% "/" ++ o.bucketName ++ s% "/" ++ o.objectName)).map utf8 := by
  have hpct : '%' ∉ s% "/" ++ o.bucketName ++ s% "/" ++ o.objectName := by
    simp only [List.mem_append, not_or]
    exact ⟨⟨⟨by decide, fun hm => hc '%' (by simp [hm]) (by decide)⟩, by decide⟩, fun hm => hc '%' (by simp [hm]) (by decide)⟩
  have hpct' : ∀ s ∈ splitOn '/' (s% "/" ++ o.bucketName ++ s% "/" ++ o.objectName), '%' ∉ s :=
    fun s hs hm => hpct (splitOn_sub hs hm)
  have hpct'' : ∀ s ∈ splitOn '/' (o.bucketName ++ s% "/" ++ o.objectName), '%' ∉ s := by
    intro s hs hm
    apply hpct
    have := splitOn_sub hs hm
    simp only [List.mem_append] at this ⊢
    rcases this with (h | h) | h
    · exact .inl (.inl (.inr h))
    · exact .inl (.inr h)
    · exact .inr h
  obtain ⟨path, h1, h2, h3⟩ := C27_path_decodes_partial env o w w' url h
    (fun c hm hx => hc c hm ((by decide : ∀ c ∈ s% "?#\\\t\n\r", c ∈ s% "?#%\\\t\n\r") c hx)) hl (by
      intro s hs
      rw [percentDecode_plain (hpct'' s hs)]
      exact ⟨fun e => (hd s hs).1 (utf8_inj e), fun e => (hd s hs).2 (utf8_inj e)⟩)
  refine ⟨path, h1, by rw [h2, percentDecode_plain hpct], ?_⟩
  rw [h3]
  apply List.map_congr_left
  intro s hs
  exact percentDecode_plain (hpct' s hs)

/-- Non-vacuity: an object name with a space, a slash, a plus sign and a non-ASCII letter. -/
example : (∀ c ∈ Conformance.urlOptions.bucketName ++ Conformance.urlOptions.objectName, c ∉ s% "?#%\\\t\n\r") ∧
    Conformance.urlOptions.objectName.getLast? = some 'g' ∧
    (∀ s ∈ splitOn '/' (Conformance.urlOptions.bucketName ++ s% "/" ++ Conformance.urlOptions.objectName), s ≠ s% "." ∧ s ≠ s% "..") := by
  decide +kernel

/-- C27, counterexamples: for each of these names of an object in the bucket `b`, signing succeeds and the URL has
another path, even one in another bucket. -/
theorem C27_counterexamples :
    ∀ x ∈ [(s% "../other/secret", s% "/other/secret"), (s% "a/../../other/secret", s% "/other/secret"),
           (s% "%2E%2e/other/secret", s% "/other/secret"), (s% "./a", s% "/b/a"),
           (s% "a?b", s% "/b/a"), (s% "a#b", s% "/b/a"), (s% "a\\b", s% "/b/a/b"), (s% "a\tb\n", s% "/b/ab"),
           (s% "a ", s% "/b/a"), (s% "%41", s% "/b/%41")],
      ∃ env o w url w', o.bucketName = s% "b" ∧ o.objectName = x.1 ∧ buildSignedUrl env o w = (.ok url, w') ∧
        urlPath (s% "https://storage.googleapis.com") url = some x.2 := by
  intro x hx
  have key : ∀ x ∈ [(s% "../other/secret", s% "/other/secret"), (s% "a/../../other/secret", s% "/other/secret"),
           (s% "%2E%2e/other/secret", s% "/other/secret"), (s% "./a", s% "/b/a"),
           (s% "a?b", s% "/b/a"), (s% "a#b", s% "/b/a"), (s% "a\\b", s% "/b/a/b"), (s% "a\tb\n", s% "/b/ab"),
           (s% "a ", s% "/b/a"), (s% "%41", s% "/b/%41")],
      Conformance.yields (buildSignedUrl Conformance.env
        { Conformance.urlOptions with bucketName := s% "b", objectName := x.1 } Conformance.world)
        (fun url => decide (urlPath (s% "https://storage.googleapis.com") url = some x.2)) = true := by decide +kernel
  obtain ⟨url, w', h, hf⟩ := Conformance.yields_iff (key x hx)
  exact ⟨_, _, _, url, w', rfl, rfl, h, of_decide_eq_true hf⟩

/-- The last of these decodes to the name of another object. -/
example : percentDecode (s% "/b/%41") = utf8 (s% "/b/A") := by decide +kernel

/-! ### C57 -/

theorem splitOn_escape {c : Char} {s t : Str} (ht : t ∈ splitOn c s)
    (h : HasEscape t) : HasEscape s := by
  obtain ⟨before, x, y, after, rfl, hx, hy⟩ := h
  obtain ⟨u, v, e⟩ := splitOn_infix ht
  exact ⟨u ++ before, x, y, after ++ v, by rw [e]; simp, hx, hy⟩

/-- C57, the exact scope of C27: the path of a returned URL percent-decodes to `/BUCKET/OBJECT` if and only if the names
contain no `?`, `#`, backslash, tab, LF or CR, the object name does not end in a space or control character, no segment
is `.` or `..`, and there is no percent escape in the names. -/
theorem C57_path_exact (env : Env) (o : UrlOptions) (w w' : World) (url : Str)
    (h : buildSignedUrl env o w = (.ok url, w')) :
    ∃ path, urlPath (s% "https://storage.googleapis.com") url = some path ∧
      (percentDecode path = utf8 (s% "/" ++ o.bucketName ++ s% "/" ++ o.objectName) ↔
        (∀ c ∈ o.bucketName ++ o.objectName, c ∉ s% "?#\\\t\n\r") ∧
        (∀ c, o.objectName.getLast? = some c → 32 < c.toNat) ∧
        (∀ s ∈ splitOn '/' (o.bucketName ++ s% "/" ++ o.objectName), s ≠ s% "." ∧ s ≠ s% "..") ∧
        ¬ HasEscape (o.bucketName ++ s% "/" ++ o.objectName)) := by
  obtain ⟨email, digest, _, ht, hu, _⟩ := signed_ok h
  refine ⟨(objectUrl env o).path, by rw [hu, urlPath_parts], fun e => url_path_exact (env := env) e, ?_⟩
  rintro ⟨hc, hl, hd, he⟩
  have hp := objectUrl_path (env := env) hc hl (by
    intro s hs
    have hse : ¬ HasEscape s := fun h => he (splitOn_escape hs h)
    rw [percentDecode_no_escape hse]
    exact ⟨fun e => (hd s hs).1 (utf8_inj e), fun e => (hd s hs).2 (utf8_inj e)⟩)
  rw [hp, percentDecode_pathEncode]
  apply percentDecode_no_escape
  have hN : s% "/" ++ o.bucketName ++ s% "/" ++ o.objectName = '/' :: (o.bucketName ++ s% "/" ++ o.objectName) := by simp
  rw [hN, hasEscape_cons]
  rintro (⟨hs, _⟩ | hs)
  · exact absurd hs (by decide)
  · exact he hs

/-- Non-vacuity: both sides occur. The object of the conformance example meets the condition, `../a` does not, and for
both a URL is returned. -/
example : ¬ HasEscape (s% "100%/a%zz") ∧ HasEscape (s% "a%41") ∧
    Conformance.succeeds (buildSignedUrl Conformance.env Conformance.urlOptions Conformance.world) = true ∧
    Conformance.succeeds (buildSignedUrl Conformance.env
      { Conformance.urlOptions with objectName := s% "../a" } Conformance.world) = true := by
  refine ⟨percentDecode_eq_iff.1 (by decide +kernel), ⟨s% "a", '4', '1', [], rfl, by decide, by decide⟩,
    by decide +kernel, by decide +kernel⟩

/-- C28. The path line of the canonical request and the path of the URL percent-decode to the same bytes, segment by
segment. -/
theorem C28_same_resource (env : Env) (o : UrlOptions) (w w' : World) (url : Str)
    (h : buildSignedUrl env o w = (.ok url, w')) :
    ∃ p : SignedParts, IsSigned env w'.log o.signingKey url p ∧
      urlPath (s% "https://storage.googleapis.com") url = some p.path ∧
      percentDecode p.pathLine = percentDecode p.path ∧
      (splitOn '/' p.pathLine).map percentDecode = (splitOn '/' p.path).map percentDecode := by
  obtain ⟨email, digest, _, ht, hu, hs, _⟩ := signed_ok h
  refine ⟨_, hs, by rw [hu, urlPath_parts]; simp only [partsOf], ?_, ?_⟩
  · simp only [partsOf]; exact percentDecode_encode _
  · simp only [partsOf]
    generalize (objectUrl env o).path = s
    have e : percentEncode s = join (s% "/") ((splitOn '/' s).map percentEncode) := by
      rw [← percentEncode_join_slash, join_splitOn]
    rw [e, splitOn_join]
    · rw [List.map_map]
      apply List.map_congr_left
      intro x _
      exact percentDecode_encode _
    · simpa using splitOn_ne_nil _ _
    · intro x hx
      rw [List.mem_map] at hx
      obtain ⟨y, hy, rfl⟩ := hx
      intro hm
      rcases percentEncode_mem hm with hm | hm
      · exact splitOn_no hy hm
      · exact absurd hm (by decide)

/-! ### C29 -/

/-- The characters of a URI (RFC 3986): unreserved, reserved, and `%`. -/
def uriChars : Str :=
  s% "%ABCDEFGHIJKLMNOPQRSTUVWXYZabcdefghijklmnopqrstuvwxyz0123456789-._~:/?#[]@!$&'()*+,;="

/-- C29 (partial). If the names contain no `?`, `|` or `^`, and the user's parameters, the region, the authorizer and
the header names consist of URI characters and double quotes, the returned URL consists of URI characters. -/
theorem C29_uri_chars_partial (env : Env) (o : UrlOptions) (w w' : World) (url : Str)
    (h : buildSignedUrl env o w = (.ok url, w'))
    (hn : ∀ c ∈ o.bucketName ++ o.objectName, c ∉ s% "?|^")
    (hp : ∀ p ∈ o.queryParameters, ∀ c ∈ p.1 ++ p.2, c ∈ '"' :: uriChars)
    (hr : ∀ r, o.region = some r → ∀ c ∈ r, c ∈ '"' :: uriChars)
    (he : ∀ email, Authorizes env w w'.log o.signingKey email → ∀ c ∈ email, c ∈ '"' :: uriChars)
    (hh : ∀ x ∈ o.headers, ∀ c ∈ x.1, c ∈ '"' :: uriChars) :
    ∀ c ∈ url, c ∈ uriChars := by
  obtain ⟨email, digest, _, ht, hu, _, hauth, _⟩ := signed_ok h
  have hq : (objectUrl env o).query = none :=
    objectUrl_query_none (fun hm => hn '?' (by simp [hm]) (by decide)) (fun hm => hn '?' (by simp [hm]) (by decide))
  have hreg : ∀ c ∈ o.region.getD (s% "auto"), c ∈ '"' :: uriChars := by
    cases hro : o.region with
    | none => decide
    | some r => exact hr r hro
  have hdate : ∀ c ∈ UnixTimestamp.toIso8601 ⟨validFrom env o.accessibleAt w / nsPerSec⟩, c ∈ '"' :: uriChars := by
    intro c hc
    obtain ⟨dt, _, e, _⟩ := iso_chars _ ht
    rw [e] at hc
    by_cases hd : c.toNat < 48 ∨ 57 < c.toNat
    · by_cases h1 : c = 'T'
      · subst h1; decide
      · by_cases h2 : c = 'Z'
        · subst h2; decide
        · exact absurd hc (basic_no hd h1 h2 dt)
    · exact forall_ascii (P := fun c => ¬ (c.toNat < 48 ∨ 57 < c.toNat) → c ∈ '"' :: uriChars) (by decide +kernel) c (by omega) hd
  have hreq : ∀ p ∈ required o (validFrom env o.accessibleAt w) email, ∀ c ∈ p.1 ++ p.2, c ∈ '"' :: uriChars := by
    rw [required_eq o _ ht]
    intro p hpm c hc
    simp only [List.mem_cons, List.not_mem_nil, or_false] at hpm
    have hsl : ∀ {s : Str}, (∀ c ∈ s, c ∈ '"' :: uriChars) → ∀ c ∈ replaceSlash s, c ∈ '"' :: uriChars := by
      intro s hs c hc
      unfold replaceSlash at hc
      rw [List.mem_flatMap] at hc
      obtain ⟨d, hd, hc⟩ := hc
      split at hc
      · exact (by decide : ∀ c ∈ s% "%2F", c ∈ '"' :: uriChars) c hc
      · simp only [List.mem_singleton] at hc; subst hc; exact hs _ hd
    rcases hpm with rfl | rfl | rfl | rfl | rfl <;> rw [List.mem_append] at hc <;> rcases hc with hc | hc
    · exact (by decide : ∀ c ∈ s% "X-Goog-Algorithm", c ∈ '"' :: uriChars) c hc
    · revert hc; cases o.signingKey <;> (revert c; simp only [SigningKey.xGoogAlgorithm, SigningAlgorithm.asStr]; decide)
    · exact (by decide : ∀ c ∈ s% "X-Goog-Credential", c ∈ '"' :: uriChars) c hc
    · refine hsl ?_ c hc
      intro d hd
      unfold credentialOf at hd
      simp only [List.mem_append] at hd
      rcases hd with (((((hd | hd) | hd) | hd) | hd)) | hd
      · exact he email hauth d hd
      · exact (by decide : ∀ c ∈ s% "/", c ∈ '"' :: uriChars) d hd
      · exact hdate d (List.mem_of_mem_take hd)
      · exact (by decide : ∀ c ∈ s% "/", c ∈ '"' :: uriChars) d hd
      · exact hreg d hd
      · exact (by decide : ∀ c ∈ s% "/storage/goog4_request", c ∈ '"' :: uriChars) d hd
    · exact (by decide : ∀ c ∈ s% "X-Goog-Date", c ∈ '"' :: uriChars) c hc
    · exact hdate c hc
    · exact (by decide : ∀ c ∈ s% "X-Goog-Expires", c ∈ '"' :: uriChars) c hc
    · have := (natDec_decimal _).2.1 c hc
      exact (by decide : ∀ c ∈ s% "0123456789", c ∈ '"' :: uriChars) c this
    · exact (by decide : ∀ c ∈ s% "X-Goog-SignedHeaders", c ∈ '"' :: uriChars) c hc
    · rcases mem_join hc with hc | ⟨x, hx, hc⟩
      · exact (by decide : ∀ c ∈ s% ";", c ∈ '"' :: uriChars) c hc
      · obtain ⟨y, hy, rfl⟩ := (mem_signedNames_iff o x).1 hx
        unfold asciiLower at hc
        rw [List.mem_map] at hc
        obtain ⟨d, hd, rfl⟩ := hc
        have hdl : d ∈ '"' :: uriChars := by
          simp only [requestHeaders, List.mem_cons] at hy
          rcases hy with rfl | hy
          · exact (by decide : ∀ c ∈ s% "host", c ∈ '"' :: uriChars) d hd
          · exact hh y hy d hd
        exact (by decide +kernel : ∀ d ∈ '"' :: uriChars, asciiLowerChar d ∈ '"' :: uriChars) d hdl
  have hall : ∀ p ∈ allParams env o (required o (validFrom env o.accessibleAt w) email), ∀ c ∈ p.1 ++ p.2, c ∈ '"' :: uriChars := by
    intro p hpm
    unfold allParams at hpm
    rw [hq] at hpm
    simp only [Option.getD_none, utf8_nil, formParse_nil, List.nil_append, List.mem_append] at hpm
    rcases hpm with hpm | hpm
    · exact hp p hpm
    · exact hreq p hpm
  have henc : ∀ {s : Str}, (∀ c ∈ s, c ∈ '"' :: uriChars) → ∀ c ∈ percentEncode s, c ∈ uriChars := by
    intro s hs c hc
    have hnr := percentEncode_not_reserved s c hc
    rcases percentEncode_mem hc with hc | hc
    · have := hs c hc
      rw [List.mem_cons] at this
      rcases this with rfl | this
      · exact absurd (by decide) hnr
      · exact this
    · exact (by decide : ∀ c ∈ s% "%0123456789ABCDEF", c ∈ uriChars) c hc
  intro c hc
  rw [hu] at hc
  unfold SignedParts.url at hc
  rw [partsOf_query] at hc
  simp only [List.mem_append] at hc
  rcases hc with ((((hc | hc) | hc) | hc) | hc) | hc
  · exact (by decide : ∀ c ∈ s% "https://storage.googleapis.com", c ∈ uriChars) c hc
  · simp only [partsOf] at hc
    have hk := normalPath_chars (objectUrl_normal env o).1 c hc
    have hnot : c ≠ '|' ∧ c ≠ '^' ∧ c ≠ '\\' := by
      refine ⟨?_, ?_, ?_⟩
      · rintro rfl
        exact objectUrl_path_sub (by decide) (fun hm => hn _ hm (by decide)) hc
      · rintro rfl
        exact objectUrl_path_sub (by decide) (fun hm => hn _ hm (by decide)) hc
      · rintro rfl
        exact normalPath_no_backslash (objectUrl_normal env o).1 hc
    have : ∀ caret, (fun c : Char => pathEncSet caret c.toNat = false → c ≠ '|' ∧ c ≠ '^' ∧ c ≠ '\\' → c ∈ uriChars) c := by
      intro caret
      exact forall_ascii (P := fun c : Char => pathEncSet caret c.toNat = false → c ≠ '|' ∧ c ≠ '^' ∧ c ≠ '\\' → c ∈ uriChars)
        (by cases caret <;> decide +kernel) c hk.1
    exact this _ hk.2 hnot
  · exact (by decide : ∀ c ∈ s% "?", c ∈ uriChars) c hc
  · rcases mem_join hc with hc | ⟨x, hx, hc⟩
    · exact (by decide : ∀ c ∈ s% "&", c ∈ uriChars) c hc
    · rw [mem_sortStr, List.mem_map] at hx
      obtain ⟨p, hpm, rfl⟩ := hx
      unfold canonicalItem at hc
      simp only [List.mem_append] at hc
      rcases hc with (hc | hc) | hc
      · exact henc (fun d hd => hall p hpm d (by simp [hd])) c hc
      · exact (by decide : ∀ c ∈ s% "=", c ∈ uriChars) c hc
      · exact henc (fun d hd => hall p hpm d (by simp [hd])) c hc
  · exact (by decide : ∀ c ∈ s% "&X-Goog-Signature=", c ∈ uriChars) c hc
  · exact (by decide : ∀ c ∈ s% "0123456789abcdef", c ∈ uriChars) c (hexEncode_chars digest c hc)

/-- Non-vacuity. -/
example : (∀ c ∈ Conformance.urlOptions.bucketName ++ Conformance.urlOptions.objectName, c ∉ s% "?|^") ∧
    (∀ p ∈ Conformance.urlOptions.queryParameters, ∀ c ∈ p.1 ++ p.2, c ∈ '"' :: uriChars) ∧
    Conformance.urlOptions.region = none ∧ (∀ c ∈ s% "test@example.com", c ∈ '"' :: uriChars) ∧
    (∀ x ∈ Conformance.urlOptions.headers, ∀ c ∈ x.1, c ∈ '"' :: uriChars) := by decide +kernel

/-- C29, what fails: every other character of a user's parameter is in the returned URL as it is. -/
theorem C29_illegal_char_raw (env : Env) (o : UrlOptions) (w w' : World) (url : Str)
    (h : buildSignedUrl env o w = (.ok url, w')) (p : Str × Str) (hp : p ∈ o.queryParameters) (c : Char)
    (hc : c ∈ p.1 ++ p.2) (hl : c ∉ '"' :: uriChars) : c ∈ url ∧ c ∉ uriChars := by
  obtain ⟨email, digest, _, ht, hu, _⟩ := signed_ok h
  have hlu : c ∉ uriChars := fun hm => hl (by simp [hm])
  refine ⟨?_, hlu⟩
  have hnr : c ∉ reserved := fun hm => hl ((by decide : ∀ c ∈ reserved, c ∈ '"' :: uriChars) c hm)
  have henc : ∀ s : Str, c ∈ s → c ∈ percentEncode s := by
    intro s hs
    unfold percentEncode
    rw [List.mem_flatMap]
    exact ⟨c, hs, by rw [percentEncodeChar_not hnr]; simp⟩
  have hitem : c ∈ canonicalItem p := by
    unfold canonicalItem
    rw [List.mem_append] at hc
    simp only [List.mem_append]
    rcases hc with hc | hc
    · exact .inl (.inl (henc _ hc))
    · exact .inr (henc _ hc)
  rw [hu]
  unfold SignedParts.url
  rw [partsOf_query]
  simp only [List.mem_append]
  refine .inl (.inl (.inr (mem_join_of ?_ hitem)))
  rw [mem_sortStr, List.mem_map]
  exact ⟨p, by simp [allParams, hp], rfl⟩

/-- C29, counterexample: a space and a line break in a parameter. -/
theorem C29_counterexample :
    ∃ env o w url w', buildSignedUrl env o w = (.ok url, w') ∧ ' ' ∈ url ∧ '\n' ∈ url ∧ ' ' ∉ uriChars ∧ '\n' ∉ uriChars := by
  obtain ⟨url, w', h⟩ := Conformance.succeeds_iff (r := buildSignedUrl Conformance.env
    { Conformance.urlOptions with queryParameters := [(s% "response-content-disposition", s% "attachment; filename=a b\n")] }
    Conformance.world) (by decide +kernel)
  exact ⟨_, _, _, url, w', h, (C29_illegal_char_raw _ _ _ _ _ h _ (List.mem_singleton.2 rfl) ' ' (by decide) (by decide)).1,
    (C29_illegal_char_raw _ _ _ _ _ h _ (List.mem_singleton.2 rfl) '\n' (by decide) (by decide)).1, by decide, by decide⟩

end CSS
