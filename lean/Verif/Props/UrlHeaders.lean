import Verif.Lemmas.UrlHeaders
import Verif.Props.UrlShape
/-
C20, C21, C22, C26: the headers of a signed URL. `requestHeaders o` is the fixed host header followed by the
user's headers; names are compared up to the case of ASCII letters.
-/
set_option linter.unusedSimpArgs false
namespace CSS
open Spec

theorem percentDecode_signedHeaders {hs : List (Str × Str)} (h : ∀ x ∈ hs, '%' ∉ x.1) :
    '%' ∉ join (s% ";") (signedNames hs) := by
  intro hc
  rcases mem_join hc with hc | ⟨n, hn, hc⟩
  · exact absurd hc (by decide)
  · rcases (mem_signedNames hs n).1 hn with rfl | ⟨x, hx, rfl⟩
    · exact absurd hc (by decide)
    · unfold asciiLower at hc
      rw [List.mem_map] at hc
      obtain ⟨d, hd, he⟩ := hc
      have : d = '%' := by
        by_cases hd' : d.toNat < 128
        · exact forall_ascii (P := fun c => asciiLowerChar c = '%' → c = '%') (by decide +kernel) d hd' he
        · unfold asciiLowerChar at he
          rwa [if_neg (by omega)] at he
      exact h x hx (this ▸ hd)

/-- C20. The signed header names are the lower-cased names of the host header and all user headers, each once, in
strictly increasing order. The canonical request ends in exactly this list joined with `;`, and the URL's
X-Goog-SignedHeaders parameter is the same text (as the server percent-decodes it: exactly the same if no header
name contains a `%`). -/
theorem C20_signed_headers (env : Env) (o : UrlOptions) (w w' : World) (url : Str)
    (h : buildSignedUrl env o w = (.ok url, w')) :
    ∃ (p : SignedParts) (names : List Str), IsSigned env w'.log o.signingKey url p ∧
      names = p.headers.map (·.1) ∧ names.Pairwise LexLt ∧ s% "host" ∈ names ∧
      (∀ name, name ∈ names ↔ ∃ x ∈ requestHeaders o, asciiLower x.1 = name) ∧
      (∃ pre, p.canonicalRequest = pre ++ s% "\n" ++ join (s% ";") names ++ s% "\nUNSIGNED-PAYLOAD") ∧
      (utf8 (s% "X-Goog-SignedHeaders"), percentDecode (join (s% ";") names)) ∈ queryParams (urlQuery url) ∧
      ((∀ x ∈ o.headers, '%' ∉ x.1) →
        (utf8 (s% "X-Goog-SignedHeaders"), utf8 (join (s% ";") names)) ∈ queryParams (urlQuery url)) := by
  obtain ⟨email, digest, _, ht, hu, hs, _, _, halg⟩ := signed_ok h
  have hq := urlQuery_decoded (env := env) (o := o) ht (email := email) digest
  rw [← hu] at hq
  have hmem : (utf8 (s% "X-Goog-SignedHeaders"), percentDecode (join (s% ";") (signedNames o.headers))) ∈
      queryParams (urlQuery url) := by rw [hq.mem_iff]; simp
  refine ⟨_, signedNames o.headers, hs, ?_, signedNames_lt _, ?_, mem_signedNames_iff o, ?_, hmem, ?_⟩
  · simp only [partsOf, group_fst]
  · rw [mem_signedNames]; exact .inl rfl
  · simp only [SignedParts.canonicalRequest, join]
    refine ⟨o.httpMethod ++ s% "\n" ++ percentEncode (objectUrl env o).path ++ s% "\n" ++
      (partsOf env o (validFrom env o.accessibleAt w) email).query ++ s% "\n" ++
      join (s% "\n") ((partsOf env o (validFrom env o.accessibleAt w) email).headers.map
        fun h => h.1 ++ s% ":" ++ join (s% ",") h.2) ++ s% "\n", ?_⟩
    have hn : (partsOf env o (validFrom env o.accessibleAt w) email).headers.map (·.1) = signedNames o.headers := by
      simp only [partsOf, group_fst]
    have hm : (partsOf env o (validFrom env o.accessibleAt w) email).method = o.httpMethod := rfl
    have hp : (partsOf env o (validFrom env o.accessibleAt w) email).pathLine = percentEncode (objectUrl env o).path := rfl
    rw [hn, hm, hp]
    simp only [List.append_assoc, List.cons_append, List.nil_append]
  · intro hpct
    rw [percentDecode_plain (percentDecode_signedHeaders hpct)] at hmem
    exact hmem

/-- Non-vacuity of the `%` hypothesis. -/
example : ∀ x ∈ Conformance.urlOptions.headers, '%' ∉ x.1 := by decide

/-- C20, why the `%` hypothesis is there: with a header called `a%41` (a legal token), a server decodes
X-Goog-SignedHeaders to a text that does not name it. -/
theorem C20_percent_in_header_name :
    ∃ env o w url w', buildSignedUrl env o w = (.ok url, w') ∧ o.headers = [(s% "a%41", s% "v")] ∧
      (utf8 (s% "X-Goog-SignedHeaders"), utf8 (s% "aA;host")) ∈ queryParams (urlQuery url) ∧
      (utf8 (s% "X-Goog-SignedHeaders"), utf8 (s% "a%41;host")) ∉ queryParams (urlQuery url) := by
  obtain ⟨url, w', h, hf⟩ := Conformance.yields_iff (r := buildSignedUrl Conformance.env
    { Conformance.urlOptions with headers := [(s% "a%41", s% "v")] } Conformance.world)
    (f := fun url => (utf8 (s% "X-Goog-SignedHeaders"), utf8 (s% "aA;host")) ∈ queryParams (urlQuery url) ∧
      (utf8 (s% "X-Goog-SignedHeaders"), utf8 (s% "a%41;host")) ∉ queryParams (urlQuery url)) (by decide +kernel)
  exact ⟨_, _, _, url, w', h, rfl, of_decide_eq_true hf⟩

/-- C21. The header part of the canonical request has, for each name (see C20), exactly one line `name:v1,v2,...`
with all values given for that name in order; the host line starts with `storage.googleapis.com`. -/
theorem C21_header_values (env : Env) (o : UrlOptions) (w w' : World) (url : Str)
    (h : buildSignedUrl env o w = (.ok url, w')) :
    ∃ p : SignedParts, IsSigned env w'.log o.signingKey url p ∧
      (p.headers.map (·.1)).Nodup ∧
      (∀ line ∈ p.headers, line.2 = headerValues (requestHeaders o) line.1) ∧
      (∀ x ∈ requestHeaders o, ∃ line ∈ p.headers, line.1 = asciiLower x.1 ∧ x.2 ∈ line.2) ∧
      ∃ more, (s% "host", s% "storage.googleapis.com" :: more) ∈ p.headers := by
  obtain ⟨email, digest, _, ht, hu, hs, _, _, halg⟩ := signed_ok h
  have hline : ∀ n, n ∈ signedNames o.headers →
      (n, headerValues (requestHeaders o) n) ∈ (partsOf env o (validFrom env o.accessibleAt w) email).headers := by
    intro n hn
    rw [partsOf_headers, List.mem_map]
    exact ⟨n, hn, rfl⟩
  refine ⟨_, hs, ?_, ?_, ?_, ?_⟩
  · simp only [partsOf, group_fst]
    exact (signedNames_lt _).imp fun h he => by subst he; exact lexLt_irrefl _ h
  · intro line hl
    rw [partsOf_headers, List.mem_map] at hl
    obtain ⟨n, _, rfl⟩ := hl
    rfl
  · intro x hx
    refine ⟨_, hline (asciiLower x.1) ((mem_signedNames_iff o _).2 ⟨x, hx, rfl⟩), rfl, ?_⟩
    unfold headerValues
    rw [List.mem_map]
    exact ⟨x, List.mem_filter.2 ⟨hx, by simp⟩, rfl⟩
  · have hh := hline (s% "host") ((mem_signedNames _ _).2 (.inl rfl))
    refine ⟨headerValues o.headers (s% "host"), ?_⟩
    have e : headerValues (requestHeaders o) (s% "host") = s% "storage.googleapis.com" :: headerValues o.headers (s% "host") := by
      unfold requestHeaders headerValues
      rw [List.filter_cons_of_pos (by simp [lower_host]), List.map_cons]
    rw [← e]; exact hh

/-- C22. If a URL is returned, every header name is an HTTP token and every header value consists of visible ASCII,
spaces and tabs: a header with CR, LF, another control character or a non-ASCII character is never signed. -/
theorem C22_headers_clean (env : Env) (o : UrlOptions) (w w' : World) (url : Str)
    (h : buildSignedUrl env o w = (.ok url, w')) :
    ∀ x ∈ o.headers, x.1 ≠ [] ∧ (∀ c ∈ x.1, c ∈ tokenChars) ∧ PlainValue x.2 := by
  obtain ⟨email, digest, hrej, ht, hu, hs, _, hv, halg⟩ := signed_ok h
  obtain ⟨_, _, _, _, _, _, hh⟩ := urlRejection_none.1 hrej
  intro x hx
  have := headerName_iff.1 (hh x hx).1
  exact ⟨this.1, this.2.1, plain_iff.1 (hv x hx)⟩

theorem headerPart_split {env : Env} {o : UrlOptions} {t : Time} {email : Str}
    (hn : ∀ x ∈ o.headers, headerName x.1 ≠ none) (hv : ∀ x ∈ o.headers, headerToStrOk x.2 = true) :
    (splitOn '\n' (join (s% "\n") ((partsOf env o t email).headers.map fun x => x.1 ++ s% ":" ++ join (s% ",") x.2))).map
        (cutAt ':') =
      (partsOf env o t email).headers.map fun x => (x.1, join (s% ",") x.2) := by
  rw [partsOf_headers]
  have hne : signedNames o.headers ≠ [] := by
    intro he
    have := (mem_signedNames o.headers (s% "host")).2 (.inl rfl)
    rw [he] at this
    simp at this
  have htok := signedNames_token hn
  have hno : ∀ n ∈ signedNames o.headers, ∀ c, c ∉ tokenChars → c ∉ n := fun n hn c hc hcn => hc (htok n hn c hcn)
  rw [splitOn_join (by simpa using hne)]
  · rw [List.map_map, List.map_map, List.map_map]
    apply List.map_congr_left
    intro n hn
    simp only [Function.comp]
    rw [List.append_assoc, List.singleton_append, cutAt_append (hno n hn ':' (by decide))]
  · intro x hx
    rw [List.map_map, List.mem_map] at hx
    obtain ⟨n, hn, rfl⟩ := hx
    simp only [Function.comp, List.mem_append, not_or]
    exact ⟨⟨hno n hn '\n' (by decide), by decide⟩,
      plain_no_lf (plain_join_comma (headerValues_plain hv n))⟩

/-- C22. Hence the header part of the canonical request splits at line feeds into exactly one line per signed
header, and each line splits at its first colon into the name and the values joined with commas. -/
theorem C22_one_line_per_header (env : Env) (o : UrlOptions) (w w' : World) (url : Str)
    (h : buildSignedUrl env o w = (.ok url, w')) :
    ∃ p : SignedParts, IsSigned env w'.log o.signingKey url p ∧
      (splitOn '\n' (join (s% "\n") (p.headers.map fun x => x.1 ++ s% ":" ++ join (s% ",") x.2))).map (cutAt ':') =
        p.headers.map fun x => (x.1, join (s% ",") x.2) := by
  obtain ⟨email, digest, hrej, ht, hu, hs, _, hv, halg⟩ := signed_ok h
  obtain ⟨_, _, _, _, _, _, hh⟩ := urlRejection_none.1 hrej
  exact ⟨_, hs, headerPart_split (fun x hx => (hh x hx).1) hv⟩

/-- An LF in a value, a colon in a name and an empty name are rejected. -/
example : (buildSignedUrl Conformance.env { Conformance.urlOptions with headers := [(s% "a", s% "x\nb:c")] } Conformance.world).1 =
      .err .invalidHeaderValue ∧
    (buildSignedUrl Conformance.env { Conformance.urlOptions with headers := [(s% "a:b", s% "x")] } Conformance.world).1 =
      .err .invalidHeaderName ∧
    (buildSignedUrl Conformance.env { Conformance.urlOptions with headers := [(s% "", s% "x")] } Conformance.world).1 =
      .err .invalidHeaderName ∧
    (buildSignedUrl Conformance.env { Conformance.urlOptions with headers := [(s% "a", s% "é")] } Conformance.world).1 =
      .err (.signedUrl (.canonicalRequest .headerValueContainsInvalidCharacter)) := by decide +kernel

/-! ### C26 -/

theorem headerValues_ne_nil {hs : List (Str × Str)} {n : Str} : headerValues hs n ≠ [] ↔ ∃ x ∈ hs, asciiLower x.1 = n := by
  unfold headerValues
  rw [Ne, List.map_eq_nil_iff, List.filter_eq_nil_iff]
  simp

theorem mem_headerValues {hs : List (Str × Str)} {n v : Str} : v ∈ headerValues hs n ↔ ∃ x ∈ hs, asciiLower x.1 = n ∧ x.2 = v := by
  unfold headerValues
  rw [List.mem_map]
  simp only [List.mem_filter, decide_eq_true_eq, and_assoc]

theorem asciiLowerChar_token (c : Char) : isTokenChar (asciiLowerChar c) = isTokenChar c := by
  by_cases h : c.toNat < 128
  · exact forall_ascii (P := fun c => isTokenChar (asciiLowerChar c) = isTokenChar c) (by decide +kernel) c h
  · have : asciiLowerChar c = c := by
      unfold asciiLowerChar
      rw [if_neg (by omega)]
    rw [this]

theorem headerName_lower (k : Str) : headerName (asciiLower k) ≠ none ↔ headerName k ≠ none := by
  have e : (asciiLower k).all isTokenChar = k.all isTokenChar := by
    unfold asciiLower
    rw [List.all_map]
    congr 1
    funext c
    exact asciiLowerChar_token c
  have e2 : (asciiLower k ≠ []) ↔ k ≠ [] := by simp [asciiLower]
  have e3 : (asciiLower k).length = k.length := by simp [asciiLower]
  unfold headerName
  rw [e, e3]
  by_cases h : k ≠ [] ∧ k.all isTokenChar = true ∧ k.length ≤ 65535
  · rw [if_pos h, if_pos ⟨e2.2 h.1, h.2⟩]; simp
  · rw [if_neg h, if_neg (fun h' => h ⟨e2.1 h'.1, h'.2⟩)]

/-- The relation of C26: the same values, in the same order, under every name. -/
def SameHeaders (hs hs' : List (Str × Str)) : Prop := ∀ n, headerValues hs n = headerValues hs' n

theorem sameHeaders_mem {hs hs' : List (Str × Str)} (h : SameHeaders hs hs') {x : Str × Str} (hx : x ∈ hs) :
    ∃ y ∈ hs', asciiLower y.1 = asciiLower x.1 ∧ y.2 = x.2 := by
  have : x.2 ∈ headerValues hs (asciiLower x.1) := mem_headerValues.2 ⟨x, hx, rfl, rfl⟩
  rw [h] at this
  exact mem_headerValues.1 this

theorem sameHeaders_names {hs hs' : List (Str × Str)} (h : SameHeaders hs hs') : signedNames hs = signedNames hs' := by
  unfold signedNames
  apply toSet_ext
  intro n
  simp only [allHeaders, List.map_cons, List.mem_cons, List.mem_map]
  apply or_congr_right
  constructor
  · rintro ⟨x, hx, rfl⟩
    obtain ⟨y, hy, he, _⟩ := sameHeaders_mem h hx
    exact ⟨y, hy, he⟩
  · rintro ⟨x, hx, rfl⟩
    obtain ⟨y, hy, he, _⟩ := sameHeaders_mem (fun n => (h n).symm) hx
    exact ⟨y, hy, he⟩

theorem sameHeaders_values {hs hs' : List (Str × Str)} (h : SameHeaders hs hs') (f : Str → Bool) :
    (∀ x ∈ hs, f x.2 = true) ↔ ∀ x ∈ hs', f x.2 = true := by
  constructor
  · intro hf x hx
    obtain ⟨y, hy, _, he⟩ := sameHeaders_mem (fun n => (h n).symm) hx
    rw [← he]; exact hf y hy
  · intro hf x hx
    obtain ⟨y, hy, _, he⟩ := sameHeaders_mem h hx
    rw [← he]; exact hf y hy

theorem sameHeaders_ok {hs hs' : List (Str × Str)} (h : SameHeaders hs hs') (hr : headerRejection hs = none) :
    headerRejection hs' = none := by
  rw [headerRejection_none] at *
  intro x hx
  obtain ⟨y, hy, hn, hv⟩ := sameHeaders_mem (fun n => (h n).symm) hx
  obtain ⟨h1, h2⟩ := hr y hy
  refine ⟨?_, hv ▸ h2⟩
  rw [← headerName_lower, ← hn, headerName_lower]
  exact h1

theorem sameHeaders_parts {o : UrlOptions} {hs' : List (Str × Str)} (h : SameHeaders o.headers hs') (env : Env) (t : Time) (email : Str) :
    partsOf env { o with headers := hs' } t email = partsOf env o t email ∧
    required { o with headers := hs' } t email = required o t email := by
  have hreq : required { o with headers := hs' } t email = required o t email := by
    unfold required requiredParams
    simp only [signedHeaders_url, sameHeaders_names h]
  refine ⟨?_, hreq⟩
  have hvals : valuesOf (lowered (allHeaders hs')) = valuesOf (lowered (allHeaders o.headers)) := by
    funext n
    have e1 := values_eq { o with headers := hs' } n
    have e2 := values_eq o n
    rw [show valuesOf (lowered (allHeaders hs')) n = _ from e1, e2]
    have hc : ∀ hs, headerValues ((s% "host", s% "storage.googleapis.com") :: hs) n =
        headerValues [(s% "host", s% "storage.googleapis.com")] n ++ headerValues hs n := by
      intro hs
      rw [show (s% "host", s% "storage.googleapis.com") :: hs = [(s% "host", s% "storage.googleapis.com")] ++ hs from rfl]
      simp only [headerValues, List.filter_append, List.map_append]
    unfold requestHeaders
    rw [hc o.headers, hc hs', h n]
  unfold partsOf allParams
  rw [hreq]
  simp only [hvals, sameHeaders_names h]
  rfl

/-- C26. Two header lists with the same values, in the same order, under every name (up to ASCII case) give the
same result and the same effects; unless both are rejected for a bad header, before anything is sent (the two
errors may name a different first offender). There must be room for both lists (as there is for up to 3276 headers). -/
theorem C26_same_headers (env : Env) (o : UrlOptions) (hs' : List (Str × Str)) (w : World)
    (hf : HeadersFit env o.headers) (hf' : HeadersFit env hs') (h : ∀ name, headerValues o.headers name = headerValues hs' name) :
    buildSignedUrl env { o with headers := hs' } w = buildSignedUrl env o w ∨
    (((buildSignedUrl env o w).1 = .err .invalidHeaderName ∨ (buildSignedUrl env o w).1 = .err .invalidHeaderValue) ∧
     ((buildSignedUrl env { o with headers := hs' } w).1 = .err .invalidHeaderName ∨
      (buildSignedUrl env { o with headers := hs' } w).1 = .err .invalidHeaderValue) ∧
     (buildSignedUrl env o w).2.log = w.log ∧ (buildSignedUrl env { o with headers := hs' } w).2.log = w.log) := by
  have hcases : ∀ hs, headerRejection hs ≠ none → headerRejection hs = some .invalidHeaderName ∨ headerRejection hs = some .invalidHeaderValue := by
    intro hs
    induction hs with
    | nil => simp [headerRejection]
    | cons x hs ih =>
      obtain ⟨k, v⟩ := x
      simp only [headerRejection]
      split
      · simp
      · split
        · simp
        · exact ih
  have hsplit : ∃ pre post : Option BuildUrlError, ∀ hs, urlRejection env { o with headers := hs } (validFrom env o.accessibleAt w) =
      (pre.or (headerRejection hs)).or post := by
    generalize validFrom env o.accessibleAt w = t
    unfold urlRejection
    simp only
    by_cases h1 : t < 0 ∨ endOf9999 ≤ t
    · exact ⟨some .now, none, fun hs => by rw [if_pos h1]; rfl⟩
    by_cases h2 : o.expires < t
    · exact ⟨some .expirationOutOfRange, none, fun hs => by rw [if_neg h1, if_pos h2]; rfl⟩
    by_cases h3 : 9223372036854775807 < (o.expires - t) / nsPerSec
    · exact ⟨some .expirationOutOfRange, none, fun hs => by rw [if_neg h1, if_neg h2, if_pos h3]; rfl⟩
    by_cases h4 : o.httpMethod ∉ methods
    · exact ⟨some _, none, fun hs => by rw [if_neg h1, if_neg h2, if_neg h3, if_pos h4]; rfl⟩
    by_cases h5 : 65534 < (utf8 (hostname ++ (baseUrl env o).toRest)).length
    · exact ⟨some .httpRequest, none, fun hs => by
        rw [if_neg h1, if_neg h2, if_neg h3, if_neg h4, if_pos (by exact h5)]; rfl⟩
    refine ⟨none, if 604800 < (o.expires - t) / nsPerSec then some (.expiration (.outOfRange ((o.expires - t) / nsPerSec)))
      else none, fun hs => ?_⟩
    rw [if_neg h1, if_neg h2, if_neg h3, if_neg h4, if_neg (by exact h5)]
    cases headerRejection hs <;> rfl
  obtain ⟨pre, post, hsplit⟩ := hsplit
  have k1 : urlRejection env o (validFrom env o.accessibleAt w) = (pre.or (headerRejection o.headers)).or post := hsplit o.headers
  have k2 := hsplit hs'
  rw [buildSignedUrl_eq env { o with headers := hs' } w (HeadersFit.not_overflows hf'), buildSignedUrl_eq env o w (HeadersFit.not_overflows hf), k1]
  simp only
  rw [k2]
  generalize validFrom env o.accessibleAt w = t
  cases pre with
  | some e => left; rfl
  | none =>
  by_cases hr : headerRejection o.headers = none
  · left
    have hr' := sameHeaders_ok h hr
    rw [hr, hr']
    simp only [Option.none_or]
    cases post with
    | some e => rfl
    | none =>
      simp only
      cases o.signingKey.authorizer env (clocked o.accessibleAt w) with
      | mk r w2 =>
        cases r with
        | err e => rfl
        | panic e => rfl
        | ok email =>
          simp only
          obtain ⟨hp, hq⟩ := sameHeaders_parts h env t email
          have hf : fullUrl env { o with headers := hs' } (required o t email) = fullUrl env o (required o t email) := rfl
          have hv := sameHeaders_values h headerToStrOk
          rw [hp, hq, hf]
          simp only [hv]
  · right
    have hr' : headerRejection hs' ≠ none := fun h' => hr (sameHeaders_ok (fun n => (h n).symm) h')
    rcases hcases _ hr with e1 | e1 <;> rcases hcases _ hr' with e2 | e2 <;> rw [e1, e2] <;> simp

/-- C26. In particular, changing the letter case of header names changes nothing (if the headers are legal), ... -/
theorem C26_header_case (env : Env) (o : UrlOptions) (hs' : List (Str × Str)) (w w' : World) (url : Str)
    (hcase : o.headers.map (fun x => (asciiLower x.1, x.2)) = hs'.map (fun x => (asciiLower x.1, x.2)))
    (h : buildSignedUrl env o w = (.ok url, w')) :
    buildSignedUrl env { o with headers := hs' } w = (.ok url, w') := by
  have hl : ∀ (hs : List (Str × Str)) n, headerValues hs n =
      ((hs.map fun x => (asciiLower x.1, x.2)).filter fun x => x.1 = n).map (·.2) := by
    intro hs n
    rw [List.filter_map, List.map_map]
    rfl
  have hf : HeadersFit env o.headers := by obtain ⟨hs⟩ := buildSignedUrl_ok h; exact hs.fits
  have hf' : HeadersFit env hs' := by
    have hlen := congrArg List.length hcase
    simp only [List.length_map] at hlen
    have hn := congrArg (List.map fun x : Str × Str => x.1) hcase
    simp only [List.map_map, Function.comp_def, ground_asciiLower] at hn
    unfold HeadersFit at hf ⊢
    rw [← hlen, ← hn]
    exact hf
  rcases C26_same_headers env o hs' w hf hf' (fun n => by rw [hl, hl, hcase]) with h1 | h1
  · rw [h1, h]
  · rw [h] at h1; simp at h1

/-- ... and so does exchanging two neighbouring headers of different names, anywhere in the list (if there is still room). -/
theorem C26_header_swap (env : Env) (o : UrlOptions) (as bs : List (Str × Str)) (x y : Str × Str) (w w' : World) (url : Str)
    (ho : o.headers = as ++ x :: y :: bs) (hxy : asciiLower x.1 ≠ asciiLower y.1)
    (hf' : HeadersFit env (as ++ y :: x :: bs)) (h : buildSignedUrl env o w = (.ok url, w')) :
    buildSignedUrl env { o with headers := as ++ y :: x :: bs } w = (.ok url, w') := by
  have hv : ∀ n, headerValues o.headers n = headerValues (as ++ y :: x :: bs) n := by
    intro n
    rw [ho]
    unfold headerValues
    simp only [List.filter_append, List.map_append]
    congr 2
    by_cases hx : asciiLower x.1 = n
    · have hy : asciiLower y.1 ≠ n := fun hy => hxy (hx.trans hy.symm)
      simp [List.filter_cons, hx, hy]
    · simp [List.filter_cons, hx]
  have hf : HeadersFit env o.headers := by obtain ⟨hs⟩ := buildSignedUrl_ok h; exact hs.fits
  rcases C26_same_headers env o _ w hf hf' hv with h1 | h1
  · rw [h1, h]
  · rw [h] at h1; simp at h1

/-- Non-vacuity of the swap. -/
example : (∃ url w', buildSignedUrl Conformance.env Conformance.urlOptions Conformance.world = (.ok url, w')) ∧
    Conformance.urlOptions.headers = [] ++ (s% "X-Goog-Meta-R", s% "jane") :: (s% "content-type", s% "text/plain") ::
      [(s% "x-goog-meta-r", s% "john doe")] ∧
    asciiLower (s% "X-Goog-Meta-R") ≠ asciiLower (s% "content-type") ∧
    HeadersFit Conformance.env ([] ++ (s% "content-type", s% "text/plain") :: (s% "X-Goog-Meta-R", s% "jane") ::
      [(s% "x-goog-meta-r", s% "john doe")]) := by
  exact ⟨Conformance.urlOptions_ok, rfl, by decide, .inl (by decide)⟩

end CSS
