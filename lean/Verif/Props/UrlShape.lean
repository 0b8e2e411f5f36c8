import Verif.Lemmas.UrlHeaders
import Verif.Conformance
/-
C08, C16, C17, C23, C24, C51 for signed URLs: the shape of the URL and of the signed message, the times and the
method. `t` is the start of validity: the given instant or the clock.
-/
set_option linter.unusedSimpArgs false
namespace CSS
open Spec

/-- C16. A returned URL is `https://storage.googleapis.com` PATH `?` QUERY `&X-Goog-Signature=` HEX, where HEX is
the lower-case hex of the key owner's signature of the string to sign whose canonical request has exactly QUERY
as its query line; and a server that cuts the URL at `?` and `#` reads exactly PATH and QUERY. -/
theorem C16_url_shape (env : Env) (o : UrlOptions) (w w' : World) (url : Str)
    (h : buildSignedUrl env o w = (.ok url, w')) :
    ∃ p : SignedParts, ∃ hex signature,
      url = s% "https://storage.googleapis.com" ++ p.path ++ s% "?" ++ p.query ++ s% "&X-Goog-Signature=" ++ hex ∧
      (∀ c ∈ hex, c ∈ s% "0123456789abcdef") ∧ hexDecode hex = some signature ∧
      Signs env w'.log o.signingKey (utf8 (p.stringToSign)) signature ∧
      urlPath (s% "https://storage.googleapis.com") url = some p.path ∧
      urlQuery url = p.query ++ s% "&X-Goog-Signature=" ++ hex := by
  obtain ⟨email, digest, _, _, hu, ⟨hex, sg, hu', hx1, hx2, hs⟩, _⟩ := signed_ok h
  have hhex : hex = hexEncode digest := by
    rw [hu] at hu'
    unfold SignedParts.url at hu'
    exact (List.append_cancel_left hu').symm
  subst hhex
  refine ⟨_, _, _, hu, hx1, hx2, hs, ?_, ?_⟩
  · rw [hu, urlPath_parts]; simp only [partsOf]
  · rw [hu, urlQuery_parts]

/-- C17. The signed message is the GOOG4 string to sign over the canonical request of this very call: the fixed
algorithm, the requested method, the start of validity, the region, the URL's own path and query, and one line
per header name with all of its values. -/
theorem C17_signed_message (env : Env) (o : UrlOptions) (w w' : World) (url : Str)
    (h : buildSignedUrl env o w = (.ok url, w')) :
    ∃ p : SignedParts, IsSigned env w'.log o.signingKey url p ∧
      p.algorithm = s% "GOOG4-RSA-SHA256" ∧
      (∃ sec, BasicDenotes p.date sec ∧ sec * 1000000000 ≤ validFrom env o.accessibleAt w ∧
        validFrom env o.accessibleAt w < (sec + 1) * 1000000000) ∧
      p.region = o.region.getD (s% "auto") ∧ p.method = o.httpMethod ∧
      percentDecode p.pathLine = percentDecode p.path ∧
      urlPath (s% "https://storage.googleapis.com") url = some p.path ∧
      (∃ hex, urlQuery url = p.query ++ s% "&X-Goog-Signature=" ++ hex) ∧
      (p.headers.map (·.1)).Pairwise LexLt ∧
      (∀ name, name ∈ p.headers.map (·.1) ↔ ∃ x ∈ requestHeaders o, asciiLower x.1 = name) ∧
      ∀ line ∈ p.headers, line.2 = headerValues (requestHeaders o) line.1 := by
  obtain ⟨email, digest, _, ht, hu, hs, _, _, halg⟩ := signed_ok h
  obtain ⟨c, hc, hiso, hsec⟩ := iso_chars _ ht
  refine ⟨_, hs, halg, ⟨_, ⟨c, hc, hiso, hsec⟩, ?_, ?_⟩, rfl, rfl, ?_, ?_, ⟨_, by rw [hu, urlQuery_parts]⟩, ?_, ?_, ?_⟩
  · unfold nsPerSec; omega
  · unfold nsPerSec; omega
  · simp only [partsOf]; exact percentDecode_encode _
  · rw [hu, urlPath_parts]; simp only [partsOf]
  · simp only [partsOf, group_fst]; exact signedNames_lt _
  · intro name
    simp only [partsOf, group_fst]
    exact mem_signedNames_iff o name
  · intro line hl
    rw [partsOf_headers, List.mem_map] at hl
    obtain ⟨n, _, rfl⟩ := hl
    rfl

/-- Non-vacuity of the theorems about returned URLs: a service account and a bound token (with an empty cache)
both succeed, with repeated headers in mixed case and parameters that need escaping. -/
example : (∃ url w', buildSignedUrl Conformance.env Conformance.urlOptions Conformance.world = (.ok url, w')) ∧
    ∃ url w', buildSignedUrl Conformance.btEnv Conformance.btUrlOptions Conformance.world = (.ok url, w') :=
  ⟨Conformance.urlOptions_ok, Conformance.btUrlOptions_ok⟩

/-- C08, signed URLs. The date line of the signed message denotes the start of validity cut to whole seconds;
the URL's X-Goog-Date is that text, and both the scope line and the X-Goog-Credential of the URL contain its first
eight characters as their date. -/
theorem C08_url_date (env : Env) (o : UrlOptions) (w w' : World) (url : Str)
    (h : buildSignedUrl env o w = (.ok url, w')) :
    ∃ p : SignedParts, IsSigned env w'.log o.signingKey url p ∧ ∃ sec email,
      BasicDenotes p.date sec ∧ sec * 1000000000 ≤ validFrom env o.accessibleAt w ∧
      validFrom env o.accessibleAt w < (sec + 1) * 1000000000 ∧
      (utf8 (s% "X-Goog-Date"), utf8 p.date) ∈ queryParams (urlQuery url) ∧
      p.scope = p.date.take 8 ++ s% "/" ++ o.region.getD (s% "auto") ++ s% "/storage/goog4_request" ∧
      (utf8 (s% "X-Goog-Credential"), percentDecode (email ++ s% "/" ++ p.scope)) ∈ queryParams (urlQuery url) := by
  obtain ⟨email, digest, _, ht, hu, hs, _, _, halg⟩ := signed_ok h
  obtain ⟨c, hc, hiso, hsec⟩ := iso_chars _ ht
  have hq := urlQuery_decoded (env := env) (o := o) ht (email := email) digest
  rw [← hu] at hq
  refine ⟨_, hs, _, email, ⟨c, hc, hiso, hsec⟩, ?_, ?_, ?_, rfl, ?_⟩
  · unfold nsPerSec; omega
  · unfold nsPerSec; omega
  · rw [hq.mem_iff]
    simp only [partsOf]
    simp
  · rw [hq.mem_iff]
    have e : email ++ s% "/" ++ (partsOf env o (validFrom env o.accessibleAt w) email).scope =
        credentialOf o (validFrom env o.accessibleAt w) email := by
      simp only [SignedParts.scope, partsOf, credentialOf, List.append_assoc]
    rw [e]
    simp

/-- C23. The end of validity that the URL announces, X-Goog-Date plus X-Goog-Expires seconds, is never after the
requested `expires` and less than two seconds before it; X-Goog-Expires is at most seven days. -/
theorem C23_never_valid_after_expires (env : Env) (o : UrlOptions) (w w' : World) (url : Str)
    (h : buildSignedUrl env o w = (.ok url, w')) :
    ∃ date life d n, (utf8 (s% "X-Goog-Date"), utf8 date) ∈ queryParams (urlQuery url) ∧
      (utf8 (s% "X-Goog-Expires"), utf8 life) ∈ queryParams (urlQuery url) ∧
      BasicDenotes date d ∧ Decimal life n ∧ n ≤ 604800 ∧
      (d + n) * 1000000000 ≤ o.expires ∧ o.expires < (d + n + 2) * 1000000000 := by
  obtain ⟨email, digest, hrej, ht, hu, hs, _, _, halg⟩ := signed_ok h
  obtain ⟨c, hc, hiso, hsec⟩ := iso_chars _ ht
  have hq := urlQuery_decoded (env := env) (o := o) ht (email := email) digest
  rw [← hu] at hq
  obtain ⟨_, _, h1, h2, _⟩ := urlRejection_none.1 hrej
  generalize validFrom env o.accessibleAt w = t at *
  refine ⟨_, _, t / nsPerSec, ((o.expires - t) / nsPerSec).toNat, ?_, ?_, ⟨c, hc, hiso, hsec⟩, natDec_decimal _, ?_, ?_, ?_⟩
  · rw [hq.mem_iff]; simp
  · rw [hq.mem_iff]; simp
  · omega
  · unfold nsPerSec at *; omega
  · unfold nsPerSec at *; omega

theorem url_rejected {env : Env} {o : UrlOptions} {w : World} (h : urlRejection env o (validFrom env o.accessibleAt w) ≠ none) :
    ∃ r w', buildSignedUrl env o w = (r, w') ∧ (∀ url, r ≠ .ok url) ∧ w'.log = w.log ∧ w'.caches = w.caches ∧
      (HeadersFit env o.headers → ∃ e, r = .err e) := by
  by_cases hover : Overflows env o (validFrom env o.accessibleAt w)
  · exact ⟨_, _, buildSignedUrl_overflows env o w hover, by simp, by simp, by simp, fun hf => absurd hf hover.1⟩
  rw [buildSignedUrl_eq env o w hover]
  cases hr : urlRejection env o (validFrom env o.accessibleAt w) with
  | none => exact absurd hr h
  | some e => exact ⟨_, _, rfl, by simp, by simp, by simp, fun _ => ⟨e, rfl⟩⟩

/-- C23, rejection. An `expires` before the start of validity, or 604801 seconds or more after it, is an error
(and nothing is signed or sent); with more headers than the `http` crate has room for, the call may panic instead. -/
theorem C23_bad_expires_rejected (env : Env) (o : UrlOptions) (w : World)
    (h : o.expires < validFrom env o.accessibleAt w ∨
      validFrom env o.accessibleAt w + 604801 * 1000000000 ≤ o.expires) :
    ∃ r w', buildSignedUrl env o w = (r, w') ∧ (∀ url, r ≠ .ok url) ∧ w'.log = w.log ∧ w'.caches = w.caches ∧
      (HeadersFit env o.headers → ∃ e, r = .err e) := by
  apply url_rejected
  intro hr
  obtain ⟨_, _, h1, h2, _⟩ := urlRejection_none.1 hr
  unfold nsPerSec at h2
  omega

/-- The longest lifetime is accepted, one nanosecond less than 604801 s; one more nanosecond is rejected; and a
URL that is born expired (X-Goog-Expires=0) is accepted. -/
example : Conformance.succeeds (buildSignedUrl Conformance.env
      { Conformance.urlOptions with accessibleAt := some 0, expires := 604801 * 1000000000 - 1 } Conformance.world) = true ∧
    (buildSignedUrl Conformance.env
      { Conformance.urlOptions with accessibleAt := some 0, expires := 604801 * 1000000000 } Conformance.world).1 =
      .err (.expiration (.outOfRange 604801)) ∧
    Conformance.succeeds (buildSignedUrl Conformance.env
      { Conformance.urlOptions with accessibleAt := some 7, expires := 7 } Conformance.world) = true ∧
    (buildSignedUrl Conformance.env
      { Conformance.urlOptions with accessibleAt := some 7, expires := 6 } Conformance.world).1 =
      .err .expirationOutOfRange := by decide +kernel

/-- C24. The method error occurs exactly when the times are in order and the method is not one of DELETE, GET,
HEAD, POST and PUT (in exactly this spelling). -/
theorem C24_method_error_iff (env : Env) (o : UrlOptions) (w : World) :
    (∃ e, (buildSignedUrl env o w).1 = .err (.httpMethod e)) ↔
      o.httpMethod ∉ [s% "DELETE", s% "GET", s% "HEAD", s% "POST", s% "PUT"] ∧
      0 ≤ validFrom env o.accessibleAt w ∧ validFrom env o.accessibleAt w < endOf9999 ∧
      validFrom env o.accessibleAt w ≤ o.expires ∧
      (o.expires - validFrom env o.accessibleAt w) / 1000000000 ≤ 9223372036854775807 := by
  have hmeth : [s% "DELETE", s% "GET", s% "HEAD", s% "POST", s% "PUT"] = methods := rfl
  have herr : ∀ e, (buildSignedUrl env o w).1 = .err (.httpMethod e) ↔
      urlRejection env o (validFrom env o.accessibleAt w) = some (.httpMethod e) := fun e => url_err_iff (by simp) (by simp)
  simp only [hmeth, herr]
  generalize validFrom env o.accessibleAt w = t
  have key : (∃ e, urlRejection env o t = some (.httpMethod e)) ↔ o.httpMethod ∉ methods ∧ 0 ≤ t ∧ t < endOf9999 ∧
      t ≤ o.expires ∧ (o.expires - t) / 1000000000 ≤ 9223372036854775807 := by
    unfold urlRejection nsPerSec
    by_cases h1 : t < 0 ∨ endOf9999 ≤ t
    · rw [if_pos h1]; simp; omega
    rw [if_neg h1]
    by_cases h2 : o.expires < t
    · rw [if_pos h2]; simp; omega
    rw [if_neg h2]
    by_cases h3 : 9223372036854775807 < (o.expires - t) / 1000000000
    · rw [if_pos h3]; simp; omega
    rw [if_neg h3]
    by_cases h4 : o.httpMethod ∉ methods
    · rw [if_pos h4]
      exact ⟨fun _ => ⟨h4, by omega, by omega, by omega, by omega⟩, fun _ => ⟨_, rfl⟩⟩
    rw [if_neg h4]
    have hno : ¬ ∃ e, (if 65534 < (utf8 (hostname ++ (baseUrl env o).toRest)).length then some BuildUrlError.httpRequest
        else match headerRejection o.headers with
          | some e => some e
          | none => if 604800 < (o.expires - t) / 1000000000
            then some (.expiration (.outOfRange ((o.expires - t) / 1000000000))) else none) = some (.httpMethod e) := by
      rintro ⟨e, he⟩
      split at he
      · cases he
      · cases hh : headerRejection o.headers with
        | some e' =>
          rw [hh] at he
          simp only [Option.some.injEq] at he
          subst he
          exact headerRejection_ne_method _ _ hh
        | none =>
          rw [hh] at he
          simp only at he
          split at he <;> cases he
    exact ⟨fun h => absurd h hno, fun h => absurd h.1 h4⟩
  exact key

/-- C24. The method of a returned URL is one of the five, and the first line of the canonical request is that
method. -/
theorem C24_method_signed (env : Env) (o : UrlOptions) (w w' : World) (url : Str)
    (h : buildSignedUrl env o w = (.ok url, w')) :
    o.httpMethod ∈ [s% "DELETE", s% "GET", s% "HEAD", s% "POST", s% "PUT"] ∧
    ∃ p : SignedParts, IsSigned env w'.log o.signingKey url p ∧
      (splitOn '\n' p.canonicalRequest).head? = some o.httpMethod := by
  obtain ⟨email, digest, hrej, ht, hu, hs, _, _, halg⟩ := signed_ok h
  obtain ⟨_, _, _, _, hm, _⟩ := urlRejection_none.1 hrej
  refine ⟨hm, _, hs, ?_⟩
  have hlf : '\n' ∉ o.httpMethod := by
    have : ∀ m ∈ methods, '\n' ∉ m := by decide
    exact this _ hm
  simp only [SignedParts.canonicalRequest, join]
  rw [List.append_assoc, List.singleton_append, splitOn_append (by simpa only [partsOf] using hlf)]
  simp only [partsOf, List.head?_cons]

/-- Methods are case-sensitive. -/
example : (buildSignedUrl Conformance.env { Conformance.urlOptions with httpMethod := s% "get" } Conformance.world).1 =
    .err (.httpMethod (.invalidHttpVerb (s% "get"))) := by decide +kernel

/-- C51. If the region has no line break, the signed string has exactly four
lines: algorithm, date, scope and hash, which can be read back. -/
theorem C51_four_lines (env : Env) (o : UrlOptions) (w w' : World) (url : Str)
    (h : buildSignedUrl env o w = (.ok url, w'))
    (hreg : '\n' ∉ o.region.getD (s% "auto")) :
    ∃ p : SignedParts, IsSigned env w'.log o.signingKey url p ∧
      splitOn '\n' (p.stringToSign) =
        [s% "GOOG4-RSA-SHA256", p.date, p.date.take 8 ++ s% "/" ++ o.region.getD (s% "auto") ++ s% "/storage/goog4_request",
          Sha256.hexDigest (utf8 p.canonicalRequest)] := by
  obtain ⟨email, digest, hrej, ht, hu, hs, _, _, halg⟩ := signed_ok h
  obtain ⟨c, hc, hiso, hsec⟩ := iso_chars _ ht
  refine ⟨_, hs, ?_⟩
  generalize hp : partsOf env o (validFrom env o.accessibleAt w) email = p
  have ha : p.algorithm = s% "GOOG4-RSA-SHA256" := by rw [← hp]; exact halg
  have hd : '\n' ∉ p.date := by
    rw [← hp]
    simp only [partsOf]
    rw [hiso]; exact basic_no (by decide) (by decide) (by decide) c
  have hr : p.region = o.region.getD (s% "auto") := by rw [← hp]; rfl
  unfold SignedParts.stringToSign
  rw [splitOn_join (by simp), ha]
  · unfold SignedParts.scope; rw [hr]
  · intro x hx
    simp only [List.mem_cons, List.not_mem_nil, or_false] at hx
    rcases hx with rfl | rfl | rfl | rfl
    · rw [ha]; decide
    · exact hd
    · unfold SignedParts.scope
      rw [hr]
      simp only [List.mem_append, not_or]
      exact ⟨⟨⟨fun hm => hd (List.mem_of_mem_take hm), by decide⟩, hreg⟩, by decide⟩
    · rw [← sha256Hex_eq]; exact fun h => absurd (hexEncode_chars _ _ h) (by decide)

/-- Non-vacuity. -/
example : '\n' ∉ Conformance.urlOptions.region.getD (s% "auto") ∧
    Conformance.succeeds (buildSignedUrl Conformance.env Conformance.urlOptions Conformance.world) = true :=
  ⟨by decide, by decide +kernel⟩

/-- C51, counterexample: a line break in the region makes a fifth line. (The RSA oracle of the example returns
the message itself, so the signature in the URL shows what was signed.) -/
theorem C51_region_line_break :
    ∃ env o w url w' hex message, buildSignedUrl env o w = (.ok url, w') ∧ o.region = some (s% "a\nb") ∧
      (∀ der m, env.rsaSign der m = some m) ∧
      (∃ pre, url = pre ++ s% "&X-Goog-Signature=" ++ hex) ∧ hexDecode hex = some (utf8 message) ∧
      (splitOn '\n' message).length = 5 := by
  let env : Env := { Conformance.env with rsaSign := fun _ m => some m }
  let o : UrlOptions := { Conformance.urlOptions with region := some (s% "a\nb") }
  obtain ⟨url, w', h⟩ := Conformance.succeeds_iff (r := buildSignedUrl env o Conformance.world) (by decide +kernel)
  obtain ⟨hs⟩ := buildSignedUrl_ok h
  have hemail : hs.email = s% "test@example.com" := by
    have := hs.auth
    have h2 : o.signingKey.authorizer env (clocked o.accessibleAt Conformance.world) =
      (.ok (s% "test@example.com"), Conformance.world) := rfl
    rw [h2] at this
    simp only [Prod.mk.injEq, Res.ok.injEq] at this
    exact this.1.symm
  have hd : hs.digest = utf8 ((partsOf env o (validFrom env o.accessibleAt Conformance.world) hs.email).stringToSign) := by
    have h3 : ∀ m, o.signingKey.sign env o.useSignBlob m hs.w2 = (.ok m, hs.w2) := fun m => rfl
    have := hs.sign
    rw [h3] at this
    simp only [Prod.mk.injEq, Res.ok.injEq] at this
    exact this.1.symm
  refine ⟨env, o, Conformance.world, url, w', _,
    (partsOf env o (validFrom env o.accessibleAt Conformance.world) hs.email).stringToSign, h, rfl, fun _ _ => rfl, ⟨_, hs.url_eq⟩, ?_, ?_⟩
  · rw [hexDecode_hexEncode, hd]
  · rw [hemail]; unfold SignedParts.stringToSign; rw [← sha256Hex_eq]; decide +kernel

/-- C51. Whatever the region, algorithm, date, region and hash can be read back from the string to sign: two
strings to sign are equal only if all four agree. -/
theorem C51_string_to_sign_readable (p q : SignedParts) (tp tq : Int)
    (hp : BasicDenotes p.date tp) (hq : BasicDenotes q.date tq)
    (hpa : p.algorithm = s% "GOOG4-RSA-SHA256") (hqa : q.algorithm = s% "GOOG4-RSA-SHA256")
    (h : p.stringToSign = q.stringToSign) :
    tp = tq ∧ p.region = q.region ∧
      Sha256.hexDigest (utf8 p.canonicalRequest) = Sha256.hexDigest (utf8 q.canonicalRequest) := by
  have hlen : ∀ {s t}, BasicDenotes s t → s.length = 16 := by
    rintro s t ⟨c, _, rfl, _⟩
    rfl
  unfold SignedParts.stringToSign SignedParts.scope at h
  rw [hpa, hqa] at h
  simp only [join, List.append_assoc] at h
  have h1 := List.append_cancel_left (List.append_cancel_left h)
  obtain ⟨hdate, h2⟩ := List.append_inj h1 (by rw [hlen hp, hlen hq])
  have hdate' : p.date = q.date := hdate
  refine ⟨basicDenotes_unique hp (hdate' ▸ hq), ?_⟩
  rw [hdate] at h2
  have h3 := List.append_cancel_left (List.append_cancel_left (List.append_cancel_left h2))
  have h4 := congrArg List.reverse h3
  simp only [List.reverse_append, List.append_assoc] at h4
  obtain ⟨h5, h6⟩ := List.append_inj h4 (by rw [List.length_reverse, List.length_reverse, hexDigest_length, hexDigest_length])
  have h7 := List.append_cancel_left h6
  have h8 := List.append_cancel_left h7
  exact ⟨List.reverse_inj.1 h8, List.reverse_inj.1 h5⟩

/-- Non-vacuity: the parts of two calls that differ in how the path is spelled, and sign the same string. -/
example : ∃ (p q : SignedParts) (tp tq : Int), BasicDenotes p.date tp ∧ BasicDenotes q.date tq ∧
    p.algorithm = s% "GOOG4-RSA-SHA256" ∧ q.algorithm = s% "GOOG4-RSA-SHA256" ∧ p.path ≠ q.path ∧
    p.stringToSign = q.stringToSign := by
  obtain ⟨c, hc, _, hsec⟩ := iso_chars 1577836800000000000 (by decide)
  have h : BasicDenotes c.basic _ := ⟨c, hc, rfl, hsec⟩
  let p (path : Str) : SignedParts :=
    ⟨s% "GOOG4-RSA-SHA256", c.basic, s% "auto", s% "GET", path, s% "/b/%7E", s% "a=b", [(s% "host", [s% "h"])]⟩
  exact ⟨p (s% "/b/~"), p (s% "/b/%7E"), _, _, h, h, rfl, rfl, by simp [p], rfl⟩

end CSS
