import Verif.Props.UrlHeaders
/-
C53: a signature over one signed URL is a signature over no other request. Two calls whose signed messages are
equal ask for the same method, region, second, path, query and headers.
-/
set_option linter.unusedSimpArgs false
namespace CSS
open Spec

/-! ### Cutting texts -/

theorem cut_first {c : Char} : ∀ {a a' r r' : Str}, c ∉ a → c ∉ a' → a ++ c :: r = a' ++ c :: r' → a = a' ∧ r = r'
  | [], [], _, _, _, _, h => by simpa using h
  | [], x :: a', _, _, _, h2, h => by
    simp only [List.nil_append, List.cons_append, List.cons.injEq] at h
    exact absurd (h.1 ▸ List.mem_cons_self) h2
  | x :: a, [], _, _, h1, _, h => by
    simp only [List.nil_append, List.cons_append, List.cons.injEq] at h
    exact absurd (h.1 ▸ List.mem_cons_self) h1
  | x :: a, y :: a', r, r', h1, h2, h => by
    simp only [List.cons_append, List.cons.injEq] at h
    simp only [List.mem_cons, not_or] at h1 h2
    obtain ⟨e, e'⟩ := cut_first h1.2 h2.2 h.2
    exact ⟨by rw [h.1, e], e'⟩

theorem cut_last {c : Char} {a a' r r' : Str} (h1 : c ∉ r) (h2 : c ∉ r') (h : a ++ c :: r = a' ++ c :: r') :
    a = a' ∧ r = r' := by
  have h3 := congrArg List.reverse h
  simp only [List.reverse_append, List.reverse_cons, List.append_assoc, List.singleton_append] at h3
  obtain ⟨e, e'⟩ := cut_first (by simpa using h1) (by simpa using h2) h3
  exact ⟨List.reverse_inj.1 e', List.reverse_inj.1 e⟩

/-- A header part: it starts with a name and a colon. -/
def StartsWithName (t : Str) : Prop := ∃ n r, t = n ++ ':' :: r ∧ ':' ∉ n ∧ '\n' ∉ n

/-- The seven parts of a canonical request can be read back from it. -/
theorem canonical_readable {m l q hd ns m' l' q' hd' ns' : Str}
    (hm : '\n' ∉ m) (hm' : '\n' ∉ m') (hl : '\n' ∉ l) (hl' : '\n' ∉ l') (hq : ':' ∉ q) (hq' : ':' ∉ q')
    (hh : StartsWithName hd) (hh' : StartsWithName hd') (hn : '\n' ∉ ns) (hn' : '\n' ∉ ns')
    (h : join (s% "\n") [m, l, q, hd, s% "", ns, s% "UNSIGNED-PAYLOAD"] =
      join (s% "\n") [m', l', q', hd', s% "", ns', s% "UNSIGNED-PAYLOAD"]) :
    m = m' ∧ l = l' ∧ q = q' ∧ hd = hd' ∧ ns = ns' := by
  simp only [join, List.append_assoc, List.singleton_append, List.nil_append] at h
  obtain ⟨h1, h⟩ := cut_first hm hm' h
  obtain ⟨h2, h⟩ := cut_first hl hl' h
  have e : ∀ q hd ns : Str, q ++ '\n' :: (hd ++ '\n' :: '\n' :: (ns ++ '\n' :: s% "UNSIGNED-PAYLOAD")) =
      ((q ++ '\n' :: (hd ++ ['\n'])) ++ '\n' :: ns) ++ '\n' :: s% "UNSIGNED-PAYLOAD" := by
    intro q hd ns; simp only [List.append_assoc, List.cons_append, List.nil_append]
  rw [e, e] at h
  obtain ⟨h, _⟩ := cut_last (by decide) (by decide) h
  obtain ⟨h, h5⟩ := cut_last hn hn' h
  have e2 : ∀ q hd : Str, q ++ '\n' :: (hd ++ ['\n']) = (q ++ '\n' :: hd) ++ ['\n'] := by intro q hd; simp
  rw [e2, e2] at h
  have h := List.append_cancel_right h
  obtain ⟨n, r, rfl, hnc, hnl⟩ := hh
  obtain ⟨n', r', rfl, hnc', hnl'⟩ := hh'
  have e3 : ∀ q n r : Str, q ++ '\n' :: (n ++ ':' :: r) = (q ++ '\n' :: n) ++ ':' :: r := by intro q n r; simp
  rw [e3, e3] at h
  obtain ⟨h, hr⟩ := cut_first (by simp [hq, hnc]) (by simp [hq', hnc']) h
  obtain ⟨h3, hn⟩ := cut_last hnl hnl' h
  exact ⟨h1, h2, h3, by rw [hn, hr], h5⟩

/-- The parts of a canonical request can be read back from it. -/
theorem SignedParts.readable {p p' : SignedParts}
    (hm : '\n' ∉ p.method) (hm' : '\n' ∉ p'.method) (hl : '\n' ∉ p.pathLine) (hl' : '\n' ∉ p'.pathLine)
    (hq : ':' ∉ p.query) (hq' : ':' ∉ p'.query)
    (hh : StartsWithName (join (s% "\n") (p.headers.map fun x => x.1 ++ s% ":" ++ join (s% ",") x.2)))
    (hh' : StartsWithName (join (s% "\n") (p'.headers.map fun x => x.1 ++ s% ":" ++ join (s% ",") x.2)))
    (hn : '\n' ∉ join (s% ";") (p.headers.map (·.1))) (hn' : '\n' ∉ join (s% ";") (p'.headers.map (·.1)))
    (h : p.canonicalRequest = p'.canonicalRequest) :
    p.method = p'.method ∧ p.pathLine = p'.pathLine ∧ p.query = p'.query ∧
      join (s% "\n") (p.headers.map fun x => x.1 ++ s% ":" ++ join (s% ",") x.2) =
        join (s% "\n") (p'.headers.map fun x => x.1 ++ s% ":" ++ join (s% ",") x.2) := by
  obtain ⟨h1, h2, h3, h4, _⟩ := canonical_readable hm hm' hl hl' hq hq' hh hh' hn hn' h
  exact ⟨h1, h2, h3, h4⟩

/-! ### The parts of a signed URL meet the conditions -/

theorem methods_no_lf {m : Str} (h : m ∈ methods) : '\n' ∉ m := by
  have : ∀ m ∈ methods, '\n' ∉ m := by decide
  exact this m h

theorem encode_no_lf {s : Str} (hs : '\n' ∉ s) : '\n' ∉ percentEncode s := by
  intro h
  rcases percentEncode_mem h with h | h
  · exact hs h
  · exact absurd h (by decide)

theorem pathLine_no_lf (env : Env) (o : UrlOptions) (t : Time) (email : Str) :
    '\n' ∉ (partsOf env o t email).pathLine := by
  have e : (partsOf env o t email).pathLine = percentEncode (objectUrl env o).path := rfl
  rw [e]
  apply encode_no_lf
  intro h
  have := (kept_path (normalPath_chars (objectUrl_normal env o).1 _ h)).1
  exact absurd this (by decide)

theorem query_no_colon (env : Env) (o : UrlOptions) (t : Time) (email : Str) : ':' ∉ (partsOf env o t email).query := by
  rw [partsOf_query]
  intro h
  rcases mem_join h with h | ⟨x, hx, h⟩
  · exact absurd h (by decide)
  · rw [mem_sortStr, List.mem_map] at hx
    obtain ⟨p, _, rfl⟩ := hx
    exact canonicalItem_no (by decide) (by decide) p h

theorem headerPart_starts {env : Env} {o : UrlOptions} {t : Time} {email : Str}
    (hn : ∀ x ∈ o.headers, headerName x.1 ≠ none) :
    StartsWithName (join (s% "\n") ((partsOf env o t email).headers.map fun x => x.1 ++ s% ":" ++ join (s% ",") x.2)) := by
  have htok := signedNames_token hn
  rw [partsOf_headers]
  have hne := (mem_signedNames o.headers (s% "host")).2 (.inl rfl)
  cases hs : signedNames o.headers with
  | nil => rw [hs] at hne; simp at hne
  | cons n ns =>
    rw [hs] at htok
    have hno : ∀ c, c ∉ tokenChars → c ∉ n := fun c hc hcn => hc (htok n List.mem_cons_self c hcn)
    have e : ∀ rest, ∃ r, join (s% "\n") ((n ++ s% ":" ++ join (s% ",") (headerValues (requestHeaders o) n)) :: rest) =
        n ++ ':' :: r := by
      intro rest
      cases rest with
      | nil => exact ⟨join (s% ",") (headerValues (requestHeaders o) n), by simp [join]⟩
      | cons x xs => exact ⟨join (s% ",") (headerValues (requestHeaders o) n) ++ s% "\n" ++ join (s% "\n") (x :: xs), by simp [join]⟩
    obtain ⟨r, hr⟩ := e ((ns.map fun n => (n, headerValues (requestHeaders o) n)).map fun x => x.1 ++ s% ":" ++ join (s% ",") x.2)
    exact ⟨n, r, hr, hno _ (by decide), hno _ (by decide)⟩

theorem names_no_lf {env : Env} {o : UrlOptions} {t : Time} {email : Str} (hn : ∀ x ∈ o.headers, headerName x.1 ≠ none) :
    '\n' ∉ join (s% ";") ((partsOf env o t email).headers.map (·.1)) := by
  have e : (partsOf env o t email).headers.map (·.1) = signedNames o.headers := by simp only [partsOf, group_fst]
  rw [e]
  intro h
  rcases mem_join h with h | ⟨x, hx, h⟩
  · exact absurd h (by decide)
  · exact absurd (signedNames_token hn x hx _ h) (by decide)

theorem date_denotes {env : Env} {o : UrlOptions} {t : Time} {email : Str} (ht : 0 ≤ t ∧ t < endOf9999) :
    BasicDenotes (partsOf env o t email).date (t / 1000000000) := by
  obtain ⟨c, hc, hiso, hsec⟩ := iso_chars t ht
  exact ⟨c, hc, hiso, hsec⟩

/-- C53. Two calls that return a URL sign different messages unless they ask for the same thing. `p₁` and `p₂` are
the parts of the two URLs (see C17). If the signed messages are equal (and SHA-256 does not collide on the two canonical requests), then the method, the region, the second from which the URL
is valid, the (percent-decoded) path and the whole query apart from the signature are the same, and for every header
name the comma-joined values are the same. -/
theorem C53_message_determines_request (env₁ env₂ : Env) (o₁ o₂ : UrlOptions) (w₁ w₁' w₂ w₂' : World) (u₁ u₂ : Str)
    (h₁ : buildSignedUrl env₁ o₁ w₁ = (.ok u₁, w₁')) (h₂ : buildSignedUrl env₂ o₂ w₂ = (.ok u₂, w₂')) :
    ∃ p₁ p₂ : SignedParts,
      IsSigned env₁ w₁'.log o₁.signingKey u₁ p₁ ∧ IsSigned env₂ w₂'.log o₂.signingKey u₂ p₂ ∧
      (p₁.stringToSign = p₂.stringToSign →
        (Sha256.hexDigest (utf8 p₁.canonicalRequest) = Sha256.hexDigest (utf8 p₂.canonicalRequest) →
          p₁.canonicalRequest = p₂.canonicalRequest) →
        o₁.httpMethod = o₂.httpMethod ∧
        o₁.region.getD (s% "auto") = o₂.region.getD (s% "auto") ∧
        validFrom env₁ o₁.accessibleAt w₁ / 1000000000 = validFrom env₂ o₂.accessibleAt w₂ / 1000000000 ∧
        (∃ path₁ path₂, urlPath (s% "https://storage.googleapis.com") u₁ = some path₁ ∧
          urlPath (s% "https://storage.googleapis.com") u₂ = some path₂ ∧ percentDecode path₁ = percentDecode path₂) ∧
        (∃ query hex₁ hex₂, urlQuery u₁ = query ++ s% "&X-Goog-Signature=" ++ hex₁ ∧
          urlQuery u₂ = query ++ s% "&X-Goog-Signature=" ++ hex₂) ∧
        ∀ name, ((∃ x ∈ requestHeaders o₁, asciiLower x.1 = name) ↔ ∃ x ∈ requestHeaders o₂, asciiLower x.1 = name) ∧
          join (s% ",") (headerValues (requestHeaders o₁) name) = join (s% ",") (headerValues (requestHeaders o₂) name)) := by
  obtain ⟨e₁, d₁, hrej₁, ht₁, hu₁, hs₁, _, hv₁, halg₁⟩ := signed_ok h₁
  obtain ⟨e₂, d₂, hrej₂, ht₂, hu₂, hs₂, _, hv₂, halg₂⟩ := signed_ok h₂
  obtain ⟨_, _, _, _, hm₁, _, hh₁⟩ := urlRejection_none.1 hrej₁
  obtain ⟨_, _, _, _, hm₂, _, hh₂⟩ := urlRejection_none.1 hrej₂
  refine ⟨_, _, hs₁, hs₂, fun hmsg hcol => ?_⟩
  obtain ⟨hsec, hreg, hsha⟩ := C51_string_to_sign_readable
    (partsOf env₁ o₁ (validFrom env₁ o₁.accessibleAt w₁) e₁) (partsOf env₂ o₂ (validFrom env₂ o₂.accessibleAt w₂) e₂) _ _
    (date_denotes ht₁) (date_denotes ht₂) halg₁ halg₂ hmsg
  have hn₁ := fun x hx => (hh₁ x hx).1
  have hn₂ := fun x hx => (hh₂ x hx).1
  obtain ⟨hmeth, hpath, hquery, hhead⟩ := SignedParts.readable (p := partsOf env₁ o₁ (validFrom env₁ o₁.accessibleAt w₁) e₁)
    (p' := partsOf env₂ o₂ (validFrom env₂ o₂.accessibleAt w₂) e₂) (methods_no_lf hm₁) (methods_no_lf hm₂)
    (pathLine_no_lf env₁ o₁ _ _) (pathLine_no_lf env₂ o₂ _ _) (query_no_colon _ _ _ _) (query_no_colon _ _ _ _)
    (headerPart_starts hn₁) (headerPart_starts hn₂) (names_no_lf hn₁) (names_no_lf hn₂) (hcol hsha)
  have hlines := congrArg (fun t => (splitOn '\n' t).map (cutAt ':')) hhead
  rw [headerPart_split hn₁ hv₁, headerPart_split hn₂ hv₂, partsOf_headers, partsOf_headers, List.map_map, List.map_map] at hlines
  have hnn : signedNames o₁.headers = signedNames o₂.headers := by
    have := congrArg (List.map (·.1)) hlines
    rw [List.map_map, List.map_map] at this
    simpa [Function.comp_def] using this
  refine ⟨hmeth, hreg, hsec, ⟨_, _, by rw [hu₁, urlPath_parts], by rw [hu₂, urlPath_parts], ?_⟩,
    ⟨_, _, _, by rw [hu₁, urlQuery_parts], by rw [hu₂, urlQuery_parts, hquery]⟩, ?_⟩
  · have hp : percentEncode (objectUrl env₁ o₁).path = percentEncode (objectUrl env₂ o₂).path := hpath
    rw [← percentDecode_encode, hp, percentDecode_encode]
  · intro name
    have hiff : (∃ x ∈ requestHeaders o₁, asciiLower x.1 = name) ↔ ∃ x ∈ requestHeaders o₂, asciiLower x.1 = name := by
      rw [← mem_signedNames_iff, ← mem_signedNames_iff, hnn]
    refine ⟨hiff, ?_⟩
    by_cases hmem : name ∈ signedNames o₁.headers
    · rw [hnn] at hlines
      rw [hnn] at hmem
      have := List.map_inj_left.1 hlines name hmem
      simp only [Function.comp_apply, Prod.mk.injEq, true_and] at this
      exact this
    · have hnone₁ : headerValues (requestHeaders o₁) name = [] := by
        rw [mem_signedNames_iff] at hmem
        unfold headerValues
        rw [List.map_eq_nil_iff, List.filter_eq_nil_iff]
        intro x hx; simp only [decide_eq_true_eq]; exact fun h => hmem ⟨x, hx, h⟩
      have hnone₂ : headerValues (requestHeaders o₂) name = [] := by
        rw [mem_signedNames_iff, hiff] at hmem
        unfold headerValues
        rw [List.map_eq_nil_iff, List.filter_eq_nil_iff]
        intro x hx; simp only [decide_eq_true_eq]; exact fun h => hmem ⟨x, hx, h⟩
      rw [hnone₁, hnone₂]

/-- C53, why the values are compared after joining them with commas: two headers `x-a: a`, `x-a: b` and the one header
`x-a: a,b` give the same URL, even with injective signatures. (HTTP gives both the same
meaning.) This is also a case where the hypotheses of `C53_message_determines_request` are met by two different
option values. -/
theorem C53_split_values_same_url :
    ∃ env o₁ o₂ w url w₁ w₂, buildSignedUrl env o₁ w = (.ok url, w₁) ∧ buildSignedUrl env o₂ w = (.ok url, w₂) ∧
      (∀ der a b, env.rsaSign der a = env.rsaSign der b → a = b) ∧
      o₁.headers = [(s% "X-A", s% "a"), (s% "x-a", s% "b")] ∧ o₂.headers = [(s% "x-A", s% "a,b")] := by
  let env : Env := { Conformance.env with rsaSign := fun _ m => some m }
  let o₁ : UrlOptions := { Conformance.urlOptions with headers := [(s% "X-A", s% "a"), (s% "x-a", s% "b")] }
  let o₂ : UrlOptions := { Conformance.urlOptions with headers := [(s% "x-A", s% "a,b")] }
  obtain ⟨url, w₁, h₁, hf⟩ := Conformance.yields_iff (r := buildSignedUrl env o₁ Conformance.world)
    (f := fun url => (buildSignedUrl env o₂ Conformance.world).1 = .ok url) (by decide +kernel)
  refine ⟨env, o₁, o₂, Conformance.world, url, w₁, (buildSignedUrl env o₂ Conformance.world).2, h₁, ?_, ?_, rfl, rfl⟩
  · rw [← of_decide_eq_true hf]
  · intro _ a b h
    exact Option.some.inj h

end CSS
