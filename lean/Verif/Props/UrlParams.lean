import Verif.Lemmas.UrlSigned
import Verif.Lemmas.UrlHeaders
import Verif.Lemmas.Escape
import Verif.Lemmas.FormRead
import Verif.Props.UrlShape
/-
C18, C19, C25, C30, C56: the query parameters of a signed URL. `queryParams (urlQuery url)` is the list of parameters a
server reads: names and values percent-decoded to bytes.
-/
set_option linter.unusedSimpArgs false
namespace CSS
open Spec

/-- C18. The parameters of a returned URL are exactly (in some order): those that come from a `?` in the bucket or
object name (none if there is no `?`), the user's, and the six X-Goog parameters with the right values; the
authorizer is the identity behind the key, the date and lifetime are those of the call. -/
theorem C18_required_parameters (env : Env) (o : UrlOptions) (w w' : World) (url : Str)
    (h : buildSignedUrl env o w = (.ok url, w')) :
    ∃ (email date life hex : Str) (names : List Str) (extra : List (Bytes × Bytes)),
      List.Perm (queryParams (urlQuery url)) (extra ++ o.queryParameters.map decoded ++ [
        (utf8 (s% "X-Goog-Algorithm"), utf8 (s% "GOOG4-RSA-SHA256")),
        (utf8 (s% "X-Goog-Credential"), percentDecode (email ++ s% "/" ++ date.take 8 ++ s% "/" ++
          o.region.getD (s% "auto") ++ s% "/storage/goog4_request")),
        (utf8 (s% "X-Goog-Date"), utf8 date),
        (utf8 (s% "X-Goog-Expires"), utf8 life),
        (utf8 (s% "X-Goog-SignedHeaders"), percentDecode (join (s% ";") names)),
        (utf8 (s% "X-Goog-Signature"), utf8 hex)]) ∧
      NameParams env o extra ∧ ('?' ∉ o.bucketName → '?' ∉ o.objectName → extra = []) ∧
      Authorizes env w w'.log o.signingKey email ∧
      BasicDenotes date (validFrom env o.accessibleAt w / 1000000000) ∧
      Decimal life ((o.expires - validFrom env o.accessibleAt w) / 1000000000).toNat ∧
      (∀ name, name ∈ names ↔ ∃ x ∈ requestHeaders o, asciiLower x.1 = name) := by
  obtain ⟨email, digest, _, ht, hu, hs, hauth, _, halg⟩ := signed_ok h
  obtain ⟨c, hc, hiso, hsec⟩ := iso_chars _ ht
  have hq := urlQuery_decoded (env := env) (o := o) ht (email := email) digest
  rw [← hu, halg] at hq
  refine ⟨email, _, _, _, _, _, hq, nameParams_formParse env o, ?_, hauth, ⟨c, hc, hiso, hsec⟩, natDec_decimal _, mem_signedNames_iff o⟩
  intro hb ho
  rw [objectUrl_query_none hb ho]
  rfl

/-- C18. If the authorizer and the region contain no `%`, the credential parameter is exactly
AUTHORIZER/DATE/REGION/storage/goog4_request. -/
theorem C18_credential_exact (env : Env) (o : UrlOptions) (w w' : World) (url : Str)
    (h : buildSignedUrl env o w = (.ok url, w')) (hr : '%' ∉ o.region.getD (s% "auto"))
    (he : ∀ email, Authorizes env w w'.log o.signingKey email → '%' ∉ email) :
    ∃ email date, Authorizes env w w'.log o.signingKey email ∧
      BasicDenotes date (validFrom env o.accessibleAt w / 1000000000) ∧
      (utf8 (s% "X-Goog-Credential"), utf8 (email ++ s% "/" ++ date.take 8 ++ s% "/" ++
          o.region.getD (s% "auto") ++ s% "/storage/goog4_request")) ∈ queryParams (urlQuery url) := by
  obtain ⟨email, date, life, hex, names, extra, hp, _, _, hauth, hdate, _⟩ := C18_required_parameters env o w w' url h
  refine ⟨email, date, hauth, hdate, ?_⟩
  rw [hp.mem_iff]
  have : '%' ∉ email ++ s% "/" ++ date.take 8 ++ s% "/" ++ o.region.getD (s% "auto") ++ s% "/storage/goog4_request" := by
    simp only [List.mem_append, not_or]
    refine ⟨⟨⟨⟨⟨he _ hauth, by decide⟩, fun hm => ?_⟩, by decide⟩, hr⟩, by decide⟩
    obtain ⟨c, _, rfl, _⟩ := hdate
    exact basic_no (by decide) (by decide) (by decide) c (List.mem_of_mem_take hm)
  rw [percentDecode_plain this]
  simp

/-- Non-vacuity: a service account whose e-mail has no `%`. -/
example : '%' ∉ Conformance.urlOptions.region.getD (s% "auto") ∧
    ∀ w log email, Authorizes Conformance.env w log Conformance.urlOptions.signingKey email → '%' ∉ email := by
  refine ⟨by decide, fun w log email h => ?_⟩
  have : email = s% "test@example.com" := h
  rw [this]; decide

/-- The names of the six required parameters. -/
def googNames : List Str :=
  [s% "X-Goog-Algorithm", s% "X-Goog-Credential", s% "X-Goog-Date", s% "X-Goog-Expires", s% "X-Goog-SignedHeaders",
    s% "X-Goog-Signature"]

/-- C18. If the names contain no `?` and the user gives none of the six parameters, each of the six occurs exactly
once in the URL. -/
theorem C18_required_once (env : Env) (o : UrlOptions) (w w' : World) (url : Str)
    (h : buildSignedUrl env o w = (.ok url, w')) (hb : '?' ∉ o.bucketName) (ho : '?' ∉ o.objectName)
    (hu : ∀ p ∈ o.queryParameters, ∀ name ∈ googNames, percentDecode p.1 ≠ utf8 name) :
    ∀ name ∈ googNames, (paramValues url name).length = 1 := by
  obtain ⟨email, date, life, hex, names, extra, hp, hnp, hextra, _⟩ := C18_required_parameters env o w w' url h
  rw [hextra hb ho, List.nil_append] at hp
  intro name hn
  have hf := (hp.filter (fun p => p.1 = utf8 name)).length_eq
  unfold paramValues
  rw [List.length_map, hf, List.filter_append]
  have : (o.queryParameters.map decoded).filter (fun p => p.1 = utf8 name) = [] := by
    rw [List.filter_eq_nil_iff]
    intro p hp
    rw [List.mem_map] at hp
    obtain ⟨q, hq, rfl⟩ := hp
    rw [decide_eq_true_eq]
    exact hu q hq name hn
  rw [this, List.nil_append]
  have hinj : ∀ a b : Str, (utf8 a = utf8 b) = (a = b) := fun a b => propext ⟨utf8_inj, fun h => h ▸ rfl⟩
  simp only [googNames, List.mem_cons, List.not_mem_nil, or_false] at hn
  rcases hn with rfl | rfl | rfl | rfl | rfl | rfl <;> simp [List.filter_cons, hinj]

/-- Non-vacuity. -/
example : '?' ∉ Conformance.urlOptions.bucketName ∧ '?' ∉ Conformance.urlOptions.objectName ∧
    ∀ p ∈ Conformance.urlOptions.queryParameters, ∀ name ∈ googNames, percentDecode p.1 ≠ utf8 name := by decide +kernel

/-- C18, why the hypothesis is there: a user parameter X-Goog-Expires is passed through, so the URL carries two. -/
theorem C18_user_goog_parameter :
    ∃ env o w url w', buildSignedUrl env o w = (.ok url, w') ∧ o.queryParameters = [(s% "X-Goog-Expires", s% "9")] ∧
      paramValues url (s% "X-Goog-Expires") = [utf8 (s% "3600"), utf8 (s% "9")] := by
  obtain ⟨url, w', h, hf⟩ := Conformance.yields_iff (r := buildSignedUrl Conformance.env
    { Conformance.urlOptions with queryParameters := [(s% "X-Goog-Expires", s% "9")] } Conformance.world)
    (f := fun url => paramValues url (s% "X-Goog-Expires") = [utf8 (s% "3600"), utf8 (s% "9")]) (by decide +kernel)
  exact ⟨_, _, _, url, w', h, rfl, of_decide_eq_true hf⟩

/-! ### C19 -/

theorem perm_length_le {L : List α} {f g : α → Bytes × Bytes}
    (hle : ∀ p ∈ L, (f p).1.length + (f p).2.length ≤ (g p).1.length + (g p).2.length)
    (h : List.Perm (L.map f) (L.map g)) :
    ∀ p ∈ L, (f p).1.length + (f p).2.length = (g p).1.length + (g p).2.length := by
  have hs := (h.map fun b : Bytes × Bytes => b.1.length + b.2.length).sum_nat
  rw [List.map_map, List.map_map] at hs
  clear h
  have mono : ∀ L : List α, (∀ p ∈ L, (f p).1.length + (f p).2.length ≤ (g p).1.length + (g p).2.length) →
      (L.map ((fun b : Bytes × Bytes => b.1.length + b.2.length) ∘ f)).sum ≤
        (L.map ((fun b : Bytes × Bytes => b.1.length + b.2.length) ∘ g)).sum := by
    intro L hL
    induction L with
    | nil => simp
    | cons x L ih =>
      simp only [List.map_cons, List.sum_cons, Function.comp]
      have := ih fun p hp => hL p (List.mem_cons_of_mem _ hp)
      have := hL x List.mem_cons_self
      simp only [Function.comp_def] at *
      omega
  induction L with
  | nil => simp
  | cons x L ih =>
    have h1 := mono L fun p hp => hle p (List.mem_cons_of_mem _ hp)
    have h2 := hle x List.mem_cons_self
    simp only [List.map_cons, List.sum_cons, Function.comp] at hs
    simp only [Function.comp_def] at h1 hs
    intro p hp
    rcases List.mem_cons.1 hp with rfl | hp
    · omega
    · refine ih (fun p hp => hle p (List.mem_cons_of_mem _ hp)) ?_ p hp
      simp only [Function.comp_def]
      omega

/-- C56, the exact scope of C19. A server reads the user's parameters with exactly their names and values (in the right multiplicity, and
beside them the six X-Goog parameters `goog` and what comes from a `?` in the bucket or object name) if and only if no
name and no value contains a percent escape. In any case it reads them percent-decoded. The query contains no `+`, so
servers that read `+` as a space read the same. -/
theorem C56_user_parameters_exact (env : Env) (o : UrlOptions) (w w' : World) (url : Str)
    (h : buildSignedUrl env o w = (.ok url, w')) :
    '+' ∉ urlQuery url ∧
    ∃ extra goog, goog.map (·.1) = googNames.map utf8 ∧ NameParams env o extra ∧ ('?' ∉ o.bucketName → '?' ∉ o.objectName → extra = []) ∧
      List.Perm (queryParams (urlQuery url))
        (extra ++ o.queryParameters.map (fun p => (percentDecode p.1, percentDecode p.2)) ++ goog) ∧
      (List.Perm (queryParams (urlQuery url))
          (extra ++ o.queryParameters.map (fun p => (utf8 p.1, utf8 p.2)) ++ goog) ↔
        ∀ p ∈ o.queryParameters, ¬ HasEscape p.1 ∧ ¬ HasEscape p.2) := by
  constructor
  · obtain ⟨email, digest, _, ht, hu, _⟩ := signed_ok h
    rw [hu, urlQuery_parts, partsOf_query]
    simp only [List.mem_append, not_or]
    refine ⟨⟨fun hm => ?_, by decide⟩, fun hm => absurd (hexEncode_chars digest _ hm) (by decide)⟩
    rcases mem_join hm with hm | ⟨x, hx, hm⟩
    · exact absurd hm (by decide)
    · rw [mem_sortStr, List.mem_map] at hx
      obtain ⟨p, _, rfl⟩ := hx
      exact canonicalItem_no (by decide) (by decide) p hm
  · obtain ⟨email, date, life, hex, names, extra, hp, hnp, hextra, _⟩ := C18_required_parameters env o w w' url h
    refine ⟨extra, _, ?_, hnp, hextra, hp, ?_⟩
    · simp [googNames]
    · constructor
      · intro hp'
        have h1 := hp.symm.trans hp'
        have h2 := (List.perm_append_right_iff _).1 h1
        have h3 := (List.perm_append_left_iff _).1 h2
        intro p hmem
        have := perm_length_le (f := decoded) (g := fun p => (utf8 p.1, utf8 p.2)) (fun p _ => by
          have := percentDecode_length_le p.1
          have := percentDecode_length_le p.2
          simp only [decoded]; omega) h3 p hmem
        simp only [decoded] at this
        have h1 := percentDecode_length_le p.1
        have h2 := percentDecode_length_le p.2
        exact ⟨fun he => by have := percentDecode_length_lt he; omega, fun he => by have := percentDecode_length_lt he; omega⟩
      · intro hno
        have hd : o.queryParameters.map decoded = o.queryParameters.map (fun p => (utf8 p.1, utf8 p.2)) := by
          apply List.map_congr_left
          intro p hp
          obtain ⟨h1, h2⟩ := hno p hp
          simp only [decoded, percentDecode_no_escape h1, percentDecode_no_escape h2]
        rw [hd] at hp
        exact hp

/-- Non-vacuity: names and values with `&`, `=`, spaces. -/
example : (∀ p ∈ Conformance.urlOptions.queryParameters, ¬ HasEscape p.1 ∧ ¬ HasEscape p.2) ∧ ¬ HasEscape (s% "100%") ∧
    HasEscape (s% "a%2Fb") := by
  refine ⟨fun p hp => ⟨fun h => ?_, fun h => ?_⟩, fun h => ?_, ⟨s% "a", '2', 'F', s% "b", rfl, by decide, by decide⟩⟩
  · exact absurd (hasEscape_mem h) ((by decide : ∀ p ∈ Conformance.urlOptions.queryParameters, '%' ∉ p.1) p hp)
  · exact absurd (hasEscape_mem h) ((by decide : ∀ p ∈ Conformance.urlOptions.queryParameters, '%' ∉ p.2) p hp)
  · exact percentDecode_eq_iff.1 (by decide +kernel) h

/-- C19 (partial: parameters without a percent escape; `C56_user_parameters_exact` shows that for all others it is
false). A server reads every user parameter with exactly its name and value, in the right multiplicity; everything else
it reads comes from a `?` in the names or is one of the six X-Goog parameters. -/
theorem C19_user_parameters_partial (env : Env) (o : UrlOptions) (w w' : World) (url : Str)
    (h : buildSignedUrl env o w = (.ok url, w')) (hesc : ∀ p ∈ o.queryParameters, ¬ HasEscape p.1 ∧ ¬ HasEscape p.2) :
    '+' ∉ urlQuery url ∧
    ∃ extra goog, goog.map (·.1) = googNames.map utf8 ∧ NameParams env o extra ∧ ('?' ∉ o.bucketName → '?' ∉ o.objectName → extra = []) ∧
      List.Perm (queryParams (urlQuery url)) (extra ++ o.queryParameters.map (fun p => (utf8 p.1, utf8 p.2)) ++ goog) := by
  obtain ⟨h1, extra, goog, h2, h3, h3', _, h4⟩ := C56_user_parameters_exact env o w w' url h
  exact ⟨h1, extra, goog, h2, h3, h3', h4.2 hesc⟩

/-- C19, counterexample: the values `%26` and `&` of a parameter give the same URL, so one of them is lost. -/
theorem C19_percent_collision :
    ∃ env o w url, o.queryParameters = [(s% "a", s% "%26")] ∧
      (buildSignedUrl env o w).1 = .ok url ∧
      (buildSignedUrl env { o with queryParameters := [(s% "a", s% "&")] } w).1 = .ok url ∧
      (utf8 (s% "a"), utf8 (s% "%26")) ∉ queryParams (urlQuery url) := by
  let o : UrlOptions := { Conformance.urlOptions with queryParameters := [(s% "a", s% "%26")] }
  obtain ⟨url, w', h, hf⟩ := Conformance.yields_iff (r := buildSignedUrl Conformance.env o Conformance.world)
    (f := fun url => (utf8 (s% "a"), utf8 (s% "%26")) ∉ queryParams (urlQuery url) ∧
      (buildSignedUrl Conformance.env { o with queryParameters := [(s% "a", s% "&")] } Conformance.world).1 = .ok url)
    (by decide +kernel)
  have hf := of_decide_eq_true hf
  exact ⟨_, o, _, url, rfl, congrArg Prod.fst h, hf.2, hf.1⟩

/-! ### C25 -/

/-- One encoded item of `extend_pairs`. -/
def formItem (p : Str × Str) : Str := formEncode p.1 ++ ['='] ++ formEncode p.2

theorem formItem_ne_nil (p : Str × Str) : formItem p ≠ [] := by simp [formItem]

theorem extendPairs_join (q : Str) (ps : List (Str × Str)) :
    extendPairs q ps = join (s% "&") ((if q = [] then [] else [q]) ++ ps.map formItem) := by
  induction ps generalizing q with
  | nil =>
    by_cases hq : q = []
    · subst hq; rfl
    · simp [extendPairs, hq, join]
  | cons p ps ih =>
    have e : extendPairs q (p :: ps) = extendPairs (appendPair q p.1 p.2) ps := rfl
    rw [e, ih]
    have hne : appendPair q p.1 p.2 ≠ [] := by simp [appendPair]
    rw [if_neg hne]
    by_cases hq : q = []
    · subst hq
      simp [appendPair, formItem]
    · rw [if_neg hq]
      simp only [List.map_cons, List.singleton_append]
      have ea : appendPair q p.1 p.2 = q ++ '&' :: formItem p := by
        simp [appendPair, hq, formItem]
      rw [ea]
      cases ps with
      | nil => simp [join]
      | cons p' ps => simp [join]

theorem join_length (l : List Str) :
    (utf8 (join (s% "&") l)).length = (l.map fun x => (utf8 x).length).sum + (l.length - 1) := by
  match l with
  | [] => rfl
  | [x] => simp [join]
  | x :: y :: l =>
    have ih := join_length (y :: l)
    simp only [join, utf8_append, List.length_append, ih]
    simp only [List.map_cons, List.sum_cons, List.length_cons]
    have : (utf8 (s% "&")).length = 1 := rfl
    omega

theorem extendPairs_length_perm (q : Str) {ps ps' : List (Str × Str)} (h : ps.Perm ps') :
    (utf8 (extendPairs q ps)).length = (utf8 (extendPairs q ps')).length := by
  rw [extendPairs_join, extendPairs_join, join_length, join_length]
  have hp := List.Perm.append_left (if q = [] then [] else [q]) (h.map formItem)
  rw [hp.length_eq, (hp.map fun x => (utf8 x).length).sum_nat]

theorem extendPairs_nil_iff (q : Str) (ps : List (Str × Str)) : extendPairs q ps = [] ↔ q = [] ∧ ps = [] := by
  cases ps with
  | nil => simp [extendPairs]
  | cons p ps =>
    simp only [reduceCtorEq, and_false, iff_false]
    have e : extendPairs q (p :: ps) = extendPairs (appendPair q p.1 p.2) ps := rfl
    rw [e]
    have hne : ∀ (ps : List (Str × Str)) q, q ≠ [] → extendPairs q ps ≠ [] := by
      intro ps
      induction ps with
      | nil => intro q hq; exact hq
      | cons p ps ih =>
        intro q hq
        exact ih (appendPair q p.1 p.2) (by simp [appendPair])
    exact hne ps _ (by simp [appendPair])

/-- C25. Permuting the query parameters changes neither the result of the call, whatever it is, nor its effects. -/
theorem C25_parameter_order (env : Env) (o : UrlOptions) (ps : List (Str × Str)) (w : World)
    (h : o.queryParameters.Perm ps) :
    buildSignedUrl env { o with queryParameters := ps } w = buildSignedUrl env o w := by
  have hobj : objectUrl env { o with queryParameters := ps } = objectUrl env o := rfl
  have hbase : (utf8 (hostname ++ (baseUrl env { o with queryParameters := ps }).toRest)).length =
      (utf8 (hostname ++ (baseUrl env o).toRest)).length := by
    rw [baseUrl_eq, baseUrl_eq, hobj]
    simp only [Url.toRest, utf8_append, List.length_append, utf8_cons, baseQuery, hobj]
    rw [extendPairs_length_perm _ h.symm]
  have hrej : ∀ t, urlRejection env { o with queryParameters := ps } t = urlRejection env o t := by
    intro t
    unfold urlRejection
    rw [hbase]
  have hreq : ∀ t email, required { o with queryParameters := ps } t email = required o t email := fun _ _ => rfl
  have hfull : ∀ r, (utf8 (fullUrl env { o with queryParameters := ps } r)).length = (utf8 (fullUrl env o r)).length := by
    intro r
    unfold fullUrl baseQuery
    rw [hobj]
    simp only [utf8_append, List.length_append, utf8_cons, ← extendPairs_concat]
    rw [extendPairs_length_perm _ (h.symm.append_right r)]
  have hparts : ∀ t email, partsOf env { o with queryParameters := ps } t email = partsOf env o t email := by
    intro t email
    unfold partsOf allParams
    rw [hreq, hobj]
    have hs : sortStr ((formParse (utf8 ((objectUrl env o).query.getD [])) ++ ps ++ required o t email).map canonicalItem) =
        sortStr ((formParse (utf8 ((objectUrl env o).query.getD [])) ++ o.queryParameters ++ required o t email).map canonicalItem) :=
      sortStr_perm_eq (((h.symm.append_left _).append_right _).map _)
    simp only [hs]
  have hov : ∀ t, Overflows env { o with queryParameters := ps } t ↔ Overflows env o t := by
    intro t
    unfold Overflows
    rw [hrej]
  by_cases hover : Overflows env o (validFrom env o.accessibleAt w)
  · rw [buildSignedUrl_overflows _ _ _ hover, buildSignedUrl_overflows _ _ _ ((hov _).2 hover)]
  rw [buildSignedUrl_eq _ _ _ hover, buildSignedUrl_eq _ _ _ (fun h => hover ((hov _).1 h)), hrej]
  simp only [hreq, hfull, hparts]

/-- Non-vacuity: two parameters exchanged. -/
example : Conformance.urlOptions.queryParameters.Perm [(s% "a", s% "b"), (s% "userProject", s% "my&project=1")] :=
  List.Perm.swap _ _ _

/-! ### C30 -/

/-- C30. The items `name=value` of the canonical query are in (byte = code point) order. -/
theorem C30_items_sorted (env : Env) (o : UrlOptions) (w w' : World) (url : Str)
    (h : buildSignedUrl env o w = (.ok url, w')) :
    ∃ p : SignedParts, IsSigned env w'.log o.signingKey url p ∧
      (splitOn '&' p.query).Pairwise (fun a b => a = b ∨ LexLt a b) := by
  obtain ⟨email, digest, _, ht, hu, hs, _, _, halg⟩ := signed_ok h
  refine ⟨_, hs, ?_⟩
  rw [partsOf_query, splitOn_join]
  · exact (sortStr_sorted _).imp fun h => (strLe_iff _ _).1 h
  · exact sortStr_ne_nil (by simp [allParams_ne_nil])
  · intro x hx
    rw [mem_sortStr, List.mem_map] at hx
    obtain ⟨p, _, rfl⟩ := hx
    exact canonicalItem_no_amp p

/-- Non-vacuity: parameters given in descending order, one of them twice. -/
example : Conformance.succeeds (buildSignedUrl Conformance.env { Conformance.urlOptions with
    queryParameters := [(s% "z", s% "1"), (s% "a", s% "2"), (s% "a", s% "1"), (s% "a", s% "2")] } Conformance.world) = true := by
  decide +kernel

/-- C30, counterexample to sorting by name (as the scheme asks): `a1` is a longer name than `a`, but `a1=x` sorts
before `a=x`. -/
theorem C30_not_sorted_by_name :
    ∃ env o w url w', buildSignedUrl env o w = (.ok url, w') ∧ o.queryParameters = [(s% "a", s% "x"), (s% "a1", s% "x")] ∧
      LexLt (s% "a") (s% "a1") ∧ ∃ pre post, urlQuery url = pre ++ s% "&a1=x&a=x&" ++ post := by
  let o : UrlOptions := { Conformance.urlOptions with queryParameters := [(s% "a", s% "x"), (s% "a1", s% "x")] }
  obtain ⟨url, w', h, hf⟩ := Conformance.yields_iff (r := buildSignedUrl Conformance.env o Conformance.world)
    (f := fun url => (splitOn '&' (urlQuery url)).drop 5 = s% "a1=x" :: s% "a=x" :: (splitOn '&' (urlQuery url)).drop 7 ∧
      join (s% "&") (splitOn '&' (urlQuery url)) =
        join (s% "&") ((splitOn '&' (urlQuery url)).take 5) ++ s% "&a1=x&a=x&" ++ join (s% "&") ((splitOn '&' (urlQuery url)).drop 7) ∧
      join (s% "&") (splitOn '&' (urlQuery url)) = urlQuery url)
    (by decide +kernel)
  have hf := of_decide_eq_true hf
  refine ⟨_, o, _, url, w', h, rfl, by simp [LexLt], join (s% "&") ((splitOn '&' (urlQuery url)).take 5),
    join (s% "&") ((splitOn '&' (urlQuery url)).drop 7), ?_⟩
  have h1 := hf.2.1
  rw [hf.2.2] at h1
  exact h1

end CSS
