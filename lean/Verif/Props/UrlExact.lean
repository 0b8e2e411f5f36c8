import Verif.Lemmas.FormRead
import Verif.Conformance
/-
C61: the whole text of a signed URL, and of the message signed for it, from the options.
-/
set_option linter.unusedSimpArgs false
namespace CSS
open Spec

/-- C61. A returned URL is
`https://storage.googleapis.com` PATH `?` ITEMS `&X-Goog-Signature=` HEX, where
* PATH is the path that the URL Standard reads from `/BUCKET/OBJECT`,
* ITEMS are `name=value` items in code point order, one for each parameter: those that a form reader finds after a `?`
  in the names, the user's, and the five X-Goog parameters (for the authorizer, date and lifetime of this call),
* HEX is the signature of the GOOG4 message for exactly this path, these items, the method, the region and the headers,
  each with all its values. -/
theorem C61_url_exact (env : Env) (o : UrlOptions) (w w' : World) (url : Str) (t : Time)
    (ht : t = o.accessibleAt.getD (env.now w.ticks)) (h : buildSignedUrl env o w = (.ok url, w')) :
    ∃ (email : Str) (extra goog : List (Str × Str)) (items names : List Str) (p : SignedParts),
      Authorizes env w w'.log o.signingKey email ∧
      FormParams (queryItems (objectParts env o).query) extra ∧
      GoogParams o t email goog ∧
      List.Perm items ((extra ++ o.queryParameters ++ goog).map fun q => canonicalText q.1 ++ s% "=" ++ canonicalText q.2) ∧
      items.Pairwise (fun a b => a = b ∨ LexLt a b) ∧
      names.Pairwise LexLt ∧ (∀ name, name ∈ names ↔ ∃ x ∈ requestHeaders o, asciiLower x.1 = name) ∧
      p.algorithm = s% "GOOG4-RSA-SHA256" ∧
      BasicDenotes p.date (t / 1000000000) ∧
      p.region = o.region.getD (s% "auto") ∧
      p.method = o.httpMethod ∧
      p.path = (objectParts env o).path ∧
      p.pathLine = canonicalText (objectParts env o).path ∧
      p.query = join (s% "&") items ∧
      p.headers = names.map (fun n => (n, headerValues (requestHeaders o) n)) ∧
      IsSigned env w'.log o.signingKey url p := by
  obtain ⟨email, digest, _, htt, hu, hs, hauth, _, halg⟩ := signed_ok h
  have ht' : validFrom env o.accessibleAt w = t := ht.symm
  rw [ht'] at htt hu hs
  obtain ⟨h1, h2, _⟩ := objectParts_eq env o
  obtain ⟨c, hc, hiso, hsec⟩ := iso_chars _ htt
  have hq : ∀ x ∈ (objectParts env o).query, x.toNat < 128 := by
    rw [← h2]; intro x hx; exact ((objectUrl_normal env o).2 x hx).1
  refine ⟨email, formParse (utf8 (objectParts env o).query), required o t email,
    sortStr ((allParams env o (required o t email)).map canonicalItem), signedNames o.headers, partsOf env o t email,
    hauth, formParse_ascii hq, (googParams_iff htt).2 rfl, ?_, ?_, signedNames_lt _, mem_signedNames_iff o,
    halg, ⟨c, hc, hiso, hsec⟩, rfl, rfl, h1, ?_, partsOf_query .., partsOf_headers .., hs⟩
  · refine (sortStr_perm _).trans ?_
    unfold allParams canonicalItem
    rw [h2]
    simp only [canonicalText_eq]
    exact List.Perm.refl _
  · exact (sortStr_sorted _).imp fun h => (strLe_iff _ _).1 h
  · rw [← h1, canonicalText_eq]; rfl

/-- C61. In particular the path of the URL is the standard's. -/
theorem C61_standard_path (env : Env) (o : UrlOptions) (w w' : World) (url : Str)
    (h : buildSignedUrl env o w = (.ok url, w')) :
    urlPath (s% "https://storage.googleapis.com") url =
      some (standardUrl env.encodeCaret env.keepDriveLetter (o.bucketName ++ s% "/" ++ o.objectName)).path := by
  obtain ⟨email, digest, _, _, hu, _⟩ := signed_ok h
  rw [hu, urlPath_parts, (objectParts_eq env o).1]
  rfl

/-- What the standard reads from some names: dot segments, a parameter, a backslash, a tab, trailing spaces, escapes. -/
example :
    (standardUrl false false (s% "b/x/../a b?q=1&r#f ")).path = s% "/b/a%20b" ∧
    (standardUrl false false (s% "b/x/../a b?q=1&r#f ")).query = s% "q=1&r" ∧
    (standardUrl false false (s% "b/x/../a b?q=1&r#f ")).fragment = some (s% "f") ∧
    (standardUrl false false (s% "b\\%2E./é\t/.")).path = s% "/%C3%A9/" ∧
    (standardUrl true true (s% "C:/../^")).path = s% "/C:/%5E" ∧
    (standardUrl false false (s% "C:/../^")).path = s% "/^" := by decide +kernel

/-- Reading form parameters: a plus, an escape, invalid UTF-8. -/
example : FormParams (queryItems (s% "a+b=%41&&c=%FFx")) [(s% "a b", s% "A"), (s% "c", s% "�x")] := by
  have h := formParse_ascii (q := s% "a+b=%41&&c=%FFx") (by decide)
  have e : formParse (utf8 (s% "a+b=%41&&c=%FFx")) = [(s% "a b", s% "A"), (s% "c", s% "�x")] := by decide +kernel
  rwa [e] at h

/-- Non-vacuity: a call with such names succeeds. -/
example : Conformance.succeeds (buildSignedUrl Conformance.env
    { Conformance.urlOptions with objectName := s% "x/../a b?q=1&r=%41" } Conformance.world) = true := by decide +kernel

/-- C61. The items are determined: the parameters read from the names, and the five X-Goog parameters for a given
authorizer, are. -/
theorem C61_parameters_determined (o : UrlOptions) (t : Time) (email : Str) (items : List Str)
    (extra extra' goog goog' : List (Str × Str)) (ht : 0 ≤ t ∧ t < endOf9999)
    (h : FormParams items extra) (h' : FormParams items extra')
    (hg : GoogParams o t email goog) (hg' : GoogParams o t email goog') : extra = extra' ∧ goog = goog' :=
  ⟨formParams_unique h h', ((googParams_iff ht).1 hg).trans ((googParams_iff ht).1 hg').symm⟩

/-- Non-vacuity: there are such parameters, whatever the options. -/
example (o : UrlOptions) (email : Str) :
    (∃ goog, GoogParams o 1577836800000000000 email goog) ∧
    (∃ extra, FormParams (queryItems (s% "a+b=%41&&c=%FFx")) extra ∧ extra.length = 2) :=
  ⟨⟨_, (googParams_iff (by decide)).2 rfl⟩, _, formParse_ascii (q := s% "a+b=%41&&c=%FFx") (by decide), by decide +kernel⟩

end CSS
