import Verif.Props.Storage
/-
C105: headers that were not signed do not matter for a returned URL, unless they are called `x-goog-…`. So every HTTP client may add its
own.
Cases are in Cases/ClientHeaders.lean.
-/
set_option linter.unusedSimpArgs false
namespace CSS
open Spec

/-- What the server reads as the signed header names of a returned URL. -/
private theorem signed_names {env : Env} {o : UrlOptions} {w w' : World} {url sh : Str} (h : buildSignedUrl env o w = (.ok url, w'))
    (hpct : ∀ x ∈ o.headers, '%' ∉ x.1) (hp : paramValues url (s% "X-Goog-SignedHeaders") = [utf8 sh]) :
    splitOn ';' sh = signedNames o.headers := by
  obtain ⟨email, digest, hrej, ht, hu, hs, _, _, halg⟩ := signed_ok h
  have hq := urlQuery_decoded (env := env) (o := o) ht (email := email) digest
  rw [← hu] at hq
  have hmem : percentDecode (join (s% ";") (signedNames o.headers)) ∈ paramValues url (s% "X-Goog-SignedHeaders") :=
    mem_paramValues.2 (by rw [hq.mem_iff]; simp)
  rw [hp, List.mem_singleton, percentDecode_plain (percentDecode_signedHeaders hpct)] at hmem
  rw [← utf8_inj hmem]
  obtain ⟨_, _, _, _, _, _, hh⟩ := urlRejection_none.1 hrej
  refine splitOn_join (List.ne_nil_of_mem ((mem_signedNames _ _).2 (.inl rfl))) fun x hx hm => ?_
  exact absurd (signedNames_token (fun x hx => (hh x hx).1) x hx _ hm) (by decide)

/-- The canonical request depends on the signed headers, and on `x-goog-content-sha256`. -/
private theorem canonical_congr {r r' : Incoming} {names : List Str} (hm : r'.method = r.method) (hu : r'.url = r.url)
    (hn : ∀ name ∈ names, headerValues r'.headers name = headerValues r.headers name)
    (hp : headerValues r'.headers (s% "x-goog-content-sha256") = headerValues r.headers (s% "x-goog-content-sha256")) (path : Str) :
    r'.canonicalRequest path names = r.canonicalRequest path names := by
  unfold Incoming.canonicalRequest payloadLine
  rw [hm, hu, hp, List.map_congr_left (fun name h => by rw [hn name h])]

private theorem value_exists {hs : List (Str × Str)} {name v : Str} (h : v ∈ headerValues hs name) : ∃ x ∈ hs, asciiLower x.1 = name := by
  unfold headerValues at h
  obtain ⟨x, hx, _⟩ := List.mem_map.1 h
  obtain ⟨h1, h2⟩ := List.mem_filter.1 hx
  exact ⟨x, h1, of_decide_eq_true h2⟩

/-- C105. Two requests with a returned URL and the same method, at the same time, whose signed headers have the same values: if one is
accepted, the other one is, exactly if all its headers with names that begin with `x-goog-` are signed. -/
theorem C105_other_headers (env : Env) (o : UrlOptions) (w w' : World) (url account : Str) (n e : Nat) (r r' : Incoming)
    (h : buildSignedUrl env o w = (.ok url, w')) (hpct : ∀ x ∈ o.headers, '%' ∉ x.1) (hu : r.url = url)
    (hsame : r'.method = r.method ∧ r'.url = r.url ∧ r'.time = r.time)
    (hsigned : ∀ x ∈ requestHeaders o, headerValues r'.headers (asciiLower x.1) = headerValues r.headers (asciiLower x.1))
    (hacc : Accepts account n e r) :
    Accepts account n e r' ↔
      ∀ x ∈ r'.headers, s% "x-goog-" <+: asciiLower x.1 → ∃ y ∈ requestHeaders o, asciiLower y.1 = asciiLower x.1 := by
  obtain ⟨hm, hu', ht⟩ := hsame
  constructor
  · rintro ⟨_, _, _, _, sh, _, _, _, _, _, _, _, _, _, _, _, _, _, _, hsh, _, hgoog, _⟩ x hx hp
    rw [hu', hu] at hsh
    have := hgoog x hx hp
    rw [signed_names h hpct hsh] at this
    exact (mem_signedNames_iff o _).1 this
  · intro hgoog
    obtain ⟨path, date, region, life, sh, hex, sg, start, seconds, a1, a2, a3, a4, a5, a6, a7, a8, a9, a10, a11, a12, a13, a14, a15, a16⟩ :=
      hacc
    have hnames : splitOn ';' sh = signedNames o.headers := signed_names h hpct (by rw [← hu]; exact a11)
    have hvals : ∀ name ∈ splitOn ';' sh, headerValues r'.headers name = headerValues r.headers name := by
      intro name hn
      rw [hnames] at hn
      obtain ⟨x, hx, rfl⟩ := (mem_signedNames_iff o _).1 hn
      exact hsigned x hx
    have hpay : headerValues r'.headers (s% "x-goog-content-sha256") = headerValues r.headers (s% "x-goog-content-sha256") := by
      by_cases hin : s% "x-goog-content-sha256" ∈ splitOn ';' sh
      · exact hvals _ hin
      · have h1 : headerValues r'.headers (s% "x-goog-content-sha256") = [] := by
          rw [List.eq_nil_iff_forall_not_mem]
          intro v hv
          obtain ⟨x, hx, he⟩ := value_exists hv
          refine hin ?_
          rw [hnames, mem_signedNames_iff, ← he]
          exact hgoog x hx (by rw [he]; decide)
        have h2 : headerValues r.headers (s% "x-goog-content-sha256") = [] := by
          rw [List.eq_nil_iff_forall_not_mem]
          intro v hv
          obtain ⟨x, hx, he⟩ := value_exists hv
          refine hin ?_
          rw [← he]
          exact a13 x hx (by rw [he]; decide)
        rw [h1, h2]
    refine ⟨path, date, region, life, sh, hex, sg, start, seconds, ?_, ?_, ?_, ?_, a5, ?_, a7, a8, ?_, ?_, ?_, a12, ?_, ?_, a15, ?_⟩
    · rw [hu']; exact a1
    · rw [hu']; exact a2
    · rw [hu']; exact a3
    · rw [hu']; exact a4
    · rw [hu']; exact a6
    · rw [ht]; exact a9
    · rw [ht]; exact a10
    · rw [hu']; exact a11
    · intro x hx hp
      rw [hnames, mem_signedNames_iff]
      exact hgoog x hx hp
    · rw [hu']; exact a14
    · unfold Incoming.message
      rw [canonical_congr hm hu' hvals hpay]
      exact a16

/-- The signed headers of the request are those of the options, and nothing more is sent under their names; there may be other headers. -/
def Spec.SendsSigned (o : UrlOptions) (r : Incoming) : Prop :=
  ∀ x ∈ requestHeaders o, headerValues r.headers (asciiLower x.1) = headerValues (requestHeaders o) (asciiLower x.1)

/-- C105. Any client that uses the returned URL with the given method and headers, whatever headers it adds: the request is
accepted exactly in the window of the URL and if it adds none called `x-goog-…`. -/
theorem C105_client (env : Env) (o : UrlOptions) (w w' : World) (url email pem : Str) (key : Bytes) (n e : Nat) (r : Incoming)
    (h : buildSignedUrl env o w = (.ok url, w')) (hk : o.signingKey = .serviceAccount email pem) (hr : Regular o)
    (hring : Rsa.Correct env) (hpem : env.pemParse pem = some key) (hpub : Rsa.PublicKeyIn key n e) (hemail : '%' ∉ email)
    (hm : r.method = o.httpMethod) (hu : r.url = url) (hh : SendsSigned o r) :
    Accepts email n e r ↔
      validFrom env o.accessibleAt w / 1000000000 ≤ r.time ∧
      r.time < validFrom env o.accessibleAt w / 1000000000 + (o.expires - validFrom env o.accessibleAt w) / 1000000000 ∧
      ∀ x ∈ r.headers, s% "x-goog-" <+: asciiLower x.1 → ∃ y ∈ requestHeaders o, asciiLower y.1 = asciiLower x.1 := by
  have key : ∀ hstart hend, Accepts email n e r ↔ _ := fun hstart hend =>
    C105_other_headers env o w w' url email n e (theRequest o url r.time) r h hr.headerNames rfl ⟨hm, hu, rfl⟩ hh
      (C65_service_account env o w w' url email pem key n e r.time h hk hr hring hpem hpub hemail hstart hend)
  constructor
  · intro ha
    obtain ⟨h1, h2, _⟩ := C65_window env o w w' url email n e r h hu ha
    exact ⟨h1, h2, (key h1 h2).1 ha⟩
  · rintro ⟨h1, h2, h3⟩
    exact (key h1 h2).2 h3

end CSS
