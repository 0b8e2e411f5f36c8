import Verif.Cases.Reqwest
import Verif.Props.ReqwestUrl
/-
Concrete cases for C106.
-/
set_option linter.unusedSimpArgs false
namespace CSS
open Spec

/-- A URL to post to the object that `Reference.getOptions` gets. -/
def Reference.postOptions : UrlOptions := { Reference.getOptions with httpMethod := s% "POST" }

theorem Reference.postUrl : ∃ url w', buildSignedUrl Reference.env Reference.postOptions Conformance.world = (.ok url, w') := by
  obtain ⟨url, w', h, _⟩ := Conformance.yields_iff
    (r := buildSignedUrl Reference.env Reference.postOptions Conformance.world) (f := fun _ => true) (by decide +kernel)
  exact ⟨url, w', h⟩

theorem Reference.postPlain : PlainAccess Reference.postOptions where
  headers := rfl
  parameters := rfl
  region := by decide
  names := Reference.getPlain.names

theorem Reference.plainText : PlainText (s% "test@example.com") Reference.getOptions :=
  ⟨by decide +kernel, by decide +kernel⟩

/-- C106: a URL with a `<` in a parameter is not what reqwest sends; the path may have any name. -/
example :
    Conformance.yields (buildSignedUrl Reference.env { Reference.getOptions with objectName := s% "a <'|b" } Conformance.world)
      (fun url => decide (Reqwest.target Reference.env url = some url)) = true ∧
    Conformance.yields (buildSignedUrl Reference.env { Reference.getOptions with queryParameters := [(s% "a", s% "<")] } Conformance.world)
      (fun url => decide (Reqwest.target Reference.env url = none ∨ Reqwest.target Reference.env url = some url)) = false ∧
    Conformance.yields (buildSignedUrl Reference.env { Reference.getOptions with queryParameters := [(s% "a", s% "'\"?")] } Conformance.world)
      (fun url => decide (Reqwest.target Reference.env url = some url)) = true := by decide +kernel

/-- C106: the crate's tests `test_setup_a_txt`, `test_post` and `test_post_bin` with any file, at any times in the hour of the URLs. -/
example : ∃ url w' url' v' n e, buildSignedUrl Reference.env Reference.postOptions Conformance.world = (.ok url, w') ∧
    buildSignedUrl Reference.env Reference.getOptions Conformance.world = (.ok url', v') ∧
    ∀ (file : Bytes) (time time' : Int), ¬ utf8 Reqwest.hexBoundary <:+: file → 1640995200 ≤ time → time < 1640998800 →
      1640995200 ≤ time' → time' < 1640998800 →
      ∃ r r', Reqwest.post Reference.env url Reqwest.hexBoundary
          (Reqwest.postBody Reqwest.hexBoundary [(s% "key", s% "example-object")] file) time = some r ∧
        Reqwest.get Reference.env url' time' = some r' ∧ ∀ s s', HandlesUpload (s% "test@example.com") n e r
          (Reqwest.postBody Reqwest.hexBoundary [(s% "key", s% "example-object")] file) s s' →
        ∀ content, Answers (s% "test@example.com") n e s' r' content ↔ content = file := by
  obtain ⟨url, w', hu⟩ := Reference.postUrl
  obtain ⟨url', v', hu', _⟩ := Reference.getUrl
  obtain ⟨key, n, e, hpem, hpub⟩ := Reference.key
  have noParam : ∀ p ∈ ([] : List (Str × Str)), ∀ c ∈ p.1 ++ p.2, c ∈ uriChars := by decide
  have noHeader : ∀ p ∈ ([] : List (Str × Str)), ∀ c ∈ p.1, c ∈ uriChars := by decide
  have ht := C106_same_url Reference.env Reference.postOptions _ w' url hu
    (fun a ha => by have : a = s% "test@example.com" := ha
                    rw [this]; decide +kernel)
    (by decide +kernel) noParam noHeader (by decide)
  have ht' := C106_same_url Reference.env Reference.getOptions _ v' url' hu'
    (fun a ha => by have : a = s% "test@example.com" := ha
                    rw [this]; decide +kernel)
    (by decide +kernel) noParam noHeader (by decide)
  refine ⟨url, w', url', v', n, e, hu, hu', fun file time time' hf h1 h2 h3 h4 => ?_⟩
  obtain ⟨r, hr⟩ : ∃ r, Reqwest.post Reference.env url Reqwest.hexBoundary
      (Reqwest.postBody Reqwest.hexBoundary [(s% "key", s% "example-object")] file) time = some r := by
    unfold Reqwest.post; rw [ht]; exact ⟨_, rfl⟩
  obtain ⟨r', hr'⟩ : ∃ r, Reqwest.get Reference.env url' time' = some r := by
    unfold Reqwest.get; rw [ht']; exact ⟨_, rfl⟩
  have e1 : validFrom Reference.env Reference.getOptions.accessibleAt Conformance.world / 1000000000 = 1640995200 := by decide
  have e2 : validFrom Reference.env Reference.getOptions.accessibleAt Conformance.world / 1000000000 +
    (Reference.getOptions.expires - validFrom Reference.env Reference.getOptions.accessibleAt Conformance.world) / 1000000000 =
      1640998800 := by decide
  refine ⟨r, r', hr, hr', fun s s' hs content => ?_⟩
  exact C106_post_then_get Reference.env Reference.postOptions Reference.getOptions _ w' _ v' url url' (s% "test@example.com")
    Reference.testPem key n e time time' r r' hu hu' Reference.postPlain Reference.getPlain rfl rfl ⟨rfl, rfl⟩ rfl rfl
    ⟨Reference.plainText.email, Reference.plainText.region⟩ Reference.plainText Reference.correct hpem hpub Reqwest.hexBoundary file
    ⟨by decide +kernel, by decide +kernel, hf⟩ hr hr' ⟨e1 ▸ h1, e2 ▸ h2⟩ ⟨e1 ▸ h3, e2 ▸ h4⟩ s s' hs content

/-- C106: there is a server that handles uploads so, whatever it holds before. -/
example (account key : Str) (n e : Nat) (r : Incoming) (b : Str) (file : Bytes) (bucket : Bytes) (s : Store)
    (hm : r.method = s% "POST") (hn : NamesObject r.url bucket (utf8 key)) (hb : FreshBoundary b [(s% "key", key)] file)
    (ht : headerValues r.headers (s% "content-type") = [s% "multipart/form-data; boundary=" ++ b]) :
    ∃ s', HandlesUpload account n e r (Reqwest.postBody b [(s% "key", key)] file) s s' := by
  classical
  refine ⟨fun b' k => if Accepts account n e r ∧ b' = bucket ∧ k = utf8 key then some file else s b' k, ⟨?_, ?_, ?_, ?_⟩, ?_⟩
  · intro hr
    funext b' k
    exact if_neg fun h => hr h.1
  · intro b' k h
    split at h
    · rename_i hc
      rw [hc.2.1, hc.2.2]
      refine ⟨?_, .inl hn⟩
      rw [hm]
      rintro (h | h) <;> exact absurd h (by decide)
    · exact absurd rfl h
  · rintro _ r' body _ _ he _ _
    obtain ⟨rfl, _⟩ := Sent.request.inj he
    rw [hm]
    exact ⟨fun h => absurd h (by decide), fun h => absurd h (by decide)⟩
  · intro _ _ _ _ _ he
    cases he
  · intro ha _ _ b' key' content bucket' ht' hf hn'
    rw [ht, List.cons.injEq] at ht'
    have hbb := List.append_cancel_left ht'.1
    subst hbb
    obtain ⟨h1, h2⟩ := (bare_iff hb (by
      intro f hf
      rw [List.mem_singleton] at hf
      rw [hf]
      show VisibleName (s% "key")
      unfold VisibleName
      decide)).1 hf
    obtain ⟨h3, h4⟩ := namesObject_unique hn hn'
    rw [h2]
    exact if_pos ⟨ha, h3.symm, h4.symm⟩

/-- C106: the test `test_post_invalid_http_method`: the URL for a POST, used with `reqwest::get`. -/
example : ∃ url w' n e r, buildSignedUrl Reference.env Reference.postOptions Conformance.world = (.ok url, w') ∧
    Reqwest.get Reference.env url 1640995201 = some r ∧
    ∃ p : SignedParts, IsSigned Reference.env w'.log Reference.postOptions.signingKey url p ∧
      ((∀ canonical message, r.Rebuilds (s% "test@example.com") canonical message →
        NoCollision message p.stringToSign ∧ NoCollision canonical p.canonicalRequest) →
      ¬ Accepts (s% "test@example.com") n e r) := by
  obtain ⟨url, w', hu⟩ := Reference.postUrl
  obtain ⟨key, n, e, hpem, hpub⟩ := Reference.key
  have noParam : ∀ p ∈ ([] : List (Str × Str)), ∀ c ∈ p.1 ++ p.2, c ∈ uriChars := by decide
  have noHeader : ∀ p ∈ ([] : List (Str × Str)), ∀ c ∈ p.1, c ∈ uriChars := by decide
  have ht := C106_same_url Reference.env Reference.postOptions _ w' url hu
    (fun a ha => by have : a = s% "test@example.com" := ha
                    rw [this]; decide +kernel)
    (by decide +kernel) noParam noHeader (by decide)
  obtain ⟨r, hr⟩ : ∃ r, Reqwest.get Reference.env url 1640995201 = some r := by
    unfold Reqwest.get; rw [ht]; exact ⟨_, rfl⟩
  obtain ⟨p, hs, hp⟩ := C106_wrong_method Reference.env Reference.postOptions _ w' url (s% "test@example.com") Reference.testPem key n e hu
    Reference.postPlain (by decide) rfl ⟨Reference.plainText.email, Reference.plainText.region⟩ Reference.correct hpem hpub
  exact ⟨url, w', n, e, r, hu, hr, p, hs, hp _ _ r hr⟩

end CSS
