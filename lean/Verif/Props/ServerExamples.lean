import Verif.Props.Server
import Verif.Lemmas.ReferenceRsa
/-
Concrete cases for C65 and C66, with the 2048-bit key of the crate's own tests and signatures computed with it.
-/
set_option linter.unusedSimpArgs false
namespace CSS
open Spec

/-- The options of the examples: the key of the crate's own tests, signing with RSA as implemented in `Reference`. -/
def Reference.options : UrlOptions :=
  { Conformance.urlOptions with signingKey := .serviceAccount (s% "test@example.com") Reference.testPem }

/-- The server's message and the signed message of these options, by the executable SHA-256. -/
def Reference.messages (o : UrlOptions) (url : Str) : Str × Str :=
  let p := partsOf Reference.env o (validFrom Reference.env o.accessibleAt Conformance.world) (s% "test@example.com")
  (join (s% "\n") [s% "GOOG4-RSA-SHA256", p.date, p.scope, sha256Hex (utf8 ((theRequest o url 0).canonicalRequest
      (objectUrl Reference.env o).path (signedNames o.headers)))],
    join (s% "\n") [p.algorithm, p.date, p.scope, sha256Hex (utf8 p.canonicalRequest)])

/-- If their digests differ, the server rejects the URL at all times. -/
theorem Reference.rejected {o : UrlOptions} (hk : o.signingKey = .serviceAccount (s% "test@example.com") Reference.testPem)
    (hr : Plain o)
    (h : Conformance.yields (buildSignedUrl Reference.env o Conformance.world) (fun url =>
      decide (CSS.Sha256.digest (utf8 (Reference.messages o url).1) ≠ CSS.Sha256.digest (utf8 (Reference.messages o url).2))) = true) :
    ∃ url w', buildSignedUrl Reference.env o Conformance.world = (.ok url, w') ∧
      ∀ key n e time, Reference.env.pemParse Reference.testPem = some key → Rsa.PublicKeyIn key n e →
        ¬ Accepts (s% "test@example.com") n e (theRequest o url time) := by
  obtain ⟨url, w', hb, hf⟩ := Conformance.yields_iff h
  refine ⟨url, w', hb, fun key n e time hpem hpub hacc => of_decide_eq_true hf ?_⟩
  have := digest_of_accepts Reference.env o Conformance.world w' url _ _ key n e time hb hk hr Reference.correct hpem hpub
    (by decide) hacc
  rw [← digest_eq, ← digest_eq] at this
  unfold Incoming.message SignedParts.stringToSign at this
  rw [← sha256Hex_eq, ← sha256Hex_eq] at this
  exact this

/-- The public key of the example. -/
theorem Reference.key : ∃ key n e, Reference.env.pemParse Reference.testPem = some key ∧ Rsa.PublicKeyIn key n e := by
  have h : ((Reference.env.pemParse Reference.testPem).bind fun key => Reference.sign key []).isSome = true := by decide +kernel
  obtain ⟨s, hs⟩ := Option.isSome_iff_exists.1 h
  obtain ⟨key, hk, hs⟩ := Option.bind_eq_some_iff.1 hs
  obtain ⟨n, e, hp, _⟩ := Reference.sign_spec hs
  exact ⟨key, n, e, hk, hp⟩

theorem Reference.regular : Regular Reference.options where
  bucket := by decide
  object := by decide
  region := by decide
  paramNames := by decide
  headerNames := by decide
  prefixes := by decide
  headerValues := by decide
  noPayload := by decide

/-- C65 and C66: the hypotheses are met, with a real 2048-bit key and a signature computed with it; the server accepts. -/
theorem Reference.accepted : ∃ url w' key n e p time,
    buildSignedUrl Reference.env Reference.options Conformance.world = (.ok url, w') ∧
    Reference.env.pemParse Reference.testPem = some key ∧ Rsa.PublicKeyIn key n e ∧
    IsSigned Reference.env w'.log Reference.options.signingKey url p ∧
    Accepts (s% "test@example.com") n e (theRequest Reference.options url time) ∧ OneLine (theRequest Reference.options url time) ∧
    ∀ canonical message, (theRequest Reference.options url time).Rebuilds (s% "test@example.com") canonical message →
      NoCollision message p.stringToSign ∧ NoCollision canonical p.canonicalRequest := by
  obtain ⟨url, w', h, hlf⟩ := Conformance.yields_iff
    (r := buildSignedUrl Reference.env Reference.options Conformance.world) (f := fun url => decide ('\n' ∉ url))
    (by decide +kernel)
  obtain ⟨key, n, e, hk, hp⟩ := Reference.key
  obtain ⟨p, time, h1, h2, h3, h4⟩ := C66_hypotheses_met Reference.env Reference.options Conformance.world w' url _ _ key n e h
    rfl Reference.regular Reference.correct hk hp (by decide) (by decide) (of_decide_eq_true hlf)
  exact ⟨url, w', key, n, e, p, time, h, hk, hp, h1, h2, h3, fun c m hcm => ⟨fun _ => (h4 c m hcm).1, fun _ => (h4 c m hcm).2⟩⟩

/-- C65, why prefixes are excluded: with the parameters `a` and `a1` the server, which sorts by name, computes another
message (the crate sorts the escaped `name=value` texts, and `1` comes before `=`). It rejects the URL. -/
theorem C65_prefix_rejected : ∃ o url w', o.queryParameters = [(s% "a", s% "1"), (s% "a1", s% "2")] ∧ Plain o ∧
    buildSignedUrl Reference.env o Conformance.world = (.ok url, w') ∧
    ∀ key n e time, Reference.env.pemParse Reference.testPem = some key → Rsa.PublicKeyIn key n e →
      ¬ Accepts (s% "test@example.com") n e (theRequest o url time) := by
  let o : UrlOptions := { Reference.options with queryParameters := [(s% "a", s% "1"), (s% "a1", s% "2")] }
  have hr : Plain o := ⟨by decide, by decide, by decide, by decide, by decide⟩
  obtain ⟨url, w', h⟩ := Reference.rejected (o := o) rfl hr (by decide +kernel)
  exact ⟨o, url, w', rfl, hr, h⟩

/-- C65, why spaces are excluded: the server removes leading, trailing and repeated spaces from header values, the crate
signs the value as given. -/
theorem C65_spaces_rejected : ∃ o url w', o.headers = [(s% "x-goog-meta-a", s% "a  b")] ∧ Plain o ∧
    buildSignedUrl Reference.env o Conformance.world = (.ok url, w') ∧
    ∀ key n e time, Reference.env.pemParse Reference.testPem = some key → Rsa.PublicKeyIn key n e →
      ¬ Accepts (s% "test@example.com") n e (theRequest o url time) := by
  let o : UrlOptions := { Reference.options with headers := [(s% "x-goog-meta-a", s% "a  b")] }
  have hr : Plain o := ⟨by decide, by decide, by decide, by decide, by decide⟩
  obtain ⟨url, w', h⟩ := Reference.rejected (o := o) rfl hr (by decide +kernel)
  exact ⟨o, url, w', rfl, hr, h⟩

/-- C65, why the digest of the body is excluded: the server takes it from the header as the last line, the crate always
signs `UNSIGNED-PAYLOAD`. -/
theorem C65_payload_rejected : ∃ o url w',
    o.headers = [(s% "x-goog-content-sha256", s% "e3b0c44298fc1c149afbf4c8996fb92427ae41e4649b934ca495991b7852b855")] ∧ Plain o ∧
    buildSignedUrl Reference.env o Conformance.world = (.ok url, w') ∧
    ∀ key n e time, Reference.env.pemParse Reference.testPem = some key → Rsa.PublicKeyIn key n e →
      ¬ Accepts (s% "test@example.com") n e (theRequest o url time) := by
  let o : UrlOptions := { Reference.options with headers :=
    [(s% "x-goog-content-sha256", s% "e3b0c44298fc1c149afbf4c8996fb92427ae41e4649b934ca495991b7852b855")] }
  have hr : Plain o := ⟨by decide, by decide, by decide, by decide, by decide⟩
  obtain ⟨url, w', h⟩ := Reference.rejected (o := o) rfl hr (by decide +kernel)
  exact ⟨o, url, w', rfl, hr, h⟩

end CSS
