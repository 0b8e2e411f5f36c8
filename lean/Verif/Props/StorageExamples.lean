import Verif.Props.Storage
import Verif.Props.PostServerExamples
import Verif.Props.ServerExamples
import Verif.Props.ImageUploaderExamples
/-
Concrete cases for C75, C76 and C77, with the form and the 2048-bit key of the crate's own test `test_when_policy_is_true`.
-/
set_option linter.unusedSimpArgs false
namespace CSS
open Spec

/-- A URL to get the object that the form of the test uploads. -/
def Reference.getOptions : UrlOptions :=
  { Reference.options with
    bucketName := s% "example-bucket", objectName := s% "example-object", httpMethod := s% "GET", headers := [], queryParameters := [] }

theorem Reference.getUrl : ∃ url w', buildSignedUrl Reference.env Reference.getOptions Conformance.world = (.ok url, w') ∧ '\n' ∉ url := by
  obtain ⟨url, w', h, hlf⟩ := Conformance.yields_iff
    (r := buildSignedUrl Reference.env Reference.getOptions Conformance.world) (f := fun url => decide ('\n' ∉ url))
    (by decide +kernel)
  exact ⟨url, w', h, of_decide_eq_true hlf⟩

theorem Reference.getPlain : PlainAccess Reference.getOptions where
  headers := rfl
  parameters := rfl
  region := by decide
  names := by
    refine ⟨by decide, by decide, by decide, ?_, by decide, ?_⟩
    · intro c hc
      have : c = 't' := by simpa [Reference.getOptions] using hc.symm
      rw [this]; decide
    · rintro ⟨a, x, y, b, he, _⟩
      exact absurd (he ▸ List.mem_append_right a (.head _) : '%' ∈ s% "example-bucket" ++ s% "/" ++ s% "example-object") (by decide)

theorem Reference.signs {key : Bytes} {n e : Nat} {email : Str} {log : List Request} (hpem : Reference.env.pemParse Reference.testPem = some key)
    (hpub : Rsa.PublicKeyIn key n e) : ∀ m s, Signs Reference.env log (.serviceAccount email Reference.testPem) m s → Rsa.Verifies n e m s := by
  rintro m s ⟨der, h1, h2, h3⟩
  rw [hpem, Option.some.injEq] at h1
  subst h1
  obtain ⟨n', e', hp, hv⟩ := Reference.correct _ _ _ h2 h3
  obtain ⟨rfl, rfl⟩ := publicKeyIn_unique hpub hp
  exact hv

/-- C75: the hypotheses on the key are met, for a URL and for a form. -/
example : ∃ url w' fs v' o key n e, buildSignedUrl Reference.env Reference.getOptions Conformance.world = (.ok url, w') ∧
    (Reference.testCalls.filterMap callOptions).getLast? = some o ∧
    (Builder.ofCalls Reference.testCalls).build Reference.env Conformance.world = (.ok fs, v') ∧
    Reference.env.pemParse Reference.testPem = some key ∧ Rsa.PublicKeyIn key n e ∧
    (∀ m s, Signs Reference.env w'.log Reference.getOptions.signingKey m s → Rsa.Verifies n e m s) ∧
    (∀ m s, Signs Reference.env v'.log o.signingKey m s → Rsa.Verifies n e m s) := by
  obtain ⟨url, w', hu, _⟩ := Reference.getUrl
  obtain ⟨fs, v', o, ho, hk, _, _, hf, _⟩ := Reference.form
  obtain ⟨key, n, e, hpem, hpub⟩ := Reference.key
  exact ⟨url, w', fs, v', o, key, n, e, hu, ho, hf, hpem, hpub, Reference.signs hpem hpub, by rw [hk]; exact Reference.signs hpem hpub⟩

/-- C76: the form of the crate's test, posted at 2022-01-01T00:00:00Z with any file of 1024 bytes, and then a GET in any
second of the hour for which the URL was signed. -/
theorem Reference.upload_download : ∃ fs w' url v' n e,
    (Builder.ofCalls Reference.testCalls).build Reference.env Conformance.world = (.ok fs, w') ∧
    buildSignedUrl Reference.env Reference.getOptions Conformance.world = (.ok url, v') ∧
    ∀ (file : Bytes) (s s' : Store) (filename : Str) (time : Int), file.length = 1024 → 1640995200 ≤ time → time < 1640998800 →
      Handles (s% "test@example.com") n e (.form ⟨s% "example-bucket", fs, file.length, 1640995200⟩ filename file) s s' →
      ∀ content, Answers (s% "test@example.com") n e s' (theRequest Reference.getOptions url time) content ↔ content = file := by
  obtain ⟨fs, w', o, ho, hk, hat, hex, hf, _⟩ := Reference.form
  obtain ⟨url, v', hu, _⟩ := Reference.getUrl
  obtain ⟨key, n, e, hpem, hpub⟩ := Reference.key
  refine ⟨fs, w', url, v', n, e, hf, hu, fun file s s' filename time hlen h1 h2 hs content => ?_⟩
  refine C76_post_then_get Reference.env _ o _ w' fs Reference.getOptions _ v' url (s% "test@example.com") Reference.testPem key n e
    1640995200 time ho hf hu Reference.getPlain rfl hk rfl Reference.correct hpem hpub (by decide) (by decide +kernel) (by decide +kernel)
    ?_ ?_ ⟨?_, ?_⟩ filename file ?_ (by decide +kernel) s s' s' hs rfl content
  · intro h
    exact absurd (h.subset (by decide : '$' ∈ s% "${filename}")) (by decide)
  · rw [hat, hex]; decide
  · have : validFrom Reference.env Reference.getOptions.accessibleAt Conformance.world / 1000000000 = 1640995200 := by decide
    omega
  · have : validFrom Reference.env Reference.getOptions.accessibleAt Conformance.world / 1000000000 +
      (Reference.getOptions.expires - validFrom Reference.env Reference.getOptions.accessibleAt Conformance.world) / 1000000000 =
        1640998800 := by decide
    omega
  · intro text ht
    have : lastValue Reference.testCalls (s% "Content-Length") = some (s% "1024") := by decide +kernel
    rw [this] at ht
    rw [← Option.some.inj ht, hlen]
    exact ⟨by decide, by decide, rfl⟩

/-- C76: URLs to put and to delete the same object. -/
example : ∀ m ∈ [s% "PUT", s% "DELETE"], ∃ url w',
    buildSignedUrl Reference.env { Reference.getOptions with httpMethod := m } Conformance.world = (.ok url, w') ∧
    PlainAccess { Reference.getOptions with httpMethod := m } := by
  intro m hm
  have hp : PlainAccess { Reference.getOptions with httpMethod := m } :=
    ⟨Reference.getPlain.headers, Reference.getPlain.parameters, Reference.getPlain.region, Reference.getPlain.names⟩
  rcases List.mem_cons.1 hm with rfl | hm
  · obtain ⟨url, w', h⟩ := Conformance.succeeds_iff
      (r := buildSignedUrl Reference.env { Reference.getOptions with httpMethod := s% "PUT" } Conformance.world) (by decide +kernel)
    exact ⟨url, w', h, hp⟩
  · rw [List.mem_singleton.1 hm] at hp ⊢
    obtain ⟨url, w', h⟩ := Conformance.succeeds_iff
      (r := buildSignedUrl Reference.env { Reference.getOptions with httpMethod := s% "DELETE" } Conformance.world) (by decide +kernel)
    exact ⟨url, w', h, hp⟩

/-- C76, why names with `?` are excluded: a form uploads `a?b`, but a URL for `a?b` is that of the object `a`. -/
theorem C76_question_mark : ∃ o url w', o.objectName = s% "a?b" ∧
    buildSignedUrl Conformance.env o Conformance.world = (.ok url, w') ∧
    NamesObject url (utf8 (s% "my-bucket")) (utf8 (s% "a")) := by
  obtain ⟨url, w', h, hf⟩ := Conformance.yields_iff
    (r := buildSignedUrl Conformance.env { Conformance.urlOptions with objectName := s% "a?b" } Conformance.world)
    (f := fun url => decide (urlPath (s% "https://storage.googleapis.com") url = some (s% "/my-bucket/a"))) (by decide +kernel)
  exact ⟨_, url, w', rfl, h, _, of_decide_eq_true hf, by decide, by decide, by decide⟩

/-- C77: a history that is not forged and in which objects are written and read: the form is posted, the URL requested. -/
example : ∃ (i : IssuedUrl) (f : IssuedForm) (n e : Nat), i.Built ∧ f.Built ∧ ∀ file : Bytes, file.length = 1024 →
    ∃ (ms : List Sent) (s : Store), Serves (s% "test@example.com") n e ms (fun _ _ => none) s ∧
      s (utf8 (s% "example-bucket")) (utf8 (s% "example-object")) = some file ∧ ms.length = 2 ∧
      ∀ parts : IssuedUrl → SignedParts, SignedAs i (parts i) →
        ∀ m ∈ ms, m.Accepted (s% "test@example.com") n e ∧ NotForged (s% "test@example.com") [i] [f] parts m := by
  obtain ⟨fs, w', o, ho, hk, hat, hex, hf, _⟩ := Reference.form
  obtain ⟨url, v', hu, hlf⟩ := Reference.getUrl
  obtain ⟨key, n, e, hpem, hpub⟩ := Reference.key
  refine ⟨⟨Reference.env, Reference.getOptions, Conformance.world, v', url⟩,
    ⟨Reference.env, Reference.testCalls, o, Conformance.world, w', fs⟩, n, e, ⟨hu, hlf, by intro h hh; cases hh⟩, ⟨ho, hf⟩, fun file hlen => ?_⟩
  have hsize : ∀ text, lastValue Reference.testCalls (s% "Content-Length") = some text → Decimal text file.length := by
    intro text ht
    have : lastValue Reference.testCalls (s% "Content-Length") = some (s% "1024") := by decide +kernel
    rw [this] at ht
    rw [← Option.some.inj ht, hlen]
    exact ⟨by decide, by decide, rfl⟩
  have htime : validFrom Reference.env o.accessibleAt Conformance.world / 1000000000 ≤ 1640998800 ∧ 1640998800 < o.expiration / 1000000000 := by
    rw [hat, hex]; decide
  have hmeta : ∀ m ∈ Reference.testCalls.filterMap callMeta, ∀ m' ∈ Reference.testCalls.filterMap callMeta, m.1 = m'.1 → m.2 = m'.2 := by
    decide +kernel
  obtain ⟨s, hs⟩ := handles_exists (s% "test@example.com") n e
    (.form ⟨s% "example-bucket", fs, file.length, 1640998800⟩ (s% "a.txt") file) (fun _ _ => none)
  obtain ⟨s', hs'⟩ := handles_exists (s% "test@example.com") n e (.request (theRequest Reference.getOptions url 1640995200) []) s
  have hpost := C76_post Reference.env _ o _ w' fs (s% "test@example.com") Reference.testPem (s% "example-bucket")
    (s% "example-object") key n e 1640998800 ho hf hk Reference.correct hpem hpub (by decide +kernel) (by decide +kernel) htime
    (s% "a.txt") file hsize hmeta _ s hs (utf8 (s% "example-bucket")) (utf8 (s% "example-object"))
  rw [expand_plain _ (fun h => absurd (h.subset (by decide : '$' ∈ s% "${filename}")) (by decide)), if_pos ⟨rfl, rfl⟩] at hpost
  have hbucket : lastValue Reference.testCalls (s% "bucket") = some (s% "example-bucket") := by decide +kernel
  refine ⟨[_, _], s', .next hs (.next hs' (.done s')), ?_, rfl, ?_⟩
  · apply Classical.byContradiction
    intro hne
    exact (hs'.others _ _ (by rw [hpost]; exact hne)).1 (.inl rfl)
  · intro parts hsa m hm
    rcases List.mem_cons.1 hm with rfl | hm
    · refine ⟨⟨(C67_service_account _ _ o _ w' fs _ _ key n e _ ho hf hk Reference.correct hpem hpub rfl hbucket).2
        ⟨htime.1, htime.2, hsize, hmeta⟩, rfl⟩, fun policy hp => .inr ⟨_, .head _, hp⟩⟩
    · rw [List.mem_singleton.1 hm]
      obtain ⟨h1, h2⟩ := hsa.honest _ _ rfl Reference.getPlain.regular (by decide) 1640995200
      refine ⟨(plain_accepted hu Reference.getPlain rfl Reference.correct hpem hpub (by decide) (by decide)).1, h1, fun c m hcm => ?_⟩
      obtain ⟨h3, h4⟩ := h2 c m hcm
      exact ⟨.inl ⟨_, .head _, h3⟩, fun j hj _ => by rw [List.mem_singleton.1 hj]; exact h4⟩

/-- C76 for the example server: `ImageUploader.history_accepted` (in ImageUploaderExamples) is a history with an uploaded and
listed image, signed with the same key. -/
example : ∃ st fs url, ImageUploader.Run (.alone Reference.env ImageUploader.config) ImageUploader.config
    [.created 1 ImageUploader.uuidB, .created 0 ImageUploader.uuidA, .updated 3 ImageUploader.uuidA, .listed 2,
      .updated 4 ImageUploader.uuidB] st ∧
    (∃ m u, st.tasks[0]? = some (.create 1024 (s% "image/png"), .replied (.form fs m u))) ∧
    st.tasks[2]? = some (.list, .replied (.urls [url])) ∧
    Spec.ImageUploader.UploadedIn [.created 1 ImageUploader.uuidB, .created 0 ImageUploader.uuidA, .updated 3 ImageUploader.uuidA]
      ImageUploader.uuidA ∧ Spec.ImageUploader.IsBucketName ImageUploader.config.bucketName := by
  obtain ⟨st, fs, url, _, _, h1, h2, h3, _⟩ := ImageUploader.history_accepted
  exact ⟨st, fs, url, h1, ⟨_, _, h2⟩, h3, ⟨[.created 1 ImageUploader.uuidB], [], [], 0, 3, rfl⟩, by decide⟩

end CSS
