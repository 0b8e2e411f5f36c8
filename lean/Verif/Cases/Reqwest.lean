import Verif.Props.StorageExamples
import Verif.Props.Reqwest
/-
Concrete cases for C104.
-/
set_option linter.unusedSimpArgs false
namespace CSS
open Spec

/-- A boundary as reqwest chooses it. -/
def Reqwest.hexBoundary : Str := s% "1f0c27a9e35b6d48-90b1c2d3e4f5a607-7e6d5c4b3a291807-00ff11ee22dd33cc"

/-- The body of a small form, byte by byte; values are sent as they are. -/
example : Reqwest.postBody (s% "1f-2e") [(s% "key", s% "a\nb"), (s% "x-goog-meta-über", s% "1"), (s% " ", s% "2")] [137, 80] = utf8 (s%
    "--1f-2e\r\nContent-Disposition: form-data; name=\"key\"\r\n\r\na\nb\r\n") ++ utf8 (s%
    "--1f-2e\r\nContent-Disposition: form-data; name*=utf-8''x-goog-meta-%C3%BCber\r\n\r\n1\r\n") ++ utf8 (s%
    "--1f-2e\r\nContent-Disposition: form-data; name=\"%20\"\r\n\r\n2\r\n") ++ utf8 (s%
    "--1f-2e\r\nContent-Disposition: form-data; name=\"file\"\r\n\r\n") ++ [137, 80] ++ utf8 (s% "\r\n--1f-2e--\r\n") := by decide +kernel

/-- C104: the hypotheses of `C104_parts` are met; unlike browsers, reqwest keeps a lone line feed. -/
example : FreshBoundary Reqwest.hexBoundary [(s% "key", s% "a\nb"), (s% "x-goog-meta-note!", s% "\"")] [137, 80] ∧
    BodyParts Reqwest.hexBoundary
      (Reqwest.postBody Reqwest.hexBoundary [(s% "key", s% "a\nb"), (s% "x-goog-meta-note!", s% "\"")] [137, 80])
      [.field (s% "key") (utf8 (s% "a\nb")), .field (s% "x-goog-meta-note!") (utf8 (s% "\"")), .field (s% "file") [137, 80]] := by
  have hb : FreshBoundary Reqwest.hexBoundary [(s% "key", s% "a\nb"), (s% "x-goog-meta-note!", s% "\"")] [137, 80] :=
    ⟨by decide +kernel, by decide +kernel, by decide +kernel⟩
  exact ⟨hb, (C104_parts _ _ _ hb (by unfold VisibleName; decide +kernel) _).2 rfl⟩

/-- C104, the two bytes are needed: a name of one space is read as `%20`. -/
example : BodyParts (s% "b") (Reqwest.postBody (s% "b") [(s% " ", s% "2")] [7]) [.field (s% "%20") (utf8 (s% "2")), .field (s% "file") [7]] := by
  refine ⟨[utf8 (s% "Content-Disposition: form-data; name=\"%20\"\r\n\r\n2"),
    utf8 (s% "Content-Disposition: form-data; name=\"file\"\r\n\r\n") ++ [7]], utf8 (s% "\r\n"), by decide +kernel, by decide +kernel, rfl, ?_⟩
  intro x hx
  simp only [List.zip_cons_cons, List.zip_nil_left, List.mem_cons, List.not_mem_nil, or_false] at hx
  rcases hx with rfl | rfl
  · exact PartText.field (s% "%20") (utf8 (s% "2")) (by decide)
  · exact PartText.field (s% "file") [7] (by decide)

/-- The form of the crate's test, with a further field of metadata, posted with reqwest. -/
private theorem named_form (name : Str) (hname : name ≠ s% "reviewer" ∧ name ≠ s% "project-manager")
    (ok : Conformance.yields
      ((Builder.ofCalls (.xGoogMeta name (s% "a\nb") :: Reference.testCalls)).build Reference.env Conformance.world)
      (fun fs => decide (∀ f ∈ fs, ¬ Reqwest.hexBoundary <:+: f.2)) = true)
    (file : Bytes) (hf : ¬ utf8 Reqwest.hexBoundary <:+: file) (hl : file.length = 1024) :
    ∃ fs w' n e,
      (Builder.ofCalls (.xGoogMeta name (s% "a\nb") :: Reference.testCalls)).build Reference.env Conformance.world = (.ok fs, w') ∧
      ∀ time, (∃ fields content, BareForm Reqwest.hexBoundary (Reqwest.postBody Reqwest.hexBoundary fs file) fields content ∧
          AcceptsPost (s% "test@example.com") n e ⟨s% "example-bucket", fields, content.length, time⟩) ↔
        1640995200 ≤ time ∧ time < 1641081600 ∧ VisibleName name := by
  obtain ⟨fs, w', h, hfs⟩ := Conformance.yields_iff ok
  obtain ⟨key, n, e, hpem, hpub⟩ := Reference.key
  refine ⟨fs, w', n, e, h, fun time => ?_⟩
  rw [C104_accepted_iff Reference.env _ _ _ w' fs (s% "test@example.com") Reference.testPem key n e (s% "example-bucket")
    Reqwest.hexBoundary file time rfl h rfl Reference.correct hpem hpub rfl ⟨by decide +kernel, of_decide_eq_true hfs, hf⟩]
  have e1 : validFrom Reference.env (some (1640995200 * nsPerSec)) Conformance.world / 1000000000 = 1640995200 := by decide
  have e2 : (1641081600 * nsPerSec) / 1000000000 = 1641081600 := by decide
  have e3 : lastValue (.xGoogMeta name (s% "a\nb") :: Reference.testCalls) (s% "Content-Length") = some (s% "1024") := by rfl
  have e4 : (Call.xGoogMeta name (s% "a\nb") :: Reference.testCalls).filterMap callMeta =
      [(name, s% "a\nb"), (s% "reviewer", s% "jane"), (s% "project-manager", s% "john")] := by rfl
  rw [e3, e4]
  constructor
  · rintro ⟨a, b, _, _, c⟩
    exact ⟨a, b, c (name, s% "a\nb") (by simp)⟩
  · rintro ⟨a, b, c⟩
    refine ⟨a, b, ?_, ?_, ?_⟩
    · intro t ht
      rw [← Option.some.inj ht, hl]
      exact ⟨by decide, by decide, rfl⟩
    · intro m hm m' hm' he
      simp only [List.mem_cons, List.not_mem_nil, or_false] at hm hm'
      rcases hm with rfl | rfl | rfl <;> rcases hm' with rfl | rfl | rfl <;>
        first | rfl | exact absurd he hname.1 | exact absurd he hname.2 | exact absurd he.symm hname.1 | exact absurd he.symm hname.2 |
          exact absurd he (by decide)
    · intro m hm
      simp only [List.mem_cons, List.not_mem_nil, or_false] at hm
      rcases hm with rfl | rfl | rfl
      · exact c
      · unfold VisibleName; decide
      · unfold VisibleName; decide

/-- C104: a file of 1024 bytes, posted with reqwest and the form of the crate's test, is accepted for a day. -/
example : ∃ fs w' n e fields content,
    (Builder.ofCalls (.xGoogMeta (s% "note") (s% "a\nb") :: Reference.testCalls)).build Reference.env Conformance.world = (.ok fs, w') ∧
    BareForm Reqwest.hexBoundary (Reqwest.postBody Reqwest.hexBoundary fs (List.replicate 1024 7)) fields content ∧
    AcceptsPost (s% "test@example.com") n e ⟨s% "example-bucket", fields, content.length, 1640995200⟩ := by
  obtain ⟨fs, w', n, e, h, hiff⟩ := named_form (s% "note") (by decide) (by decide +kernel) (List.replicate 1024 7) (by decide +kernel)
    (by decide +kernel)
  obtain ⟨fields, content, h1, h2⟩ := (hiff 1640995200).2 ⟨by decide, by decide, by unfold VisibleName; decide⟩
  exact ⟨fs, w', n, e, fields, content, h, h1, h2⟩

/-- C104: with a metadata name that is not ASCII, the same form is never accepted. -/
example : ∃ fs w' n e,
    (Builder.ofCalls (.xGoogMeta (s% "höhe") (s% "a\nb") :: Reference.testCalls)).build Reference.env Conformance.world = (.ok fs, w') ∧
    ∀ fields content, BareForm Reqwest.hexBoundary (Reqwest.postBody Reqwest.hexBoundary fs (List.replicate 1024 7)) fields content →
      ∀ time, ¬ AcceptsPost (s% "test@example.com") n e ⟨s% "example-bucket", fields, content.length, time⟩ := by
  obtain ⟨fs, w', n, e, h, hiff⟩ := named_form (s% "höhe") (by decide) (by decide +kernel) (List.replicate 1024 7) (by decide +kernel)
    (by decide +kernel)
  refine ⟨fs, w', n, e, h, fun fields content h1 time h2 => ?_⟩
  have := ((hiff time).1 ⟨fields, content, h1, h2⟩).2.2 'ö' (by decide)
  exact absurd this (by decide)

/-- C104: the whole integration test with the reference key, a file of 1024 bytes and a GET in any second of the hour for which the URL
was signed. -/
example : ∃ fs w' url v' n e fields content,
    (Builder.ofCalls Reference.testCalls).build Reference.env Conformance.world = (.ok fs, w') ∧
    buildSignedUrl Reference.env Reference.getOptions Conformance.world = (.ok url, v') ∧
    BareForm Reqwest.hexBoundary (Reqwest.postBody Reqwest.hexBoundary fs (List.replicate 1024 7)) fields content ∧
    ∀ (time : Int) (s s' : Store), 1640995200 ≤ time → time < 1640998800 →
      Handles (s% "test@example.com") n e (.form ⟨s% "example-bucket", fields, content.length, 1640995200⟩ [] content) s s' →
      ∀ answer, Answers (s% "test@example.com") n e s' (theRequest Reference.getOptions url time) answer ↔
        answer = List.replicate 1024 7 := by
  obtain ⟨fs, w', h, hfs⟩ := Conformance.yields_iff
    (r := (Builder.ofCalls Reference.testCalls).build Reference.env Conformance.world)
    (f := fun fs => decide (∀ f ∈ fs, ¬ Reqwest.hexBoundary <:+: f.2)) (by decide +kernel)
  obtain ⟨url, v', hu, _⟩ := Reference.getUrl
  obtain ⟨key, n, e, hpem, hpub⟩ := Reference.key
  have hb : FreshBoundary Reqwest.hexBoundary fs (List.replicate 1024 7) :=
    ⟨by decide +kernel, of_decide_eq_true hfs, by decide +kernel⟩
  have hrt : ∀ time' : Int, 1640995200 ≤ time' → time' < 1640998800 → _ := fun time' h1 h2 =>
    C104_round_trip Reference.env _ _ _ w' fs Reference.getOptions _ v' url (s% "test@example.com")
    Reference.testPem key n e 1640995200 time' rfl h hu Reference.getPlain rfl rfl rfl Reference.correct hpem hpub (by decide)
    (by decide +kernel) (by decide +kernel) (fun h => absurd (h.subset (by decide : '$' ∈ s% "${filename}")) (by decide)) (by decide)
    (by
      have : validFrom Reference.env Reference.getOptions.accessibleAt Conformance.world / 1000000000 = 1640995200 := by decide
      have : validFrom Reference.env Reference.getOptions.accessibleAt Conformance.world / 1000000000 +
        (Reference.getOptions.expires - validFrom Reference.env Reference.getOptions.accessibleAt Conformance.world) / 1000000000 =
          1640998800 := by decide
      omega)
    Reqwest.hexBoundary (List.replicate 1024 7) hb (by
      intro text ht
      have : lastValue Reference.testCalls (s% "Content-Length") = some (s% "1024") := by decide +kernel
      rw [this] at ht
      rw [← Option.some.inj ht]
      exact ⟨by decide, by decide, by decide +kernel⟩) (by decide +kernel) (by unfold VisibleName; decide +kernel)
  obtain ⟨fields, content, g1, _, _⟩ := hrt 1640995200 (by decide) (by decide)
  refine ⟨fs, w', url, v', n, e, fields, content, h, hu, g1, fun time s s' h1 h2 hs answer => ?_⟩
  obtain ⟨fields', content', _, g2, g3⟩ := hrt time h1 h2
  obtain ⟨rfl, rfl⟩ := g2 _ _ g1
  exact g3 s s' s' hs rfl answer

end CSS
