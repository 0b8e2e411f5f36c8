import Verif.Props.PostServer
import Verif.Lemmas.ReferenceRsa
/-
Concrete cases for C67 and C68, with the form and the 2048-bit key of the crate's own test `test_when_policy_is_true`.
-/
set_option linter.unusedSimpArgs false
namespace CSS
open Spec

/-- The form of the crate's test, with the signature that the test expects. -/
theorem Reference.form : ∃ fs w' o, (Reference.testCalls.filterMap callOptions).getLast? = some o ∧
    o.signingKey = .serviceAccount (s% "test@example.com") Reference.testPem ∧
    o.accessibleAt = some (1640995200 * nsPerSec) ∧ o.expiration = 1641081600 * nsPerSec ∧
    (Builder.ofCalls Reference.testCalls).build Reference.env Conformance.world = (.ok fs, w') ∧
    (s% "key", s% "example-object") ∈ fs := by
  have h1 : Conformance.yields ((Builder.ofCalls Conformance.testCalls).build Conformance.env Conformance.world)
    (fun fs => decide ((s% "key", s% "example-object") ∈ fs)) = true := by decide +kernel
  obtain ⟨fs, w0, h, hf⟩ := Conformance.yields_iff h1
  have h2 := Reference.test_signature
  rw [h] at h2
  have pair : ∀ x : Res FormError (List (Str × Str)) × World, x.1 = .ok fs → x = (.ok fs, x.2) := by
    rintro ⟨a, b⟩ rfl; rfl
  refine ⟨fs, ((Builder.ofCalls Reference.testCalls).build Reference.env Conformance.world).2, _, rfl, rfl, rfl, rfl, ?_,
    of_decide_eq_true hf⟩
  exact pair _ h2

/-- C67 and C68: the hypotheses are met. A server that knows the public key accepts the form of the crate's test on the day
for which it was signed, with a file of 1024 bytes, and then only. -/
theorem Reference.form_accepted : ∃ fs w' o key n e,
    (Reference.testCalls.filterMap callOptions).getLast? = some o ∧
    (Builder.ofCalls Reference.testCalls).build Reference.env Conformance.world = (.ok fs, w') ∧
    Reference.env.pemParse Reference.testPem = some key ∧ Rsa.PublicKeyIn key n e ∧
    ∀ size time, AcceptsPost (s% "test@example.com") n e ⟨s% "example-bucket", fs, size, time⟩ ↔
      1640995200 ≤ time ∧ time < 1641081600 ∧ size = 1024 := by
  obtain ⟨fs, w', o, ho, hk, hat, hex, h, _⟩ := Reference.form
  have hkey : ((Reference.env.pemParse Reference.testPem).bind fun key => Reference.sign key []).isSome = true := by
    decide +kernel
  obtain ⟨s, hs⟩ := Option.isSome_iff_exists.1 hkey
  obtain ⟨key, hpem, hs⟩ := Option.bind_eq_some_iff.1 hs
  obtain ⟨n, e, hpub, _⟩ := Reference.sign_spec hs
  refine ⟨fs, w', o, key, n, e, ho, h, hpem, hpub, fun size time => ?_⟩
  rw [C67_service_account Reference.env _ o _ w' fs _ _ key n e _ ho h hk Reference.correct hpem hpub rfl
    (by show lastValue Reference.testCalls (s% "bucket") = some (s% "example-bucket"); decide +kernel), hat, hex]
  have hl : lastValue Reference.testCalls (s% "Content-Length") = some (s% "1024") := by decide +kernel
  rw [hl]
  have hm : ∀ m ∈ Reference.testCalls.filterMap callMeta, ∀ m' ∈ Reference.testCalls.filterMap callMeta, m.1 = m'.1 → m.2 = m'.2 := by
    decide +kernel
  have e1 : validFrom Reference.env (some (1640995200 * nsPerSec)) Conformance.world / 1000000000 = 1640995200 := by decide
  have e2 : (1641081600 * nsPerSec) / 1000000000 = 1641081600 := by decide
  rw [e1, e2]
  constructor
  · rintro ⟨a, b, c, _⟩
    exact ⟨a, b, (c _ rfl).2.2.symm⟩
  · rintro ⟨a, b, rfl⟩
    refine ⟨a, b, ?_, hm⟩
    intro text ht
    rw [← Option.some.inj ht]
    exact ⟨by decide, by decide, rfl⟩

/-- C68: with this form's signature nobody can upload another object. -/
theorem Reference.form_tampered : ∃ fs w', (Builder.ofCalls Reference.testCalls).build Reference.env Conformance.world = (.ok fs, w') ∧
    ∀ account n e size time, ¬ AcceptsPost account n e ⟨s% "example-bucket",
      fs.map fun f => if f.1 = s% "key" then (s% "key", s% "other-object") else f, size, time⟩ := by
  obtain ⟨fs, w', o, ho, _, _, _, h, hmem⟩ := Reference.form
  refine ⟨fs, w', h, fun account n e size time hacc => ?_⟩
  have hp : ∀ l : List (Str × Str),
      fieldValues (l.map fun f => if f.1 = s% "key" then (s% "key", s% "other-object") else f) (s% "policy") =
        fieldValues l (s% "policy") := by
    intro l
    induction l with
    | nil => rfl
    | cons f l ih =>
      unfold fieldValues at ih ⊢
      rw [List.map_cons]
      by_cases hf : f.1 = s% "key"
      · rw [if_pos hf, List.filter_cons_of_neg (by simp), List.filter_cons_of_neg (by rw [hf]; decide)]
        exact ih
      · rw [if_neg hf]
        by_cases hf2 : f.1 = s% "policy"
        · rw [List.filter_cons_of_pos (by simpa using hf2), List.filter_cons_of_pos (by simpa using hf2), List.map_cons, List.map_cons, ih]
        · rw [List.filter_cons_of_neg (by simpa using hf2), List.filter_cons_of_neg (by simpa using hf2)]
          exact ih
  have hsub := C68_unforgeable _ _ o _ w' fs n e ho h account _ hacc (hp fs)
  have := hsub.same (s% "key", s% "other-object") (List.mem_map.2 ⟨_, hmem, by rw [if_pos rfl]⟩) _ hmem rfl
    (by show ¬ exempt (s% "key"); decide) (by show (s% "key") ≠ s% "Content-Length"; decide)
  exact absurd this (by show (s% "other-object") ≠ s% "example-object"; decide)

/-- C67: metadata given twice with different values. -/
example : ∃ fs w', (Builder.ofCalls (.xGoogMeta (s% "reviewer") (s% "joe") :: Conformance.testCalls)).build Conformance.env
      Conformance.world = (.ok fs, w') ∧
    ∀ account n e bucket size time, ¬ AcceptsPost account n e ⟨bucket, fs, size, time⟩ := by
  obtain ⟨fs, w', h⟩ := Conformance.succeeds_iff (r := (Builder.ofCalls (.xGoogMeta (s% "reviewer") (s% "joe") ::
    Conformance.testCalls)).build Conformance.env Conformance.world) (by decide +kernel)
  refine ⟨fs, w', h, fun account n e bucket size time => ?_⟩
  exact C67_conflict_rejected _ _ _ _ w' fs n e account _ rfl h rfl (s% "reviewer") (s% "joe") (s% "jane") (.head _)
    (.tail _ (.tail _ (.tail _ (.tail _ (.tail _ (.tail _ (.tail _ (.tail _ (.tail _ (.tail _ (.tail _ (.tail _ (.tail _ (.head _))))))))))))))
    (by decide)

end CSS
