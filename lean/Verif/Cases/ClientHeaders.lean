import Verif.Props.StorageExamples
import Verif.Props.ClientHeaders
/-
Concrete cases for C105.
-/
set_option linter.unusedSimpArgs false
namespace CSS
open Spec

/-- C105: a client sends the URL with headers of its own. It is accepted in the hour of the URL, unless there is one called `x-goog-…`. -/
example : ∃ url w' n e, buildSignedUrl Reference.env Reference.getOptions Conformance.world = (.ok url, w') ∧
    (∀ time, Accepts (s% "test@example.com") n e ⟨s% "GET", url, [(s% "User-Agent", s% "curl/8"), (s% "accept", s% "*/*"),
      (s% "Host", s% "storage.googleapis.com"), (s% "x-request-id", s% "1")], time⟩ ↔ 1640995200 ≤ time ∧ time < 1640998800) ∧
    ∀ time, ¬ Accepts (s% "test@example.com") n e ⟨s% "GET", url, [(s% "Host", s% "storage.googleapis.com"),
      (s% "X-Goog-User-Project", s% "p")], time⟩ := by
  obtain ⟨url, w', hu, _⟩ := Reference.getUrl
  obtain ⟨key, n, e, hpem, hpub⟩ := Reference.key
  have client := fun (hs : List (Str × Str)) (time : Int)
      (hh : headerValues hs (s% "host") = headerValues (requestHeaders Reference.getOptions) (s% "host")) =>
    C105_client Reference.env Reference.getOptions Conformance.world w' url (s% "test@example.com") Reference.testPem key n e
      ⟨s% "GET", url, hs, time⟩ hu rfl Reference.getPlain.regular Reference.correct hpem hpub (by decide) rfl rfl
      (by intro x hx
          have : x ∈ [(s% "host", s% "storage.googleapis.com")] := hx
          rw [List.mem_singleton] at this
          rw [this]; exact hh)
  have e1 : validFrom Reference.env Reference.getOptions.accessibleAt Conformance.world / 1000000000 = 1640995200 := by decide
  have e2 : validFrom Reference.env Reference.getOptions.accessibleAt Conformance.world / 1000000000 +
    (Reference.getOptions.expires - validFrom Reference.env Reference.getOptions.accessibleAt Conformance.world) / 1000000000 =
      1640998800 := by decide
  refine ⟨url, w', n, e, hu, fun time => ?_, fun time ha => ?_⟩
  · rw [client _ _ (by decide +kernel), e2, e1]
    exact ⟨fun h => ⟨h.1, h.2.1⟩, fun h => ⟨h.1, h.2, show ∀ x ∈ [(s% "User-Agent", s% "curl/8"), (s% "accept", s% "*/*"),
      (s% "Host", s% "storage.googleapis.com"), (s% "x-request-id", s% "1")], _ by decide +kernel⟩⟩
  · rw [client _ _ (by decide +kernel)] at ha
    obtain ⟨x, hx, he⟩ := ha.2.2 _ (.tail _ (.head _)) (by decide +kernel)
    have : x ∈ [(s% "host", s% "storage.googleapis.com")] := hx
    rw [List.mem_singleton] at this
    rw [this] at he
    exact absurd he (by decide +kernel)

end CSS
