import Verif.Props.Wire
import Verif.Cases.Concurrent
/-
C93 applied to a concrete history: two calls that share a key.
-/
namespace CSS.Cases
open Spec Conformance

/-- A request of call `i` with this method and this target. -/
def isSent (i : Nat) (method : Str) (t : Target) : Event → Bool
  | .did j (.sent r) => j == i && decide (r.method = method) && decide (r.target btEnv = some t)
  | _ => false

theorem isSent_split {tr : List Event} {i : Nat} {method : Str} {t : Target} (h : tr.any (isSent i method t) = true) :
    ∃ pre r post, tr = pre ++ .did i (.sent r) :: post ∧ r.method = method ∧ r.target btEnv = some t := by
  obtain ⟨pre, e, post, ht, hf⟩ := any_split h
  unfold isSent at hf
  split at hf
  · simp only [Bool.and_eq_true, beq_iff_eq, decide_eq_true_eq] at hf
    obtain ⟨⟨rfl, hm⟩, hr⟩ := hf
    exact ⟨pre, _, post, ht, hm, hr⟩
  · cases hf

/-- C93_account, C93_literal and C93_metadata: the requests of the two calls on the wire. -/
example : ∃ s, Sys.Reach btEnv baseOf s ∧
    (∃ pre r post, s.trace = pre ++ .did 1 (.sent r) :: post ∧ r.method = s% "POST" ∧ r.target btEnv =
      some ⟨s% "iamcredentials.googleapis.com", s% "/v1/projects/-/serviceAccounts/a@b.c:signBlob", none⟩) ∧
    (∃ pre r post, s.trace = pre ++ .did 0 (.sent r) :: post ∧ r.method = s% "GET" ∧ r.target btEnv =
      some ⟨s% "metadata.google.internal", s% "/computeMetadata/v1/instance/service-accounts/default/token", none⟩) ∧
    PlainAccount (s% "a@b.c") ∧ baseOf btKey.id = s% "http://metadata.google.internal" := by
  obtain ⟨s, hs, h⟩ := leads_reach (env := btEnv) (base := baseOf) (ms := finished) (P := fun s =>
    s.trace.any (isSent 1 (s% "POST")
      ⟨s% "iamcredentials.googleapis.com", s% "/v1/projects/-/serviceAccounts/a@b.c:signBlob", none⟩) &&
    s.trace.any (isSent 0 (s% "GET")
      ⟨s% "metadata.google.internal", s% "/computeMetadata/v1/instance/service-accounts/default/token", none⟩)) (by decide +kernel)
  simp only [Bool.and_eq_true] at h
  exact ⟨s, hs, isSent_split h.1, isSent_split h.2, (C93_literal btEnv _ [] [] (by decide)).2, rfl⟩

/-- C93_form and C93_url. -/
example : ∃ fs w', (btCalls.filterMap callOptions).getLast? = some btOptions ∧ btOptions.signingKey = .boundToken btKey ∧
    (Builder.ofCalls btCalls).build btEnv world = (.ok fs, w') := by
  obtain ⟨fs, w', h⟩ := succeeds_iff (r := (Builder.ofCalls btCalls).build btEnv world) (by decide +kernel)
  exact ⟨fs, w', rfl, rfl, h⟩
example : ∃ url w', btUrlOptions.signingKey = .boundToken btKey ∧ buildSignedUrl btEnv btUrlOptions world = (.ok url, w') := by
  obtain ⟨url, w', h⟩ := btUrlOptions_ok
  exact ⟨url, w', rfl, h⟩

end CSS.Cases
