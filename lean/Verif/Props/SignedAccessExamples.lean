import Verif.Props.SignedAccess
import Verif.Props.KeyOwnerExamples
/-
A case for C84: the history of `Reference.shared_token`, where what the two calls returned is used on the storage server.
-/
namespace CSS
open Spec

open Reference Conformance in
/-- The URLs in the history can be requested, and the URL that was returned is accepted, as a request that was signed for the
calls. So it is one that a call was asked for. -/
example : ∃ s url n e parts start, Sys.Reach btEnv baseOf s ∧ Requestable btEnv baseOf s.trace ∧
    PartsAsked btEnv baseOf s.trace parts ∧
    ∀ (time : Int) body, start / 1000000000 ≤ time → time < start / 1000000000 + (btGet.expires - start) / 1000000000 →
      (Sent.request (theRequest btGet url time) body).Accepted (s% "a@b.c") n e ∧
      SignedForCalls s.trace (s% "a@b.c") parts (.request (theRequest btGet url time) body) ∧
      AskedOf btEnv baseOf s.trace (.request (theRequest btGet url time) body) := by
  obtain ⟨s, fs, url, hist, hist', n, e, hr, h1, h2, ho, honly⟩ := Reference.shared_token
  have hp : PlainAccess btGet := ⟨rfl, rfl, by decide, getPlain.names⟩
  have hacct : ∀ email, IdentityIn baseOf s.trace (.boundToken btKey) email → email = s% "a@b.c" := by
    rintro email ⟨j, c, t0, life, h1, rfl⟩
    exact ho.1 j c t0 life h1
  have hq : Requestable btEnv baseOf s.trace := by
    refine C84_requestable hr fun i o hst => ?_
    rw [honly i o hst]
    refine ⟨by decide, by decide, by decide, by decide, by decide, fun email he => ?_⟩
    rw [hacct email he]; decide
  obtain ⟨parts, hparts, hacc⟩ := C84_accepted hr hq
  obtain ⟨start, _, hiff⟩ := C83_url_accepted_iff hr h2 hp.regular (account := s% "a@b.c") ho (by decide)
  refine ⟨s, url, n, e, parts, start, hr, hq, hparts, fun time body t1 t2 => ?_⟩
  have ha : (Sent.request (theRequest btGet url time) body).Accepted (s% "a@b.c") n e := (hiff time).2 ⟨t1, t2⟩
  obtain ⟨i, pre, post, ht, hst, _⟩ := h2
  have hsg := hparts.urls i btGet url (s% "a@b.c") time body (by rw [ht]; simp [hst]) (by rw [ht]; simp)
    ⟨btKey, rfl, ho.1⟩ hp.regular (by decide) ?_
  · exact ⟨ha, hsg, hacc _ _ _ _ ha hsg⟩
  · obtain ⟨env', w, w', email, _, _, hb, ⟨h1', hp1, hn1⟩, hau, _⟩ := url_replay_signed hr ht hst
    refine url_no_lf hb (by decide) (by decide) (by decide) (by decide) fun a ha => ?_
    obtain ⟨hname, _⟩ := owner_signs hr ht (i := i) (key := .boundToken btKey) (by rintro bt ⟨⟩; rfl) ho
    rw [hau a ha, hname h1' email hp1 hn1]
    decide

end CSS
