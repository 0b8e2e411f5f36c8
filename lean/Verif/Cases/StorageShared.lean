import Verif.Props.StorageShared
import Verif.Props.KeyOwnerExamples
/-
Concrete cases for C83_get, C83_put and C83_delete.
-/
namespace CSS
open Spec Reference Conformance

namespace Reference

def btPut : UrlOptions := { btGet with httpMethod := s% "PUT" }
def btDelete : UrlOptions := { btGet with httpMethod := s% "DELETE" }

theorem shared_url {o : UrlOptions}
    (h : Leads btEnv baseOf (answeredFor o btForm) (fun s => isOwned s && (returned0 s && returned1 s)) = true) :
    ∃ s url hist n e, Sys.Reach btEnv baseOf s ∧ ReturnedAfter s.trace (.url o) (.url (.ok url)) hist ∧
      KeyOwner btEnv baseOf s.trace (.boundToken btKey) (s% "a@b.c") n e := by
  unfold Leads at h
  cases hs : Sys.init.exec btEnv baseOf (answeredFor o btForm) with
  | none => rw [hs] at h; cases h
  | some s =>
    rw [hs] at h
    simp only [Bool.and_eq_true] at h
    have hr := exec_reach .init hs
    obtain ⟨n, e, ho⟩ := isOwned_owner (env := btEnv) h.1
    obtain ⟨url, hu⟩ := returned0_iff h.2.1
    obtain ⟨_, hst⟩ := exec_started hs
    obtain ⟨hist, h2⟩ := returnedAfter_of_mem hr (hst 0 (.url o) (by simp [answeredFor, askingFor])) hu
    exact ⟨s, url, hist, n, e, hr, h2, ho⟩

end Reference

/-- C83: what a PUT with a URL that a bound token signed stores. -/
example : ∃ s url hist n e start, Sys.Reach btEnv baseOf s ∧ ReturnedAfter s.trace (.url btPut) (.url (.ok url)) hist ∧
    hist.head? = some (.clock start) ∧
    ∀ (time : Int) (st st' : Store) (body : Bytes), Handles (s% "a@b.c") n e (.request (theRequest btPut url time) body) st st' →
      ∀ bucket object, st' bucket object =
        if (start / 1000000000 ≤ time ∧ time < start / 1000000000 + (btPut.expires - start) / 1000000000) ∧
          bucket = utf8 (s% "example-bucket") ∧ object = utf8 (s% "example-object")
        then some body else st bucket object := by
  obtain ⟨s, url, hist, n, e, hr, h2, ho⟩ := shared_url (o := btPut) (by decide +kernel)
  obtain ⟨start, v, h⟩ := C83_put hr h2 ⟨rfl, rfl, by decide, getPlain.names⟩ rfl ho (by decide)
  exact ⟨s, url, hist, n, e, start, hr, h2, v.resolve_left (by simp [btPut, btGet]) |>.2, h⟩

/-- C83: what a DELETE removes. -/
example : ∃ s url hist n e start, Sys.Reach btEnv baseOf s ∧ ReturnedAfter s.trace (.url btDelete) (.url (.ok url)) hist ∧
    hist.head? = some (.clock start) ∧
    ∀ (time : Int) (st st' : Store), Handles (s% "a@b.c") n e (.request (theRequest btDelete url time) []) st st' →
      ∀ bucket object, st' bucket object =
        if (start / 1000000000 ≤ time ∧ time < start / 1000000000 + (btDelete.expires - start) / 1000000000) ∧
          bucket = utf8 (s% "example-bucket") ∧ object = utf8 (s% "example-object")
        then none else st bucket object := by
  obtain ⟨s, url, hist, n, e, hr, h2, ho⟩ := shared_url (o := btDelete) (by decide +kernel)
  obtain ⟨start, v, h⟩ := C83_delete hr h2 ⟨rfl, rfl, by decide, getPlain.names⟩ rfl ho (by decide)
  exact ⟨s, url, hist, n, e, start, hr, h2, v.resolve_left (by simp [btDelete, btGet]) |>.2,
    fun time st st' => h time st st' []⟩

/-- C83: what a GET is answered with. -/
example : ∃ s url hist n e start, Sys.Reach btEnv baseOf s ∧ ReturnedAfter s.trace (.url btGet) (.url (.ok url)) hist ∧
    hist.head? = some (.clock start) ∧
    ∀ (time : Int) (st : Store) (content : Bytes), Answers (s% "a@b.c") n e st (theRequest btGet url time) content ↔
      (start / 1000000000 ≤ time ∧ time < start / 1000000000 + (btGet.expires - start) / 1000000000) ∧
      st (utf8 (s% "example-bucket")) (utf8 (s% "example-object")) = some content := by
  obtain ⟨s, fs, url, hist, hist', n, e, hr, h1, h2, ho, _⟩ := Reference.shared_token
  obtain ⟨start, v, h⟩ := C83_get hr h2 ⟨rfl, rfl, by decide, getPlain.names⟩ rfl ho (by decide)
  exact ⟨s, url, hist', n, e, start, hr, h2, v.resolve_left (by simp [btGet]) |>.2, h⟩

end CSS
