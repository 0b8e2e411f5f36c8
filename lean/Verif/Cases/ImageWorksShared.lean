import Verif.Props.ImageWorksShared
import Verif.Cases.ImageWorks
/-
A concrete case for C108 among concurrent calls.
-/
namespace CSS
open Spec ImageUploader Spec.ImageUploader

namespace Reference
open Conformance

def ownForm : List Call := createCalls config uuidA 4 (s% "image/png") (atNow + 60 * nsPerSec)
def ownUrl : UrlOptions := listOptions config uuidA (atNow + 60 * nsPerSec)

/-- A form and a URL are built at the same time; the calls read the clock five and seven seconds after the server. -/
def twoCalls : List Move :=
  [.start 0 (.form ownForm), .start 1 (.url ownUrl), .clock 1 (atNow + 5 * nsPerSec), .clock 0 (atNow + 7 * nsPerSec), .finish 0, .finish 1]

def formReturned (s : Sys) : Bool := s.trace.any fun
  | .returned 0 (.form (.ok _)) => true
  | _ => false

def urlReturned (s : Sys) : Bool := s.trace.any fun
  | .returned 1 (.url _) => true
  | _ => false

def readAfter (s : Sys) : Bool := s.trace.all fun
  | .did i (.clock t) => decide (i < 2 ∧ atNow ≤ t ∧ t ≤ atNow + 7 * nsPerSec)
  | _ => true

theorem formReturned_iff {s : Sys} (h : formReturned s = true) : ∃ fs, .returned 0 (.form (.ok fs)) ∈ s.trace := by
  obtain ⟨ev, hm, he⟩ := List.any_eq_true.1 h
  split at he
  · exact ⟨_, hm⟩
  · cases he

theorem urlReturned_iff {s : Sys} (h : urlReturned s = true) : ∃ x, .returned 1 (.url x) ∈ s.trace := by
  obtain ⟨ev, hm, he⟩ := List.any_eq_true.1 h
  split at he
  · exact ⟨_, hm⟩
  · cases he

/-- Two calls of the server run at the same time; one returns a form, one is for a URL. All its calls read the clock in order. -/
theorem two_calls : ∃ sys fs, Sys.Reach oneEnv baseOf sys ∧ .started 0 (.form ownForm) ∈ sys.trace ∧ .returned 0 (.form (.ok fs)) ∈ sys.trace ∧
    (.started 1 (.url ownUrl) ∈ sys.trace ∧ ∃ x, .returned 1 (.url x) ∈ sys.trace) ∧
    ∀ i call now t, .started i call ∈ sys.trace → ServerCall config now call → (did sys.trace i).head? = some (.clock t) →
      now = atNow ∧ atNow ≤ t ∧ t ≤ atNow + 7 * nsPerSec := by
  have h : Leads oneEnv baseOf twoCalls (fun s => formReturned s && (urlReturned s && readAfter s)) = true := by decide +kernel
  unfold Leads at h
  cases hs : Sys.init.exec oneEnv baseOf twoCalls with
  | none => rw [hs] at h; cases h
  | some s =>
    rw [hs] at h
    simp only [Bool.and_eq_true] at h
    have hr := exec_reach .init hs
    obtain ⟨fs, hf⟩ := formReturned_iff h.1
    obtain ⟨_, hst⟩ := exec_started hs
    have h0 := hst 0 (.form ownForm) (by simp [twoCalls])
    have h1 := hst 1 (.url ownUrl) (by simp [twoCalls])
    refine ⟨s, fs, hr, h0, hf, ⟨h1, urlReturned_iff h.2.1⟩, ?_⟩
    intro i call now t hcall hserver hread
    have hall := List.all_eq_true.1 h.2.2 _ (mem_did (List.mem_of_head? hread))
    obtain ⟨hi, c1, c2⟩ : i < 2 ∧ atNow ≤ t ∧ t ≤ atNow + 7 * nsPerSec := of_decide_eq_true hall
    refine ⟨?_, c1, c2⟩
    have : i = 0 ∨ i = 1 := by omega
    rcases this with rfl | rfl
    · have e := started_unique hr hcall h0
      cases hserver with
      | form id n c =>
        simp only [ownForm, createCalls, ApiCall.form.injEq, List.cons.injEq, Call.policyDocumentSigningOptions.injEq] at e
        simp [nsPerSec] at e
        omega
      | url id => cases e
    · have e := started_unique hr hcall h1
      cases hserver with
      | form id n c => cases e
      | url id =>
        have : now + 60000000000 = atNow + 60 * nsPerSec := congrArg UrlOptions.expires (ApiCall.url.inj e)
        unfold nsPerSec at this
        omega

theorem steady_of {trace : List CSS.Event} (h : ∀ i call now t, .started i call ∈ trace → ServerCall config now call →
    (did trace i).head? = some (.clock t) → now = atNow ∧ atNow ≤ t ∧ t ≤ atNow + 7 * nsPerSec) : SteadyCalls config trace := by
  intro i call now t h1 h2 h3
  obtain ⟨rfl, c1, c2⟩ := h i call now t h1 h2 h3
  unfold nsPerSec at c2
  have e1 : (0 : Int) ≤ atNow := by decide
  have e2 : atNow + 60000000000 < endOf9999 := by decide
  exact ⟨by omega, by omega, e2, by omega⟩

end Reference

open Reference Conformance

/-- C108_shared_form, C108_shared_never_fails: a server whose handler has got a form from a call that was running together with another one. -/
example : ∃ sys st tr fs, Sys.Reach oneEnv baseOf sys ∧ UsableKey oneEnv testPem ∧ SteadyCalls config sys.trace ∧
    Run (.sharedAt (fun now => now + 60000000000 < 9223372036854775808 * 1000000000) sys.trace config) config tr st ∧
    st.tasks[0]? = some (.create 4 (s% "image/png"), .push uuidA fs) := by
  obtain ⟨s, fs, hr, h0, hf, _, hread⟩ := two_calls
  have gives : (Crate.sharedAt (fun now => now + 60000000000 < 9223372036854775808 * 1000000000) s.trace config).form uuidA 4
      (s% "image/png") (.ok fs) := ⟨atNow, by decide, .inr ⟨0, _, h0, hf, rfl⟩⟩
  exact ⟨s, _, _, fs, hr, oneEnv_usable testPem, steady_of hread, Run.step (tr := [])
    (s := ⟨[], [(.create 4 (s% "image/png"), .create 4 (s% "image/png"))]⟩) 0 (.create 4 (s% "image/png"))
    (.create 4 (s% "image/png")) uuidA (.ok fs) (.ok []) (.receive (.create 4 (s% "image/png")) .start) rfl (by decide +kernel) gives, rfl⟩

/-- C108_shared_url: the other call has returned a URL. -/
example : ∃ sys url, Sys.Reach oneEnv baseOf sys ∧ .started 1 (.url ownUrl) ∈ sys.trace ∧ .returned 1 (.url (.ok url)) ∈ sys.trace := by
  obtain ⟨s, fs, hr, _, _, ⟨h1, x, hx⟩, hread⟩ := two_calls
  obtain ⟨url, rfl⟩ := C108_shared_url oneEnv baseOf s hr config _ _ rfl rfl (oneEnv_usable testPem) (by decide +kernel) (steady_of hread)
    uuidA (by decide +kernel) atNow 1 x h1 hx
  exact ⟨s, url, hr, h1, hx⟩

/-- C108_shared_restarted, C108_shared_shown: the hypotheses are met by a history with infinitely many crashes. -/
example : ∃ (s : Sys) (σ : Nat → Site) (what : Nat → Option Happens), Sys.Reach oneEnv baseOf s ∧ SteadyCalls config s.trace ∧
    CrashHistory (.inSaneLives (fun _ => s) config) config (s% "test@example.com") (256 ^ 61) 1 σ what ∧ AllDistinctIds σ what ∧
    CrashFair σ what ∧ (∀ m, ∃ m', m ≤ m' ∧ what m' = none) ∧ (σ 1).uploads[0]? = some (cat, .chosen) ∧
    ∃ m urls, (σ m).uploads[0]? = some (cat, .shown urls) ∧
      ∃ id, IsUuid id ∧ (σ m).store (utf8 config.bucketName) (utf8 id) = some cat.content := by
  obtain ⟨s, fs, hr, h0, hf, _, hread⟩ := two_calls
  have hform : (Crate.shared s.trace config).form uuidA 4 (s% "image/png") (.ok fs) :=
    ⟨atNow, trivial, .inr ⟨0, .ok fs, h0, hf, rfl⟩⟩
  have hsaneform : (Crate.sharedAt (fun now => now + 60000000000 < 9223372036854775808 * 1000000000) s.trace config).form uuidA 4
      (s% "image/png") (.ok fs) := ⟨atNow, by decide, .inr ⟨0, .ok fs, h0, hf, rfl⟩⟩
  have ho : KeyOwner oneEnv baseOf s.trace config.signingKey (s% "test@example.com") (256 ^ 61) 1 :=
    ⟨rfl, oneEnv_correct, oneKey, rfl, oneKey_public⟩
  obtain ⟨now, start, hff⟩ := shared_form hr hform
  have htime : start / 1000000000 ≤ 1640995230 ∧ 1640995230 < (now + 60000000000) / 1000000000 := by
    obtain ⟨hist, hv, i, pre, post, ht, hst, rfl⟩ := hff
    rcases hv with hv | ⟨_, hv⟩
    · cases hv
    · obtain ⟨rfl, c1, c2⟩ := hread i _ now start (by rw [ht]; exact List.mem_append_left _ hst) (.form uuidA _ _)
        (by rw [ht]; exact first_reading hv)
      have e : atNow = 1640995200000000000 := by decide
      unfold nsPerSec at c2
      rw [e] at c1 c2 ⊢
      omega
  have hacc : (Sent.form ⟨config.bucketName, formEntries fs, cat.content.length, 1640995230⟩ cat.name cat.content).Accepted
      (s% "test@example.com") (256 ^ 61) 1 := by
    rw [formEntries_nodup (formFrom_names hr hff)]
    exact ⟨(C86_form_accepted oneEnv baseOf s hr config _ _ _ ho uuidA _ _ fs now start hff cat.content.length 1640995230).2
      ⟨htime.1, htime.2, rfl⟩, rfl⟩
  obtain ⟨store, hst⟩ := handles_exists (s% "test@example.com") (256 ^ 61) 1
    (.form ⟨config.bucketName, formEntries fs, cat.content.length, 1640995230⟩ cat.name cat.content) (fun _ _ => none)
  have hfind : findKey fs = some uuidA := findKey_single (keyed_shared hr config _ _ _ _ hform)
  obtain ⟨g1, g2, g3⟩ := crash_history (crate := .inSaneLives (fun _ => s) config) (cfg := config) hfind ⟨0, hsaneform⟩ hacc hst
  obtain ⟨f1, f2, f3⟩ := crash_fine (cfg := config) (fields := fs) (time := 1640995230)
  obtain ⟨m, urls, _, k1, id, i, l, before, between, after, _, k3, k4, _⟩ := C108_shared_shown (fun _ => oneEnv) (fun _ => baseOf)
    (fun _ => s) (fun _ => hr) config _ _ _ _ _ _ g1 g2 g3 (fun _ => ho) rfl rfl (fun _ => oneEnv_usable _) (by decide +kernel)
    (fun _ => steady_of hread) (by decide) 0 1 cat rfl (by decide) f1 (by
      intro m' t fields' method url' hw hu
      obtain ⟨rfl, rfl⟩ := f3 m' t hw
      simp only [crashStates, List.getElem?_cons_zero, Option.some.injEq, Prod.mk.injEq, true_and, Upload.uploading.injEq] at hu
      obtain ⟨rfl, _⟩ := hu
      exact ⟨0, uuidA, now, start, hff, htime⟩)
  exact ⟨s, _, _, hr, steady_of hread, g1, g2, g3, fun m => ⟨m + 14, by omega, rfl⟩, rfl, m, urls, k1, id, k3, k4⟩

end CSS
