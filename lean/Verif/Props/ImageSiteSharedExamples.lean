import Verif.Props.ImageSiteShared
import Verif.Props.ImageSiteExamples
import Verif.Props.KeyOwnerExamples
/-
A case for C86: the site with a bound token. Two handlers call the crate at the same time and share a token, while the signing
service signs with the 2048-bit key of the crate's own tests.
-/
set_option linter.unusedSimpArgs false
namespace CSS
open Spec ImageUploader Spec.ImageUploader

namespace Reference
open Conformance

/-- The configuration of the example with `USE_SIGN_BLOB=true`. -/
def btConfig : Config := { config with signingKey := .boundToken btKey, useSignBlob := true }

def catOptions : UrlOptions := listOptions btConfig uuidA (atNow + 60 * nsPerSec)
def catCalls : List Call := createCalls btConfig uuidA 4 (s% "image/png") (atNow + 60 * nsPerSec)

/-- The form that call 1 has returned has the key of the image, and no immense values. -/
def keyed1 (s : Sys) : Bool := s.trace.any fun
  | .returned 1 (.form (.ok fs)) => decide (findKey fs = some uuidA ∧ (fs.map fun f => f.2.length + 1).sum < 2 ^ 69)
  | _ => false

theorem keyed1_iff {s : Sys} (h : keyed1 s = true) : ∃ fs, .returned 1 (.form (.ok fs)) ∈ s.trace ∧ findKey fs = some uuidA ∧
    (fs.map fun f => f.2.length + 1).sum < 2 ^ 69 := by
  obtain ⟨ev, hm, he⟩ := List.any_eq_true.1 h
  split at he
  · exact ⟨_, hm, of_decide_eq_true he⟩
  · cases he

/-- Every call reads the same time. -/
def oneTime (s : Sys) : Bool := s.trace.all fun
  | .did _ (.clock t) => decide (t = atNow)
  | _ => true

theorem oneTime_valid {s : Sys} (h : oneTime s = true) {call : ApiCall} {r : ApiResult} {hist : List Ev} {t : Time}
    (hr : ReturnedAfter s.trace call r hist) (hv : ValidFrom none hist t) : t = atNow := by
  obtain ⟨i, pre, post, ht, _, rfl⟩ := hr
  rcases hv with hv | ⟨_, hv⟩
  · cases hv
  · have hm : Ev.clock t ∈ did pre i := List.mem_of_mem_head? hv
    unfold did at hm
    obtain ⟨ev, h1, h2⟩ := List.mem_filterMap.1 hm
    have hall := (List.all_eq_true.1 h) ev (by rw [ht]; simp [h1])
    cases ev with
    | did j e =>
      simp only [Option.ite_none_right_eq_some, Option.some.injEq] at h2
      obtain ⟨_, rfl⟩ := h2
      simpa using hall
    | _ => cases h2

end Reference

open Reference Conformance in
/-- Two calls share a bound token: one returns the URL of an image, one a form for it. -/
theorem Reference.shared_calls_small : ∃ s n e fs url, Sys.Reach btEnv baseOf s ∧ KeyOwner btEnv baseOf s.trace btConfig.signingKey (s% "a@b.c") n e ∧
    oneTime s = true ∧ .started 0 (.url catOptions) ∈ s.trace ∧ .returned 0 (.url (.ok url)) ∈ s.trace ∧
    .started 1 (.form catCalls) ∈ s.trace ∧ .returned 1 (.form (.ok fs)) ∈ s.trace ∧ findKey fs = some uuidA ∧
    (∀ i o, .started i (.url o) ∈ s.trace → o = catOptions) ∧ (∀ i cs, .started i (.form cs) ∈ s.trace → cs = catCalls) ∧
    (fs.map fun f => f.2.length + 1).sum < 2 ^ 69 := by
  have h : Leads btEnv baseOf (answeredFor catOptions catCalls)
    (fun s => isOwned s && (returned0 s && (keyed1 s && oneTime s))) = true := by decide +kernel
  unfold Leads at h
  cases hs : Sys.init.exec btEnv baseOf (answeredFor catOptions catCalls) with
  | none => rw [hs] at h; cases h
  | some s =>
    rw [hs] at h
    simp only [Bool.and_eq_true] at h
    have hr := exec_reach .init hs
    obtain ⟨n, e, ho⟩ := isOwned_owner (env := btEnv) h.1
    obtain ⟨url, hu⟩ := returned0_iff h.2.1
    obtain ⟨fs, hf, hfind, hsmall⟩ := keyed1_iff h.2.2.1
    obtain ⟨_, hst⟩ := exec_started hs
    have h1 := hst 1 (.form catCalls) (by simp [answeredFor, askingFor])
    have h0 := hst 0 (.url catOptions) (by simp [answeredFor, askingFor])
    refine ⟨s, n, e, fs, url, hr, ho, h.2.2.2, h0, hu, h1, hf, hfind, fun i o hm => ?_, fun i o hm => ?_, hsmall⟩ <;>
    · rcases exec_started_only hs hm with hm | hm
      · simp [Sys.init] at hm
      · simp [answeredFor, askingFor] at hm
        exact hm.2

open Reference Conformance in
theorem Reference.shared_calls : ∃ s n e fs url, Sys.Reach btEnv baseOf s ∧ KeyOwner btEnv baseOf s.trace btConfig.signingKey (s% "a@b.c") n e ∧
    oneTime s = true ∧ .started 0 (.url catOptions) ∈ s.trace ∧ .returned 0 (.url (.ok url)) ∈ s.trace ∧
    .started 1 (.form catCalls) ∈ s.trace ∧ .returned 1 (.form (.ok fs)) ∈ s.trace ∧ findKey fs = some uuidA ∧
    (∀ i o, .started i (.url o) ∈ s.trace → o = catOptions) ∧ ∀ i cs, .started i (.form cs) ∈ s.trace → cs = catCalls := by
  obtain ⟨s, n, e, fs, url, h1, h2, h3, h4, h5, h6, h7, h8, h9, h10, _⟩ := shared_calls_small
  exact ⟨s, n, e, fs, url, h1, h2, h3, h4, h5, h6, h7, h8, h9, h10⟩

open Reference Conformance in
/-- The form was signed at this time for the next minute. -/
theorem Reference.shared_time {s : Sys} (hone : oneTime s = true)
    (hcs : ∀ i cs, .started i (.form cs) ∈ s.trace → cs = catCalls) {id : Str} {fs : List (Str × Str)} {n : Nat} {c : Str}
    {now start : Time} (hf : FormFrom s.trace btConfig id n c fs now start) : start = atNow ∧ now = atNow := by
  obtain ⟨hist, hv, hret⟩ := hf
  refine ⟨oneTime_valid hone hret hv, ?_⟩
  obtain ⟨i, pre, post, ht, hi, _⟩ := hret
  have := hcs i _ (by rw [ht]; exact List.mem_append_left _ hi)
  simp [catCalls, createCalls] at this
  have := this.2.2.2
  simp only [nsPerSec] at this
  omega

open Reference Conformance in
/-- C86: the hypotheses are met. -/
theorem Reference.shared_site : ∃ s n e site url, Sys.Reach Conformance.btEnv Conformance.baseOf s ∧
    KeyOwner Conformance.btEnv Conformance.baseOf s.trace Reference.btConfig.signingKey (s% "a@b.c") n e ∧
    Reference.oneTime s = true ∧
    Site.Run (.shared s.trace Reference.btConfig) Reference.btConfig (s% "a@b.c") n e
      [.created 0 uuidA, .updated 1 uuidA, .listed 2] site ∧
    site.uploads[0]? = some (cat, .shown [url]) ∧ site.server.tasks[2]? = some (.list, .replied (.urls [url])) ∧
    ∀ i o, .started i (.url o) ∈ s.trace → o = Reference.catOptions := by
  obtain ⟨s, n, e, fs, url, hr, ho, hone, h0, hu, h1, hf, hfind, honly, hcs⟩ := shared_calls
  obtain ⟨site, r1, r2, r3, _⟩ := cat_site (crate := .shared s.trace btConfig) (cfg := btConfig) (account := s% "a@b.c") (n := n) (e := e)
    (fields := fs) (url := url) hfind ⟨atNow, trivial, .inr ⟨1, .ok fs, h1, hf, rfl⟩⟩ ⟨atNow, trivial, .inr ⟨0, .ok url, h0, hu, rfl⟩⟩ (by
      intro site hrun url' hup
      obtain ⟨_, bucket, id, now, start, hb, hk, hff, hacc⟩ := C86_upload_accepted btEnv baseOf s hr btConfig (s% "a@b.c") n e _ site
        hrun (by decide) ho 0 cat fs _ _ hup
      obtain ⟨hstart, hnow⟩ := shared_time hone hcs hff
      refine ⟨bucket, atNow / 1000000000, hb, (hacc _).2 ?_⟩
      rw [hstart, hnow]
      decide)
  exact ⟨s, n, e, site, url, hr, ho, hone, r1, r2, r3, honly⟩

open Reference Conformance in
/-- C86 for this case: the page shows one image, and during the next 60 seconds the storage server answers its URL with the file. -/
example : ∃ s n e site url, Sys.Reach btEnv baseOf s ∧
    Site.Run (.shared s.trace btConfig) btConfig (s% "a@b.c") n e [.created 0 uuidA, .updated 1 uuidA, .listed 2] site ∧
    site.uploads[0]? = some (cat, .shown [url]) ∧ ∀ time : Int, atNow / 1000000000 ≤ time → time < atNow / 1000000000 + 60 →
      Answers (s% "a@b.c") n e site.store ⟨s% "GET", url, [(s% "host", s% "storage.googleapis.com")], time⟩ cat.content := by
  obtain ⟨s, n, e, site, url, hr, ho, hone, hrun, hup, ht, honly⟩ := Reference.shared_site
  refine ⟨s, n, e, site, url, hr, hrun, hup, fun time t1 t2 => ?_⟩
  obtain ⟨url', hm, id, now, start, hid, hu, hst⟩ := C86_own_image btEnv baseOf s hr btConfig (s% "a@b.c") n e _ site hrun (by decide)
    0 cat _ hup
  rw [List.mem_singleton] at hm
  subst hm
  have hu' := hu
  obtain ⟨hist, hv, hret⟩ := hu
  have hstart := oneTime_valid hone hret hv
  obtain ⟨i, pre, post, htr, hi, _⟩ := hret
  have ho' := honly i _ (by rw [htr]; exact List.mem_append_left _ hi)
  have hnow : now = atNow := by
    have := congrArg UrlOptions.expires ho'
    simp only [catOptions, listOptions, nsPerSec] at this
    omega
  have hacc := (C86_url_accepted btEnv baseOf s hr btConfig (s% "a@b.c") n e ho (by decide) (by decide) id url' hid now start hu' time).2
    (by rw [hstart, hnow]; exact ⟨t1, t2⟩)
  obtain ⟨env', w, w', _, _, hbuild⟩ := C54_url_replay hr htr hi
  have hp : PlainAccess (listOptions btConfig id (now + 60000000000)) :=
    ⟨rfl, rfl, by show '%' ∉ s% "auto"; decide, uuid_addressable (bucket := btConfig.bucketName) (by decide) hid⟩
  exact (answers_iff hacc rfl (plain_simple hbuild hp time) ((C76_object_iff env' _ w w' url' hbuild).2 hp.names).2).2 hst

end CSS
