import Verif.Props.ImageWorksSite
import Verif.Props.ImageSiteRestartLiveExamples
/-
Concrete cases for C108.
-/
namespace CSS
open Spec ImageUploader Spec.ImageUploader

namespace Reference

/-- A key whose public exponent is 1: an encoded message is its own signature. -/
def oneKey : Bytes := keyOf (256 ^ 61) 1 []

/-- The environment of the tests, with this key for every PEM text, with which encoded messages are their own signatures. -/
def keyEnv (own : Bytes) : Env :=
  { env with
    pemParse := fun _ => some own
    rsaFromPkcs8 := fun key => decide (key = own)
    rsaSign := fun key m => if key = own then some (encoded' 62 m) else none }

def oneEnv : Env := keyEnv oneKey

theorem keyEnv_usable (own : Bytes) (pem : Str) : UsableKey (keyEnv own) pem :=
  ⟨own, rfl, decide_eq_true rfl, fun m => ⟨encoded' 62 m, if_pos rfl⟩⟩

theorem keyEnv_sign {own key m s : Bytes} (h : (keyEnv own).rsaSign key m = some s) : key = own ∧ s = encoded' 62 m := by
  change (if key = own then some (encoded' 62 m) else none) = some s at h
  split at h
  · cases h
    exact ⟨by assumption, rfl⟩
  · cases h

theorem oneKey_public : Rsa.PublicKeyIn oneKey (256 ^ 61) 1 := keyOf_publicKeyIn _ _ _ (by decide +kernel)

theorem oneEnv_correct : Rsa.Correct oneEnv := by
  intro key m s _ h
  obtain ⟨hk, rfl⟩ := keyEnv_sign h
  refine ⟨_, _, hk ▸ oneKey_public, ?_⟩
  have hl : (encoded' 62 m).length = 62 := by
    simp [encoded', Spec.Rsa.digestInfoPrefix, digest_length]
  have hlt : Spec.Sha256.bigEndian (encoded' 62 m) < 256 ^ 61 := by
    have e : ∃ t, encoded' 62 m = 0 :: t := ⟨_, rfl⟩
    obtain ⟨t, e⟩ := e
    have ht : t.length = 61 := by rw [e] at hl; simpa using hl
    rw [e, bigEndian_cons, ← ht]
    have := bigEndian_lt t
    simpa using this
  unfold Spec.Rsa.Verifies
  rw [hl, Nat.pow_one, Nat.mod_eq_of_lt hlt, encoded'_eq]
  rw [encoded'_eq] at hlt
  exact ⟨Nat.le_refl _, by decide +kernel, by decide, hlt, rfl⟩

theorem oneEnv_usable (pem : Str) : UsableKey oneEnv pem := keyEnv_usable oneKey pem

theorem one_form : ∃ fields, findKey fields = some uuidA ∧ (Crate.alone oneEnv config).form uuidA 4 (s% "image/png") (.ok fields) := by
  obtain ⟨fields, h⟩ := (C108_form_iff oneEnv config _ _ rfl rfl (oneEnv_usable testPem) uuidA 4 (s% "image/png") Conformance.world).2 (by
    show (0 : Int) ≤ 1640995200 * nsPerSec ∧ 1640995200 * nsPerSec < 1640995200 * nsPerSec + 60 * 1000000000 ∧
      1640995200 * nsPerSec + 60 * 1000000000 < endOf9999
    decide)
  have hf : (Crate.alone oneEnv config).form uuidA 4 (s% "image/png") (.ok fields) := ⟨_, h⟩
  exact ⟨fields, findKey_single (keyed_alone oneEnv config _ _ _ _ hf), hf⟩

theorem oneEnv_clock : SteadyClock oneEnv := by
  intro k
  show (0 : Int) ≤ 1640995200 * nsPerSec ∧ 1640995200 * nsPerSec + 60 * 1000000000 < endOf9999 ∧
    1640995200 * nsPerSec < 1640995200 * nsPerSec + 60 * 1000000000 ∧
    1640995200 * nsPerSec + 60 * 1000000000 ≤ 1640995200 * nsPerSec + 604800 * 1000000000
  decide

end Reference

open Reference

/-- C108_restarted_shown: the hypotheses are met by a history with infinitely many crashes; no answer of the server needs to be assumed. -/
example : ∃ σ what, CrashHistory (.alone oneEnv config) config (s% "test@example.com") (256 ^ 61) 1 σ what ∧ AllDistinctIds σ what ∧
    CrashFair σ what ∧ (∀ m, ∃ m', m ≤ m' ∧ what m' = none) ∧ (σ 1).uploads[0]? = some (cat, .chosen) ∧
    UsableKey oneEnv testPem ∧ SteadyClock oneEnv ∧ (utf8 config.bucketName).length + (utf8 (s% "test@example.com")).length ≤ 6400 ∧
    ∃ m urls, (σ m).uploads[0]? = some (cat, .shown urls) ∧
      ∃ id, IsUuid id ∧ (σ m).store (utf8 config.bucketName) (utf8 id) = some cat.content := by
  obtain ⟨fields, hfind, hform⟩ := one_form
  have clock : ∀ k, oneEnv.now k = 1640995200000000000 := fun k => by
    show 1640995200 * nsPerSec = 1640995200000000000; decide
  obtain ⟨now, start, hf⟩ := alone_form hform
  have htime : start / 1000000000 ≤ 1640995230 ∧ 1640995230 < (now + 60000000000) / 1000000000 := by
    obtain ⟨w, w', hn, hs, _⟩ := hf
    rw [clock] at hn hs
    rw [hn, hs]; decide
  have hacc : (Sent.form ⟨config.bucketName, formEntries fields, cat.content.length, 1640995230⟩ cat.name cat.content).Accepted
      (s% "test@example.com") (256 ^ 61) 1 := by
    rw [formEntries_nodup (formFor_names hf)]
    exact ⟨(C70_form_accepted oneEnv config uuidA _ _ fields now start _ _ oneKey _ _ hf rfl oneEnv_correct rfl oneKey_public
      cat.content.length 1640995230).2 ⟨htime.1, htime.2, rfl⟩, rfl⟩
  obtain ⟨store, hst⟩ := handles_exists (s% "test@example.com") (256 ^ 61) 1
    (.form ⟨config.bucketName, formEntries fields, cat.content.length, 1640995230⟩ cat.name cat.content) (fun _ _ => none)
  obtain ⟨h1, h2, h3⟩ := crash_history (cfg := config) hfind hform hacc hst
  obtain ⟨f1, _, f3⟩ := crash_fine (cfg := config) (fields := fields) (time := 1640995230)
  obtain ⟨m, urls, _, g1, id, i, l, before, between, after, _, g3, g4, _⟩ := C108_restarted_shown oneEnv config _ _ oneKey _ _ _ _ h1 h2 h3 rfl
    rfl (oneEnv_usable _) (by decide +kernel) oneEnv_clock oneEnv_correct rfl oneKey_public (by decide) 0 1 cat rfl (by decide) f1 (by
      intro m' t fields' method url' hw hu
      obtain ⟨rfl, rfl⟩ := f3 m' t hw
      simp only [crashStates, List.getElem?_cons_zero, Option.some.injEq, Prod.mk.injEq, true_and, Upload.uploading.injEq] at hu
      obtain ⟨rfl, _⟩ := hu
      exact ⟨uuidA, now, start, hf, htime⟩)
  exact ⟨_, _, h1, h2, h3, fun m => ⟨m + 14, by omega, rfl⟩, rfl, oneEnv_usable _, oneEnv_clock, by decide +kernel, m, urls, g1, id, g3, g4⟩

/-- C108_never_fails, C108_shown: the hypotheses are met by a history without crashes. -/
example : ∃ σ what, SiteHistory (.alone oneEnv config) config (s% "test@example.com") (256 ^ 61) 1 σ what ∧ DistinctIds σ ∧
    SiteFair (.alone oneEnv config) config σ what ∧ (σ 1).uploads[0]? = some (cat, .chosen) ∧
    ∃ m urls, (σ m).uploads[0]? = some (cat, .shown urls) ∧ urls ≠ [] ∧
      ∃ id, (σ m).store (utf8 config.bucketName) (utf8 id) = some cat.content := by
  obtain ⟨fields, hfind, hform⟩ := one_form
  have hs : (utf8 config.bucketName).length + (utf8 (s% "test@example.com")).length ≤ 6400 := by decide +kernel
  have hworks := alone_works (cfg := config) rfl rfl (oneEnv_usable testPem) hs oneEnv_clock
  obtain ⟨url, hurl'⟩ := hworks.url uuidA _ (by decide +kernel) ⟨Conformance.world, rfl⟩
  have hurl : (Crate.alone oneEnv config).url uuidA (.ok url) := ⟨_, hurl'⟩
  have clock : ∀ k, oneEnv.now k = 1640995200000000000 := fun k => by
    show 1640995200 * nsPerSec = 1640995200000000000; decide
  obtain ⟨now, start, hf⟩ := alone_form hform
  have htime : start / 1000000000 ≤ 1640995230 ∧ 1640995230 < (now + 60000000000) / 1000000000 := by
    obtain ⟨w, w', hn, hs, _⟩ := hf
    rw [clock] at hn hs
    rw [hn, hs]; decide
  have hacc : (Sent.form ⟨config.bucketName, formEntries fields, cat.content.length, 1640995230⟩ cat.name cat.content).Accepted
      (s% "test@example.com") (256 ^ 61) 1 := by
    rw [formEntries_nodup (formFor_names hf)]
    exact ⟨(C70_form_accepted oneEnv config uuidA _ _ fields now start _ _ oneKey _ _ hf rfl oneEnv_correct rfl oneKey_public
      cat.content.length 1640995230).2 ⟨htime.1, htime.2, rfl⟩, rfl⟩
  obtain ⟨store, hst⟩ := handles_exists (s% "test@example.com") (256 ^ 61) 1
    (.form ⟨config.bucketName, formEntries fields, cat.content.length, 1640995230⟩ cat.name cat.content) (fun _ _ => none)
  obtain ⟨h1, h2, h3⟩ := cat_history (cfg := config) hfind hform hurl hacc hst
  obtain ⟨f1, _, f3⟩ := cat_fine (cfg := config) (fields := fields) (url := url) (time := 1640995230)
  obtain ⟨m, urls, _, g1, url', g2, id, _, _, _, _, g3⟩ := C108_shown oneEnv config _ _ oneKey _ _ _ _ h1 h2 h3 rfl rfl (oneEnv_usable _) hs
    oneEnv_clock oneEnv_correct rfl oneKey_public 0 1 cat rfl (by decide) f1 (by
      intro m' t fields' method url' hw hu
      obtain ⟨rfl, rfl⟩ := f3 m' t hw
      simp only [catStates, List.getElem?_cons_zero, Option.some.injEq, Prod.mk.injEq, true_and, Upload.uploading.injEq] at hu
      obtain ⟨rfl, _⟩ := hu
      exact ⟨uuidA, now, start, hf, htime⟩)
  exact ⟨_, _, h1, h2, h3, rfl, m, urls, g1, List.ne_nil_of_mem g2, id, g3⟩

/-- C108_form_iff, C108_url_iff: a clock that goes on by a minute between the two readings costs the form, but not yet the URL; one that
goes back by more than a week costs the URL, but not the form. -/
example : ∃ minute week : Env, UsableKey minute testPem ∧ UsableKey week testPem ∧
    (¬ ∃ fs, (createForm minute config uuidA 4 (s% "image/png") Conformance.world).1 = .ok fs) ∧
    (∃ url, (signUrl minute config uuidA Conformance.world).1 = .ok url) ∧
    (∃ fs, (createForm week config uuidA 4 (s% "image/png") Conformance.world).1 = .ok fs) ∧
    ¬ ∃ url, (signUrl week config uuidA Conformance.world).1 = .ok url := by
  let minute : Env := { oneEnv with now := fun k => if k = 0 then 1640995200000000000 else 1640995260000000000 }
  let week : Env := { oneEnv with now := fun k => if k = 0 then 1640995200000000000 else 1640390459000000000 }
  have h1 : UsableKey minute testPem := oneEnv_usable testPem
  have h2 : UsableKey week testPem := oneEnv_usable testPem
  have hu : IsUuid uuidA := by decide +kernel
  have hs : (utf8 config.bucketName).length + (utf8 (s% "test@example.com")).length ≤ 6400 := by decide +kernel
  refine ⟨minute, week, h1, h2, ?_, ?_, ?_, ?_⟩
  · rw [C108_form_iff minute config _ _ rfl rfl h1]
    show ¬ ((0 : Int) ≤ 1640995260000000000 ∧ (1640995260000000000 : Int) < 1640995200000000000 + 60 * 1000000000 ∧ _)
    omega
  · rw [C108_url_iff minute config _ _ rfl rfl h1 hs uuidA hu]
    show (0 : Int) ≤ 1640995260000000000 ∧ (1640995260000000000 : Int) < endOf9999 ∧
      (1640995260000000000 : Int) ≤ 1640995200000000000 + 60 * 1000000000 ∧
      (1640995200000000000 : Int) + 60 * 1000000000 < 1640995260000000000 + 604801 * 1000000000
    decide
  · rw [C108_form_iff week config _ _ rfl rfl h2]
    show (0 : Int) ≤ 1640390459000000000 ∧ (1640390459000000000 : Int) < 1640995200000000000 + 60 * 1000000000 ∧
      (1640995200000000000 : Int) + 60 * 1000000000 < endOf9999
    decide
  · rw [C108_url_iff week config _ _ rfl rfl h2 hs uuidA hu]
    show ¬ ((0 : Int) ≤ 1640390459000000000 ∧ _ ∧ _ ∧
      (1640995200000000000 : Int) + 60 * 1000000000 < 1640390459000000000 + 604801 * 1000000000)
    omega

end CSS
