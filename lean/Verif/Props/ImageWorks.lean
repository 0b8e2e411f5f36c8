import Verif.Spec.ImageWorks
import Verif.Props.ImageUploaderServer
import Verif.Props.UrlReturns
import Verif.Props.FormReturns
/-
C108: exactly when the example server with a service account gets a form or a URL, and that it never fails if key and clock are in order.
-/
namespace CSS
open Spec ImageUploader Spec.ImageUploader

/-- C108. With a usable key and local signing the form of an image is built exactly if, between the two readings of the clock, less than a
minute passes, the second is not before 1970 and the form ends before the year 10000. -/
theorem C108_form_iff (env : Env) (cfg : Config) (email pem : Str) (hk : cfg.signingKey = .serviceAccount email pem)
    (hu : cfg.useSignBlob = false) (hkey : UsableKey env pem) (id : Str) (n : Nat) (c : Str) (w : World) :
    (∃ fs, (createForm env cfg id n c w).1 = .ok fs) ↔
      0 ≤ env.now (w.ticks + 1) ∧ env.now (w.ticks + 1) < env.now w.ticks + 60 * 1000000000 ∧
      env.now w.ticks + 60 * 1000000000 < endOf9999 := by
  obtain ⟨der, h1, h2, h3⟩ := hkey
  by_cases hl : env.now w.ticks + 60 * nsPerSec < timeLimit
  case neg =>
    constructor
    · rintro ⟨fs, h⟩
      unfold createForm at h
      rw [M.bind_run] at h
      unfold inOneMinute at h
      rw [if_neg hl] at h
      cases h
    · rintro ⟨_, _, h⟩
      refine absurd ?_ hl
      unfold endOf9999 at h
      unfold timeLimit nsPerSec
      omega
  unfold createForm
  rw [M.bind_run, inOneMinute_run env w hl]
  have hrej := formRejection_none_iff (cs := createCalls cfg id n c (env.now w.ticks + 60 * nsPerSec))
    (o := { accessibleAt := none, expiration := env.now w.ticks + 60 * nsPerSec, region := none, signingKey := cfg.signingKey,
            useSignBlob := cfg.useSignBlob }) (t := env.now (w.ticks + 1)) (by rw [hk]; rfl)
  have hb := build_signed_eq env (createCalls cfg id n c (env.now w.ticks + 60 * nsPerSec))
    { accessibleAt := none, expiration := env.now w.ticks + 60 * nsPerSec, region := none, signingKey := cfg.signingKey,
      useSignBlob := cfg.useSignBlob } { w with ticks := w.ticks + 1 } rfl
  have hset : ∀ {ε α : Type} (x : M ε α) (w : World), (∃ a, (attempt x w).1 = .ok a) ↔ ∃ a, (x w).1 = .ok a := by
    intro ε α x w
    unfold attempt
    cases (x w).1 <;> simp [settle]
  simp only
  rw [hset, hb]
  change formRejection _ _ (validFrom env none { w with ticks := w.ticks + 1 }) = none ↔ _ at hrej
  constructor
  · rintro ⟨fs, h⟩
    split at h
    · cases h
    · rename_i hr
      obtain ⟨g1, g2, g3, _⟩ := hrej.1 hr
      exact ⟨g1, g2, g3⟩
  · rintro ⟨g1, g2, g3⟩
    rw [hrej.2 ⟨g1, g2, g3, by show some _ ≠ none; simp, by show some _ ≠ none; simp⟩]
    simp only [hk, hu, SigningKey.authorizer, M.pure_run]
    rw [if_neg (by rintro ⟨m, hm, _⟩; cases hm)]
    generalize utf8 _ = message
    obtain ⟨signature, h4⟩ := h3 message
    rw [keySigns_iff.2 (.locally email pem der message signature h1 h2 h4)]
    exact ⟨_, rfl⟩

/-- C108. With a usable key and local signing the URL of an image is built exactly if the second reading of the clock is between 1970 and
9999, at most a minute after the first and less than a week before its end. -/
theorem C108_url_iff (env : Env) (cfg : Config) (email pem : Str) (hk : cfg.signingKey = .serviceAccount email pem)
    (hu : cfg.useSignBlob = false) (hkey : UsableKey env pem) (hs : (utf8 cfg.bucketName).length + (utf8 email).length ≤ 6400)
    (id : Str) (hid : IsUuid id) (w : World) :
    (∃ url, (signUrl env cfg id w).1 = .ok url) ↔
      0 ≤ env.now (w.ticks + 1) ∧ env.now (w.ticks + 1) < endOf9999 ∧ env.now (w.ticks + 1) ≤ env.now w.ticks + 60 * 1000000000 ∧
      env.now w.ticks + 60 * 1000000000 < env.now (w.ticks + 1) + 604801 * 1000000000 := by
  obtain ⟨der, h1, h2, h3⟩ := hkey
  by_cases hl : env.now w.ticks + 60 * nsPerSec < timeLimit
  case neg =>
    constructor
    · rintro ⟨fs, h⟩
      unfold signUrl at h
      rw [M.bind_run] at h
      unfold inOneMinute at h
      rw [if_neg hl] at h
      cases h
    · rintro ⟨_, h, _, h'⟩
      refine absurd ?_ hl
      unfold endOf9999 at h
      unfold timeLimit nsPerSec
      omega
  have hset : ∀ {ε α : Type} (x : M ε α) (w : World), (∃ a, (attempt x w).1 = .ok a) ↔ ∃ a, (x w).1 = .ok a := by
    intro ε α x w
    unfold attempt
    cases (x w).1 <;> simp [settle]
  unfold signUrl
  rw [M.bind_run, inOneMinute_run env w hl]
  simp only
  rw [hset, C62_service_account env _ _ email pem (env.now (w.ticks + 1)) rfl hk hu]
  constructor
  · rintro ⟨⟨g1, g2, g3, g4, _⟩, _⟩
    exact ⟨g1, g2, g3, g4⟩
  · rintro ⟨g1, g2, g3, g4⟩
    have hb := uuid_bytes hid
    have hauto : (utf8 (s% "auto")).length = 4 := by decide
    have hv : ValidUrl env (listOptions cfg id (env.now w.ticks + 60 * nsPerSec)) (env.now (w.ticks + 1)) := by
      refine ⟨g1, g2, g3, g4, ?_, ?_, ?_, .inl (Nat.zero_le _)⟩
      · show s% "GET" ∈ methods
        decide
      · have hlen := userUrl_length env (listOptions cfg id (env.now w.ticks + 60 * nsPerSec))
        have e : (utf8 (userUrl env (listOptions cfg id (env.now w.ticks + 60 * nsPerSec)))).length ≤
            100 + 3 * ((utf8 cfg.bucketName).length + (utf8 id).length) + 3 * 0 := hlen
        omega
      · intro h hh
        cases hh
    refine ⟨hv, ?_, fun h hh => (by cases hh), ?_⟩
    · intro hlong
      refine C31_small_no_panic env (listOptions cfg id (env.now w.ticks + 60 * nsPerSec)) { w with ticks := w.ticks + 1 } email pem hk hu ?_
        .urlToBeValid ?_
      · show (utf8 cfg.bucketName).length + (utf8 id).length + (utf8 email).length + (utf8 (s% "auto")).length + 0 + 0 ≤ 6500
        omega
      · refine (C31_panic_iff env _ _ _ (env.now (w.ticks + 1)) rfl).2 (.inr ⟨hv, ?_⟩)
        show match cfg.signingKey with | .hmac _ _ => _ | .serviceAccount _ _ => _ | .boundToken _ => _
        rw [hk]
        exact .inl ⟨hlong, rfl⟩
    · obtain ⟨signature, h4⟩ := h3 (utf8 (partsOf env (listOptions cfg id (env.now w.ticks + 60 * nsPerSec)) (env.now (w.ticks + 1)) email).stringToSign)
      exact ⟨_, der, signature, (urlParts_iff ⟨g1, g2⟩ (by show cfg.signingKey.xGoogAlgorithm = _; rw [hk]; rfl)).2 rfl, h1, h2, h4⟩

/-- The calls of the crate for images of the server do not fail. -/
structure ImageUploader.Crate.Works (crate : Crate) : Prop where
  form : ∀ id n c r, IsUuid id → crate.form id n c r → ∃ fs, r = .ok fs
  url : ∀ id r, IsUuid id → crate.url id r → ∃ url, r = .ok url

/-- The handler has not failed. -/
def NotFailed (t : Task) : Prop := t ≠ .replied .aborted ∧ t ≠ .replied .internalServerError

theorem step_works {crate : Crate} {cfg : Config} {uuid : Str} {images : List Image} {form : Res Failure (List (Str × Str))}
    {url : Res Failure Str} {t : Task} (hworks : crate.Works) (hg : crate.Gives uuid form url t) (hid : IsUuid uuid)
    (ht : KnowsUuids t) (ha : NotFailed t) : NotFailed (t.step cfg uuid images form url).1 := by
  unfold NotFailed at *
  cases t with
  | create n c =>
    obtain ⟨fs, rfl⟩ := hworks.form uuid n c form hid hg
    simp [Task.step]
  | push id fs => simp [Task.step]
  | list => simp [Task.step]
  | sign rest urls =>
    cases rest with
    | nil => simp [Task.step]
    | cons im rest =>
      simp only [Task.step]
      by_cases hup : im.uploaded = false
      · rw [if_pos hup]
        simp
      · rw [if_neg hup]
        obtain ⟨url, rfl⟩ := hworks.url im.id url (ht im (by simp)) (hg (by simpa using hup))
        simp
  | update id => simp [Task.step]
  | replied r => exact ha
  | dropped => simp [Task.step]

theorem works_safe {crate : Crate} (h : crate.Works) : crate.Safe where
  form id n c r hid hr := by obtain ⟨fs, rfl⟩ := h.form id n c r hid hr; simp
  url id r hid hr := by obtain ⟨url, rfl⟩ := h.url id r hid hr; simp

theorem works_not_failed {crate : Crate} {cfg : Config} (hworks : crate.Works) {tr : List Event} {s : State} (h : Run crate cfg tr s) :
    (∀ im ∈ s.images, IsUuid im.id) ∧ ∀ p ∈ s.tasks, KnowsUuids p.2 ∧ NotFailed p.2 := by
  induction h with
  | start => exact ⟨by simp, by simp⟩
  | receive r _ ih =>
    refine ⟨ih.1, ?_⟩
    intro p hp
    rcases List.mem_append.1 hp with h | h
    · exact ih.2 p h
    · rw [List.mem_singleton.1 h]
      cases r <;> exact ⟨trivial, by simp [Req.task], by simp [Req.task]⟩
  | step i r t uuid form url _ hi hid hg ih =>
    have ht := ih.2 _ (List.mem_of_getElem? hi)
    have := step_aborted (cfg := cfg) (works_safe hworks) hg hid ih.1 ht.1 ht.2.1
    refine ⟨this.2.2, ?_⟩
    intro p hp
    rcases List.mem_or_eq_of_mem_set hp with h | rfl
    · exact ih.2 p h
    · exact ⟨this.1, step_works hworks hg hid ht.1 ht.2⟩
  | drop i r t _ hi _ ih =>
    refine ⟨ih.1, ?_⟩
    intro p hp
    rcases List.mem_or_eq_of_mem_set hp with h | rfl
    · exact ih.2 p h
    · exact ⟨trivial, by simp, by simp⟩

theorem alone_works {env : Env} {cfg : Config} {email pem : Str} (hk : cfg.signingKey = .serviceAccount email pem)
    (hu : cfg.useSignBlob = false) (hkey : UsableKey env pem) (hs : (utf8 cfg.bucketName).length + (utf8 email).length ≤ 6400)
    (hclock : SteadyClock env) : (Crate.alone env cfg).Works where
  form id n c r hid := by
    rintro ⟨w, rfl⟩
    obtain ⟨h1, h2, h3, h4⟩ := hclock w.ticks
    exact (C108_form_iff env cfg email pem hk hu hkey id n c w).2 ⟨(hclock (w.ticks + 1)).1, h3, h2⟩
  url id r hid := by
    rintro ⟨w, rfl⟩
    obtain ⟨h1, h2, h3, h4⟩ := hclock w.ticks
    obtain ⟨g1, g2, _⟩ := hclock (w.ticks + 1)
    exact (C108_url_iff env cfg email pem hk hu hkey hs id hid w).2 ⟨g1, by omega, by omega, by omega⟩

/-- C108. A server with a usable key of a service account, local signing, a steady clock and names that are not absurdly long never
answers 500 and never aborts, in any history. -/
theorem C108_never_fails (env : Env) (cfg : Config) (email pem : Str) (hk : cfg.signingKey = .serviceAccount email pem)
    (hu : cfg.useSignBlob = false) (hkey : UsableKey env pem) (hs : (utf8 cfg.bucketName).length + (utf8 email).length ≤ 6400)
    (hclock : SteadyClock env) (tr : List Event) (s : State) (h : Run (.alone env cfg) cfg tr s) (i : Nat) (r : Req) :
    s.tasks[i]? ≠ some (r, .replied .internalServerError) ∧ s.tasks[i]? ≠ some (r, .replied .aborted) := by
  have inv := (works_not_failed (alone_works hk hu hkey hs hclock) h).2
  exact ⟨fun hi => (inv _ (List.mem_of_getElem? hi)).2.2 rfl, fun hi => (inv _ (List.mem_of_getElem? hi)).2.1 rfl⟩

end CSS
