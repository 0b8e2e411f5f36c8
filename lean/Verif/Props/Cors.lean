import Verif.Model.Cors
import Verif.Props.ImageSiteShared
import Verif.Props.ImageSiteRestartShared
/-
C102. The cross-origin upload of the example's page and the CORS configuration that comes with it.
-/
namespace CSS
open Spec Spec.ImageUploader ImageUploader

/-- C102. The shipped configuration, as it is read from its file. -/
theorem C102_file : readCors corsFile = some [⟨[s% "*"], [s% "POST"], [s% "Content-Type"], 3600⟩] := by
  decide +kernel

private theorem safe_boundary {c : Char} (h : c.isAlphanum = true ∨ c = '-') : ¬ UnsafeHeaderChar c := by
  have hc : (48 ≤ c.toNat ∧ c.toNat ≤ 57) ∨ (65 ≤ c.toNat ∧ c.toNat ≤ 90) ∨ (97 ≤ c.toNat ∧ c.toNat ≤ 122) ∨ c.toNat = 45 := by
    rcases h with h | rfl
    · simp only [Char.isAlphanum, Char.isAlpha, Char.isUpper, Char.isLower, Char.isDigit, Bool.or_eq_true, Bool.and_eq_true,
        decide_eq_true_eq, ge_iff_le, UInt32.le_iff_toNat_le] at h
      simp only [Char.toNat]
      rcases h with (⟨a, b⟩ | ⟨a, b⟩) | ⟨a, b⟩
      · exact .inr (.inl ⟨a, b⟩)
      · exact .inr (.inr (.inl ⟨a, b⟩))
      · exact .inl ⟨a, b⟩
    · exact .inr (.inr (.inr rfl))
  rintro (⟨h, _⟩ | h | h)
  · omega
  · have hk : ∀ x ∈ s% "\"():<>?@[\\]{}", ¬ ((48 ≤ x.toNat ∧ x.toNat ≤ 57) ∨ (65 ≤ x.toNat ∧ x.toNat ≤ 90) ∨
        (97 ≤ x.toNat ∧ x.toNat ≤ 122) ∨ x.toNat = 45) := by decide +kernel
    exact hk c h hc
  · omega

private theorem safe_prefix : ∀ c ∈ s% "multipart/form-data; boundary=", ¬ UnsafeHeaderChar c := by
  intro c hc
  have hk : ∀ x ∈ s% "multipart/form-data; boundary=", 32 ≤ x.toNat ∧ x ∉ s% "\"():<>?@[\\]{}" ∧ x.toNat ≠ 127 := by decide +kernel
  obtain ⟨h1, h2, h3⟩ := hk c hc
  rintro (⟨h, _⟩ | h | h)
  · omega
  · exact h2 h
  · exact h3 h

/-- C102. The upload needs no preflight: the browser sends it at once, whatever the configuration of the bucket. -/
theorem C102_no_preflight (origin boundary : Str) (hb : ∀ c ∈ boundary, c.isAlphanum = true ∨ c = '-') (hl : boundary.length ≤ 70) :
    ¬ NeedsPreflight (uploadFetch origin (s% "POST") boundary) := by
  rintro (h | ⟨h, hh, hs⟩)
  · exact h (by decide : s% "POST" ∈ [s% "GET", s% "HEAD", s% "POST"])
  · rcases List.mem_singleton.1 hh with rfl
    refine hs ⟨?_, .inr (.inr ⟨rfl, fun c hc => ?_, s% "multipart/form-data", ⟨by decide +kernel, s% "; boundary=" ++ boundary, rfl, [],
      by simp, .inr ⟨s% " boundary=" ++ boundary, rfl⟩⟩, by decide +kernel⟩)⟩
    · show (s% "multipart/form-data; boundary=" ++ boundary).length ≤ 128
      rw [List.length_append, show (s% "multipart/form-data; boundary=").length = 30 from by decide +kernel]
      omega
    · rcases List.mem_append.1 hc with hc | hc
      · exact safe_prefix c hc
      · exact safe_boundary (hb c hc)

private theorem allowOrigin_exists (cors : List CorsEntry) (origin method : Str) (h : ∃ e ∈ cors, e.For origin method) :
    ∃ allowed, AllowOrigin cors origin method allowed ∧ CorsCheck origin allowed := by
  induction cors with
  | nil => obtain ⟨e, he, _⟩ := h; cases he
  | cons x r ih =>
    by_cases hx : x.For origin method
    · by_cases hs : s% "*" ∈ x.origins
      · exact ⟨some (s% "*"), .inr ⟨[], x, r, rfl, by simp, hx, .inl ⟨hs, rfl⟩⟩, .inl rfl⟩
      · exact ⟨some origin, .inr ⟨[], x, r, rfl, by simp, hx, .inr ⟨hs, rfl⟩⟩, .inr rfl⟩
    · obtain ⟨e, he, hf⟩ := h
      rcases List.mem_cons.1 he with rfl | he
      · exact absurd hf hx
      · obtain ⟨allowed, ha | ⟨b, y, a, hr, hb, hy, ho⟩, hc⟩ := ih ⟨e, he, hf⟩
        · exact absurd hf (ha.2 e he)
        · refine ⟨allowed, .inr ⟨x :: b, y, a, by rw [hr]; rfl, fun z hz => ?_, hy, ho⟩, hc⟩
          rcases List.mem_cons.1 hz with rfl | hz
          · exact hx
          · exact hb z hz

private theorem allowOrigin_iff (cors : List CorsEntry) (origin method : Str) :
    (∃ allowed, AllowOrigin cors origin method allowed ∧ CorsCheck origin allowed) ↔ ∃ e ∈ cors, e.For origin method := by
  refine ⟨?_, allowOrigin_exists cors origin method⟩
  rintro ⟨allowed, ⟨rfl, _⟩ | ⟨b, e, a, hr, _, he, _⟩, hc⟩
  · rcases hc with hc | hc <;> cases hc
  · exact ⟨e, by rw [hr]; simp, he⟩

/-- C102. The page gets the answer to its upload exactly if the bucket has an entry for its origin and for `POST`. -/
theorem C102_read_iff (cors : List CorsEntry) (origin boundary : Str) (hb : ∀ c ∈ boundary, c.isAlphanum = true ∨ c = '-')
    (hl : boundary.length ≤ 70) :
    IsSent cors (uploadFetch origin (s% "POST") boundary) ∧
    (IsRead cors (uploadFetch origin (s% "POST") boundary) ↔
      ∃ e ∈ cors, (s% "*" ∈ e.origins ∨ origin ∈ e.origins) ∧ s% "POST" ∈ e.methods) :=
  have hsent : IsSent cors (uploadFetch origin (s% "POST") boundary) := fun h => absurd h (C102_no_preflight origin boundary hb hl)
  ⟨hsent, fun h => (allowOrigin_iff cors origin _).1 h.2, fun h => ⟨hsent, (allowOrigin_iff cors origin _).2 h⟩⟩

/-- C102. What the shipped configuration lets pages of every origin do, and nothing more: they get the answers to their `POST`
requests that set no header other than `Content-Type` and the ones that need no permission. -/
theorem C102_shipped_iff (cors : List CorsEntry) (hc : readCors corsFile = some cors) (r : CrossRequest) :
    IsRead cors r ↔ r.method = s% "POST" ∧ ∀ h ∈ r.headers, SafeHeader h ∨ SameHeader h.1 (s% "Content-Type") := by
  rw [C102_file, Option.some.injEq] at hc
  subst hc
  have hfor : ∀ e : CorsEntry, e ∈ [(⟨[s% "*"], [s% "POST"], [s% "Content-Type"], 3600⟩ : CorsEntry)] →
      (e.For r.origin r.method ↔ r.method = s% "POST") := by
    intro e he
    rcases List.mem_singleton.1 he with rfl
    simp [CorsEntry.For]
  constructor
  · rintro ⟨hs, ha⟩
    obtain ⟨e, he, hf⟩ := (allowOrigin_iff _ _ _).1 ha
    refine ⟨(hfor e he).1 hf, fun h hh => ?_⟩
    by_cases hsafe : SafeHeader h
    · exact .inl hsafe
    · obtain ⟨e', he', _, hall⟩ := hs (.inr ⟨h, hh, hsafe⟩)
      rcases List.mem_singleton.1 he' with rfl
      rcases hall h hh with h1 | ⟨name, hn, h1⟩
      · exact absurd h1 hsafe
      · rcases List.mem_singleton.1 hn with rfl
        exact .inr h1
  · rintro ⟨hm, hh⟩
    refine ⟨fun _ => ⟨_, List.mem_singleton.2 rfl, (hfor _ (List.mem_singleton.2 rfl)).2 hm, fun h hx => ?_⟩,
      (allowOrigin_iff _ _ _).2 ⟨_, List.mem_singleton.2 rfl, (hfor _ (List.mem_singleton.2 rfl)).2 hm⟩⟩
    rcases hh h hx with h1 | h1
    · exact .inl h1
    · exact .inr ⟨_, List.mem_singleton.2 rfl, h1⟩

/-- C102. With the shipped configuration a request of a page that is neither `GET`, `HEAD` nor `POST` is not even sent. -/
theorem C102_not_sent (cors : List CorsEntry) (hc : readCors corsFile = some cors) (r : CrossRequest)
    (hm : r.method ∉ [s% "GET", s% "HEAD", s% "POST"]) : ¬ IsSent cors r := by
  rw [C102_file, Option.some.injEq] at hc
  subst hc
  intro h
  obtain ⟨e, he, ⟨_, hf⟩, _⟩ := h (.inl hm)
  rcases List.mem_singleton.1 he with rfl
  rw [List.mem_singleton.1 hf] at hm
  exact hm (by decide)

private theorem after_upload {fields : List (Str × Str)} {id origin boundary : Str} (hid : findKey fields = some id)
    (hb : ∀ c ∈ boundary, c.isAlphanum = true ∨ c = '-') (hl : boundary.length ≤ 70) (cors : List CorsEntry) (answer : Nat × Str)
    (got : Option (Nat × Str)) (hs : Sees cors (uploadFetch origin (s% "POST") boundary) answer got) :
    ((∃ e ∈ cors, (s% "*" ∈ e.origins ∨ origin ∈ e.origins) ∧ s% "POST" ∈ e.methods) → answer = (204, []) →
        Upload.afterUpload fields got = .uploaded id) ∧
      ((∃ e ∈ cors, (s% "*" ∈ e.origins ∨ origin ∈ e.origins) ∧ s% "POST" ∈ e.methods) ∧ answer = (204, []) ∨
        Upload.afterUpload fields got = .failed) := by
  have hiff := (C102_read_iff cors origin boundary hb hl).2
  rcases hs with ⟨hr, rfl⟩ | ⟨hr, rfl⟩
  · refine ⟨fun _ ha => ?_, ?_⟩
    · subst ha
      simp [Upload.afterUpload, hid]
    · by_cases ha : answer = (204, [])
      · exact .inl ⟨hiff.1 hr, ha⟩
      · refine .inr ?_
        obtain ⟨st, body⟩ := answer
        show (if st ≠ 204 then Upload.failed else if body ≠ [] then .failed else _) = _
        by_cases h1 : st = 204
        · by_cases h2 : body = []
          · exact absurd (by rw [h1, h2]) ha
          · rw [if_neg (by simpa using h1), if_pos h2]
        · rw [if_pos h1]
  · exact ⟨fun h _ => absurd (hiff.2 h) hr, .inr rfl⟩

private theorem page_upload {cfg : Config} {fields : List (Str × Str)} {method url id : Str} (hm : method = s% "POST")
    (hb : bucketOf url = some cfg.bucketName) (hid : findKey fields = some id) :
    bucketOf url = some cfg.bucketName ∧ ∃ id, findKey fields = some id ∧
      ∀ (origin boundary : Str), (∀ c ∈ boundary, c.isAlphanum = true ∨ c = '-') → boundary.length ≤ 70 →
      ∀ (cors : List CorsEntry) (answer : Nat × Str) (got : Option (Nat × Str)), Sees cors (uploadFetch origin method boundary) answer got →
        IsSent cors (uploadFetch origin method boundary) ∧
        ((∃ e ∈ cors, (s% "*" ∈ e.origins ∨ origin ∈ e.origins) ∧ s% "POST" ∈ e.methods) → answer = (204, []) →
          Upload.afterUpload fields got = .uploaded id) ∧
        ((∃ e ∈ cors, (s% "*" ∈ e.origins ∨ origin ∈ e.origins) ∧ s% "POST" ∈ e.methods) ∧ answer = (204, []) ∨
          Upload.afterUpload fields got = .failed) := by
  subst hm
  exact ⟨hb, id, hid, fun origin boundary h1 h2 cors answer got hs =>
    ⟨(C102_read_iff cors origin boundary h1 h2).1, after_upload hid h1 h2 cors answer got hs⟩⟩

/-- C102. In every history of the site, however often the server crashes: a page that has got its form sends it with the file to the bucket
of the server without asking, whatever the configuration of the bucket. The page goes on to report the upload exactly if the bucket has an
entry for its origin and `POST` and the storage server has answered 204 with an empty body; otherwise the upload has failed, even if the
file is stored. -/
theorem C102_page (env : Env) (cfg : Config) (account : Str) (N E : Nat) (tr : List Episode) (s : Site)
    (h : Site.Lives (.alone env cfg) cfg account N E tr s) (hn : (registeredIds tr).Nodup) (k : Nat) (file : ChosenFile)
    (fields : List (Str × Str)) (method url : Str) (hu : s.uploads[k]? = some (file, .uploading fields method url)) :
    bucketOf url = some cfg.bucketName ∧ ∃ id, findKey fields = some id ∧
      ∀ (origin boundary : Str), (∀ c ∈ boundary, c.isAlphanum = true ∨ c = '-') → boundary.length ≤ 70 →
      ∀ (cors : List CorsEntry) (answer : Nat × Str) (got : Option (Nat × Str)), Sees cors (uploadFetch origin method boundary) answer got →
        IsSent cors (uploadFetch origin method boundary) ∧
        ((∃ e ∈ cors, (s% "*" ∈ e.origins ∨ origin ∈ e.origins) ∧ s% "POST" ∈ e.methods) → answer = (204, []) →
          Upload.afterUpload fields got = .uploaded id) ∧
        ((∃ e ∈ cors, (s% "*" ∈ e.origins ∨ origin ∈ e.origins) ∧ s% "POST" ∈ e.methods) ∧ answer = (204, []) ∨
          Upload.afterUpload fields got = .failed) := by
  obtain ⟨own, inv⟩ := site_lives_inv (keyed_alone env cfg) h hn
  obtain ⟨i, _, ht⟩ := inv.uploads k file _ hu
  obtain ⟨id, hm, hb, _, _, _, hfind, _⟩ := lives_uploading_facts (keyed_alone env cfg) inv.run ht
  exact page_upload hm hb hfind

/-- C102. The same when the calls of the crate run concurrently, with any kind of key. -/
theorem C102_shared_page (env : Nat → Env) (base : Nat → Nat → Str) (calls : Nat → Sys)
    (hc : ∀ k, Sys.Reach (env k) (base k) (calls k)) (cfg : Config) (account : Str) (N E : Nat) (tr : List Episode) (s : Site)
    (h : Site.Lives (.inLives calls cfg) cfg account N E tr s) (hn : (registeredIds tr).Nodup) (k : Nat) (file : ChosenFile)
    (fields : List (Str × Str)) (method url : Str) (hu : s.uploads[k]? = some (file, .uploading fields method url)) :
    bucketOf url = some cfg.bucketName ∧ ∃ id, findKey fields = some id ∧
      ∀ (origin boundary : Str), (∀ c ∈ boundary, c.isAlphanum = true ∨ c = '-') → boundary.length ≤ 70 →
      ∀ (cors : List CorsEntry) (answer : Nat × Str) (got : Option (Nat × Str)), Sees cors (uploadFetch origin method boundary) answer got →
        IsSent cors (uploadFetch origin method boundary) ∧
        ((∃ e ∈ cors, (s% "*" ∈ e.origins ∨ origin ∈ e.origins) ∧ s% "POST" ∈ e.methods) → answer = (204, []) →
          Upload.afterUpload fields got = .uploaded id) ∧
        ((∃ e ∈ cors, (s% "*" ∈ e.origins ∨ origin ∈ e.origins) ∧ s% "POST" ∈ e.methods) ∧ answer = (204, []) ∨
          Upload.afterUpload fields got = .failed) := by
  obtain ⟨own, inv⟩ := site_lives_inv (keyed_inLives hc cfg) h hn
  obtain ⟨i, _, ht⟩ := inv.uploads k file _ hu
  obtain ⟨id, hm, hb, _, _, _, hfind, _⟩ := lives_uploading_facts (keyed_inLives hc cfg) inv.run ht
  exact page_upload hm hb hfind

/-- C102. With the shipped configuration the pages of every origin see the answers of the storage server to their uploads. -/
theorem C102_shipped_page (env : Env) (cfg : Config) (account : Str) (N E : Nat) (tr : List Episode) (s : Site)
    (h : Site.Lives (.alone env cfg) cfg account N E tr s) (hn : (registeredIds tr).Nodup) (k : Nat) (file : ChosenFile)
    (fields : List (Str × Str)) (method url : Str) (hu : s.uploads[k]? = some (file, .uploading fields method url))
    (cors : List CorsEntry) (hc : readCors corsFile = some cors) (origin boundary : Str)
    (hb : ∀ c ∈ boundary, c.isAlphanum = true ∨ c = '-') (hl : boundary.length ≤ 70) (answer : Nat × Str) (got : Option (Nat × Str)) :
    Sees cors (uploadFetch origin method boundary) answer got ↔ got = some answer := by
  obtain ⟨own, inv⟩ := site_lives_inv (keyed_alone env cfg) h hn
  obtain ⟨i, _, ht⟩ := inv.uploads k file _ hu
  obtain ⟨id, hm, _⟩ := lives_uploading_facts (keyed_alone env cfg) inv.run ht
  subst hm
  rw [C102_file, Option.some.injEq] at hc
  subst hc
  have hr := (C102_read_iff [⟨[s% "*"], [s% "POST"], [s% "Content-Type"], 3600⟩] origin boundary hb hl).2.2
    ⟨_, List.mem_singleton.2 rfl, .inl (List.mem_singleton.2 rfl), List.mem_singleton.2 rfl⟩
  constructor
  · rintro (⟨_, h⟩ | ⟨h, _⟩)
    · exact h
    · exact absurd hr h
  · exact fun h => .inl ⟨hr, h⟩

end CSS
