import Verif.Props.Cors
import Verif.Props.ImageSiteRestartExamples
/- The theorems of `Props/Cors` on concrete cases. -/
namespace CSS
open Spec Spec.ImageUploader ImageUploader

/-- A page that has got its form, and whose server has crashed since. -/
theorem ImageUploader.cat_uploading : ∃ fields url s, findKey fields = some uuidA ∧
    Site.Lives (.alone Reference.env config) config (s% "test@example.com") 1 1 [.event (.created 0 uuidA), .restarted] s ∧
    s.uploads[0]? = some (cat, .uploading fields (s% "POST") url) := by
  obtain ⟨fields, hfind, hform⟩ := cat_form
  let R := Site.Lives (.alone Reference.env config) config (s% "test@example.com") 1 1
  let create : Req := .create 4 (s% "image/png")
  have r1 : R [] ⟨⟨[], []⟩, fun _ _ => none, [(cat, .chosen)]⟩ := .choose cat (.start _)
  have r2 : R [] ⟨⟨[], [(create, .create 4 (s% "image/png"))]⟩, fun _ _ => none, [(cat, .registering 0)]⟩ :=
    .send 0 cat .chosen create r1 rfl rfl
  have r3 : R [] ⟨⟨[], [(create, .push uuidA fields)]⟩, fun _ _ => none, [(cat, .registering 0)]⟩ :=
    site_lives_step (i := 0) (.ok fields) (.ok []) r2 rfl (by decide) hform rfl
  have r4 := site_lives_step (i := 0) (.ok []) (.ok []) r3 rfl (by decide : IsUuid uuidA) trivial rfl
  have r5 := Site.Lives.answer 0 0 cat (.registering 0) create _ r4 rfl rfl rfl
  exact ⟨fields, _, _, hfind, .restart r5, rfl⟩

/-- The boundary of some browser. -/
def someBoundary : Str := s% "----WebKitFormBoundary7MA4YWxkTrZu0gW"

/-- C102: with the shipped configuration the page sees the answer 204 and goes on. -/
example : ∃ fields url s cors, findKey fields = some uuidA ∧
    Site.Lives (.alone Reference.env config) config (s% "test@example.com") 1 1 [.event (.created 0 uuidA), .restarted] s ∧
    s.uploads[0]? = some (cat, .uploading fields (s% "POST") url) ∧ readCors corsFile = some cors ∧
    Sees cors (uploadFetch (s% "http://localhost:3000") (s% "POST") someBoundary) (204, []) (some (204, [])) ∧
    Upload.afterUpload fields (some (204, [])) = .uploaded uuidA := by
  obtain ⟨fields, url, s, h1, h2, h3⟩ := cat_uploading
  have hs := (C102_shipped_page Reference.env config _ 1 1 _ s h2 (by decide) 0 cat fields _ url h3 _ C102_file (s% "http://localhost:3000")
    someBoundary (by decide +kernel) (by decide) (204, []) (some (204, []))).2 rfl
  refine ⟨fields, url, s, _, h1, h2, h3, C102_file, hs, ?_⟩
  obtain ⟨_, id, hid, hall⟩ := C102_page Reference.env config _ 1 1 _ s h2 (by decide) 0 cat fields _ url h3
  rw [h1] at hid
  cases hid
  exact (hall _ someBoundary (by decide +kernel) (by decide) _ _ _ hs).2.1 ⟨_, List.mem_singleton.2 rfl, .inl (by decide), by decide⟩ rfl

/-- C102: a bucket whose configuration names another site. The upload is sent, and fails although the storage server answers 204. -/
example : ∃ fields url s, Site.Lives (.alone Reference.env config) config (s% "test@example.com") 1 1
      [.event (.created 0 uuidA), .restarted] s ∧ s.uploads[0]? = some (cat, .uploading fields (s% "POST") url) ∧
    (let cors : List CorsEntry := [⟨[s% "https://example.com"], [s% "POST"], [s% "Content-Type"], 3600⟩]
    let r := uploadFetch (s% "http://localhost:3000") (s% "POST") someBoundary
    IsSent cors r ∧ Sees cors r (204, []) none ∧ Upload.afterUpload fields none = .failed) := by
  obtain ⟨fields, url, s, h1, h2, h3⟩ := cat_uploading
  have hno : ¬ ∃ e ∈ [(⟨[s% "https://example.com"], [s% "POST"], [s% "Content-Type"], 3600⟩ : CorsEntry)],
      (s% "*" ∈ e.origins ∨ s% "http://localhost:3000" ∈ e.origins) ∧ s% "POST" ∈ e.methods := by
    decide
  have hr := C102_read_iff [⟨[s% "https://example.com"], [s% "POST"], [s% "Content-Type"], 3600⟩] (s% "http://localhost:3000") someBoundary
    (by decide +kernel) (by decide)
  have hsees : Sees [⟨[s% "https://example.com"], [s% "POST"], [s% "Content-Type"], 3600⟩]
      (uploadFetch (s% "http://localhost:3000") (s% "POST") someBoundary) (204, []) none := .inr ⟨fun h => hno (hr.2.1 h), rfl⟩
  obtain ⟨_, id, hid, hall⟩ := C102_page Reference.env config _ 1 1 _ s h2 (by decide) 0 cat fields _ url h3
  have := hall _ someBoundary (by decide +kernel) (by decide) _ _ _ hsees
  exact ⟨fields, url, s, h2, h3, this.1, hsees, this.2.2.resolve_left fun h => hno h.1⟩

/-- C102: pages get no answers to `GET` with the shipped configuration, and their `PUT` is not sent. -/
example : ∃ cors, readCors corsFile = some cors ∧ ¬ IsRead cors ⟨s% "http://localhost:3000", s% "GET", []⟩ ∧
    ¬ IsSent cors ⟨s% "http://localhost:3000", s% "PUT", []⟩ ∧
    IsRead cors ⟨s% "http://localhost:3000", s% "POST", [(s% "content-type", s% "application/json")]⟩ :=
  ⟨_, C102_file, fun h => absurd ((C102_shipped_iff _ C102_file _).1 h).1 (by decide), C102_not_sent _ C102_file _ (by decide),
    (C102_shipped_iff _ C102_file _).2 ⟨rfl, fun h hh => by rcases List.mem_singleton.1 hh with rfl; exact .inr (by unfold SameHeader; decide)⟩⟩

end CSS
