import Verif.Props.ImageSiteRestart
import Verif.Props.ImageSiteExamples
/-
Concrete cases for C100: the example server crashes between the registration of a file and its upload.
-/
set_option linter.unusedSimpArgs false
namespace CSS
open Spec ImageUploader Spec.ImageUploader

theorem site_lives_step {crate : Crate} {cfg : Config} {account : Str} {n e : Nat} {tr : List Episode} {images images' : List Image}
    {tasks : List (Req × Task)} {store : Store} {uploads : List (ChosenFile × Upload)} {i : Nat} {r : Req} {t t' : Task} {uuid : Str}
    (form : Res Failure (List (Str × Str))) (url : Res Failure Str)
    (h : Site.Lives crate cfg account n e tr ⟨⟨images, tasks⟩, store, uploads⟩) (ht : tasks[i]? = some (r, t))
    (hu : IsUuid uuid) (hg : crate.Gives uuid form url t) (hs : t.step cfg uuid images form url = (t', images')) :
    Site.Lives crate cfg account n e (tr ++ (t.events i).map .event) ⟨⟨images', tasks.set i (r, t')⟩, store, uploads⟩ := by
  have := Site.Lives.step i r t uuid form url h ht hu hg
  rwa [show Task.step cfg uuid images form url t = (t', images') from hs] at this

/-- A file is chosen and registered; the server crashes; the file is uploaded and reported, and the page shows an empty list. -/
theorem cat_crash {crate : Crate} {cfg : Config} {account : Str} {n e : Nat} {fields : List (Str × Str)}
    (hfind : findKey fields = some uuidA) (hform : crate.form uuidA 4 (s% "image/png") (.ok fields))
    (hpost : ∀ s, Site.Lives crate cfg account n e [.event (.created 0 uuidA), .restarted] s →
      (let url := s% "https://storage.googleapis.com/" ++ cfg.bucketName
      s.uploads[0]? = some (cat, .uploading fields (s% "POST") url) → ∃ bucket time, bucketOf url = some bucket ∧
        (Sent.form ⟨bucket, formEntries fields, cat.content.length, time⟩ cat.name cat.content).Accepted account n e)) :
    ∃ s, Site.Lives crate cfg account n e [.event (.created 0 uuidA), .restarted, .event (.updated 1 uuidA), .event (.listed 2)] s ∧
      s.uploads = [(cat, .shown [])] ∧
      s.server.tasks = [(.create 4 (s% "image/png"), .replied (.form fields (s% "POST") (s% "https://storage.googleapis.com/" ++ cfg.bucketName))),
        (.update uuidA, .replied .noContent), (.list, .replied (.urls []))] := by
  have hid : IsUuid uuidA := by decide
  let R := Site.Lives crate cfg account n e
  let create : Req := .create 4 (s% "image/png")
  let form : Task := .replied (.form fields (s% "POST") (s% "https://storage.googleapis.com/" ++ cfg.bucketName))
  let done : Req × Task := (.update uuidA, .replied .noContent)
  have r1 : R [] ⟨⟨[], []⟩, fun _ _ => none, [(cat, .chosen)]⟩ := .choose cat (.start _)
  have r2 : R [] ⟨⟨[], [(create, .create 4 (s% "image/png"))]⟩, fun _ _ => none, [(cat, .registering 0)]⟩ :=
    .send 0 cat .chosen create r1 rfl rfl
  have r3 : R [] ⟨⟨[], [(create, .push uuidA fields)]⟩, fun _ _ => none, [(cat, .registering 0)]⟩ :=
    site_lives_step (i := 0) (.ok fields) (.ok []) r2 rfl hid hform rfl
  have r4 : R [.event (.created 0 uuidA)] ⟨⟨[⟨uuidA, false⟩], [(create, form)]⟩, fun _ _ => none, [(cat, .registering 0)]⟩ :=
    site_lives_step (i := 0) (.ok []) (.ok []) r3 rfl hid trivial rfl
  have r5 : R [.event (.created 0 uuidA)] ⟨⟨[⟨uuidA, false⟩], [(create, form)]⟩, fun _ _ => none,
      [(cat, .uploading fields (s% "POST") (s% "https://storage.googleapis.com/" ++ cfg.bucketName))]⟩ :=
    .answer 0 0 cat (.registering 0) create _ r4 rfl rfl rfl
  have r6 : R [.event (.created 0 uuidA), .restarted] ⟨⟨[], [(create, form)]⟩, fun _ _ => none,
      [(cat, .uploading fields (s% "POST") (s% "https://storage.googleapis.com/" ++ cfg.bucketName))]⟩ := .restart r5
  obtain ⟨bucket, time, hb, hacc⟩ := hpost _ r6 rfl
  obtain ⟨store, hst⟩ := handles_exists account n e
    (.form ⟨bucket, formEntries fields, cat.content.length, time⟩ cat.name cat.content) (fun _ _ => none)
  have r7 : R [.event (.created 0 uuidA), .restarted] ⟨⟨[], [(create, form)]⟩, store, [(cat, .uploaded uuidA)]⟩ := by
    have := Site.Lives.upload 0 cat fields _ bucket time store r6 rfl hb hacc hst
    rw [hfind] at this
    exact this
  have r8 : R [.event (.created 0 uuidA), .restarted]
      ⟨⟨[], [(create, form), (.update uuidA, .update uuidA)]⟩, store, [(cat, .reporting 1)]⟩ :=
    .send 0 cat (.uploaded uuidA) (.update uuidA) r7 rfl rfl
  have r9 : R [.event (.created 0 uuidA), .restarted, .event (.updated 1 uuidA)]
      ⟨⟨[], [(create, form), done]⟩, store, [(cat, .reporting 1)]⟩ :=
    site_lives_step (i := 1) (.ok []) (.ok []) r8 rfl hid trivial rfl
  have r10 : R [.event (.created 0 uuidA), .restarted, .event (.updated 1 uuidA)]
      ⟨⟨[], [(create, form), done]⟩, store, [(cat, .reported)]⟩ := .answer 0 1 cat (.reporting 1) _ _ r9 rfl rfl rfl
  have r11 : R [.event (.created 0 uuidA), .restarted, .event (.updated 1 uuidA)]
      ⟨⟨[], [(create, form), done, (.list, .list)]⟩, store, [(cat, .listing 2)]⟩ := .send 0 cat .reported .list r10 rfl rfl
  have r12 : R [.event (.created 0 uuidA), .restarted, .event (.updated 1 uuidA), .event (.listed 2)]
      ⟨⟨[], [(create, form), done, (.list, .sign [] [])]⟩, store, [(cat, .listing 2)]⟩ :=
    site_lives_step (i := 2) (.ok []) (.ok []) r11 rfl hid trivial rfl
  have r13 : R [.event (.created 0 uuidA), .restarted, .event (.updated 1 uuidA), .event (.listed 2)]
      ⟨⟨[], [(create, form), done, (.list, .replied (.urls []))]⟩, store, [(cat, .listing 2)]⟩ :=
    site_lives_step (i := 2) (.ok []) (.ok []) r12 rfl hid trivial rfl
  exact ⟨_, .answer 0 2 cat (.listing 2) _ _ r13 rfl rfl rfl, rfl, rfl⟩

/-- C100: the hypotheses are met, with a crash. The file is uploaded with the form of the lost process, 30 seconds after its registration,
and reported; every request is answered with success; the file is stored; and the page shows an empty list. -/
theorem ImageUploader.cat_forgotten : ∃ n e key s, Reference.env.pemParse Reference.testPem = some key ∧ Rsa.PublicKeyIn key n e ∧
    Site.Lives (.alone Reference.env config) config (s% "test@example.com") n e
      [.event (.created 0 uuidA), .restarted, .event (.updated 1 uuidA), .event (.listed 2)] s ∧
    s.uploads = [(cat, .shown [])] ∧ s.server.tasks[2]? = some (.list, .replied (.urls [])) ∧
    s.store (utf8 config.bucketName) (utf8 uuidA) = some cat.content := by
  obtain ⟨key, n, e, hpem, hpub⟩ := publicKey
  obtain ⟨fields, hfind, hform⟩ := cat_form
  have clock : ∀ k, Reference.env.now k = 1640995200000000000 := fun k => by
    show 1640995200 * nsPerSec = 1640995200000000000; decide
  obtain ⟨s, h1, h2, h3⟩ := cat_crash (cfg := config) (account := s% "test@example.com") (n := n) (e := e) hfind hform (by
    intro s hrun url hu
    obtain ⟨_, bucket, id, now, start, hb, hk, hf, hacc⟩ := C100_upload_accepted Reference.env config _ _ key n e _ s hrun (by decide) rfl
      Reference.correct hpem hpub 0 cat fields _ _ hu
    refine ⟨bucket, 1640995230, hb, (hacc 1640995230).2 ?_⟩
    obtain ⟨w, w', hn, hs, _⟩ := hf
    rw [clock] at hn hs
    rw [hn, hs]; decide)
  refine ⟨n, e, key, s, hpem, hpub, h1, h2, by rw [h3]; rfl, ?_⟩
  obtain ⟨i, id, hm, _, hst⟩ := C100_stays_stored Reference.env config _ n e _ s h1 (by decide) 0 cat (.shown []) (by rw [h2]; rfl) trivial
  simp at hm
  rwa [hm.2] at hst

/-- C100 for the site without a crash: the list has the own file. -/
example : ∃ n e s url, Site.Lives (.alone Reference.env config) config (s% "test@example.com") n e
      [.event (.created 0 uuidA), .event (.updated 1 uuidA), .event (.listed 2)] s ∧ s.uploads[0]? = some (cat, .shown [url]) ∧
    ∃ id now start, UrlFor Reference.env config id url now start ∧ s.store (utf8 config.bucketName) (utf8 id) = some cat.content := by
  obtain ⟨n, e, key, s, url, hpem, hpub, hrun, hu, ht, _⟩ := cat_shown
  have hl := (C100_without_crashes _ _ _ n e _ s).2 hrun
  refine ⟨n, e, s, url, hl, hu, ?_⟩
  obtain ⟨id, i, l, before, between, after, h1, _, _, _, h5, h6, _⟩ := C100_own_image Reference.env config _ n e _ s hl (by decide) (by decide)
    0 cat _ hu
  have hno : Episode.restarted ∉ between := fun hm => by
    have : Episode.restarted ∈ [Event.created 0 uuidA, .updated 1 uuidA, .listed 2].map Episode.event := by rw [h1]; simp [hm]
    simp at this
  obtain ⟨url', hm, now, start, hf⟩ := h6 hno
  rw [List.mem_singleton] at hm
  subst hm
  exact ⟨id, now, start, hf, h5⟩

end CSS
