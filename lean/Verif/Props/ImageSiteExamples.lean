import Verif.Props.ImageSite
import Verif.Props.ImageUploaderExamples
/-
A concrete case for C81: a file is chosen, uploaded, reported and shown.
-/
set_option linter.unusedSimpArgs false
namespace CSS
open Spec ImageUploader Spec.ImageUploader

def ImageUploader.cat : ChosenFile := ⟨s% "cat.png", s% "image/png", [137, 80, 78, 71]⟩

theorem cat_form : ∃ fields, findKey fields = some uuidA ∧ (Crate.alone Reference.env config).form uuidA 4 (s% "image/png")
    (.ok fields) := by
  have h : (match createForm Reference.env config uuidA 4 (s% "image/png") Conformance.world with
    | (.ok fields, _) => decide (findKey fields = some uuidA)
    | _ => false) = true := by decide +kernel
  split at h
  · rename_i fields w' hf
    exact ⟨fields, by simpa using h, Conformance.world, by rw [hf]⟩
  · cases h

theorem cat_url : ∃ url, (Crate.alone Reference.env config).url uuidA (.ok url) := by
  have h : (match signUrl Reference.env config uuidA Conformance.world with
    | (.ok _, _) => true
    | _ => false) = true := by decide +kernel
  split at h
  · rename_i url w' hf
    exact ⟨url, Conformance.world, by rw [hf]⟩
  · cases h

theorem run_step {crate : Crate} {cfg : Config} {account : Str} {n e : Nat} {tr : List Event} {images images' : List Image}
    {tasks : List (Req × Task)} {store : Store} {uploads : List (ChosenFile × Upload)} {i : Nat} {r : Req} {t t' : Task} {uuid : Str}
    (form : Res Failure (List (Str × Str))) (url : Res Failure Str) (h : Site.Run crate cfg account n e tr ⟨⟨images, tasks⟩, store, uploads⟩) (ht : tasks[i]? = some (r, t))
    (hu : IsUuid uuid) (hg : crate.Gives uuid form url t) (hs : t.step cfg uuid images form url = (t', images')) :
    Site.Run crate cfg account n e (tr ++ t.events i) ⟨⟨images', tasks.set i (r, t')⟩, store, uploads⟩ := by
  have := Site.Run.step i r t uuid form url h ht hu hg
  rwa [show Task.step cfg uuid images form url t = (t', images') from hs] at this

/-- A file is chosen, registered, uploaded, reported, and shown. -/
theorem cat_site {crate : Crate} {cfg : Config} {account : Str} {n e : Nat} {fields : List (Str × Str)} {url : Str}
    (hfind : findKey fields = some uuidA) (hform : crate.form uuidA 4 (s% "image/png") (.ok fields))
    (hurl : crate.url uuidA (.ok url))
    (hpost : ∀ s, Site.Run crate cfg account n e [.created 0 uuidA] s → (let url := s% "https://storage.googleapis.com/" ++ cfg.bucketName
      s.uploads[0]? = some (cat, .uploading fields (s% "POST") url) → ∃ bucket time, bucketOf url = some bucket ∧
        (Sent.form ⟨bucket, formEntries fields, cat.content.length, time⟩ cat.name cat.content).Accepted account n e)) :
    ∃ s, Site.Run crate cfg account n e [.created 0 uuidA, .updated 1 uuidA, .listed 2] s ∧
      s.uploads[0]? = some (cat, .shown [url]) ∧ s.server.tasks[2]? = some (.list, .replied (.urls [url])) ∧
      s.uploads.map (·.1) = [cat] ∧ s.server.tasks.map (·.1) = [.create 4 (s% "image/png"), .update uuidA, .list] := by
  have hid : IsUuid uuidA := by decide
  let R := Site.Run crate cfg account n e
  let create : Req := .create 4 (s% "image/png")
  let form : Task := .replied (.form fields (s% "POST") (s% "https://storage.googleapis.com/" ++ cfg.bucketName))
  let done : Req × Task := (.update uuidA, .replied .noContent)
  have r1 : R [] ⟨⟨[], []⟩, fun _ _ => none, [(cat, .chosen)]⟩ := .choose cat (.start _)
  have r2 : R [] ⟨⟨[], [(create, .create 4 (s% "image/png"))]⟩, fun _ _ => none, [(cat, .registering 0)]⟩ :=
    .send 0 cat .chosen create r1 rfl rfl
  have r3 : R [] ⟨⟨[], [(create, .push uuidA fields)]⟩, fun _ _ => none, [(cat, .registering 0)]⟩ :=
    run_step (i := 0) (.ok fields) (.ok []) r2 rfl hid hform rfl
  have r4 : R [.created 0 uuidA] ⟨⟨[⟨uuidA, false⟩], [(create, form)]⟩, fun _ _ => none, [(cat, .registering 0)]⟩ :=
    run_step (i := 0) (.ok []) (.ok []) r3 rfl hid trivial rfl
  have r5 : R [.created 0 uuidA] ⟨⟨[⟨uuidA, false⟩], [(create, form)]⟩, fun _ _ => none,
      [(cat, .uploading fields (s% "POST") (s% "https://storage.googleapis.com/" ++ cfg.bucketName))]⟩ :=
    .answer 0 0 cat (.registering 0) create _ r4 rfl rfl rfl
  obtain ⟨bucket, time, hb, hacc⟩ := hpost _ r5 rfl
  obtain ⟨store, hst⟩ := handles_exists account n e
    (.form ⟨bucket, formEntries fields, cat.content.length, time⟩ cat.name cat.content) (fun _ _ => none)
  have r6 : R [.created 0 uuidA] ⟨⟨[⟨uuidA, false⟩], [(create, form)]⟩, store, [(cat, .uploaded uuidA)]⟩ := by
    have := Site.Run.upload 0 cat fields _ bucket time store r5 rfl hb hacc hst
    rw [hfind] at this
    exact this
  have r7 : R [.created 0 uuidA] ⟨⟨[⟨uuidA, false⟩], [(create, form), (.update uuidA, .update uuidA)]⟩, store, [(cat, .reporting 1)]⟩ :=
    .send 0 cat (.uploaded uuidA) (.update uuidA) r6 rfl rfl
  have r8 : R [.created 0 uuidA, .updated 1 uuidA] ⟨⟨[⟨uuidA, true⟩], [(create, form), done]⟩, store, [(cat, .reporting 1)]⟩ :=
    run_step (i := 1) (.ok []) (.ok []) r7 rfl hid trivial (by simp [Task.step, markUploaded])
  have r9 : R [.created 0 uuidA, .updated 1 uuidA] ⟨⟨[⟨uuidA, true⟩], [(create, form), done]⟩, store, [(cat, .reported)]⟩ :=
    .answer 0 1 cat (.reporting 1) _ _ r8 rfl rfl rfl
  have r10 : R [.created 0 uuidA, .updated 1 uuidA] ⟨⟨[⟨uuidA, true⟩], [(create, form), done, (.list, .list)]⟩, store, [(cat, .listing 2)]⟩ :=
    .send 0 cat .reported .list r9 rfl rfl
  have r11 : R [.created 0 uuidA, .updated 1 uuidA, .listed 2]
      ⟨⟨[⟨uuidA, true⟩], [(create, form), done, (.list, .sign [⟨uuidA, true⟩] [])]⟩, store, [(cat, .listing 2)]⟩ :=
    run_step (i := 2) (.ok []) (.ok []) r10 rfl hid trivial rfl
  have r12 : R [.created 0 uuidA, .updated 1 uuidA, .listed 2]
      ⟨⟨[⟨uuidA, true⟩], [(create, form), done, (.list, .sign [] [url])]⟩, store, [(cat, .listing 2)]⟩ :=
    run_step (i := 2) (.ok []) (.ok url) r11 rfl hid (fun _ => hurl) rfl
  have r13 : R [.created 0 uuidA, .updated 1 uuidA, .listed 2]
      ⟨⟨[⟨uuidA, true⟩], [(create, form), done, (.list, .replied (.urls [url]))]⟩, store, [(cat, .listing 2)]⟩ :=
    run_step (i := 2) (.ok []) (.ok []) r12 rfl hid trivial rfl
  have r14 : R [.created 0 uuidA, .updated 1 uuidA, .listed 2]
      ⟨⟨[⟨uuidA, true⟩], [(create, form), done, (.list, .replied (.urls [url]))]⟩, store, [(cat, .shown [url])]⟩ :=
    .answer 0 2 cat (.listing 2) _ _ r13 rfl rfl rfl
  exact ⟨_, r14, rfl, rfl, rfl, rfl⟩

/-- C81: the hypotheses are met. A file is chosen, registered, uploaded 30 seconds later, reported, and shown. -/
theorem ImageUploader.cat_shown : ∃ n e key s url, Reference.env.pemParse Reference.testPem = some key ∧ Rsa.PublicKeyIn key n e ∧
    Site.Run (.alone Reference.env config) config (s% "test@example.com") n e [.created 0 uuidA, .updated 1 uuidA, .listed 2] s ∧
    s.uploads[0]? = some (cat, .shown [url]) ∧ s.server.tasks[2]? = some (.list, .replied (.urls [url])) ∧
      s.uploads.map (·.1) = [cat] ∧ s.server.tasks.map (·.1) = [.create 4 (s% "image/png"), .update uuidA, .list] := by
  obtain ⟨key, n, e, hpem, hpub⟩ := publicKey
  obtain ⟨fields, hfind, hform⟩ := cat_form
  obtain ⟨url, hurl⟩ := cat_url
  have hnd : (createdIds [Event.created 0 uuidA]).Nodup := by decide
  have clock : ∀ k, Reference.env.now k = 1640995200000000000 := fun k => by
    show 1640995200 * nsPerSec = 1640995200000000000; decide
  obtain ⟨s, h1, h2, h3⟩ := cat_site (cfg := config) (account := s% "test@example.com") (n := n) (e := e) hfind hform hurl (by
    intro s hrun url hu
    obtain ⟨_, bucket, id, now, start, hb, hk, hf, hacc⟩ := C81_upload_accepted Reference.env config _ _ key n e _ s hrun hnd rfl
      Reference.correct hpem hpub 0 cat fields _ _ hu
    refine ⟨bucket, 1640995230, hb, (hacc 1640995230).2 ?_⟩
    obtain ⟨w, w', hn, hs, _⟩ := hf
    rw [clock] at hn hs
    rw [hn, hs]; decide)
  exact ⟨n, e, key, s, url, hpem, hpub, h1, h2, h3⟩

/-- C81 for this case: the page shows one image, and the storage server answers its URL with the file. -/
example : ∃ n e s url, Site.Run (.alone Reference.env config) config (s% "test@example.com") n e [.created 0 uuidA, .updated 1 uuidA, .listed 2] s ∧
    s.uploads[0]? = some (cat, .shown [url]) ∧
    Answers (s% "test@example.com") n e s.store ⟨s% "GET", url, [(s% "host", s% "storage.googleapis.com")], 1640995259⟩ cat.content := by
  obtain ⟨n, e, key, s, url, hpem, hpub, hrun, hu, ht, _⟩ := cat_shown
  refine ⟨n, e, s, url, hrun, hu, ?_⟩
  have hnd : (createdIds [Event.created 0 uuidA, .updated 1 uuidA, .listed 2]).Nodup := by decide
  obtain ⟨k, file, u, id, now, start, h1, hf, hget⟩ := C81_get Reference.env config _ _ key n e _ s hrun hnd (by decide) rfl
    Reference.correct hpem hpub (by decide) 2 _ _ ht url (by simp)
  have clock : ∀ k, Reference.env.now k = 1640995200000000000 := fun k => by
    show 1640995200 * nsPerSec = 1640995200000000000; decide
  obtain ⟨w, w', hn, hs, hb⟩ := hf
  rw [clock] at hn hs
  have hcontent := hget 1640995259 (by rw [hs]; decide) (by rw [hn, hs]; decide)
  obtain ⟨url', hm, id', now', start', h2, hf', hst⟩ := C81_own_image Reference.env config _ n e _ s hrun hnd 0 cat _ hu
  rw [List.mem_singleton] at hm
  subst hm
  obtain ⟨v, v', hn', hs', hb'⟩ := hf'
  rw [clock] at hn' hs'
  refine (C76_get Reference.env _ _ v' url' _ _ key n e 1640995259 hb' ⟨rfl, rfl, by show '%' ∉ s% "auto"; decide,
    uuid_addressable (bucket := config.bucketName) (by decide) h2⟩ rfl rfl Reference.correct hpem hpub (by decide) ?_ s.store cat.content).2 hst
  show Reference.env.now (v.ticks + 1) / 1000000000 ≤ 1640995259 ∧ 1640995259 < Reference.env.now (v.ticks + 1) / 1000000000 +
    (now' + 60000000000 - Reference.env.now (v.ticks + 1)) / 1000000000
  rw [clock, hn']
  decide

end CSS
