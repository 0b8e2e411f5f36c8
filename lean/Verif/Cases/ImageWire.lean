import Verif.Props.ImageWire
import Verif.Props.CorsExamples
import Verif.Cases.ImageHttp
/-
Concrete cases for C103.
-/
namespace CSS
open Spec ImageUploader Spec.ImageUploader

theorem cat_form_small : ∃ fields, findKey fields = some uuidA ∧ (Crate.alone Reference.env config).form uuidA 4 (s% "image/png")
    (.ok fields) ∧ (fields.map fun f => f.2.length + 1).sum < 2 ^ 69 := by
  have h : (match createForm Reference.env config uuidA 4 (s% "image/png") Conformance.world with
    | (.ok fields, _) => decide (findKey fields = some uuidA ∧ (fields.map fun f => f.2.length + 1).sum < 2 ^ 69)
    | _ => false) = true := by decide +kernel
  split at h
  · rename_i fields w' hf
    have h := of_decide_eq_true h
    exact ⟨fields, h.1, ⟨Conformance.world, by rw [hf]⟩, h.2⟩
  · cases h

/-- C103: the hypotheses are met. With the shipped CORS configuration a page chooses a file; the server crashes after the registration; the
page uploads, reports and lists, everything over the wire; and the file is stored. -/
theorem ImageUploader.cat_wired : ∃ n e cors s, readCors corsFile = some cors ∧
    Site.WireLives plainMime cors (.alone Reference.env config) config (s% "test@example.com") n e
      [.event (.created 0 uuidA), .restarted, .event (.updated 1 uuidA), .event (.listed 2)] s ∧
    s.uploads = [(cat, .shown [])] ∧ s.store (utf8 config.bucketName) (utf8 uuidA) = some cat.content := by
  obtain ⟨key, n, e, hpem, hpub⟩ := publicKey
  obtain ⟨fields, hfind, hform, hsmall⟩ := cat_form_small
  have clock : ∀ k, Reference.env.now k = 1640995200000000000 := fun k => by
    show 1640995200 * nsPerSec = 1640995200000000000; decide
  obtain ⟨s, h1, h2, h3⟩ := cat_crash (cfg := config) (account := s% "test@example.com") (n := n) (e := e) hfind hform (by
    intro s hrun url hu
    obtain ⟨_, bucket, id, now, start, hb, hk, hf, hacc⟩ := C100_upload_accepted Reference.env config _ _ key n e _ s hrun (by decide) rfl
      Reference.correct hpem hpub 0 cat fields _ _ hu
    refine ⟨bucket, 1640995230, hb, (hacc 1640995230).2 ?_⟩
    obtain ⟨w, w', hn, hs, _⟩ := hf
    rw [clock] at hn hs
    rw [hn, hs]; decide)
  have hw := (C103_site plainMime [⟨[s% "*"], [s% "POST"], [s% "Content-Type"], 3600⟩] ⟨s% "http://localhost:3000", _, List.mem_singleton.2 rfl, .inl (by decide), by decide⟩ Reference.env config _ _
    rfl (by decide) (by decide) (s% "test@example.com") n e _ s (by decide) (by
      intro r f m u hm
      rw [h3] at hm
      simp at hm
      rw [hm.2.1]; exact hsmall)).2 ⟨h1, by
        rw [h2]; intro f hf; rcases List.mem_singleton.1 hf with rfl; exact ⟨⟨by decide, by decide⟩, by decide⟩, by
        rw [h3]
        intro r hr
        simp only [List.map_cons, List.map_nil, List.mem_cons, List.not_mem_nil, or_false] at hr
        rcases hr with rfl | rfl | rfl
        · exact ⟨_, C94_sent _ cat .chosen _ _ rfl rfl (by intro id h; cases h) (by decide) (by decide)⟩
        · exact ⟨_, C94_sent _ cat (.uploaded uuidA) _ _ rfl rfl (by intro id h; cases h; decide) (by decide) (by decide)⟩
        · exact ⟨_, C94_sent _ cat .reported _ _ rfl rfl (by intro id h; cases h) (by decide) (by decide)⟩⟩
  refine ⟨n, e, _, s, C102_file, hw, h2, ?_⟩
  obtain ⟨i, id, hm, _, hst⟩ := C103_stored plainMime _ Reference.env config _ _ rfl (by decide) (by decide) _ n e _ s hw (by decide) 0 cat
    (.shown []) (by rw [h2]; rfl) trivial
  simp at hm
  rwa [hm.2] at hst

theorem wire_step {mime : MimeTypes} {cors : List CorsEntry} {crate : Crate} {cfg : Config} {account : Str} {n e : Nat} {tr : List Episode}
    {images images' : List Image} {tasks : List (Req × Task)} {store : Store} {uploads : List (ChosenFile × Upload)} {i : Nat} {r : Req}
    {t t' : Task} {uuid : Str} (form : Res Failure (List (Str × Str))) (url : Res Failure Str)
    (h : Site.WireLives mime cors crate cfg account n e tr ⟨⟨images, tasks⟩, store, uploads⟩) (ht : tasks[i]? = some (r, t))
    (hu : IsUuid uuid) (hg : crate.Gives uuid form url t) (hs : t.step cfg uuid images form url = (t', images')) :
    Site.WireLives mime cors crate cfg account n e (tr ++ (t.events i).map .event) ⟨⟨images', tasks.set i (r, t')⟩, store, uploads⟩ := by
  have := Site.WireLives.step i r t uuid form url h ht hu hg
  rwa [show Task.step cfg uuid images form url t = (t', images') from hs] at this

/-- C103_blocked: a bucket without a CORS configuration. A page has got its form and posts it; the file is stored, and the page fails. -/
example : ∃ n e s, Site.WireLives plainMime [] (.alone Reference.env config) config (s% "test@example.com") n e
      [.event (.created 0 uuidA)] s ∧
    s.store (utf8 config.bucketName) (utf8 uuidA) = some cat.content ∧ s.uploads = [(cat, .failed)] := by
  obtain ⟨key, n, e, hpem, hpub⟩ := publicKey
  obtain ⟨fields, hfind, hform, hsmall⟩ := cat_form_small
  have clock : ∀ k, Reference.env.now k = 1640995200000000000 := fun k => by
    show 1640995200 * nsPerSec = 1640995200000000000; decide
  let R := Site.WireLives plainMime [] (.alone Reference.env config) config (s% "test@example.com") n e
  let create : Req := .create 4 (s% "image/png")
  have r1 : R [] ⟨⟨[], []⟩, fun _ _ => none, [(cat, .chosen)]⟩ := .choose cat (.start _) ⟨⟨by decide, by decide⟩, by decide⟩
  have r2 : R [] ⟨⟨[], [(create, .create 4 (s% "image/png"))]⟩, fun _ _ => none, [(cat, .registering 0)]⟩ :=
    .send 0 cat .chosen _ create r1 rfl rfl (C94_sent _ cat .chosen _ _ rfl rfl (by intro id h; cases h) (by decide) (by decide))
  have r3 : R [] ⟨⟨[], [(create, .push uuidA fields)]⟩, fun _ _ => none, [(cat, .registering 0)]⟩ :=
    wire_step (i := 0) (.ok fields) (.ok []) r2 rfl (by decide) hform rfl
  have r4 := wire_step (i := 0) (.ok []) (.ok []) r3 rfl (by decide : IsUuid uuidA) trivial rfl
  have r5 := Site.WireLives.answer 0 0 cat (.registering 0) create _ _ r4 rfl rfl rfl rfl
  replace r5 : R [.event (.created 0 uuidA)] _ := r5
  rw [C94_received _ (.form fields (s% "POST") (s% "https://storage.googleapis.com/" ++ config.bucketName)) _ rfl] at r5
  have hl := wire_lives (keyed_alone _ _) (plain_alone rfl (by decide) (by decide)) r5 (by decide)
  obtain ⟨_, bucket, id, now, start, hb, hk, hf, hacc⟩ := C100_upload_accepted Reference.env config _ _ key n e _ _ hl.1 (by decide) rfl
    Reference.correct hpem hpub 0 cat fields _ _ rfl
  obtain ⟨id', _, _, hid, hfind', hkey, hsame, hall⟩ := posting (keyed_alone _ _) (plain_alone rfl (by decide) (by decide)) hl.1 (by decide)
    (k := 0) (file := cat) rfl (by decide)
  have hok := (hacc 1640995230).2 (by
    obtain ⟨w, w', hn, hs, _⟩ := hf
    rw [clock] at hn hs
    rw [hn, hs]; decide)
  rw [hsame] at hok
  obtain ⟨b, hbd, hlen⟩ := C97_boundary_exists fields cat.content (by
    have : cat.content.length = 4 := rfl
    omega)
  obtain ⟨store, hst⟩ := handles_exists (s% "test@example.com") n e
    (.form ⟨bucket, fields, cat.content.length, 1640995230⟩ (escapeName cat.name) cat.content) (fun _ _ => none)
  obtain ⟨hsent, hread⟩ := C102_read_iff [] (s% "http://localhost:3000") b hbd.1 (by omega)
  have r6 := Site.WireLives.post 0 cat fields _ _ (s% "http://localhost:3000") b bucket fields (escapeName cat.name) cat.content 1640995230 store
    (204, []) none r5 rfl rfl hb ⟨hbd, by omega⟩ hsent ((hall b hbd _ _ _).2 ⟨rfl, rfl, rfl⟩) hst ⟨fun _ => rfl, fun h => absurd hok h⟩
    (.inr ⟨fun h => (by obtain ⟨e, he, _⟩ := hread.1 h; cases he), rfl⟩)
  refine ⟨n, e, _, r6, ?_, rfl⟩
  rw [hfind, Option.some.injEq] at hfind'
  subst hfind'
  have := hst.post hok _ _ _ uuidA rfl hkey
  rw [expand_uuid _ hid] at this
  have hbk : bucket = config.bucketName := by
    have h1 : bucketOf (s% "https://storage.googleapis.com/" ++ config.bucketName) = some config.bucketName := by decide +kernel
    exact Option.some.inj (hb.symm.trans h1)
  rw [hbk] at this
  exact this

end CSS
