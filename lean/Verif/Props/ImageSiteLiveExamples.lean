import Verif.Props.ImageSiteLive
import Verif.Props.ImageSiteExamples
import Verif.Props.ImageSiteSharedExamples
/-
Concrete cases for C98: a file is chosen, uploaded, reported and shown, and then nothing happens any more.
-/
set_option linter.unusedSimpArgs false
namespace CSS
open Spec ImageUploader Spec.ImageUploader

section
variable (cfg : Config) (fields : List (Str × Str)) (url : Str) (store : Store) (time : Int)

/-- The states of the history. -/
def catStates (m : Nat) : Site :=
  let create : Req := .create 4 (s% "image/png")
  let url' := s% "https://storage.googleapis.com/" ++ cfg.bucketName
  let form : Task := .replied (.form fields (s% "POST") url')
  let done : Req × Task := (.update uuidA, .replied .noContent)
  let new : Store := fun _ _ => none
  match m with
  | 0 => ⟨⟨[], []⟩, new, []⟩
  | 1 => ⟨⟨[], []⟩, new, [(cat, .chosen)]⟩
  | 2 => ⟨⟨[], [(create, .create 4 (s% "image/png"))]⟩, new, [(cat, .registering 0)]⟩
  | 3 => ⟨⟨[], [(create, .push uuidA fields)]⟩, new, [(cat, .registering 0)]⟩
  | 4 => ⟨⟨[⟨uuidA, false⟩], [(create, form)]⟩, new, [(cat, .registering 0)]⟩
  | 5 => ⟨⟨[⟨uuidA, false⟩], [(create, form)]⟩, new, [(cat, .uploading fields (s% "POST") url')]⟩
  | 6 => ⟨⟨[⟨uuidA, false⟩], [(create, form)]⟩, store, [(cat, .uploaded uuidA)]⟩
  | 7 => ⟨⟨[⟨uuidA, false⟩], [(create, form), (.update uuidA, .update uuidA)]⟩, store, [(cat, .reporting 1)]⟩
  | 8 => ⟨⟨[⟨uuidA, true⟩], [(create, form), done]⟩, store, [(cat, .reporting 1)]⟩
  | 9 => ⟨⟨[⟨uuidA, true⟩], [(create, form), done]⟩, store, [(cat, .reported)]⟩
  | 10 => ⟨⟨[⟨uuidA, true⟩], [(create, form), done, (.list, .list)]⟩, store, [(cat, .listing 2)]⟩
  | 11 => ⟨⟨[⟨uuidA, true⟩], [(create, form), done, (.list, .sign [⟨uuidA, true⟩] [])]⟩, store, [(cat, .listing 2)]⟩
  | 12 => ⟨⟨[⟨uuidA, true⟩], [(create, form), done, (.list, .sign [] [url])]⟩, store, [(cat, .listing 2)]⟩
  | 13 => ⟨⟨[⟨uuidA, true⟩], [(create, form), done, (.list, .replied (.urls [url]))]⟩, store, [(cat, .listing 2)]⟩
  | _ => ⟨⟨[⟨uuidA, true⟩], [(create, form), done, (.list, .replied (.urls [url]))]⟩, store, [(cat, .shown [url])]⟩

/-- What happens. -/
def catHappens (m : Nat) : Happens :=
  match m with
  | 1 => .sends 0
  | 2 => .server (.worked 0)
  | 3 => .server (.worked 0)
  | 4 => .gets 0 (.form fields (s% "POST") (s% "https://storage.googleapis.com/" ++ cfg.bucketName))
  | 5 => .posts 0 time
  | 6 => .sends 0
  | 7 => .server (.worked 1)
  | 8 => .gets 0 .noContent
  | 9 => .sends 0
  | 10 => .server (.worked 2)
  | 11 => .server (.worked 2)
  | 12 => .server (.worked 2)
  | 13 => .gets 0 (.urls [url])
  | _ => .elsewhere

theorem site_step {crate : Crate} {cfg : Config} {account : Str} {n e : Nat} {images images' : List Image}
    {tasks : List (Req × Task)} {store : Store} {uploads : List (ChosenFile × Upload)} {i : Nat} {r : Req} {t t' : Task} {uuid : Str}
    (form : Res Failure (List (Str × Str))) (url : Res Failure Str) (ht : tasks[i]? = some (r, t)) (hnf : ¬ Finished t)
    (hu : IsUuid uuid) (hg : crate.Gives uuid form url t) (hs : t.step cfg uuid images form url = (t', images')) :
    SiteMoves crate cfg account n e (.server (.worked i)) ⟨⟨images, tasks⟩, store, uploads⟩
      ⟨⟨images', tasks.set i (r, t')⟩, store, uploads⟩ := by
  have := Moves.step (crate := crate) (cfg := cfg) (s := ⟨images, tasks⟩) i r t uuid form url ht hnf hu hg
  rw [show Task.step cfg uuid images form url t = (t', images') from hs] at this
  exact .server (s := ⟨⟨images, tasks⟩, store, uploads⟩) (.worked i) _ (by simp) this

variable {cfg fields url store time}

theorem cat_history {crate : Crate} {account : Str} {n e : Nat} (hfind : findKey fields = some uuidA)
    (hform : crate.form uuidA 4 (s% "image/png") (.ok fields)) (hurl : crate.url uuidA (.ok url))
    (hacc : (Sent.form ⟨cfg.bucketName, formEntries fields, cat.content.length, time⟩ cat.name cat.content).Accepted account n e)
    (hst : Handles account n e (.form ⟨cfg.bucketName, formEntries fields, cat.content.length, time⟩ cat.name cat.content)
      (fun _ _ => none) store) :
    SiteHistory crate cfg account n e (catStates cfg fields url store) (catHappens cfg fields url time) ∧
    DistinctIds (catStates cfg fields url store) ∧ SiteFair crate cfg (catStates cfg fields url store) (catHappens cfg fields url time) := by
  have hid : IsUuid uuidA := by decide
  have h : SiteHistory crate cfg account n e (catStates cfg fields url store) (catHappens cfg fields url time) := by
    refine ⟨⟨_, rfl⟩, fun m => ?_⟩
    match m with
    | 0 => exact .choose cat
    | 1 => exact .send 0 cat .chosen (.create 4 (s% "image/png")) rfl rfl
    | 2 => exact site_step (i := 0) (.ok fields) (.ok []) rfl (notFinished (by decide)) hid hform rfl
    | 3 => exact site_step (i := 0) (.ok []) (.ok []) rfl (notFinished (by simp [Task.left])) hid trivial rfl
    | 4 => exact .get 0 0 cat (.registering 0) _ _ rfl rfl rfl
    | 5 =>
      have := SiteMoves.post (crate := crate) (cfg := cfg) (s := catStates cfg fields url store 5) 0 cat fields _ _ time store rfl
        (bucketOf_prefix cfg.bucketName) hacc hst
      rw [hfind] at this
      exact this
    | 6 => exact .send 0 cat (.uploaded uuidA) (.update uuidA) rfl rfl
    | 7 => exact site_step (i := 1) (.ok []) (.ok []) rfl (notFinished (by decide)) hid trivial (by simp [Task.step, markUploaded])
    | 8 => exact .get 0 1 cat (.reporting 1) _ _ rfl rfl rfl
    | 9 => exact .send 0 cat .reported .list rfl rfl
    | 10 => exact site_step (i := 2) (.ok []) (.ok []) rfl (notFinished (by decide)) hid trivial rfl
    | 11 => exact site_step (i := 2) (.ok []) (.ok url) rfl (notFinished (by decide)) hid (fun _ => hurl) rfl
    | 12 => exact site_step (i := 2) (.ok []) (.ok []) rfl (notFinished (by simp [Task.left])) hid trivial rfl
    | 13 => exact .get 0 2 cat (.listing 2) _ _ rfl rfl rfl
    | k + 14 => exact .idle
  refine ⟨h, fun m => ?_, fair_of_rest h 14 ?_ ?_ ?_⟩
  · match m with
    | 0 | 1 | 2 | 3 | 4 | 5 | 6 | 7 | 8 | 9 | 10 | 11 | 12 | 13 | k + 14 => simp [catStates]
  · intro m hm
    obtain ⟨k, rfl⟩ : ∃ k, m = k + 14 := ⟨m - 14, by omega⟩
    rfl
  · intro p hp
    simp [catStates] at hp
    rcases hp with rfl | rfl | rfl <;> exact .inl ⟨_, rfl⟩
  · intro p hp
    simp [catStates] at hp
    subst hp
    exact .inl ⟨_, rfl⟩

/-- In this history nothing speaks against the upload. -/
theorem cat_fine : (∀ m, catHappens cfg fields url time m ≠ .loses 0) ∧
    (∀ m, catHappens cfg fields url time m ≠ .gets 0 .internalServerError ∧ catHappens cfg fields url time m ≠ .gets 0 .aborted) ∧
    ∀ m t, catHappens cfg fields url time m = .posts 0 t → m = 5 ∧ t = time := by
  refine ⟨fun m => ?_, fun m => ?_, fun m t => ?_⟩ <;>
  match m with
  | 0 | 1 | 2 | 3 | 4 | 5 | 6 | 7 | 8 | 9 | 10 | 11 | 12 | 13 | k + 14 => simp [catHappens, eq_comm]

end

/-- C98: the hypotheses of `C98_shown` are met: the file is uploaded 30 seconds after its registration and shown. -/
example : ∃ n e key σ what, Reference.env.pemParse Reference.testPem = some key ∧ Rsa.PublicKeyIn key n e ∧
    SiteHistory (.alone Reference.env config) config (s% "test@example.com") n e σ what ∧ DistinctIds σ ∧
    SiteFair (.alone Reference.env config) config σ what ∧ (σ 1).uploads[0]? = some (cat, .chosen) ∧
    ∃ m urls, (σ m).uploads[0]? = some (cat, .shown urls) ∧ urls ≠ [] ∧
      ∃ id, (σ m).store (utf8 config.bucketName) (utf8 id) = some cat.content := by
  obtain ⟨key, n, e, hpem, hpub⟩ := publicKey
  obtain ⟨fields, hfind, hform⟩ := cat_form
  obtain ⟨url, hurl⟩ := cat_url
  have clock : ∀ k, Reference.env.now k = 1640995200000000000 := fun k => by
    show 1640995200 * nsPerSec = 1640995200000000000; decide
  obtain ⟨now, start, hf⟩ := alone_form hform
  have htime : start / 1000000000 ≤ 1640995230 ∧ 1640995230 < (now + 60000000000) / 1000000000 := by
    obtain ⟨w, w', hn, hs, _⟩ := hf
    rw [clock] at hn hs
    rw [hn, hs]; decide
  have hacc : (Sent.form ⟨config.bucketName, formEntries fields, cat.content.length, 1640995230⟩ cat.name cat.content).Accepted
      (s% "test@example.com") n e := by
    rw [formEntries_nodup (formFor_names hf)]
    exact ⟨(C70_form_accepted Reference.env config uuidA _ _ fields now start _ _ key n e hf rfl Reference.correct hpem hpub
      cat.content.length 1640995230).2 ⟨htime.1, htime.2, rfl⟩, rfl⟩
  obtain ⟨store, hst⟩ := handles_exists (s% "test@example.com") n e
    (.form ⟨config.bucketName, formEntries fields, cat.content.length, 1640995230⟩ cat.name cat.content) (fun _ _ => none)
  obtain ⟨h1, h2, h3⟩ := cat_history (cfg := config) hfind hform hurl hacc hst
  obtain ⟨f1, f2, f3⟩ := cat_fine (cfg := config) (fields := fields) (url := url) (time := 1640995230)
  obtain ⟨m, urls, _, g1, url', g2, id, _, _, _, _, g3⟩ := C98_shown Reference.env config _ _ key n e _ _ h1 h2 h3 rfl Reference.correct
    hpem hpub 0 1 cat rfl (by decide) f1 f2 (by
      intro m' t fields' method url' hw hu
      obtain ⟨rfl, rfl⟩ := f3 m' t hw
      simp only [catStates, List.getElem?_cons_zero, Option.some.injEq, Prod.mk.injEq, true_and, Upload.uploading.injEq] at hu
      obtain ⟨rfl, _⟩ := hu
      exact ⟨uuidA, now, start, hf, htime⟩)
  exact ⟨n, e, key, _, _, hpem, hpub, h1, h2, h3, rfl, m, urls, g1, List.ne_nil_of_mem g2, id, g3⟩

open Reference Conformance in
/-- C98: the hypotheses of `C98_shown_owner` are met, with a bound token. -/
example : ∃ calls n e σ what, Spec.History btEnv baseOf calls ∧
    (∀ M, KeyOwner btEnv baseOf (calls M).trace btConfig.signingKey (s% "a@b.c") n e) ∧
    SiteHistory (Crate.during calls btConfig) btConfig (s% "a@b.c") n e σ what ∧ DistinctIds σ ∧
    SiteFair (Crate.during calls btConfig) btConfig σ what ∧ (σ 1).uploads[0]? = some (cat, .chosen) ∧
    ∃ m urls, (σ m).uploads[0]? = some (cat, .shown urls) ∧ urls ≠ [] ∧
      ∃ id, (σ m).store (utf8 btConfig.bucketName) (utf8 id) = some cat.content := by
  obtain ⟨s, n, e, fs, url, hr, ho, hone, h0, hu, h1, hf, hfind, _, hcs⟩ := shared_calls
  let calls : Nat → Sys := fun _ => s
  have hcalls : Spec.History btEnv baseOf calls := ⟨hr, fun _ => .inl rfl⟩
  have hform : (Crate.during calls btConfig).form uuidA 4 (s% "image/png") (.ok fs) :=
    ⟨0, atNow, trivial, .inr ⟨1, .ok fs, h1, hf, rfl⟩⟩
  have hurl : (Crate.during calls btConfig).url uuidA (.ok url) := ⟨0, atNow, trivial, .inr ⟨0, .ok url, h0, hu, rfl⟩⟩
  obtain ⟨now, start, hff⟩ := shared_form hr (cfg := btConfig) hform.choose_spec
  have htime : start / 1000000000 ≤ atNow / 1000000000 ∧ atNow / 1000000000 < (now + 60000000000) / 1000000000 := by
    obtain ⟨hstart, hnow⟩ := shared_time hone hcs hff
    rw [hstart, hnow]
    decide
  have hacc : (Sent.form ⟨btConfig.bucketName, formEntries fs, cat.content.length, atNow / 1000000000⟩ cat.name cat.content).Accepted
      (s% "a@b.c") n e := by
    rw [formEntries_nodup (formFrom_names hr hff)]
    exact ⟨(C86_form_accepted btEnv baseOf s hr btConfig (s% "a@b.c") n e ho uuidA _ _ fs now start hff
      cat.content.length _).2 ⟨htime.1, htime.2, rfl⟩, rfl⟩
  obtain ⟨store, hst⟩ := handles_exists (s% "a@b.c") n e
    (.form ⟨btConfig.bucketName, formEntries fs, cat.content.length, atNow / 1000000000⟩ cat.name cat.content) (fun _ _ => none)
  obtain ⟨g1, g2, g3⟩ := cat_history (cfg := btConfig) hfind hform hurl hacc hst
  obtain ⟨f1, f2, f3⟩ := cat_fine (cfg := btConfig) (fields := fs) (url := url) (time := atNow / 1000000000)
  obtain ⟨m, urls, _, k1, url', k2, _, id, _, _, _, _, k3⟩ := C98_shown_owner btEnv baseOf calls hcalls btConfig (s% "a@b.c") n e
    (fun _ => ho) _ _ g1 g2 g3 0 1 cat rfl (by decide) f1 f2 (by
      intro m' t fields' method url' hw hu
      obtain ⟨rfl, rfl⟩ := f3 m' t hw
      simp only [catStates, List.getElem?_cons_zero, Option.some.injEq, Prod.mk.injEq, true_and, Upload.uploading.injEq] at hu
      obtain ⟨rfl, _⟩ := hu
      exact ⟨0, uuidA, now, start, hff, htime⟩)
  exact ⟨calls, n, e, _, _, hcalls, fun _ => ho, g1, g2, g3, rfl, m, urls, k1, List.ne_nil_of_mem k2, id, k3⟩

/-- C98: the hypotheses of `C98_why` are met: a form is posted a minute after it was signed, and the upload fails. -/
example : ∃ n e key σ what fields method url, Reference.env.pemParse Reference.testPem = some key ∧ Rsa.PublicKeyIn key n e ∧
    SiteHistory (.alone Reference.env config) config (s% "test@example.com") n e σ what ∧ DistinctIds σ ∧
    (σ 5).uploads[0]? = some (cat, .uploading fields method url) ∧ (σ 6).uploads[0]? = some (cat, .failed) ∧
    what 5 = .posts 0 1640995260 := by
  obtain ⟨key, n, e, hpem, hpub⟩ := publicKey
  obtain ⟨fields, hfind, hform⟩ := cat_form
  have clock : ∀ k, Reference.env.now k = 1640995200000000000 := fun k => by
    show 1640995200 * nsPerSec = 1640995200000000000; decide
  obtain ⟨now, start, hf⟩ := alone_form hform
  have hrej : ¬ (Sent.form ⟨config.bucketName, formEntries fields, cat.content.length, 1640995260⟩ cat.name cat.content).Accepted
      (s% "test@example.com") n e := by
    rw [formEntries_nodup (formFor_names hf)]
    intro hacc
    have := ((C70_form_accepted Reference.env config uuidA _ _ fields now start _ _ key n e hf rfl Reference.correct hpem hpub
      cat.content.length 1640995260).1 hacc.1).2.1
    obtain ⟨w, w', hn, hs, _⟩ := hf
    rw [hn, clock] at this
    exact absurd this (by decide)
  obtain ⟨store, hst⟩ := handles_exists (s% "test@example.com") n e
    (.form ⟨config.bucketName, formEntries fields, cat.content.length, 1640995260⟩ cat.name cat.content) (fun _ _ => none)
  have hid : IsUuid uuidA := by decide
  refine ⟨n, e, key, fun m => if m ≤ 5 then catStates config fields [] store m else
      ⟨(catStates config fields [] store 5).server, store, [(cat, .failed)]⟩,
    fun m => if m ≤ 5 then catHappens config fields [] 1640995260 m else .elsewhere, fields, _, _, hpem, hpub,
    ⟨⟨_, rfl⟩, fun m => ?_⟩, fun m => ?_, rfl, rfl, rfl⟩
  · match m with
    | 0 => exact .choose cat
    | 1 => exact .send 0 cat .chosen (.create 4 (s% "image/png")) rfl rfl
    | 2 => exact site_step (i := 0) (.ok fields) (.ok []) rfl (notFinished (by decide)) hid hform rfl
    | 3 => exact site_step (i := 0) (.ok []) (.ok []) rfl (notFinished (by simp [Task.left])) hid trivial rfl
    | 4 => exact .get 0 0 cat (.registering 0) _ _ rfl rfl rfl
    | 5 => exact .postRefused 0 cat fields _ _ 1640995260 store rfl (bucketOf_prefix config.bucketName) hrej hst
    | k + 6 =>
      simp only [show ¬ k + 6 ≤ 5 by omega, show ¬ k + 6 + 1 ≤ 5 by omega, if_false]
      exact .idle
  · match m with
    | 0 | 1 | 2 | 3 | 4 | 5 => simp [catStates]
    | k + 6 => simp [catStates]

end CSS
