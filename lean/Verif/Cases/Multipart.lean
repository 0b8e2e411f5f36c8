import Verif.Props.PostServerExamples
import Verif.Props.ImageSiteExamples
import Verif.Props.MultipartShared
import Verif.Props.ImageSiteSharedExamples
/-
Concrete cases for C97.
-/
set_option linter.unusedSimpArgs false
namespace CSS
open Spec ImageUploader Spec.ImageUploader

/-- A boundary as browsers choose it. -/
def ImageUploader.webkit : Str := s% "----WebKitFormBoundaryA7x"

/-- The body of a small form, byte by byte. -/
example : multipartBody webkit [(s% "key", s% "a\nb"), (s% "x\"", s% "1\r\n2")] cat = utf8 (s%
    "------WebKitFormBoundaryA7x\r\nContent-Disposition: form-data; name=\"key\"\r\n\r\na\r\nb\r\n") ++ utf8 (s%
    "------WebKitFormBoundaryA7x\r\nContent-Disposition: form-data; name=\"x%22\"\r\n\r\n1\r\n2\r\n") ++ utf8 (s%
    "------WebKitFormBoundaryA7x\r\nContent-Disposition: form-data; name=\"file\"; filename=\"cat.png\"\r\nContent-Type: image/png\r\n\r\n") ++
    [137, 80, 78, 71] ++ utf8 (s% "\r\n------WebKitFormBoundaryA7x--\r\n") := by decide +kernel

/-- C97: the hypotheses are met; a file may even have the delimiter without its last character in it. -/
example : let file : ChosenFile := ⟨s% "a b.txt", [], utf8 (s% "\r\n------WebKitFormBoundaryA7\r\n\r\n--")⟩
    FreshBoundary webkit [(s% "key", s% "a\r\nb"), (s% "note", s% "\"")] file.content ∧ (∀ c ∈ file.type, c ∉ s% "\r\n") ∧
    BodyForm webkit (multipartBody webkit [(s% "key", s% "a\r\nb"), (s% "note", s% "\"")] file)
      [(s% "key", s% "a\r\nb"), (s% "note", s% "\"")] (s% "a b.txt") file.content := by
  intro file
  have hb : FreshBoundary webkit [(s% "key", s% "a\r\nb"), (s% "note", s% "\"")] file.content :=
    ⟨by decide +kernel, by decide +kernel, by decide +kernel⟩
  have hp : ∀ f ∈ [(s% "key", s% "a\r\nb"), (s% "note", s% "\"")], PlainField f := by
    intro f hf
    simp only [List.mem_cons, List.not_mem_nil, or_false] at hf
    rcases hf with rfl | rfl
    · exact ⟨by decide, normalize_paired (s% "a\nb")⟩
    · exact ⟨by decide, normalize_paired (s% "\"")⟩
  exact ⟨hb, by decide, (C97_carried webkit _ file hb (by decide) hp (by decide) _ _ _).2 ⟨rfl, rfl, rfl⟩⟩

/-- C97, the boundary matters: with a file that contains the delimiter, another form is read. -/
example : let file : ChosenFile := ⟨s% "a", s% "x", utf8 (s% "\r\n--b\r\nContent-Disposition: form-data; name=\"key\"\r\n\r\nother")⟩
    BodyParts (s% "b") (multipartBody (s% "b") [] file) [.file (s% "file") (s% "a") (s% "x") [], .field (s% "key") (utf8 (s% "other"))] := by
  refine ⟨[utf8 (s% "Content-Disposition: form-data; name=\"file\"; filename=\"a\"\r\nContent-Type: x\r\n\r\n"),
    utf8 (s% "Content-Disposition: form-data; name=\"key\"\r\n\r\nother")], utf8 (s% "\r\n"), by decide +kernel, by decide +kernel, rfl, ?_⟩
  intro x hx
  simp only [List.zip_cons_cons, List.zip_nil_left, List.mem_cons, List.not_mem_nil, or_false] at hx
  rcases hx with rfl | rfl
  · exact PartText.file (s% "file") (s% "a") (s% "x") [] (by decide) (by decide) (by decide)
  · exact PartText.field (s% "key") (utf8 (s% "other")) (by decide)

/-- The form of the crate's test, with a further field of metadata. -/
private theorem noted_form (text : Str) (ok : Conformance.yields
      ((Builder.ofCalls (.xGoogMeta (s% "note") text :: Reference.testCalls)).build Reference.env Conformance.world)
      (fun fs => decide ((s% "x-goog-meta-note", text) ∈ fs ∧ (∀ f ∈ fs, ¬ webkit <:+: f.2) ∧
        (normalizeNewlines text = text → ∀ f ∈ fs, (∀ c ∈ f.1, c ∉ s% "\"\r\n") ∧ normalizeNewlines f.2 = f.2))) = true)
    (file : ChosenFile) (hf : ¬ utf8 webkit <:+: file.content) (ht : ∀ c ∈ file.type, c ∉ s% "\r\n") (hl : file.content.length = 1024) :
    ∃ fs w' n e fields filename content,
      (Builder.ofCalls (.xGoogMeta (s% "note") text :: Reference.testCalls)).build Reference.env Conformance.world = (.ok fs, w') ∧
      (s% "x-goog-meta-note", text) ∈ fs ∧ (normalizeNewlines text = text → ∀ f ∈ fs, PlainField f) ∧
      BodyForm webkit (multipartBody webkit fs file) fields filename content ∧ content = file.content ∧
      ∀ time, AcceptsPost (s% "test@example.com") n e ⟨s% "example-bucket", fields, content.length, time⟩ ↔
        1640995200 ≤ time ∧ time < 1641081600 ∧ (∀ f ∈ fs, PlainField f) := by
  obtain ⟨fs, w', h, hfs⟩ := Conformance.yields_iff ok
  obtain ⟨hm, hfresh, hplain⟩ := of_decide_eq_true hfs
  have hkey : ((Reference.env.pemParse Reference.testPem).bind fun key => Reference.sign key []).isSome = true := by
    decide +kernel
  obtain ⟨s, hs⟩ := Option.isSome_iff_exists.1 hkey
  obtain ⟨key, hpem, hs⟩ := Option.bind_eq_some_iff.1 hs
  obtain ⟨n, e, hpub, _⟩ := Reference.sign_spec hs
  obtain ⟨fields, filename, content, h1, _, h3, h4⟩ := C97_accepted_iff Reference.env _ _ _ w' fs (s% "test@example.com")
    Reference.testPem key n e (s% "example-bucket") webkit file rfl h rfl Reference.correct hpem hpub rfl
    ⟨by decide +kernel, hfresh, hf⟩ ht
  refine ⟨fs, w', n, e, fields, filename, content, h, hm, fun ht f hf => ⟨(hplain ht f hf).1, by
    rw [← (hplain ht f hf).2]; exact normalize_paired _⟩, h1, h3, fun time => ?_⟩
  rw [h4 time]
  have e1 : validFrom Reference.env (some (1640995200 * nsPerSec)) Conformance.world / 1000000000 = 1640995200 := by decide
  have e2 : (1641081600 * nsPerSec) / 1000000000 = 1641081600 := by decide
  have e3 : lastValue (.xGoogMeta (s% "note") text :: Reference.testCalls) (s% "Content-Length") = some (s% "1024") := by rfl
  constructor
  · rintro ⟨a, b, _, _, c⟩
    exact ⟨a, b, c⟩
  · rintro ⟨a, b, c⟩
    refine ⟨a, b, ?_, ?_, c⟩
    · intro t ht
      rw [e3] at ht
      rw [← Option.some.inj ht, hl]
      exact ⟨by decide, by decide, rfl⟩
    · intro m hm m' hm' he
      change m ∈ [(s% "note", text), (s% "reviewer", s% "jane"), (s% "project-manager", s% "john")] at hm
      change m' ∈ [(s% "note", text), (s% "reviewer", s% "jane"), (s% "project-manager", s% "john")] at hm'
      simp only [List.mem_cons, List.not_mem_nil, or_false] at hm hm'
      rcases hm with rfl | rfl | rfl <;> rcases hm' with rfl | rfl | rfl <;> first | rfl | exact absurd he (by simp)

/-- C97: a file of 1024 bytes, posted with the form of the crate's test, is accepted for a day. -/
example : ∃ fs w' n e fields filename content,
    (Builder.ofCalls (.xGoogMeta (s% "note") (s% "a\r\nb") :: Reference.testCalls)).build Reference.env Conformance.world = (.ok fs, w') ∧
    BodyForm webkit (multipartBody webkit fs ⟨s% "a", [], List.replicate 1024 7⟩) fields filename content ∧
    AcceptsPost (s% "test@example.com") n e ⟨s% "example-bucket", fields, content.length, 1640995200⟩ := by
  obtain ⟨fs, w', n, e, fields, filename, content, h1, h2, hp, h3, h4, h5⟩ := noted_form (s% "a\r\nb") (by decide +kernel)
    ⟨s% "a", [], List.replicate 1024 7⟩ (by decide +kernel) (by decide) (by decide +kernel)
  refine ⟨fs, w', n, e, fields, filename, content, h1, h3, (h5 _).2 ⟨by decide, by decide, hp (by decide)⟩⟩

/-- C97: with a lone line feed in the metadata, the same form is never accepted. -/
example : ∃ fs w' n e fields filename content,
    (Builder.ofCalls (.xGoogMeta (s% "note") (s% "a\nb") :: Reference.testCalls)).build Reference.env Conformance.world = (.ok fs, w') ∧
    BodyForm webkit (multipartBody webkit fs ⟨s% "a", [], List.replicate 1024 7⟩) fields filename content ∧
    ∀ time, ¬ AcceptsPost (s% "test@example.com") n e ⟨s% "example-bucket", fields, content.length, time⟩ := by
  obtain ⟨fs, w', n, e, fields, filename, content, h1, h2, hp, h3, h4, h5⟩ := noted_form (s% "a\nb") (by decide +kernel)
    ⟨s% "a", [], List.replicate 1024 7⟩ (by decide +kernel) (by decide) (by decide +kernel)
  refine ⟨fs, w', n, e, fields, filename, content, h1, h3, fun time hacc => ?_⟩
  obtain ⟨b, hb⟩ := ((((h5 time).1 hacc).2.2 _ h2).2 ['a'] ['b']).2 rfl
  have := congrArg List.getLast? hb
  simp at this

/-- A file is chosen and registered; its page is about to post it. -/
theorem cat_uploading {crate : Crate} {cfg : Config} {account : Str} {n e : Nat} {fields : List (Str × Str)}
    (hform : crate.form uuidA 4 (s% "image/png") (.ok fields)) :
    Site.Run crate cfg account n e [.created 0 uuidA]
      ⟨⟨[⟨uuidA, false⟩], [(.create 4 (s% "image/png"), .replied (.form fields (s% "POST") (s% "https://storage.googleapis.com/" ++
        cfg.bucketName)))]⟩, fun _ _ => none, [(cat, .uploading fields (s% "POST") (s% "https://storage.googleapis.com/" ++ cfg.bucketName))]⟩ := by
  have hid : IsUuid uuidA := by decide
  let R := Site.Run crate cfg account n e
  let create : Req := .create 4 (s% "image/png")
  let form : Task := .replied (.form fields (s% "POST") (s% "https://storage.googleapis.com/" ++ cfg.bucketName))
  have r1 : R [] ⟨⟨[], []⟩, fun _ _ => none, [(cat, .chosen)]⟩ := .choose cat (.start _)
  have r2 : R [] ⟨⟨[], [(create, .create 4 (s% "image/png"))]⟩, fun _ _ => none, [(cat, .registering 0)]⟩ :=
    .send 0 cat .chosen create r1 rfl rfl
  have r3 : R [] ⟨⟨[], [(create, .push uuidA fields)]⟩, fun _ _ => none, [(cat, .registering 0)]⟩ :=
    run_step (i := 0) (.ok fields) (.ok []) r2 rfl hid hform rfl
  have r4 : R [.created 0 uuidA] ⟨⟨[⟨uuidA, false⟩], [(create, form)]⟩, fun _ _ => none, [(cat, .registering 0)]⟩ :=
    run_step (i := 0) (.ok []) (.ok []) r3 rfl hid trivial rfl
  have r5 : R [.created 0 uuidA] ⟨⟨[⟨uuidA, false⟩], [(create, form)]⟩, fun _ _ => none,
      [(cat, .uploading fields (s% "POST") (s% "https://storage.googleapis.com/" ++ cfg.bucketName))]⟩ :=
    .answer 0 0 cat (.registering 0) create _ r4 rfl rfl rfl
  exact r5

/-- C97: the hypotheses of the theorem about the page are met; the file that was chosen is stored. -/
example : ∃ n e s fields url, Site.Run (.alone Reference.env config) config (s% "test@example.com") n e [.created 0 uuidA] s ∧
    s.uploads[0]? = some (cat, .uploading fields (s% "POST") url) ∧ FreshBoundary webkit fields cat.content ∧
    ∃ bucket fields' filename content, BodyForm webkit (uploadBody webkit fields cat) fields' filename content ∧
      ∀ store store', Handles (s% "test@example.com") n e (.form ⟨bucket, fields', content.length, 1640995230⟩ filename content) store store' →
        store' (utf8 bucket) (utf8 uuidA) = some cat.content := by
  obtain ⟨key, n, e, hpem, hpub⟩ := publicKey
  have hform : ∃ fields, findKey fields = some uuidA ∧ (∀ f ∈ fields, ¬ webkit <:+: f.2) ∧
      (Crate.alone Reference.env config).form uuidA 4 (s% "image/png") (.ok fields) := by
    have h : (match createForm Reference.env config uuidA 4 (s% "image/png") Conformance.world with
      | (.ok fields, _) => decide (findKey fields = some uuidA ∧ ∀ f ∈ fields, ¬ webkit <:+: f.2)
      | _ => false) = true := by decide +kernel
    split at h
    · rename_i fields w' hf
      have h := of_decide_eq_true h
      exact ⟨fields, h.1, h.2, Conformance.world, by rw [hf]⟩
    · cases h
  obtain ⟨fields, hfind, hfresh, hform⟩ := hform
  have r5 := cat_uploading (cfg := config) (account := s% "test@example.com") (n := n) (e := e) hform
  have hb : FreshBoundary webkit fields cat.content := ⟨by decide +kernel, hfresh, by decide +kernel⟩
  obtain ⟨bucket, id, now, start, fields', filename, content, h1, h2, ⟨w, w', hn, hs, _⟩, h4, _, h6⟩ := C97_page Reference.env config _ _
    key n e _ _ r5 (by decide) rfl Reference.correct hpem hpub (by decide) (by decide) 0 cat fields _ _ webkit rfl (by decide) hb
  refine ⟨n, e, _, fields, _, r5, rfl, hb, bucket, fields', filename, content, h4, fun store store' hh => ?_⟩
  have hclock : ∀ k, Reference.env.now k = 1640995200000000000 := fun k => by
    show 1640995200 * nsPerSec = 1640995200000000000; decide
  have := h6 1640995230 store store' hh
  rw [hn, hs, hclock, hclock, if_pos (by decide)] at this
  rw [hfind] at h2
  rw [Option.some.inj h2]
  exact this.1

/-- The form that call 1 has returned, with the boundary in no value. -/
def Reference.fresh1 (s : Sys) : Bool := s.trace.any fun
  | .returned 1 (.form (.ok fs)) => decide (findKey fs = some uuidA ∧ ∀ f ∈ fs, ¬ webkit <:+: f.2)
  | _ => false

open Reference Conformance in
/-- C97: the hypotheses of the theorems for concurrent calls are met, with a bound token. -/
example : ∃ s n e site fields url hist, Sys.Reach btEnv baseOf s ∧ KeyOwner btEnv baseOf s.trace btConfig.signingKey (s% "a@b.c") n e ∧
    Site.Run (.shared s.trace btConfig) btConfig (s% "a@b.c") n e [.created 0 uuidA] site ∧
    site.uploads[0]? = some (cat, .uploading fields (s% "POST") url) ∧ FreshBoundary webkit fields cat.content ∧
    ReturnedAfter s.trace (.form catCalls) (.form (.ok fields)) hist ∧
    ∃ bucket fields' filename content, BodyForm webkit (uploadBody webkit fields cat) fields' filename content ∧
      ∀ store store', Handles (s% "a@b.c") n e (.form ⟨bucket, fields', content.length, atNow / 1000000000⟩ filename content) store store' →
        store' (utf8 bucket) (utf8 uuidA) = some cat.content := by
  have h : Leads btEnv baseOf (answeredFor catOptions catCalls) (fun s => isOwned s && (fresh1 s && oneTime s)) = true := by decide +kernel
  unfold Leads at h
  cases hs : Sys.init.exec btEnv baseOf (answeredFor catOptions catCalls) with
  | none => rw [hs] at h; cases h
  | some s =>
    rw [hs] at h
    simp only [Bool.and_eq_true] at h
    have hr := exec_reach .init hs
    obtain ⟨n, e, ho⟩ := isOwned_owner (env := btEnv) h.1
    obtain ⟨fs, hf, hfind, hfresh⟩ : ∃ fs, .returned 1 (.form (.ok fs)) ∈ s.trace ∧ findKey fs = some uuidA ∧
        ∀ f ∈ fs, ¬ webkit <:+: f.2 := by
      obtain ⟨ev, hm, he⟩ := List.any_eq_true.1 h.2.1
      split at he
      · exact ⟨_, hm, of_decide_eq_true he⟩
      · cases he
    obtain ⟨_, hst⟩ := exec_started hs
    have h1 := hst 1 (.form catCalls) (by simp [answeredFor, askingFor])
    obtain ⟨hist, hret⟩ := returnedAfter_of_mem hr h1 hf
    have r5 := cat_uploading (crate := .shared s.trace btConfig) (cfg := btConfig) (account := s% "a@b.c") (n := n) (e := e) (fields := fs)
      ⟨atNow, trivial, .inr ⟨1, .ok fs, h1, hf, rfl⟩⟩
    have hb : FreshBoundary webkit fs cat.content := ⟨by decide +kernel, hfresh, by decide +kernel⟩
    obtain ⟨bucket, id, now, start, fields', filename, content, g1, g2, ⟨hist', hv, hret'⟩, g4, _, g6⟩ := C97_page_owner btEnv baseOf s hr
      btConfig (s% "a@b.c") n e _ _ r5 (by decide) ho (by decide) (by decide) 0 cat fs _ _ webkit rfl (by decide) hb
    have hstart := oneTime_valid h.2.2 hret' hv
    have hnow : now = atNow := by
      obtain ⟨i, pre, post, ht, hi, _⟩ := hret'
      rcases exec_started_only hs (show Event.started i _ ∈ s.trace by rw [ht]; exact List.mem_append_left _ hi) with hm | hm
      · simp [Sys.init] at hm
      · simp [answeredFor, askingFor, catCalls, createCalls] at hm
        have := hm.2.2.2.2
        simp only [nsPerSec] at this
        omega
    refine ⟨s, n, e, _, fs, _, hist, hr, ho, r5, rfl, hb, hret, bucket, fields', filename, content, g4, fun store store' hh => ?_⟩
    have := g6 (atNow / 1000000000) store store' hh
    rw [hstart, hnow, if_pos (by decide)] at this
    rw [hfind] at g2
    rw [Option.some.inj g2]
    exact this.1

end CSS
