import Verif.Props.ImageRestartShared
import Verif.Props.ImageRestartExamples
import Verif.Props.ImageSiteRestartShared
import Verif.Props.ImageSiteRestartExamples
import Verif.Props.ImageSiteSharedExamples
/-
A concrete case for C99 with a bound token: an image is registered, reported and listed, then the process crashes and a new one lists
nothing.
-/
namespace CSS
open Spec ImageUploader Spec.ImageUploader Reference Conformance

/-- The history, whatever the crate is. -/
theorem ImageUploader.lost_image {crate : Crate} {cfg : Config} {fields : List (Str × Str)} {url : Str}
    (hform : crate.form uuidA 4 (s% "image/png") (.ok fields)) (hurl : crate.url uuidA (.ok url)) :
    ∃ s, Lives crate cfg [.event (.created 0 uuidA), .event (.updated 1 uuidA), .event (.listed 2), .restarted, .event (.listed 3)] s ∧
      s.tasks = [(.create 4 (s% "image/png"),
        .replied (.form fields (s% "POST") (s% "https://storage.googleapis.com/" ++ cfg.bucketName))),
        (.update uuidA, .replied .noContent), (.list, .replied (.urls [url])), (.list, .replied (.urls []))] := by
  have hA : IsUuid uuidA := by decide
  let create : Req := .create 4 (s% "image/png")
  let form : Task := .replied (.form fields (s% "POST") (s% "https://storage.googleapis.com/" ++ cfg.bucketName))
  let R := Lives crate cfg
  have r1 : R [] ⟨[], [(create, .create 4 (s% "image/png"))]⟩ := .receive create .start
  have r2 : R [] ⟨[], [(create, .push uuidA fields)]⟩ := lives_step (i := 0) (.ok fields) (.ok []) r1 rfl hA hform rfl
  have r3 : R [.event (.created 0 uuidA)] ⟨[⟨uuidA, false⟩], [(create, form)]⟩ :=
    lives_step (i := 0) (.ok []) (.ok []) r2 rfl hA trivial rfl
  have r4 : R [.event (.created 0 uuidA)] ⟨[⟨uuidA, false⟩], [(create, form), (.update uuidA, .update uuidA)]⟩ := .receive (.update uuidA) r3
  have r5 : R [.event (.created 0 uuidA), .event (.updated 1 uuidA)]
      ⟨[⟨uuidA, true⟩], [(create, form), (.update uuidA, .replied .noContent)]⟩ :=
    lives_step (i := 1) (.ok []) (.ok []) r4 rfl hA trivial (by simp [Task.step, markUploaded])
  have r6 : R [.event (.created 0 uuidA), .event (.updated 1 uuidA)]
      ⟨[⟨uuidA, true⟩], [(create, form), (.update uuidA, .replied .noContent), (.list, .list)]⟩ := .receive .list r5
  have r7 : R [.event (.created 0 uuidA), .event (.updated 1 uuidA), .event (.listed 2)]
      ⟨[⟨uuidA, true⟩], [(create, form), (.update uuidA, .replied .noContent), (.list, .sign [⟨uuidA, true⟩] [])]⟩ :=
    lives_step (i := 2) (.ok []) (.ok []) r6 rfl hA trivial rfl
  have r8 : R [.event (.created 0 uuidA), .event (.updated 1 uuidA), .event (.listed 2)]
      ⟨[⟨uuidA, true⟩], [(create, form), (.update uuidA, .replied .noContent), (.list, .sign [] [url])]⟩ :=
    lives_step (i := 2) (.ok []) (.ok url) r7 rfl hA (fun _ => hurl) (by simp [Task.step])
  have r9 : R [.event (.created 0 uuidA), .event (.updated 1 uuidA), .event (.listed 2)]
      ⟨[⟨uuidA, true⟩], [(create, form), (.update uuidA, .replied .noContent), (.list, .replied (.urls [url]))]⟩ :=
    lives_step (i := 2) (.ok []) (.ok []) r8 rfl hA trivial rfl
  have r10 : R [.event (.created 0 uuidA), .event (.updated 1 uuidA), .event (.listed 2), .restarted]
      ⟨[], [(create, form), (.update uuidA, .replied .noContent), (.list, .replied (.urls [url]))]⟩ := .restart r9
  have r11 : R [.event (.created 0 uuidA), .event (.updated 1 uuidA), .event (.listed 2), .restarted]
      ⟨[], [(create, form), (.update uuidA, .replied .noContent), (.list, .replied (.urls [url])), (.list, .list)]⟩ := .receive .list r10
  have r12 : R [.event (.created 0 uuidA), .event (.updated 1 uuidA), .event (.listed 2), .restarted, .event (.listed 3)]
      ⟨[], [(create, form), (.update uuidA, .replied .noContent), (.list, .replied (.urls [url])), (.list, .sign [] [])]⟩ :=
    lives_step (i := 3) (.ok []) (.ok []) r11 rfl hA trivial rfl
  exact ⟨_, lives_step (i := 3) (.ok []) (.ok []) r12 rfl hA trivial rfl, rfl⟩

/-- The calls of the two lives: two that share a bound token in the first one, none in the second one. -/
def Reference.callsOf (s : Sys) (k : Nat) : Sys := if k = 0 then s else Sys.init

theorem Reference.callsOf_reach {s : Sys} (h : Sys.Reach btEnv baseOf s) (k : Nat) : Sys.Reach btEnv baseOf (callsOf s k) := by
  unfold callsOf
  split
  · exact h
  · exact .init

theorem Reference.no_calls {cfg : Config} {id url : Str} {n : Nat} {c : Str} {fs : List (Str × Str)} {now start : Time} :
    ¬ UrlFrom Sys.init.trace cfg id url now start ∧ ¬ FormFrom Sys.init.trace cfg id n c fs now start := by
  constructor <;>
  · rintro ⟨hist, _, i, pre, post, ht, _⟩
    simp [Sys.init] at ht

/-- C99 with a bound token: the hypotheses are met. After the crash the listing is empty, and during the 60 seconds after the
signature the storage server takes the form and answers the URL of the lost process. -/
example : ∃ (s : Sys) (n e : Nat) (fs : List (Str × Str)) (url : Str) (st : State), (∀ k, Sys.Reach btEnv baseOf (callsOf s k)) ∧
    Lives (.inLives (callsOf s) btConfig) btConfig
      [.event (.created 0 uuidA), .event (.updated 1 uuidA), .event (.listed 2), .restarted, .event (.listed 3)] st ∧
    st.tasks[2]? = some (.list, .replied (.urls [url])) ∧ st.tasks[3]? = some (.list, .replied (.urls [])) ∧
    ∀ time : Int, atNow / 1000000000 ≤ time → time < atNow / 1000000000 + 60 →
      AcceptsPost (s% "a@b.c") n e ⟨btConfig.bucketName, fs, 4, time⟩ ∧
      Accepts (s% "a@b.c") n e ⟨s% "GET", url, [(s% "host", s% "storage.googleapis.com")], time⟩ := by
  obtain ⟨s, n, e, fs, url, hr, ho, hone, h0, hu, h1, hf, hfind, honly, hcs⟩ := shared_calls
  obtain ⟨st, hl, ht⟩ := lost_image (crate := .inLives (callsOf s) btConfig) (cfg := btConfig) (fields := fs) (url := url)
    ⟨0, atNow, trivial, .inr ⟨1, .ok fs, h1, hf, rfl⟩⟩ ⟨0, atNow, trivial, .inr ⟨0, .ok url, h0, hu, rfl⟩⟩
  refine ⟨s, n, e, fs, url, st, callsOf_reach hr, hl, by rw [ht]; rfl, by rw [ht]; rfl, fun time t1 t2 => ⟨?_, ?_⟩⟩
  · obtain ⟨k, id, now, start, _, hff, hacc⟩ := C99_shared_form (fun _ => btEnv) (fun _ => baseOf) (callsOf s) (callsOf_reach hr) btConfig
      _ st hl 0 4 (s% "image/png") _ _ fs (by rw [ht]; rfl)
    unfold callsOf at hff hacc
    split at hff
    · simp only [*, if_true] at hacc
      obtain ⟨hstart, hnow⟩ := shared_time hone hcs hff
      refine (hacc _ n e ho 4 time).2 ?_
      rw [hstart, hnow]
      refine ⟨t1, ?_, rfl⟩
      rw [show (atNow + 60000000000) / 1000000000 = atNow / 1000000000 + 60 by decide]
      exact t2
    · exact absurd hff (no_calls (url := [])).2
  · obtain ⟨k, j, id, now, start, _, hff, hacc⟩ := C99_shared_url (fun _ => btEnv) (fun _ => baseOf) (callsOf s) (callsOf_reach hr) btConfig
      (by decide) _ st hl (by decide) 2 .list [url] (by rw [ht]; rfl) url (by simp)
    unfold callsOf at hff hacc
    split at hff
    · simp only [*, if_true] at hacc
      refine (hacc _ n e ho (by decide) time).2 ?_
      obtain ⟨hist, hv, hret⟩ := hff
      have hstart := oneTime_valid hone hret hv
      obtain ⟨i, pre, post, htr, hi, _⟩ := hret
      have ho' := honly i _ (by rw [htr]; exact List.mem_append_left _ hi)
      have hnow : now = atNow := by
        have := congrArg UrlOptions.expires ho'
        simp only [catOptions, listOptions, nsPerSec] at this
        omega
      rw [hstart, hnow]
      exact ⟨t1, t2⟩
    · exact absurd hff (no_calls (fs := []) (n := 0) (c := [])).1

theorem Reference.callsOf_owner {s : Sys} {n e : Nat} (h : KeyOwner btEnv baseOf s.trace btConfig.signingKey (s% "a@b.c") n e) (k : Nat) :
    KeyOwner btEnv baseOf (callsOf s k).trace btConfig.signingKey (s% "a@b.c") n e := by
  unfold callsOf
  split
  · exact h
  · refine ⟨fun j c t0 life hr => ?_, ?_⟩
    · obtain ⟨before, steps, after, hx, hr, _⟩ := hr
      obtain ⟨s1, s2, doc, _, _, _, _, hs, _⟩ := hr.answers
      have hlen := congrArg List.length hx
      rw [hs] at hlen
      simp [Sys.init, did, refreshSteps] at hlen
    · intro i token body payload message status text blob signature hsub
      have := hsub.length_le
      simp [Sys.init, did] at this

/-- C100 with a bound token: the hypotheses are met. The server crashes between the registration of a file and its upload, the page
uploads the file with the form of the lost process and reports it, and it is shown an empty list, while the file is stored. -/
example : ∃ (s : Sys) (n e : Nat) (site : Site), (∀ k, Sys.Reach btEnv baseOf (callsOf s k)) ∧
    (∀ k, KeyOwner btEnv baseOf (callsOf s k).trace btConfig.signingKey (s% "a@b.c") n e) ∧
    Site.Lives (.inLives (callsOf s) btConfig) btConfig (s% "a@b.c") n e
      [.event (.created 0 uuidA), .restarted, .event (.updated 1 uuidA), .event (.listed 2)] site ∧
    site.uploads = [(cat, .shown [])] ∧ site.store (utf8 btConfig.bucketName) (utf8 uuidA) = some cat.content := by
  obtain ⟨s, n, e, fs, url, hr, ho, hone, h0, hu, h1, hf, hfind, honly, hcs⟩ := shared_calls
  obtain ⟨site, r1, r2, _⟩ := cat_crash (crate := .inLives (callsOf s) btConfig) (cfg := btConfig) (account := s% "a@b.c") (n := n) (e := e)
    (fields := fs) hfind ⟨0, atNow, trivial, .inr ⟨1, .ok fs, h1, hf, rfl⟩⟩ (by
      intro site hrun url' hup
      obtain ⟨_, bucket, id, k, now, start, hb, hk, hff, hacc⟩ := C100_shared_upload_accepted (fun _ => btEnv) (fun _ => baseOf) (callsOf s)
        (callsOf_reach hr) btConfig (s% "a@b.c") n e _ site hrun (by decide) (callsOf_owner ho) 0 cat fs _ _ hup
      unfold callsOf at hff
      split at hff
      · obtain ⟨hstart, hnow⟩ := shared_time hone hcs hff
        refine ⟨bucket, atNow / 1000000000, hb, (hacc _).2 ?_⟩
        rw [hstart, hnow]
        decide
      · exact absurd hff (no_calls (url := [])).2)
  refine ⟨s, n, e, site, callsOf_reach hr, callsOf_owner ho, r1, r2, ?_⟩
  obtain ⟨id, i, l, before, between, after, h1, _, _, _, h5, _⟩ := C100_shared_own_image (fun _ => btEnv) (fun _ => baseOf) (callsOf s)
    (callsOf_reach hr) btConfig (s% "a@b.c") n e _ site r1 (by decide) (by decide) 0 cat [] (by rw [r2]; rfl)
  have hm : Episode.event (.created i id) ∈ [.event (.created 0 uuidA), .restarted, .event (.updated 1 uuidA), .event (.listed 2)] := by
    rw [h1]; simp
  simp at hm
  rwa [hm.2] at h5

end CSS
