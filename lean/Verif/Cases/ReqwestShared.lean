import Verif.Cases.ReqwestUrl
import Verif.Props.ReqwestShared
import Verif.Props.KeyOwnerExamples
/-
Concrete cases for C104-C106 with concurrent calls and a bound token.
-/
set_option linter.unusedSimpArgs false
namespace CSS
open Spec Reference Conformance

theorem Reference.btPlain : PlainAccess btGet := ⟨rfl, rfl, by decide, getPlain.names⟩

theorem Reference.btText : PlainText (s% "a@b.c") btGet := ⟨by decide +kernel, by decide +kernel⟩

/-- C104: any file of 1024 bytes, posted with reqwest and the form, is what the URL answers with. -/
example : ∃ s fs url hist hist' n e start start', Sys.Reach btEnv baseOf s ∧
    ReturnedAfter s.trace (.form btForm) (.form (.ok fs)) hist ∧ ReturnedAfter s.trace (.url btGet) (.url (.ok url)) hist' ∧
    hist.head? = some (.clock start) ∧ hist'.head? = some (.clock start') ∧
    ∀ (b : Str) (file : Bytes) (fields : List (Str × Str)) (content : Bytes), FreshBoundary b fs file → file.length = 1024 →
      BareForm b (Reqwest.postBody b fs file) fields content →
      ∀ (time time' : Int) (st st' : Store), start / 1000000000 ≤ time → time < 1641081600 →
      start' / 1000000000 ≤ time' → time' < start' / 1000000000 + (btGet.expires - start') / 1000000000 →
      Handles (s% "a@b.c") n e (.form ⟨s% "example-bucket", fields, content.length, time⟩ [] content) st st' →
      ∀ answer, Answers (s% "a@b.c") n e st' (theRequest btGet url time') answer ↔ answer = file := by
  obtain ⟨s, fs, url, hist, hist', n, e, hr, h1, h2, ho, _⟩ := Reference.shared_token
  obtain ⟨start, start', v, v', h⟩ := C104_round_trip_owner hr h1 (fo := btFormOptions) rfl h2 btPlain rfl (account := s% "a@b.c")
    ho ho (by decide) rfl rfl (by decide) (by simp [btForm, callMeta]) (by simp [btForm, callMeta])
  refine ⟨s, fs, url, hist, hist', n, e, start, start', hr, h1, h2, v.resolve_left (by simp [btFormOptions]) |>.2,
    v'.resolve_left (by simp [btGet]) |>.2, ?_⟩
  intro b file fields content hb hl hread time time' st st' t1 t2 t3 t4 hh answer
  exact h b file fields content hb hread time time' st st' st' t1 t2 t3 t4 (by
    intro text ht
    have : lastValue btForm (s% "Content-Length") = some (s% "1024") := by decide +kernel
    rw [this, Option.some.injEq] at ht
    subst ht
    rw [hl]
    exact ⟨by decide, by decide, by decide⟩) hh rfl answer

/-- C104: the form, posted with reqwest at the time when the call began, is accepted with a file of 1024 bytes. -/
example : ∃ s fs hist n e start, Sys.Reach btEnv baseOf s ∧ ReturnedAfter s.trace (.form btForm) (.form (.ok fs)) hist ∧
    hist.head? = some (.clock start) ∧
    ∀ (b : Str) (file : Bytes) (time : Int), FreshBoundary b fs file → file.length = 1024 →
      ((∃ fields content, BareForm b (Reqwest.postBody b fs file) fields content ∧
        AcceptsPost (s% "a@b.c") n e ⟨s% "example-bucket", fields, content.length, time⟩) ↔
      start / 1000000000 ≤ time ∧ time < 1641081600) := by
  obtain ⟨s, fs, url, hist, hist', n, e, hr, h1, h2, ho, _⟩ := Reference.shared_token
  obtain ⟨i, pre, post, ht, hst, rfl⟩ := h1
  obtain ⟨env', w, w', hv, _⟩ := form_replay_owned hr ⟨i, pre, post, ht, hst, rfl⟩ (o := btFormOptions) rfl ho
  have hc := hv.resolve_left (by simp [btFormOptions]) |>.2
  refine ⟨s, fs, _, n, e, _, hr, ⟨i, pre, post, ht, hst, rfl⟩, hc, fun b file time hb hl => ?_⟩
  obtain ⟨start, v, h⟩ := C104_accepted_owner hr ⟨i, pre, post, ht, hst, rfl⟩ (o := btFormOptions) rfl ho
    (bucket := s% "example-bucket") rfl hb
  have hstart := v.resolve_left (by simp [btFormOptions]) |>.2
  rw [hc, Option.some.injEq, Ev.clock.injEq] at hstart
  rw [h time, ← hstart]
  refine ⟨fun hx => ⟨hx.1, hx.2.1⟩, fun hx => ⟨hx.1, hx.2, ?_, by simp [btForm, callMeta], by simp [btForm, callMeta]⟩⟩
  intro text ht
  have : lastValue btForm (s% "Content-Length") = some (s% "1024") := by decide +kernel
  rw [this, Option.some.injEq] at ht
  subst ht
  rw [hl]
  exact ⟨by decide, by decide, by decide⟩

/-- C106 and C105: `reqwest::get` with the URL that a bound token signed. -/
example : ∃ s url hist n e start, Sys.Reach btEnv baseOf s ∧ ReturnedAfter s.trace (.url btGet) (.url (.ok url)) hist ∧
    hist.head? = some (.clock start) ∧
    (∀ (time : Int) (st : Store), ∃ r, Reqwest.get btEnv url time = some r ∧ ∀ content, Answers (s% "a@b.c") n e st r content ↔
      (start / 1000000000 ≤ time ∧ time < start / 1000000000 + (btGet.expires - start) / 1000000000) ∧
      st (utf8 (s% "example-bucket")) (utf8 (s% "example-object")) = some content) := by
  obtain ⟨s, fs, url, hist, hist', n, e, hr, h1, h2, ho, _⟩ := Reference.shared_token
  obtain ⟨start, v, h⟩ := C106_get_owner hr h2 btPlain rfl ho btText
  exact ⟨s, url, hist', n, e, start, hr, h2, v.resolve_left (by simp [btGet]) |>.2, h⟩

/-- C105: a client with the URL that a bound token signed may add a header, but not `x-goog-…`. -/
example : ∃ s url hist n e start, Sys.Reach btEnv baseOf s ∧ ReturnedAfter s.trace (.url btGet) (.url (.ok url)) hist ∧
    hist.head? = some (.clock start) ∧
    ∀ (time : Int) (name : Str), name ∈ [s% "accept", s% "X-Goog-Meta-A"] →
      (Accepts (s% "a@b.c") n e ⟨s% "GET", url, [(s% "host", s% "storage.googleapis.com"), (name, s% "x")], time⟩ ↔
        start / 1000000000 ≤ time ∧ time < start / 1000000000 + (btGet.expires - start) / 1000000000 ∧ name = s% "accept") := by
  obtain ⟨s, fs, url, hist, hist', n, e, hr, h1, h2, ho, _⟩ := Reference.shared_token
  obtain ⟨start, v, h⟩ := C105_client_owner hr h2 btPlain.regular ho (by decide)
  refine ⟨s, url, hist', n, e, start, hr, h2, v.resolve_left (by simp [btGet]) |>.2, fun time name hn => ?_⟩
  have hsend : ∀ name ∈ [s% "accept", s% "X-Goog-Meta-A"], ∀ (url : Str) (time : Int), SendsSigned btGet
      ⟨s% "GET", url, [(s% "host", s% "storage.googleapis.com"), (name, s% "x")], time⟩ := by
    intro name hn url time x hx
    revert name x
    exact (by decide +kernel : ∀ name ∈ [s% "accept", s% "X-Goog-Meta-A"], ∀ x ∈ requestHeaders btGet,
      headerValues [(s% "host", s% "storage.googleapis.com"), (name, s% "x")] (asciiLower x.1) =
        headerValues (requestHeaders btGet) (asciiLower x.1))
  rw [h _ rfl rfl (hsend name hn url time)]
  have : (∀ x ∈ [(s% "host", s% "storage.googleapis.com"), (name, s% "x")], s% "x-goog-" <+: asciiLower x.1 →
      ∃ y ∈ requestHeaders btGet, asciiLower y.1 = asciiLower x.1) ↔ name = s% "accept" := by
    revert name
    decide +kernel
  rw [this]

def Reference.btPost : UrlOptions := { btGet with httpMethod := s% "POST" }

/-- C106: a POST with reqwest to a URL that a bound token signed. -/
example : ∃ s url hist n e start, Sys.Reach btEnv baseOf s ∧ ReturnedAfter s.trace (.url btPost) (.url (.ok url)) hist ∧
    hist.head? = some (.clock start) ∧
    ∀ (time : Int) (b : Str) (file : Bytes), FreshBoundary b [(s% "key", s% "example-object")] file →
      ∃ r, Reqwest.post btEnv url b (Reqwest.postBody b [(s% "key", s% "example-object")] file) time = some r ∧
        ∀ st st' : Store, HandlesUpload (s% "a@b.c") n e r (Reqwest.postBody b [(s% "key", s% "example-object")] file) st st' →
          ∀ bucket object, st' bucket object =
            if (start / 1000000000 ≤ time ∧ time < start / 1000000000 + (btPost.expires - start) / 1000000000) ∧
              bucket = utf8 (s% "example-bucket") ∧ object = utf8 (s% "example-object")
            then some file else st bucket object := by
  have h : Leads btEnv baseOf (answeredFor btPost btForm) (fun s => isOwned s && (returned0 s && returned1 s)) = true := by
    decide +kernel
  unfold Leads at h
  cases hs : Sys.init.exec btEnv baseOf (answeredFor btPost btForm) with
  | none => rw [hs] at h; cases h
  | some s =>
    rw [hs] at h
    simp only [Bool.and_eq_true] at h
    have hr := exec_reach .init hs
    obtain ⟨n, e, ho⟩ := isOwned_owner (env := btEnv) h.1
    obtain ⟨url, hu⟩ := returned0_iff h.2.1
    obtain ⟨_, hst⟩ := exec_started hs
    obtain ⟨hist, h2⟩ := returnedAfter_of_mem hr (hst 0 (.url btPost) (by simp [answeredFor, askingFor])) hu
    obtain ⟨start, v, h⟩ := C106_post_owner hr h2 ⟨rfl, rfl, by decide, getPlain.names⟩ rfl ho ⟨btText.email, btText.region⟩
    exact ⟨s, url, hist, n, e, start, hr, h2, v.resolve_left (by simp [btPost, btGet]) |>.2, h⟩

end CSS
