import Verif.Props.KeyOwner
import Verif.Props.StorageExamples
/-
A case for C83: two calls that run at the same time and share a token, a URL and a form, while the signing service signs with
the 2048-bit key of the crate's own tests.
-/
set_option linter.unusedSimpArgs false
namespace CSS
open Spec

theorem exec_started {env : Env} {base : Nat → Str} {ms : List Move} : ∀ {s s' : Sys}, s.exec env base ms = some s' →
    (∀ e ∈ s.trace, e ∈ s'.trace) ∧ ∀ i call, .start i call ∈ ms → .started i call ∈ s'.trace := by
  induction ms with
  | nil => intro s s' h; cases h; exact ⟨fun _ h => h, by simp⟩
  | cons m ms ih =>
    intro s s' h
    simp only [Sys.exec] at h
    cases hm : s.move env base m with
    | none => rw [hm] at h; cases h
    | some s1 =>
      rw [hm] at h
      obtain ⟨h1, h2⟩ := ih h
      have hstep : ∃ e, s1.trace = s.trace ++ [e] ∧ ∀ i call, m = .start i call → e = .started i call := by
        cases m <;> simp only [Sys.move] at hm <;> (repeat' split at hm) <;> (try cases hm) <;> exact ⟨_, rfl, by simp⟩
      obtain ⟨e, he, hs⟩ := hstep
      refine ⟨fun x hx => h1 x (by rw [he]; exact List.mem_append_left _ hx), fun i call hc => ?_⟩
      rcases List.mem_cons.1 hc with hc | hc
      · exact h1 _ (by rw [he, hs i call hc.symm]; simp)
      · exact h2 i call hc

/-- And only these calls. -/
theorem exec_started_only {env : Env} {base : Nat → Str} {ms : List Move} {i : Nat} {call : ApiCall} : ∀ {s s' : Sys},
    s.exec env base ms = some s' → .started i call ∈ s'.trace → .started i call ∈ s.trace ∨ .start i call ∈ ms := by
  induction ms with
  | nil => intro s s' h hm; cases h; exact .inl hm
  | cons m ms ih =>
    intro s s' h hm
    simp only [Sys.exec] at h
    cases hm1 : s.move env base m with
    | none => rw [hm1] at h; cases h
    | some s1 =>
      rw [hm1] at h
      rcases ih h hm with hm | hm
      · have hstep : ∃ e, s1.trace = s.trace ++ [e] ∧ (e = .started i call → m = .start i call) := by
          cases m <;> simp only [Sys.move] at hm1 <;> (repeat' split at hm1) <;> (try cases hm1) <;> exact ⟨_, rfl, by simp⟩
        obtain ⟨e, he, hs⟩ := hstep
        rw [he, List.mem_append, List.mem_singleton] at hm
        rcases hm with hm | hm
        · exact .inl hm
        · exact .inr (by rw [hs hm.symm]; simp)
      · exact .inr (.tail _ hm)

theorem returnedAfter_of_mem {env : Env} {base : Nat → Str} {s : Sys} (h : Sys.Reach env base s) {i : Nat} {call : ApiCall}
    {r : ApiResult} (hs : .started i call ∈ s.trace) (hr : .returned i r ∈ s.trace) :
    ∃ hist, ReturnedAfter s.trace call r hist := by
  obtain ⟨pre, post, ht⟩ := List.append_of_mem hr
  obtain ⟨call', hst, _⟩ := returned_done h ht
  have : call' = call := started_unique h (i := i) (by rw [ht]; simp [hst]) hs
  exact ⟨_, i, pre, post, ht, this ▸ hst, rfl⟩

namespace Reference
open Conformance

/-- The URL and the form of `Reference.upload_download`, from now on, with a bound token. -/
def btGet : UrlOptions := { getOptions with accessibleAt := none, signingKey := .boundToken btKey, useSignBlob := true }
def btFormOptions : SigningOptions :=
  { accessibleAt := none, expiration := 1641081600 * nsPerSec, region := none, signingKey := .boundToken btKey, useSignBlob := true }
def btForm : List Call := [.bucket (s% "example-bucket"), .key (s% "example-object"), .contentLength 1024,
  .policyDocumentSigningOptions btFormOptions]

/-- Call 0 (a URL) refreshes while call 1 (a form) waits; call 1 finds the token; both ask for a signature. -/
def askingFor (o : UrlOptions) (calls : List Call) : List Move :=
  [.start 0 (.url o), .clock 0 atNow, .go 0, .start 1 (.form calls), .clock 1 atNow, .go 0,
   .status 0 (some 200), .body 0 (some (s% "a@b.c")), .go 0, .status 0 (some 200), .body 0 (some (tokenDoc (s% "3599"))),
   .clock 0 atNow, .go 0, .go 0, .go 1, .clock 1 atNow, .go 1, .go 1, .clock 1 atNow, .go 1, .go 0, .go 1, .clock 0 atNow, .go 0, .go 0]

/-- The payload in the body of a signBlob request. -/
def payloadOf (r : Request) : Str := ((r.body.getD []).drop 12).dropLast.dropLast

def testKeyBytes : Bytes := (pemParse testPem).getD []

/-- What the signing service answers. -/
def answerTo (r : Request) : Str :=
  s% "{\"keyId\":\"k\",\"signedBlob\":\"" ++
    b64Encode ((sign testKeyBytes ((base64Decode (payloadOf r)).getD [])).getD []) ++ s% "\"}"

/-- Its answer to what call `i` has asked for last. -/
def answerFor (o : UrlOptions) (calls : List Call) (i : Nat) : Str :=
  match Sys.init.exec btEnv baseOf (askingFor o calls) with
  | some s => ((sentBy s i).getLast?.map answerTo).getD []
  | none => []

/-- Both get their answers, and return. -/
def answeredFor (o : UrlOptions) (calls : List Call) : List Move :=
  askingFor o calls ++ [.status 0 (some 200), .status 1 (some 200), .body 1 (some (answerFor o calls 1)),
    .body 0 (some (answerFor o calls 0)), .finish 0, .finish 1]

def answered : List Move := answeredFor btGet btForm

/-- The answer, if it is one to an e-mail request, names the account; if it is one to a signBlob request, it has a signature of
the payload. -/
def rightAnswer (n e : Nat) (secret : Bytes) : List Ev → Bool
  | .sent r :: .status (some _) :: .body (some text) :: _ =>
    (!decide (r = metadataGet (emailUrl (baseOf 0))) || decide (text = s% "a@b.c")) &&
    (!decide (r.method = s% "POST") ||
      (decide (r.body = some (Json.obj [(s% "payload", .str (payloadOf r))]).render) &&
        match parseSignBlobResponse text, base64Decode (payloadOf r) with
        | some blob, some m => (match base64Decode blob with
          | some sg => good testKeyBytes m sg n e secret
          | none => true)
        | _, _ => true))
  | _ => true

/-- A test for all positions in a history. -/
def everywhere (p : List Ev → Bool) : List Ev → Bool
  | [] => p []
  | x :: r => p (x :: r) && everywhere p r

def rightAnswers (n e : Nat) (secret : Bytes) (s : Sys) : Bool :=
  s.trace.all (fun ev => decide (ev.call < 2)) && (List.range 2).all fun i => everywhere (rightAnswer n e secret) (did s.trace i)

theorem everywhere_suffix {p : List Ev → Bool} : ∀ {h : List Ev}, everywhere p h = true → ∀ l, l <:+ h → p l = true
  | [], hp, l, hl => by rw [List.suffix_nil.1 hl]; exact hp
  | x :: r, hp, l, hl => by
    simp only [everywhere, Bool.and_eq_true] at hp
    rcases List.suffix_cons_iff.1 hl with rfl | hl
    · exact hp.1
    · exact everywhere_suffix hp.2 l hl

theorem did_none {tr : List Event} {i : Nat} (h : ∀ ev ∈ tr, ev.call ≠ i) : did tr i = [] := by
  unfold did
  rw [List.filterMap_eq_nil_iff]
  intro ev hev
  cases ev with
  | did j e => exact if_neg (h _ hev)
  | _ => rfl

theorem rightAnswers_owner {n e : Nat} {secret : Bytes} {s : Sys} {env : Env} (h : rightAnswers n e secret s = true) :
    KeyOwner env baseOf s.trace (.boundToken btKey) (s% "a@b.c") n e := by
  unfold rightAnswers at h
  simp only [Bool.and_eq_true, List.all_eq_true, decide_eq_true_eq, List.mem_range] at h
  have key : ∀ i l, l <:+ did s.trace i → rightAnswer n e secret l = true := by
    intro i l hl
    by_cases hi : i < 2
    · exact everywhere_suffix (h.2 i hi) l hl
    · rw [did_none (i := i) (fun ev hev heq => hi (heq ▸ h.1 ev hev))] at hl
      rw [List.suffix_nil.1 hl]; rfl
  refine ⟨?_, ?_⟩
  · rintro j c t0 life ⟨before, steps, after, hd, ⟨⟨s1, s2, doc, _, _, _, _, rfl, _⟩, _⟩, _⟩
    have := key j (refreshSteps (baseOf btKey.id) btKey.id s1 s2 doc t0 c ++ after)
      ⟨before, by rw [hd, List.append_assoc]⟩
    simp only [refreshSteps, List.cons_append, rightAnswer, Bool.and_eq_true, Bool.or_eq_true, Bool.not_eq_true',
      decide_eq_false_iff_not, decide_eq_true_eq] at this
    exact this.1.resolve_left (fun hn => hn rfl)
  · intro i token body payload message status text blob signature ⟨before, after, hd⟩ _ _ hj hp hb hs
    have := key i (.sent (signBlobPost (s% "a@b.c") token body) :: .status (some status) :: .body (some text) :: after)
      ⟨before, by rw [← hd]; simp⟩
    simp only [rightAnswer, Bool.and_eq_true, Bool.or_eq_true, Bool.not_eq_true', decide_eq_false_iff_not,
      decide_eq_true_eq] at this
    obtain ⟨h1, h2⟩ := this.2.resolve_left (fun hn => hn rfl)
    have h1 : body = (Json.obj [(s% "payload", .str (payloadOf (signBlobPost (s% "a@b.c") token body)))]).render := by
      simpa [signBlobPost] using h1
    have hp' := jsonText_unique hj (h1.symm.subst (motive := JsonText _) <| render_text (.obj [(s% "payload", .str (payloadOf (signBlobPost (s% "a@b.c") token body)))])
      (by simp [AllNums, AllNumsMembers]))
    simp only [Json.obj.injEq, List.cons.injEq, Prod.mk.injEq, Json.str.injEq, and_true, true_and] at hp'
    rw [← hp', hp, parseSignBlobResponse_iff.mpr hb] at h2
    simp only [hs] at h2
    exact (good_spec h2).2

def isOwned (s : Sys) : Bool :=
  match readKey testKeyBytes with
  | some (n, e, _, secret) => rightAnswers n e secret s
  | none => false

theorem isOwned_owner {s : Sys} {env : Env} (h : isOwned s = true) :
    ∃ n e, KeyOwner env baseOf s.trace (.boundToken btKey) (s% "a@b.c") n e := by
  unfold isOwned at h
  split at h
  · exact ⟨_, _, rightAnswers_owner h⟩
  · cases h

def returned0 (s : Sys) : Bool := s.trace.any fun
  | .returned 0 (.url (.ok _)) => true
  | _ => false

def returned1 (s : Sys) : Bool := s.trace.any fun
  | .returned 1 (.form (.ok _)) => true
  | _ => false

theorem returned0_iff {s : Sys} (h : returned0 s = true) : ∃ url, .returned 0 (.url (.ok url)) ∈ s.trace := by
  obtain ⟨ev, hm, he⟩ := List.any_eq_true.1 h
  split at he
  · exact ⟨_, hm⟩
  · cases he

theorem returned1_iff {s : Sys} (h : returned1 s = true) : ∃ fs, .returned 1 (.form (.ok fs)) ∈ s.trace := by
  obtain ⟨ev, hm, he⟩ := List.any_eq_true.1 h
  split at he
  · exact ⟨_, hm⟩
  · cases he

end Reference

open Reference Conformance in
/-- C83: the hypotheses are met. -/
theorem Reference.shared_token : ∃ s fs url hist hist' n e, Sys.Reach Conformance.btEnv Conformance.baseOf s ∧
    ReturnedAfter s.trace (.form Reference.btForm) (.form (.ok fs)) hist ∧
    ReturnedAfter s.trace (.url Reference.btGet) (.url (.ok url)) hist' ∧
    KeyOwner Conformance.btEnv Conformance.baseOf s.trace (.boundToken Conformance.btKey) (s% "a@b.c") n e ∧
    ∀ i o, .started i (.url o) ∈ s.trace → o = Reference.btGet := by
  have h : Leads btEnv baseOf answered (fun s => isOwned s && (returned0 s && returned1 s)) = true := by decide +kernel
  unfold Leads at h
  cases hs : Sys.init.exec btEnv baseOf answered with
  | none => rw [hs] at h; cases h
  | some s =>
    rw [hs] at h
    simp only [Bool.and_eq_true] at h
    have hr := exec_reach .init hs
    obtain ⟨n, e, ho⟩ := isOwned_owner (env := btEnv) h.1
    obtain ⟨url, hu⟩ := returned0_iff h.2.1
    obtain ⟨fs, hf⟩ := returned1_iff h.2.2
    obtain ⟨_, hst⟩ := exec_started hs
    obtain ⟨hist, h1⟩ := returnedAfter_of_mem hr (hst 1 (.form btForm) (by simp [answered, answeredFor, askingFor])) hf
    obtain ⟨hist', h2⟩ := returnedAfter_of_mem hr (hst 0 (.url btGet) (by simp [answered, answeredFor, askingFor])) hu
    refine ⟨s, fs, url, hist, hist', n, e, hr, h1, h2, ho, fun i o hm => ?_⟩
    rcases exec_started_only hs hm with hm | hm
    · simp [Sys.init] at hm
    · simp [answered, answeredFor, askingFor] at hm
      exact hm.2

open Reference Conformance in
/-- C83 for this case: any file of 1024 bytes, posted with the form before 2022-01-02, is what the URL answers with. -/
example : ∃ s fs url hist hist' n e start start', Sys.Reach btEnv baseOf s ∧
    ReturnedAfter s.trace (.form btForm) (.form (.ok fs)) hist ∧ ReturnedAfter s.trace (.url btGet) (.url (.ok url)) hist' ∧
    hist.head? = some (.clock start) ∧ hist'.head? = some (.clock start') ∧
    ∀ (time time' : Int) (filename : Str) (file : Bytes) (st st' : Store), start / 1000000000 ≤ time → time < 1641081600 →
      start' / 1000000000 ≤ time' → time' < start' / 1000000000 + (btGet.expires - start') / 1000000000 → file.length = 1024 →
      Handles (s% "a@b.c") n e (.form ⟨s% "example-bucket", fs, file.length, time⟩ filename file) st st' →
      ∀ content, Answers (s% "a@b.c") n e st' (theRequest btGet url time') content ↔ content = file := by
  obtain ⟨s, fs, url, hist, hist', n, e, hr, h1, h2, ho, _⟩ := Reference.shared_token
  have hp : PlainAccess btGet := ⟨rfl, rfl, by decide, getPlain.names⟩
  obtain ⟨start, start', v, v', h⟩ := C83_upload_download hr h1 (fo := btFormOptions) rfl h2 hp rfl (account := s% "a@b.c")
    ho ho (by decide) rfl rfl (by decide) (by simp [btForm, callMeta])
  refine ⟨s, fs, url, hist, hist', n, e, start, start', hr, h1, h2, v.resolve_left (by simp [btFormOptions]) |>.2,
    v'.resolve_left (by simp [btGet]) |>.2, ?_⟩
  · intro time time' filename file st st' t1 t2 t3 t4 hl hh content
    exact h time time' filename file st st' st' t1 t2 t3 t4 (by
      intro text ht
      have : lastValue btForm (s% "Content-Length") = some (s% "1024") := by decide +kernel
      rw [this, Option.some.injEq] at ht
      subst ht
      rw [hl]
      exact ⟨by decide, by decide, by decide⟩) hh rfl content

end CSS
