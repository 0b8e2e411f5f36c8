import Verif.Props.Recovery
import Verif.Props.KeyOwnerExamples
/-
Non-vacuity of C89.
-/
namespace CSS
open Spec

variable {env : Env} {base : Nat → Str}

/-- Test the answers to requests. -/
def answersCheck (f : Request → Str → Bool) : List Ev → Bool
  | [] => true
  | e :: rest => (match e, rest with
      | .sent r, .status _ :: .body (some doc) :: _ => f r doc
      | _, _ => true) && answersCheck f rest

theorem answers_of_check {f : Request → Str → Bool} {h before : List Ev} {r : Request} {status : Option Nat} {doc : Str}
    (hc : answersCheck f h = true) (hp : before ++ [.sent r, .status status, .body (some doc)] <+: h) : f r doc = true := by
  obtain ⟨rest, rfl⟩ := hp
  induction before with
  | nil =>
    simp only [List.nil_append, List.cons_append, answersCheck, Bool.and_eq_true] at hc
    exact hc.1
  | cons e before ih =>
    simp only [List.cons_append, answersCheck, Bool.and_eq_true] at hc
    exact ih hc.2

def wellCheck (base : Str) (h : List Ev) : Bool :=
  h.all (fun
    | .status (some s) => 200 ≤ s && s ≤ 299
    | .status none => false
    | .body none => false
    | _ => true) &&
  answersCheck (fun r doc => (r.url != tokenUrl base || (match parseAccessToken doc with
      | some t => t.tokenType == s% "Bearer"
      | none => false)) &&
    (r.method != s% "POST" || (match parseSignBlobResponse doc with
      | some blob => (b64Decode blob).isSome
      | none => false))) h

theorem well_of_check {b : Str} {id : Nat} {h : List Ev} (hb : ∀ r, env.canBuild r = true) (hc : wellCheck b h = true) :
    AnsweredWell env b id h := by
  unfold wellCheck at hc
  rw [Bool.and_eq_true] at hc
  refine ⟨hb _, hb _, fun _ _ _ _ _ _ => hb _, ?_, ?_, ?_⟩
  · intro e he
    have := List.all_eq_true.1 hc.1 e he
    cases e with
    | status o =>
      cases o with
      | none => cases this
      | some n =>
        simp at this
        exact ⟨fun st hst => ⟨n, by cases hst; rfl, this⟩, by simp⟩
    | body o =>
      cases o with
      | none => cases this
      | some n => exact ⟨by simp, by simp⟩
    | _ => exact ⟨by simp, by simp⟩
  · intro before status doc hp
    have := answers_of_check hc.2 hp
    rw [Bool.and_eq_true] at this
    have h1 := this.1
    have hu : (metadataGet (tokenUrl b)).url = tokenUrl b := rfl
    rw [hu] at h1
    simp only [bne_self_eq_false, Bool.false_or] at h1
    cases hp : parseAccessToken doc with
    | none => rw [hp] at h1; cases h1
    | some t =>
      rw [hp] at h1
      refine ⟨t.accessToken, t.expiresIn, ?_⟩
      have := parseAccessToken_iff.1 hp
      rw [beq_iff_eq] at h1
      rwa [h1] at this
  · intro before email token body status text hp
    have := answers_of_check hc.2 hp
    rw [Bool.and_eq_true] at this
    have h1 := this.2
    have hu : (signBlobPost email token body).method = s% "POST" := rfl
    rw [hu] at h1
    simp only [bne_self_eq_false, Bool.false_or] at h1
    cases hp : parseSignBlobResponse text with
    | none => rw [hp] at h1; cases h1
    | some blob =>
      rw [hp] at h1
      obtain ⟨sig, hs⟩ := Option.isSome_iff_exists.1 h1
      exact ⟨blob, sig, parseSignBlobResponse_iff.1 hp, by rw [← b64Decode_eq]; exact hs⟩

namespace Conformance

def anHourLater : Time := atNow + 3580 * nsPerSec

/-- After the three failed calls of `failing`, and when the token has no more than 30 s left, call 3 begins a refresh and is dropped while
it waits for the e-mail; call 4 refreshes and signs. -/
def recovering : List Move :=
  failing ++ [.start 3 (.url btUrlOptions), .clock 3 anHourLater, .go 3, .clock 3 anHourLater, .go 3, .start 4 (.form btCalls),
   .clock 4 anHourLater, .cancel 3, .go 4, .clock 4 anHourLater, .go 4, .status 4 (some 200), .body 4 (some (s% "a@b.c")), .go 4,
   .status 4 (some 200), .body 4 (some (tokenDoc (s% "3599"))), .clock 4 anHourLater, .go 4, .go 4, .go 4, .clock 4 anHourLater,
   .go 4, .go 4, .status 4 (some 200), .body 4 (some (s% "{\"keyId\":\"k\",\"signedBlob\":\"AQID\"}")), .finish 4]

/-- The clock comes to its senses after `panicking`, but call 2, with options that are in order, panics too. -/
def lost : List Move :=
  panicking ++ [.start 2 (.form btCalls), .clock 2 atNow, .go 2, .go 2, .finish 2]

end Conformance

open Conformance

theorem returned_of_any {s : Sys} {i : Nat} (h : (s.trace.any fun | .returned j _ => j == i | _ => false) = true) :
    ∃ pre r post, s.trace = pre ++ .returned i r :: post := by
  obtain ⟨e, he, hc⟩ := List.any_eq_true.1 h
  cases e with
  | returned j r =>
    simp only [beq_iff_eq] at hc
    subst hc
    obtain ⟨pre, post, ht⟩ := List.append_of_mem he
    exact ⟨pre, r, post, ht⟩
  | _ => cases hc

/-- Non-vacuity of `C89_succeeds`: three calls have failed and one was dropped, and call 4 succeeds. -/
example : ∃ s pre post r, Sys.Reach btEnv baseOf s ∧ SaneHistory s.trace ∧ failedThrice s = true ∧
    .started 3 (.url btUrlOptions) ∈ s.trace ∧ ¬ Running s 3 ∧
    s.trace = pre ++ .returned 4 r :: post ∧ .started 4 (.form btCalls) ∈ pre ∧
    CallInOrder btEnv btKey (did pre 4) (.form btCalls) ∧ AnsweredWell btEnv btKey.baseUrl btKey.id (did pre 4) ∧
    (did pre 4).length = 18 := by
  have h : Leads btEnv baseOf recovering (fun s => (failedThrice s && saneCheck s.trace) && ((s.calls 3).isNone &&
      (s.trace.any fun | .returned j _ => j == 4 | _ => false)) &&
      (decide ((did s.trace 4).head? = some (.clock anHourLater)) && (wellCheck btKey.baseUrl (did s.trace 4) &&
        (did s.trace 4).length == 18))) = true := by decide +kernel
  unfold Leads at h
  cases hs : Sys.init.exec btEnv baseOf recovering with
  | none => rw [hs] at h; cases h
  | some s =>
    rw [hs] at h
    simp only [Bool.and_eq_true, decide_eq_true_eq, beq_iff_eq] at h
    obtain ⟨⟨⟨h1, h2⟩, h3, h4⟩, h5, h6, h7⟩ := h
    have hr := exec_reach .init hs
    obtain ⟨_, hst⟩ := exec_started hs
    have s3 := hst 3 (.url btUrlOptions) (by simp [recovering])
    have s4 := hst 4 (.form btCalls) (by simp [recovering])
    obtain ⟨pre, r, post, ht⟩ := returned_of_any h4
    have hd := did_returned hr ht
    rw [hd] at h5 h6 h7
    obtain ⟨call, hc, _⟩ := returned_done hr ht
    have : call = .form btCalls := started_unique hr (by rw [ht]; exact List.mem_append_left _ hc) s4
    subst this
    refine ⟨s, pre, post, r, hr, sane_of_check h2, h1, s3, ?_, ht, hc, ?_, well_of_check (fun _ => rfl) h6, h7⟩
    · unfold Running
      cases h0 : s.calls 3 with
      | none => simp
      | some p => rw [h0] at h3; cases h3
    · refine ⟨btOptions, rfl, rfl, rfl, by decide +kernel, by decide +kernel, by decide +kernel, ?_⟩
      rintro t (hx | ⟨_, hx⟩)
      · cases hx
      · rw [h5] at hx
        cases hx
        decide +kernel

/-- Non-vacuity of `C89_poisoned` and `C89_key_lost`: two calls have met an expiry before 1970; and call 2, which was
started later, with a clock in 2022, panics too. -/
example : ∃ s pre c post pre' r post', Sys.Reach btEnv baseOf s ∧ s.trace = pre ++ .did 0 (.stored btKey.id c) :: post ∧ c.expires < 0 ∧
    .started 2 (.form btCalls) ∈ post ∧ (ApiCall.form btCalls).key? = some btKey ∧ s.trace = pre' ++ .returned 2 r :: post' := by
  have h : Leads btEnv baseOf lost (fun s => (s.trace.any fun | .returned j _ => j == 2 | _ => false) &&
      (decide (∃ e ∈ s.trace.take 12, (match e with
        | .did 0 (.stored 0 c) => decide (c.expires < 0)
        | _ => false) = true) &&
      (s.trace.take 12).all fun | .started j _ => j != 2 | _ => true)) = true := by decide +kernel
  unfold Leads at h
  cases hs : Sys.init.exec btEnv baseOf lost with
  | none => rw [hs] at h; cases h
  | some s =>
    rw [hs] at h
    simp only [Bool.and_eq_true, decide_eq_true_eq] at h
    obtain ⟨h1, ⟨e, he, h2⟩, h3⟩ := h
    have hr := exec_reach .init hs
    obtain ⟨pre', r, post', ht⟩ := returned_of_any h1
    have s2 := (exec_started hs).2 2 (.form btCalls) (by simp [lost])
    split at h2
    · rename_i c
      obtain ⟨p1, p2, hp⟩ := List.append_of_mem he
      refine ⟨s, p1, c, p2 ++ s.trace.drop 12, pre', r, post', hr, ?_, by simpa using h2, ?_, rfl, ht⟩
      · have := List.take_append_drop 12 s.trace
        rw [hp] at this
        simpa [btKey] using this.symm
      · rw [← List.take_append_drop 12 s.trace, List.mem_append] at s2
        rcases s2 with s2 | s2
        · have := List.all_eq_true.1 h3 _ s2
          simp at this
        · exact List.mem_append_right _ s2
    · cases h2

end CSS
