import Verif.Lemmas.Asks
import Verif.Props.ConcurrentResults
import Verif.Props.Documents
/-
C80: what the signing service is asked to sign, also by calls that fail or are dropped.
-/
set_option linter.unusedSimpArgs false
namespace CSS
open Spec

variable {env : Env} {base : Nat → Str} {s : Sys}

/-- A call that awaits a status can receive any. -/
theorem go_status (h : Sys.Reach env base s) {i : Nat} {k : Option Nat → Prog ApiResult} (hp : s.calls i = some (.recv k))
    (n : Option Nat) : ∃ s', Sys.Reach env base s' ∧ s'.trace = s.trace ++ [.did i (.status n)] ∧ s'.calls i = some (k n) :=
  ⟨_, .step _ _ h (.act s i _ _ _ _ _ hp (.recv k n) (.status s n)), rfl, if_pos rfl⟩

/-- A call that awaits a text can receive any. -/
theorem go_body (h : Sys.Reach env base s) {i : Nat} {k : Option Str → Prog ApiResult} (hp : s.calls i = some (.text k))
    (t : Option Str) : ∃ s', Sys.Reach env base s' ∧ s'.trace = s.trace ++ [.did i (.body t)] ∧ s'.calls i = some (k t) :=
  ⟨_, .step _ _ h (.act s i _ _ _ _ _ hp (.text k t) (.body s t)), rfl, if_pos rfl⟩

/-- A POST has been sent: what the call would do when it is answered. -/
theorem sent_would {answer : Str} {signature : Bytes} (hg : GoodAnswer answer signature) (h : Sys.Reach env base s)
    {pre post : List Event} {i : Nat} {r : Request} (ht : s.trace = pre ++ .did i (.sent r) :: post)
    (hr : r.method = s% "POST") {status : Nat} (h1 : 200 ≤ status) (h2 : status ≤ 299) :
    ∃ s' result, Sys.Reach env base s' ∧ result.isOk ∧ s'.trace = pre ++ [.did i (.sent r), .did i (.status (some status)),
      .did i (.body (some answer)), .returned i result] := by
  obtain ⟨s1, s2, hr1, hs, rfl, he2⟩ := reach_split h ht
  cases hs with
  | start j call hf hb => have := List.append_cancel_left he2; cases this
  | finish j r hj => have := List.append_cancel_left he2; cases this
  | cancel j p hp ha => have := List.append_cancel_left he2; cases this
  | act j p q e caches holder hp hpq he =>
    have := List.append_cancel_left he2
    simp only [List.cons.injEq, Event.did.injEq, and_true] at this
    obtain ⟨rfl, rfl⟩ := this
    have ha := asks_reach hg hr1 j p hp
    have r2 := Sys.Reach.step _ _ hr1 (Sys.Step.act (env := env) (base := base) s1 j p q _ caches holder hp hpq he)
    cases hpq with
    | send r k =>
      obtain ⟨_, kr, rfl, hk⟩ := ha.1 hr
      obtain ⟨kt, a, e1, e2, hok⟩ := hk status h1 h2
      obtain ⟨s3, r3, t3, c3⟩ := go_status r2 (i := j) (if_pos rfl) (some status)
      obtain ⟨s4, r4, t4, c4⟩ := go_body r3 (c3.trans (congrArg some e1)) (some answer)
      have r5 := Sys.Reach.step _ _ r4 (Sys.Step.finish s4 j a (c4.trans (congrArg some e2)))
      exact ⟨_, a, r5, hok, by simp [t4, t3]⟩

/-- C80. Whatever a call asks the signing service to sign, it is what the call is about to return: if the service answers,
the call returns a URL or a form, with no further request. (C54 says what is signed then.) -/
theorem C80_would_return (h : Sys.Reach env base s) {pre post : List Event} {i : Nat} {r : Request}
    (ht : s.trace = pre ++ .did i (.sent r) :: post) (hr : r.method = s% "POST")
    {answer blob : Str} {signature : Bytes} (hb : SignBlobText answer blob) (hs : base64Decode blob = some signature)
    {status : Nat} (h1 : 200 ≤ status) (h2 : status ≤ 299) :
    ∃ s' result, Sys.Reach env base s' ∧ s'.trace = pre ++ [.did i (.sent r), .did i (.status (some status)),
        .did i (.body (some answer)), .returned i result] ∧
      ((∃ url, result = .url (.ok url)) ∨ ∃ fs, result = .form (.ok fs)) := by
  obtain ⟨s', result, h1, h2, h3⟩ := sent_would ⟨blob, hb, hs⟩ h ht hr h1 h2
  refine ⟨s', result, h1, h3, ?_⟩
  match result, h2 with
  | .url (.ok url), _ => exact .inl ⟨url, rfl⟩
  | .form (.ok fs), _ => exact .inr ⟨fs, rfl⟩

/-- An answer with the empty signature. -/
theorem emptyAnswer : SignBlobText (s% "[\"\",\"\"]") [] ∧ base64Decode [] = some [] := by
  refine ⟨(C55_blob_text _ _).1 (by decide +kernel), by decide⟩

theorem did_mid (pre : List Event) (i : Nat) (a b c : Ev) :
    did (pre ++ [.did i a, .did i b, .did i c]) i = did pre i ++ [a, b, c] := by
  simp [did, List.filterMap_append]

theorem validFrom_before {given : Option Time} {h more : List Ev} {t : Time} (hv : ValidFrom given (h ++ more) t)
    (hm : ∀ t, more.head? ≠ some (.clock t)) : ValidFrom given h t := by
  rcases hv with hv | ⟨hg, hv⟩
  · exact .inl hv
  · refine .inr ⟨hg, ?_⟩
    cases h with
    | nil => exact absurd hv (hm t)
    | cons a b => simpa using hv

/-- C80, signed URLs. Every signing request of a URL call, in any history and whether or not the call ever gets the answer,
carries the string to sign for exactly the request that was asked for and for the URL that the call would return. -/
theorem C80_url_message (h : Sys.Reach env base s) {pre post : List Event} {i : Nat} {r : Request} {o : UrlOptions}
    (ht : s.trace = pre ++ .did i (.sent r) :: post) (hr : r.method = s% "POST") (hst : .started i (.url o) ∈ pre) :
    ∃ email token body payload, ∃ p : SignedParts, ∃ t, r = signBlobPost email token body ∧
      JsonText (.obj [(s% "payload", .str payload)]) body ∧ base64Decode payload = some (utf8 p.stringToSign) ∧
      ValidFrom o.accessibleAt (did pre i) t ∧ PartsFor o t p ∧
      ∃ s' answer hex, Sys.Reach env base s' ∧ s'.trace = pre ++ [.did i (.sent r), .did i (.status (some 200)),
        .did i (.body (some answer)), .returned i (.url (.ok (p.url hex)))] := by
  obtain ⟨s', result, hr', ht', hres⟩ := C80_would_return h ht hr emptyAnswer.1 emptyAnswer.2 (status := 200) (by omega) (by omega)
  have hsplit : s'.trace = (pre ++ [.did i (.sent r), .did i (.status (some 200)), .did i (.body (some (s% "[\"\",\"\"]")))]) ++
      .returned i result :: [] := by rw [ht']; simp
  have hst' : Event.started i (.url o) ∈ pre ++ [.did i (.sent r), .did i (.status (some 200)),
      .did i (.body (some (s% "[\"\",\"\"]")))] := List.mem_append_left _ hst
  obtain ⟨call, hc1, _, hd⟩ := returned_done hr' hsplit
  have hcall : call = .url o := started_unique hr' (i := i) (by rw [hsplit]; exact List.mem_append_left _ hc1) (by rw [hsplit]; simp [hst])
  subst hcall
  rcases hres with ⟨url, rfl⟩ | ⟨fs, rfl⟩
  · obtain ⟨p, hex, signature, email, t, hu, hx, hs, hv, hp, _⟩ := C54_url_own_signature hr' hsplit hst'
    rw [did_mid] at hs hv
    cases hk : o.signingKey with
    | boundToken bt =>
      rw [hk] at hs
      obtain ⟨before, email, token, body, payload, status, text, blob, he, _, _, _, hj, hb, _⟩ := hs
      have := (List.append_inj' he rfl).2
      simp only [List.cons.injEq, Ev.sent.injEq] at this
      refine ⟨email, token, body, payload, p, t, this.1, hj, hb, validFrom_before hv (by simp), hp, s', s% "[\"\",\"\"]", hex, hr', ?_⟩
      rw [ht', hu]
      rfl
    | hmac a b => rw [hk] at hs; exact hs.elim
    | serviceAccount a b =>
      exfalso
      obtain ⟨bt, ⟨call, hc, hkey⟩, _⟩ := C40_history h ht
      have : call = .url o := started_unique h (i := i) (by rw [ht]; simp [hc]) (by rw [ht]; simp [hst])
      subst this
      simp [ApiCall.key?, hk, SigningKey.boundToken?] at hkey
  · exact hd.elim

/-- C80, forms. Every signing request of a form call, in any history and whether or not the call ever gets the answer,
carries the policy of exactly the form that the call would return. -/
theorem C80_form_message (h : Sys.Reach env base s) {pre post : List Event} {i : Nat} {r : Request} {cs : List Call}
    (ht : s.trace = pre ++ .did i (.sent r) :: post) (hr : r.method = s% "POST") (hst : .started i (.form cs) ∈ pre) :
    ∃ email token body payload policy fs, r = signBlobPost email token body ∧
      JsonText (.obj [(s% "payload", .str payload)]) body ∧ base64Decode payload = some (utf8 policy) ∧
      fieldValues fs (s% "policy") = [policy] ∧
      ∃ s' answer, Sys.Reach env base s' ∧ s'.trace = pre ++ [.did i (.sent r), .did i (.status (some 200)),
        .did i (.body (some answer)), .returned i (.form (.ok fs))] := by
  obtain ⟨s', result, hr', ht', hres⟩ := C80_would_return h ht hr emptyAnswer.1 emptyAnswer.2 (status := 200) (by omega) (by omega)
  have hsplit : s'.trace = (pre ++ [.did i (.sent r), .did i (.status (some 200)), .did i (.body (some (s% "[\"\",\"\"]")))]) ++
      .returned i result :: [] := by rw [ht']; simp
  have hst' : Event.started i (.form cs) ∈ pre ++ [.did i (.sent r), .did i (.status (some 200)),
      .did i (.body (some (s% "[\"\",\"\"]")))] := List.mem_append_left _ hst
  obtain ⟨call, hc1, _, hd⟩ := returned_done hr' hsplit
  have hcall : call = .form cs := started_unique hr' (i := i) (by rw [hsplit]; exact List.mem_append_left _ hc1) (by rw [hsplit]; simp [hst])
  subst hcall
  rcases hres with ⟨url, rfl⟩ | ⟨fs, rfl⟩
  · exact hd.elim
  obtain ⟨bt, ⟨call, hc, hkey⟩, _⟩ := C40_history h ht
  have : call = .form cs := started_unique h (i := i) (by rw [ht]; simp [hc]) (by rw [ht]; simp [hst])
  subst this
  have hopt := (ofCalls_spec cs).options
  cases ho : (cs.filterMap callOptions).getLast? with
  | none => rw [ho] at hopt; simp [ApiCall.key?, hopt] at hkey
  | some o =>
    rw [ho] at hopt
    have hk : o.signingKey.boundToken? = some bt := by simpa [ApiCall.key?, hopt] using hkey
    obtain ⟨policy, hex, signature, email, date, hp, hx, _, hs, _⟩ := C54_form_own_signature hr' hsplit hst' ho
    rw [did_mid] at hs
    cases hkk : o.signingKey with
    | boundToken bt =>
      rw [hkk] at hs
      obtain ⟨before, email, token, body, payload, status, text, blob, he, _, _, _, hj, hb, _⟩ := hs
      have := (List.append_inj' he rfl).2
      simp only [List.cons.injEq, Ev.sent.injEq] at this
      exact ⟨email, token, body, payload, policy, fs, this.1, hj, hb, hp, s', _, hr', ht'⟩
    | hmac a b => rw [hkk] at hk; cases hk
    | serviceAccount a b => rw [hkk] at hk; cases hk

theorem after_post (h : Sys.Reach env base s) (i : Nat) {a b : List Ev} {r : Request}
    (hd : did s.trace i = a ++ .sent r :: b) (hr : r.method = s% "POST") :
    sentIn b = [] ∧ ∀ p, s.calls i = some p → p.Sends 0 := by
  induction h generalizing a b r with
  | init => simp [Sys.init, did] at hd
  | step s s' hre hs ih =>
    have quiet : did s'.trace i = did s.trace i → (∀ p, s'.calls i = some p → s.calls i = some p) →
        sentIn b = [] ∧ ∀ p, s'.calls i = some p → p.Sends 0 := by
      intro h1 h2
      rw [h1] at hd
      exact ⟨(ih hd hr).1, fun p hp => (ih hd hr).2 p (h2 p hp)⟩
    rcases step_cases hs with ⟨j, call, ht, _, hf, hc⟩ | ⟨j, e, p, q, ht, hp, hpq, _, hc⟩ | ⟨j, x, ht, _, hp, hc⟩ |
        ⟨j, p, ht, _, hp, _, _, hc⟩
    · have hds : did s'.trace i = did s.trace i := by rw [ht, did_snoc]; simp
      by_cases hij : i = j
      · subst hij
        rw [hds, did_unused hf] at hd
        simp at hd
      · exact quiet hds fun p hp => by rw [hc] at hp; simpa only [if_neg hij] using hp
    · by_cases hij : j = i
      · subst hij
        rw [ht, did_snoc_self] at hd
        rcases List.eq_nil_or_concat b with rfl | ⟨b', e', rfl⟩
        · have := List.append_inj' hd rfl
          simp only [List.cons.injEq, and_true] at this
          obtain ⟨_, rfl⟩ := this
          refine ⟨rfl, fun p' hp' => ?_⟩
          rw [hc] at hp'
          simp only [if_true, Option.some.injEq] at hp'
          subst hp'
          cases hpq with
          | send r k => exact ((asks_reach ⟨_, emptyAnswer⟩ hre j _ hp).1 hr).1
        · rw [List.concat_eq_append, ← List.cons_append, ← List.append_assoc] at hd
          have := List.append_inj' hd rfl
          simp only [List.cons.injEq, and_true] at this
          obtain ⟨h1, rfl⟩ := this
          have hi := ih h1 hr
          have hst := (hi.2 p hp).step hpq
          have h0 : sentIn [e] = [] := List.length_eq_zero_iff.1 (by omega)
          refine ⟨by rw [List.concat_eq_append, sentIn_append, hi.1, h0]; rfl, fun p' hp' => ?_⟩
          rw [hc] at hp'
          simp only [if_true, Option.some.injEq] at hp'
          subst hp'
          exact hst.2.mono (by omega)
      · exact quiet (by rw [ht, did_snoc_other _ _ hij]) fun p hp => by
          rw [hc] at hp; simpa only [if_neg (Ne.symm hij)] using hp
    · refine quiet (by rw [ht, did_snoc]; simp) fun p hp => ?_
      rw [hc] at hp
      by_cases hij : i = j
      · simp [hij] at hp
      · simpa only [if_neg hij] using hp
    · refine quiet (by rw [ht, did_snoc]; simp) fun p hp => ?_
      rw [hc] at hp
      by_cases hij : i = j
      · simp [hij] at hp
      · simpa only [if_neg hij] using hp

/-- C80. A call asks for at most one signature, and sends nothing after that. -/
theorem C80_once (h : Sys.Reach env base s) {pre post : List Event} {i : Nat} {r : Request}
    (ht : s.trace = pre ++ .did i (.sent r) :: post) (hr : r.method = s% "POST") (r' : Request) :
    .did i (.sent r') ∉ post := by
  intro hm
  have hd : did s.trace i = did pre i ++ .sent r :: did post i := by
    rw [ht]; simp [did, List.filterMap_append]
  have := (after_post h i hd hr).1
  have hin : Ev.sent r' ∈ did post i := by
    unfold did
    rw [List.mem_filterMap]
    exact ⟨_, hm, by simp⟩
  have : r' ∈ sentIn (did post i) := by
    unfold sentIn
    rw [List.mem_filterMap]
    exact ⟨_, hin, rfl⟩
  simp_all

open Conformance in
/-- Two calls that run at the same time, a URL and a form, have both asked for a signature; one is dropped before the
answer, the other still waits for it. -/
example : ∃ s, Sys.Reach btEnv baseOf s ∧ (!returnedOk s 0 && !returnedOk s 1 && (s.calls 0).isNone && (s.calls 1).isSome &&
    decide ((sentBy s 0).map (·.method) = [s% "GET", s% "GET", s% "POST"]) &&
    decide ((sentBy s 1).map (·.method) = [s% "POST"])) = true :=
  leads_reach (ms := signing ++ [.cancel 0]) (by decide +kernel)

end CSS
