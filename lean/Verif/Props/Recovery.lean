import Verif.Spec.Recovery
import Verif.Props.Failures
import Verif.Props.Liveness
import Verif.Props.Documents
/-
C89: failures do not linger. Whether a call succeeds depends on its own options and its own requests only.
-/
set_option linter.unusedSimpArgs false
namespace CSS
open Spec

variable {env : Env} {base : Nat → Str} {s : Sys}

theorem AnsweredWell.shorter {b : Str} {id : Nat} {h h' : List Ev} (hw : AnsweredWell env b id h') (hp : h <+: h') :
    AnsweredWell env b id h where
  emailBuilt := hw.emailBuilt
  tokenBuilt := hw.tokenBuilt
  blobBuilt before email token body hb := hw.blobBuilt before email token body (hb.trans hp)
  arrived e he := hw.arrived e (hp.subset he)
  tokens before status doc hb := hw.tokens before status doc (hb.trans hp)
  blobs before email token body status text hb := hw.blobs before email token body status text (hb.trans hp)

theorem leaves_contra {r : Request} {tr : Trouble} {steps h : List Ev} (hl : tr.Leaves env r steps) (hsub : ∀ e ∈ steps, e ∈ h)
    (hb : env.canBuild r = true)
    (ha : ∀ e ∈ h, (∀ status, e = .status status → ∃ s, status = some s ∧ 200 ≤ s ∧ s ≤ 299) ∧ e ≠ .body none) : False := by
  cases hl with
  | notBuilt hn => rw [hb] at hn; cases hn
  | unanswered =>
    obtain ⟨_, hx, _⟩ := (ha _ (hsub (.status none) (by simp))).1 _ rfl
    cases hx
  | refused st b hn =>
    obtain ⟨_, hx, h1⟩ := (ha _ (hsub (.status (some st)) (by simp))).1 _ rfl
    cases hx
    exact hn h1
  | refusedUnread st hn => exact (ha _ (hsub (.body none) (by simp))).2 rfl
  | unread st => exact (ha _ (hsub (.body none) (by simp))).2 rfl

/-- If all went well, there is nothing that an error of a bound token could report. -/
theorem well_no_error {b : Str} {id : Nat} {h : List Ev} (hw : AnsweredWell env b id h) {e : BoundTokenError}
    (he : Explains env b id h e) : False := by
  have email : ∀ tr, EmailTrouble env b id tr h → False := by
    rintro tr ⟨before, steps, rfl, _, hl⟩
    exact leaves_contra hl (by simp +contextual) hw.emailBuilt hw.arrived
  have token : ∀ tr, TokenTrouble env b id tr h → False := by
    rintro tr ⟨before, steps, rfl, _, hl⟩
    exact leaves_contra hl (by simp +contextual) hw.tokenBuilt hw.arrived
  have blob : ∀ tr, BlobTrouble env b id tr h → False := by
    rintro tr ⟨before, steps, em, tk, bd, rfl, hg, hl⟩
    exact leaves_contra hl (by simp +contextual) (hw.blobBuilt before em tk bd (List.prefix_append _ _) hg) hw.arrived
  have doc : ∀ {before d}, h = before ++ [.unlocked id] → HasDocument b id d before →
      ∃ token life, TokenText d token life (s% "Bearer") := by
    rintro before d rfl ⟨before', st, rfl, _⟩
    exact hw.tokens before' (some st) d (List.prefix_append _ _)
  have text : ∀ {t}, HasBlobText b id t h → ∃ blob signature, SignBlobText t blob ∧ base64Decode blob = some signature := by
    rintro t ⟨before, st, em, tk, bd, rfl, _⟩
    exact hw.blobs before em tk bd (some st) t (List.prefix_refl _)
  cases e with
  | tokenRequestSuccessResponseDeserialize =>
    obtain ⟨before, d, hh, hd, hn⟩ := he
    obtain ⟨tk, life, ht⟩ := doc hh hd
    exact hn ⟨tk, life, _, ht⟩
  | tokenRequestInvalidTokenType type =>
    obtain ⟨before, d, tk, life, hh, hd, ht, hn⟩ := he
    obtain ⟨tk', life', ht'⟩ := doc hh hd
    exact hn (C55_token_unique ht ht').2.2
  | signBlobRequestSuccessResponseDeserialize =>
    obtain ⟨t, ht, hn⟩ := he
    obtain ⟨bl, _, hb, _⟩ := text ht
    exact hn ⟨bl, hb⟩
  | signBlobRequestSuccessResponseBase64Decode =>
    obtain ⟨t, bl, ht, hb, hn⟩ := he
    obtain ⟨bl', sg, hb', hd⟩ := text ht
    rw [C55_blob_unique hb hb', hd] at hn
    cases hn
  | _ => first | exact email _ he | exact token _ he | exact blob _ he

/-- With the signing service in use, a bound token signs by asking it. -/
theorem keySign_asks {bt : BoundToken} {m : Bytes} {h : List Ev} {k : KeyError}
    (hs : KeySignRuns env (.boundToken bt) true m h (.err k)) : ∃ e, k = .boundTokenSigning e := by
  rcases hs with ⟨_, _, _, _, _, hx⟩ | ⟨_, e, _, _, _, hx⟩ | ⟨_, _, _, _, _, hx⟩ | ⟨_, hne, _, hall⟩
  · cases hx
  · cases hx; exact ⟨e, rfl⟩
  · cases hx
  · have := hall { env with canBuild := fun _ => false } ⟨fun _ => none, 0, [], 0⟩ ⟨rfl, rfl, rfl, rfl, rfl, rfl⟩
    have h2 : SigningKey.sign { env with canBuild := fun _ => false } (.boundToken bt) true m ⟨fun _ => none, 0, [], 0⟩ =
      (.err (.boundTokenSigning .emailRequestBuild), ⟨fun _ => none, 0, [], 0⟩) := rfl
    rw [h2] at this
    have h3 := congrArg Prod.fst this
    exact absurd h3.symm (hne _).1

/-- C89. A call with a bound token whose options are in order and whose own requests went well succeeds, in every sane
history: whatever calls failed, panicked or were dropped before or meanwhile, with the same key or others. -/
theorem C89_succeeds (h : Sys.Reach env base s) (hs : SaneHistory s.trace) {pre post : List Event} {i : Nat} {call : ApiCall}
    {r : ApiResult} {bt : BoundToken} (ht : s.trace = pre ++ .returned i r :: post) (hst : .started i call ∈ pre)
    (hin : CallInOrder env bt (did pre i) call) (hw : AnsweredWell env bt.baseUrl bt.id (did pre i)) : Succeeded r := by
  have hnf : ∀ bt', call.key? = some bt' → bt' = bt → ∀ e, ¬ FailedWith r e := by
    intro bt' hk hbt e hf
    obtain ⟨bt2, hk2, he⟩ := C87_error h ht hst hf
    rw [hk] at hk2
    cases hk2
    subst hbt
    exact well_no_error hw he
  have hrun := started_runs h ht hst
  cases call with
  | url o =>
    obtain ⟨hk, hu, hhead, hval⟩ := hin
    have hnf := hnf bt (url_own_key hk) rfl
    have hnp : ∀ site, ¬ AbortedAt r site := by
      intro site hp
      rcases C87_sane_panic h hs ht hst (url_own_key hk) hp with ⟨o', t, email, h1, ho, _, hpre, hn, hv, _, hl⟩ | ⟨o', t, ho, _, hv, hm⟩
      · cases ho
        exact (hval t hv).2 h1 email hpre hn hl
      · cases ho
        exact not_overflows_of_valid (hval t hv).1 (overflows_iff.2 hm)
    obtain ⟨x, rfl, hx⟩ := prog_url hrun
    generalize did pre i = hist at *
    cases hx with
    | @rejected h0 t e hb hrej =>
      have hv : ValidFrom o.accessibleAt hist t := by
        have := hb.valid (h' := [])
        rwa [List.append_nil] at this
      rw [(validUrl_iff.1 (hval t hv).1).1] at hrej
      cases hrej
    | full => exact absurd (.url _) (hnp _)
    | unknown hb hrej _ ha =>
      obtain ⟨_, e, _, _, rfl⟩ := auth_token_error ha
      exact absurd (.urlAuthorizer e) (hnf e)
    | aborted => exact absurd (.url _) (hnp _)
    | named hb hrej _ ha htail =>
      cases htail with
      | long => exact absurd (.url _) (hnp _)
      | header _ hh => exact absurd (fun x hx => plain_iff.2 (hhead x hx)) hh
      | @signed _ z _ _ hk' =>
        cases z with
        | ok d => exact .url _
        | panic st => exact absurd (.url _) (hnp _)
        | err k =>
          rw [hk, hu] at hk'
          obtain ⟨e, rfl⟩ := keySign_asks hk'
          exact absurd (.urlSigning e) (hnf e)
  | form cs =>
    obtain ⟨o, ho, hk, hu, hbu, hky, hm, hval⟩ := hin
    have hnf := hnf bt (form_own_key ho hk) rfl
    have hnp : ∀ site, ¬ AbortedAt r site := by
      intro site hp
      rcases C87_sane_panic h hs ht hst (form_own_key ho hk) hp with ⟨o', t, email, h1, ho', _⟩ | ⟨o', t, ho', _⟩ <;> cases ho'
    obtain ⟨x, rfl, hx⟩ := prog_form hrun
    have hx := form_runs ho hx
    generalize did pre i = hist at *
    cases hx with
    | @rejected h0 t e hb hrej =>
      have hv : ValidFrom o.accessibleAt hist t := by
        have := hb.valid (h' := [])
        rwa [List.append_nil] at this
      obtain ⟨h1, h2, h3⟩ := hval t hv
      unfold formRejection at hrej
      rw [if_neg (by omega), if_neg (by omega), if_neg (by omega), if_neg hbu, if_neg hky, hk] at hrej
      simp [isHmac] at hrej
    | unknown hb hrej ha =>
      obtain ⟨_, e, _, _, rfl⟩ := auth_token_error ha
      exact absurd (.formAuthorizer e) (hnf e)
    | aborted => exact absurd (.form _) (hnp _)
    | metaName hb hrej ha he =>
      obtain ⟨m, hmm, he⟩ := he
      exact absurd he (hm m hmm)
    | @signed _ _ _ _ _ z hb hrej ha hme hk' =>
      cases z with
      | ok d => exact .form _
      | panic st => exact absurd (.form _) (hnp _)
      | err k =>
        rw [hk, hu] at hk'
        obtain ⟨e, rfl⟩ := keySign_asks hk'
        exact absurd (.formSigning e) (hnf e)

/-- Nothing of a call happens after it returned. -/
theorem nothing_after (h : Sys.Reach env base s) {pre post : List Event} {i : Nat} {r : ApiResult}
    (ht : s.trace = pre ++ .returned i r :: post) : ∀ e ∈ post, e.call ≠ i := by
  induction h generalizing post with
  | init => simp [Sys.init] at ht
  | step s1 s2 hr hs ih =>
    obtain ⟨x, hx⟩ := step_snoc hs
    rw [hx] at ht
    induction post using list_snoc_induction with
    | nil => simp
    | snoc post y _ =>
      have ht' : s1.trace ++ [x] = (pre ++ .returned i r :: post) ++ [y] := by rw [ht]; simp
      obtain ⟨h1, h2⟩ := List.append_inj' ht' rfl
      cases h2
      intro e he
      simp only [List.mem_append, List.mem_singleton] at he
      rcases he with he | rfl
      · exact ih h1 e he
      · have hnr : ¬ Running s1 i := by
          rw [running_iff hr]
          intro hh
          exact hh.2 (.inl ⟨r, by rw [h1]; simp⟩)
        intro hc
        rcases step_cases hs with ⟨j, call, h3, _, hf, _⟩ | ⟨j, e, p, q, h3, hp, _⟩ | ⟨j, r', h3, _, hp, _⟩ | ⟨j, p, h3, _, hp, _⟩
        all_goals
          rw [hx] at h3
          have h4 := List.append_cancel_left h3
          simp only [List.cons.injEq, and_true] at h4
          subst h4
          simp only [Event.call] at hc
          subst hc
        · exact hf (.returned j r) (by rw [h1]; simp) rfl
        · exact hnr (by unfold Running; rw [hp]; simp)
        · exact hnr (by unfold Running; rw [hp]; simp)
        · exact hnr (by unfold Running; rw [hp]; simp)

theorem did_returned (h : Sys.Reach env base s) {pre post : List Event} {i : Nat} {r : ApiResult}
    (ht : s.trace = pre ++ .returned i r :: post) : did s.trace i = did pre i := by
  rw [ht, did_append, show Event.returned i r :: post = [.returned i r] ++ post by rfl, did_append,
    did_unused (nothing_after h ht)]
  simp [did]

/-- C89. So in every fair history, from whatever happened up to now, a call whose options are in order returns a URL or a
form, if it is not dropped and its own requests go well. -/
theorem C89_recovers (σ : Nat → Sys) (h : History env base σ) (hf : Fair env base σ) (hs : ∀ m, SaneHistory (σ m).trace)
    (i n : Nat) (call : ApiCall) (bt : BoundToken) (hi : Running (σ n) i) (hst : .started i call ∈ (σ n).trace)
    (hnc : ∀ m, .cancelled i ∉ (σ m).trace) (hin : ∀ m, n ≤ m → CallInOrder env bt (did (σ m).trace i) call)
    (hw : ∀ m, n ≤ m → AnsweredWell env bt.baseUrl bt.id (did (σ m).trace i)) :
    ∃ m r, n ≤ m ∧ .returned i r ∈ (σ m).trace ∧ Succeeded r := by
  obtain ⟨m, hm, ⟨r, hr⟩ | hc⟩ := C78_every_call_ends σ h hf i n hi
  · refine ⟨m, r, hm, hr, ?_⟩
    obtain ⟨pre, post, ht⟩ := List.append_of_mem hr
    have hr' := history_reach h m
    obtain ⟨c, hc, _⟩ := returned_done hr' ht
    have hsm : .started i call ∈ (σ m).trace := (history_prefix h hm).subset hst
    have : c = call := started_unique hr' (by rw [ht]; exact List.mem_append_left _ hc) hsm
    subst this
    have hi' := hin m hm
    have hw' := hw m hm
    rw [did_returned hr' ht] at hi' hw'
    exact C89_succeeds hr' (hs m) ht hc hi' hw'
  · exact absurd hc (hnc m)

/-! ### An expiry before 1970 -/

theorem fetch_no_lock {e : FetchErrors} {r : Request} {h : List Ev} {x : Res BoundTokenError Str} (hf : FetchRuns env e r h x)
    {id : Nat} {c : Option Cached} : .locked id c ∉ h := by
  cases hf <;> simp

theorem refresh_no_lock {bt : BoundToken} {h : List Ev} {x : Res BoundTokenError (Str × Str)} (hr : RefreshRuns env bt h x)
    {id : Nat} {c : Option Cached} : .locked id c ∉ h := by
  cases hr with
  | email hf => exact fetch_no_lock hf
  | token h1 h2 => simp [fetch_no_lock h1, fetch_no_lock h2]
  | unreadable h1 h2 => simp [fetch_no_lock h1, fetch_no_lock h2]
  | type h1 h2 => simp [fetch_no_lock h1, fetch_no_lock h2]
  | overflow h1 h2 => simp [fetch_no_lock h1, fetch_no_lock h2]
  | ok h1 h2 => simp [fetch_no_lock h1, fetch_no_lock h2]

theorem get_old {bt : BoundToken} {h : List Ev} {x : Res BoundTokenError (Str × Str)} (hg : GetRuns env bt h x)
    {id : Nat} {c : Cached} (hl : .locked id (some c) ∈ h) (hc : c.expires < 0) : x = .panic .expiresBeforeEpoch := by
  cases hg with
  | empty hr => simp [refresh_no_lock hr] at hl
  | expires => rfl
  | clock h1 => simp at hl; obtain ⟨_, rfl⟩ := hl; omega
  | fresh h1 => simp at hl; obtain ⟨_, rfl⟩ := hl; omega
  | stale h1 _ _ hr => simp [refresh_no_lock hr] at hl; obtain ⟨_, rfl⟩ := hl; omega

theorem sign_old {bt : BoundToken} {m : Bytes} {h : List Ev} {x : Res BoundTokenError Bytes} (hg : SignRuns env bt m h x)
    {id : Nat} {c : Cached} (hl : .locked id (some c) ∈ h) (hc : c.expires < 0) : x = .panic .expiresBeforeEpoch := by
  cases hg with
  | getErr hg => cases get_old hg hl hc
  | getPanic hg => cases get_old hg hl hc; rfl
  | post hg hf => simp [fetch_no_lock hf] at hl; cases get_old hg hl hc
  | unreadable hg hf => simp [fetch_no_lock hf] at hl; cases get_old hg hl hc
  | base64 hg hf => simp [fetch_no_lock hf] at hl; cases get_old hg hl hc
  | ok hg hf => simp [fetch_no_lock hf] at hl; cases get_old hg hl hc

theorem auth_old {key : SigningKey} {h : List Ev} {x : Res KeyError Str} (ha : AuthRuns env key h x)
    {id : Nat} {c : Cached} (hl : .locked id (some c) ∈ h) (hc : c.expires < 0) : x = .panic .expiresBeforeEpoch := by
  rcases ha with ⟨_, _, _, _, hg, _⟩ | ⟨_, _, _, hg, _⟩ | ⟨_, _, _, hg, rfl⟩ | ⟨rfl, _⟩
  · cases get_old hg hl hc
  · cases get_old hg hl hc
  · cases get_old hg hl hc; rfl
  · simp at hl

theorem keySign_old {key : SigningKey} {u : Bool} {m : Bytes} {h : List Ev} {x : Res KeyError Bytes}
    (ha : KeySignRuns env key u m h x) {id : Nat} {c : Cached} (hl : .locked id (some c) ∈ h) (hc : c.expires < 0) :
    x = .panic .expiresBeforeEpoch := by
  rcases ha with ⟨_, _, _, _, hg, _⟩ | ⟨_, _, _, _, hg, _⟩ | ⟨_, _, _, _, hg, rfl⟩ | ⟨rfl, _⟩
  · cases sign_old hg hl hc
  · cases sign_old hg hl hc
  · cases sign_old hg hl hc; rfl
  · simp at hl

theorem begins_no_lock {given : Option Time} {h : List Ev} {t : Time} (hb : Begins given h t) {id : Nat} {c : Option Cached} :
    .locked id c ∉ h := by
  rcases hb with ⟨_, rfl⟩ | ⟨_, rfl⟩ <;> simp

/-- A call that found an expiry before 1970 in the cache panics. -/
theorem found_old {call : ApiCall} {h : List Ev} {r : ApiResult} (hr : (call.prog env).Runs h r)
    {id : Nat} {c : Cached} (hl : .locked id (some c) ∈ h) (hc : c.expires < 0) : AbortedAt r .expiresBeforeEpoch := by
  cases call with
  | url o =>
    obtain ⟨x, rfl, hx⟩ := prog_url hr
    cases hx with
    | full hb => exact absurd hl (begins_no_lock hb)
    | rejected hb => exact absurd hl (begins_no_lock hb)
    | unknown hb _ _ ha => simp [begins_no_lock hb] at hl; cases auth_old ha hl hc
    | aborted hb _ _ ha => simp [begins_no_lock hb] at hl; cases auth_old ha hl hc; exact .url _
    | named hb _ _ ha htail =>
      simp [begins_no_lock hb] at hl
      rcases hl with hl | hl
      · cases auth_old ha hl hc
      · cases htail with
        | long => simp at hl
        | header => simp at hl
        | signed _ _ hk => rw [keySign_old hk hl hc]; exact .url _
  | form cs =>
    obtain ⟨x, rfl, hx⟩ := prog_form hr
    cases ho : (cs.filterMap callOptions).getLast? with
    | none =>
      obtain ⟨rfl, _⟩ := form_runs_unsigned ho hx
      simp at hl
    | some o =>
      cases form_runs ho hx with
      | rejected hb => exact absurd hl (begins_no_lock hb)
      | unknown hb _ ha => simp [begins_no_lock hb] at hl; cases auth_old ha hl hc
      | aborted hb _ ha => simp [begins_no_lock hb] at hl; cases auth_old ha hl hc; exact .form _
      | metaName hb _ ha => simp [begins_no_lock hb] at hl; cases auth_old ha hl hc
      | signed hb _ ha _ hk =>
        simp [begins_no_lock hb] at hl
        rcases hl with hl | hl
        · cases auth_old ha hl hc
        · rw [keySign_old hk hl hc]; exact .form _

/-- C89. The exception, and why the histories have to be sane: once a token with an expiry before 1970 is stored (which
takes a clock before 1970), nothing is ever stored for this key again; whoever takes its lock finds that expiry. -/
theorem C89_old_expiry_stays (h : Sys.Reach env base s) {pre post : List Event} {i id : Nat} {c : Cached}
    (ht : s.trace = pre ++ .did i (.stored id c) :: post) (hc : c.expires < 0) :
    (∀ j c', .did j (.stored id c') ∉ post) ∧ ∀ j found, .did j (.locked id found) ∈ post → found = some c := by
  have shows : ∀ mid rest, post = mid ++ rest → (∀ j c', .did j (.stored id c') ∉ mid) →
      ∀ j found, .did j (.locked id found) ∈ mid → found = some c := by
    intro mid rest hp hq j found hm
    obtain ⟨m1, m2, rfl⟩ := List.append_of_mem hm
    have ht' : s.trace = (pre ++ .did i (.stored id c) :: m1) ++ .did j (.locked id found) :: (m2 ++ rest) := by
      rw [ht, hp]; simp
    rw [(C44_lock_shows_own h ht').2, show pre ++ Event.did i (.stored id c) :: m1 = (pre ++ [.did i (.stored id c)]) ++ m1 by simp,
      cacheOf_append_quiet (fun j' c' hm' => hq j' c' (by simp [hm'])), cacheOf_snoc]
    simp
  have quiet : ∀ mid rest, post = mid ++ rest → ∀ j c', .did j (.stored id c') ∉ mid := by
    intro mid
    induction mid using list_snoc_induction with
    | nil => simp
    | snoc mid x ih =>
      intro rest hp j c' hm
      have hp' : post = mid ++ x :: rest := by rw [hp]; simp
      have hq := ih (x :: rest) hp'
      simp only [List.mem_append, List.mem_singleton] at hm
      rcases hm with hm | rfl
      · exact hq j c' hm
      · have ht' : s.trace = pre ++ .did i (.stored id c) :: mid ++ .did j (.stored id c') :: rest := by
          rw [ht, hp']; simp
        obtain ⟨_, _, call, _, _, _, _, _, _, _, hl, _⟩ := legal_of_reach h ht'
        rcases hl with ⟨t, hx⟩ | ⟨bt', _, hid, _, before, steps, t0, life, happ, ⟨⟨s1, s2, doc, _, _, _, _, hsteps, _⟩, _⟩, _, hmust⟩
        · cases hx
        subst hid
        rw [hsteps] at happ
        unfold refreshSteps at happ
        have found : ∀ {before0 : List Ev} {found : Option Cached} {more : List Ev}, before = before0 ++ .locked bt'.id found :: more →
            (∀ e ∈ more, ∃ t, e = .clock t) → found = some c := by
          intro before0 found more hb hmore
          subst hb
          have hd : did (pre ++ .did i (.stored bt'.id c) :: mid) j = before0 ++ (.locked bt'.id found :: more ++
              [.sent (metadataGet (emailUrl bt'.baseUrl)), .status (some s1), .body (some c'.email),
               .sent (metadataGet (tokenUrl bt'.baseUrl)), .status (some s2), .body (some doc), .clock t0]) := by
            have := (List.append_inj' (happ.trans (show _ = (before0 ++ (.locked bt'.id found :: more ++
              [.sent (metadataGet (emailUrl bt'.baseUrl)), .status (some s1), .body (some c'.email),
               .sent (metadataGet (tokenUrl bt'.baseUrl)), .status (some s2), .body (some doc), .clock t0])) ++
               [.stored bt'.id c'] by simp)) rfl).1
            exact this
          obtain ⟨z, hz⟩ := block_after h ht' hd (by
            intro b1 b2 hb hne
            cases b1 with
            | nil => exact absurd rfl hne
            | cons b bs =>
              simp only [List.cons_append, List.cons.injEq] at hb
              obtain ⟨rfl, hb⟩ := hb
              rw [show before0 ++ Ev.locked bt'.id found :: bs = before0 ++ [.locked bt'.id found] ++ bs by simp]
              refine holding_append (by rw [holding_snoc]; simp) ?_
              intro hm
              have : Ev.unlocked bt'.id ∈ bs ++ b2 := by simp [hm]
              rw [← hb] at this
              simp at this
              obtain ⟨t, h0⟩ := hmore _ this
              cases h0) (by
            intro hm
            simp at hm
            obtain ⟨t, h0⟩ := hmore _ hm
            cases h0)
          exact shows mid (_ :: rest) hp' hq j found (mem_did (by rw [hz]; simp))
        rcases hmust with ⟨before0, hb⟩ | ⟨before0, c2, t, hb, h0, _⟩
        · exact absurd (found hb (by simp)) (by simp)
        · have := found hb (by simp)
          cases this
          omega
  have hq := quiet post [] (by simp)
  exact ⟨hq, shows post [] (by simp) hq⟩

/-- C89. From then on every call that takes the lock of this key panics, for ever, whatever the clock says and the
metadata server answers. -/
theorem C89_poisoned (h : Sys.Reach env base s) {pre post pre' post' : List Event} {i j id : Nat} {c : Cached} {found : Option Cached}
    {r : ApiResult} (ht : s.trace = pre ++ .did i (.stored id c) :: post) (hc : c.expires < 0)
    (hl : .did j (.locked id found) ∈ post) (hr : s.trace = pre' ++ .returned j r :: post') : AbortedAt r .expiresBeforeEpoch := by
  have hf := (C89_old_expiry_stays h ht hc).2 j found hl
  subst hf
  obtain ⟨call, hst, _⟩ := returned_done h hr
  have hm : Ev.locked id (some c) ∈ did s.trace j := by
    unfold did
    rw [List.mem_filterMap]
    exact ⟨_, by rw [ht]; exact List.mem_append_right _ (List.mem_cons_of_mem _ hl), by simp⟩
  rw [did_returned h hr] at hm
  exact found_old (started_runs h hr hst) hm hc

theorem get_locks {bt : BoundToken} {h : List Ev} {x : Res BoundTokenError (Str × Str)} (hg : GetRuns env bt h x) :
    ∃ found, .locked bt.id found ∈ h := by
  cases hg with
  | empty => exact ⟨none, by simp⟩
  | @expires c => exact ⟨some c, by simp⟩
  | @clock c => exact ⟨some c, by simp⟩
  | @fresh c => exact ⟨some c, by simp⟩
  | @stale c => exact ⟨some c, by simp⟩

theorem auth_locks {bt : BoundToken} {h : List Ev} {x : Res KeyError Str} (ha : AuthRuns env (.boundToken bt) h x) :
    ∃ found, .locked bt.id found ∈ h := by
  rcases ha with ⟨_, _, _, hk, hg, _⟩ | ⟨_, _, hk, hg, _⟩ | ⟨_, _, hk, hg, _⟩ | ⟨_, _, _, ⟨hk, _⟩, _⟩
  · cases hk; exact get_locks hg
  · cases hk; exact get_locks hg
  · cases hk; exact get_locks hg
  · cases hk

/-- A call with a bound token cannot succeed without taking the lock of the key. -/
theorem success_locks {call : ApiCall} {h : List Ev} {r : ApiResult} {bt : BoundToken} (hr : (call.prog env).Runs h r)
    (hk : call.key? = some bt) (hs : Succeeded r) : ∃ found, .locked bt.id found ∈ h := by
  cases call with
  | url o =>
    obtain ⟨x, rfl, hx⟩ := prog_url hr
    have hk : o.signingKey = .boundToken bt := by
      have hk : o.signingKey.boundToken? = some bt := hk
      cases ho : o.signingKey <;> rw [ho] at hk <;> cases hk
      rfl
    cases hx with
    | full => cases hs
    | named hb _ _ ha htail =>
      rw [hk] at ha
      obtain ⟨found, hf⟩ := auth_locks ha
      exact ⟨found, by simp [hf]⟩
    | rejected => cases hs
    | unknown => cases hs
    | aborted => cases hs
  | form cs =>
    obtain ⟨x, rfl, hx⟩ := prog_form hr
    have hk : (Builder.ofCalls cs).signingOptions.bind (·.signingKey.boundToken?) = some bt := hk
    rw [(ofCalls_spec cs).options] at hk
    cases ho : (cs.filterMap callOptions).getLast? with
    | none => rw [ho] at hk; cases hk
    | some o =>
      rw [ho] at hk
      have hk : o.signingKey = .boundToken bt := by
        simp only [Option.bind_some] at hk
        cases ho : o.signingKey <;> rw [ho] at hk <;> cases hk
        rfl
      cases form_runs ho hx with
      | signed hb _ ha =>
        rw [hk] at ha
        obtain ⟨found, hf⟩ := auth_locks ha
        exact ⟨found, by simp [hf]⟩
      | rejected => cases hs
      | unknown => cases hs
      | aborted => cases hs
      | metaName => cases hs

/-- Nothing of a call happens before it is started. -/
theorem nothing_before (h : Sys.Reach env base s) {pre post : List Event} {i : Nat} {call : ApiCall}
    (ht : s.trace = pre ++ .started i call :: post) : ∀ e ∈ pre, e.call ≠ i := by
  obtain ⟨s1, s2, hr, hs, rfl, h2⟩ := reach_split h ht
  rcases step_cases hs with ⟨j, c, h3, _, hf, _⟩ | ⟨j, e, p, q, h3, _⟩ | ⟨j, r', h3, _⟩ | ⟨j, p, h3, _⟩
  all_goals
    rw [h2] at h3
    have h4 := List.append_cancel_left h3
    cases h4
  exact hf

/-- C89. In particular no call with this key that is started later ever returns a URL or a form. -/
theorem C89_key_lost (h : Sys.Reach env base s) {pre post pre' post' : List Event} {i j : Nat} {c : Cached} {call : ApiCall}
    {bt : BoundToken} {r : ApiResult} (ht : s.trace = pre ++ .did i (.stored bt.id c) :: post) (hc : c.expires < 0)
    (hst : .started j call ∈ post) (hk : call.key? = some bt) (hr : s.trace = pre' ++ .returned j r :: post') : ¬ Succeeded r := by
  intro hs
  obtain ⟨call', hst', _⟩ := returned_done h hr
  have : call' = call := started_unique h (by rw [hr]; exact List.mem_append_left _ hst')
    (by rw [ht]; exact List.mem_append_right _ (List.mem_cons_of_mem _ hst))
  subst this
  obtain ⟨found, hf⟩ := success_locks (started_runs h hr hst') hk hs
  have hm : Event.did j (.locked bt.id found) ∈ s.trace := by rw [hr]; exact List.mem_append_left _ (mem_did hf)
  obtain ⟨p1, p2, hp⟩ := List.append_of_mem hst
  have hb := nothing_before h (pre := pre ++ .did i (.stored bt.id c) :: p1) (post := p2) (i := j) (call := call')
    (by rw [ht, hp]; simp)
  have hpost : Event.did j (.locked bt.id found) ∈ post := by
    rw [ht] at hm
    simp only [List.mem_append, List.mem_cons] at hm
    rcases hm with hm | hm | hm
    · exact absurd rfl (hb _ (List.mem_append_left _ hm))
    · cases hm
    · exact hm
  cases C89_poisoned h ht hc hpost hr <;> cases hs

end CSS
