import Verif.Lemmas.Replay
import Verif.Props.Concurrent
/-
C87: why a call of a concurrent history failed.
-/
set_option linter.unusedSimpArgs false
namespace CSS
open Spec

variable {env : Env} {base : Nat → Str} {s : Sys}

/-- The key of a form call. -/
theorem form_own_key {cs : List Call} {o : SigningOptions} (ho : (cs.filterMap callOptions).getLast? = some o) {bt : BoundToken}
    (hk : o.signingKey = .boundToken bt) : (ApiCall.form cs).key? = some bt := by
  show (Builder.ofCalls cs).signingOptions.bind (·.signingKey.boundToken?) = some bt
  rw [(ofCalls_spec cs).options, ho]
  simp [hk, SigningKey.boundToken?]

theorem url_own_key {o : UrlOptions} {bt : BoundToken} (hk : o.signingKey = .boundToken bt) : (ApiCall.url o).key? = some bt := by
  show o.signingKey.boundToken? = some bt
  rw [hk]
  rfl

theorem headerRejection_ne_signing (hs : List (Str × Str)) (k : KeyError) :
    headerRejection hs ≠ some (.signedUrl (.signing k)) := by
  induction hs with
  | nil => simp [headerRejection]
  | cons x hs ih =>
    obtain ⟨n, v⟩ := x
    simp only [headerRejection]
    split
    · simp
    · split
      · simp
      · exact ih

theorem urlRejection_not_token {o : UrlOptions} {t : Time} {e : BuildUrlError} (h : urlRejection env o t = some e) :
    ∀ k, e ≠ .signedUrl (.signing k) := by
  rintro k rfl
  unfold urlRejection at h
  revert h
  (repeat' split) <;> simp
  rename_i hh
  rintro rfl
  exact headerRejection_ne_signing _ _ hh

theorem urlRejection_time {o : UrlOptions} {t : Time} (h : urlRejection env o t = none) : 0 ≤ t ∧ t < endOf9999 := by
  unfold urlRejection at h
  split at h
  · cases h
  · omega

/-- The identity that a call found is known to its history. -/
theorem auth_named {key : SigningKey} {h0 h : List Ev} {email : Str} (ha : AuthRuns env key h (.ok email)) :
    ∃ h1, h1 <+: h0 ++ h ∧ Named key h1 email := by
  rcases ha with ⟨bt, email', token, rfl, hg, hx⟩ | ⟨_, _, _, _, hx⟩ | ⟨_, _, _, _, hx⟩ | ⟨_, _, hx, ⟨hk, hn⟩, _⟩
  · cases hx
    exact ⟨h0 ++ h, List.prefix_refl _, token, getRuns_pair hg⟩
  · cases hx
  · cases hx
  · cases hx
    exact ⟨[], List.nil_prefix, hn⟩

theorem auth_token_error {key : SigningKey} {h : List Ev} {k : KeyError} (ha : AuthRuns env key h (.err k)) :
    ∃ bt e, key = .boundToken bt ∧ GetRuns env bt h (.err e) ∧ k = .boundTokenAuthorizer e := by
  rcases ha with ⟨_, _, _, _, _, hx⟩ | ⟨bt, e, hk, hg, hx⟩ | ⟨_, _, _, _, hx⟩ | ⟨_, _, hx, _⟩
  · cases hx
  · cases hx; exact ⟨bt, e, hk, hg, rfl⟩
  · cases hx
  · cases hx

theorem auth_token_panic {key : SigningKey} {h : List Ev} {site : PanicSite} (ha : AuthRuns env key h (.panic site)) :
    ∃ bt, key = .boundToken bt ∧ GetRuns env bt h (.panic site) := by
  rcases ha with ⟨_, _, _, _, _, hx⟩ | ⟨bt, e, hk, hg, hx⟩ | ⟨bt, _, hk, hg, hx⟩ | ⟨_, _, hx, _⟩
  · cases hx
  · cases hx
  · cases hx; exact ⟨bt, hk, hg⟩
  · cases hx

theorem auth_calm {key : SigningKey} {h : List Ev} {x : Res KeyError Str} (ha : AuthRuns env key h x) (hx : ∀ e, x ≠ .err e) :
    ¬ HadTrouble h := by
  rcases ha with ⟨_, _, _, _, hg, rfl⟩ | ⟨_, _, _, _, rfl⟩ | ⟨_, _, _, hg, rfl⟩ | ⟨rfl, _⟩
  · exact getRuns_calm hg (by simp)
  · exact absurd rfl (hx _)
  · exact getRuns_calm hg (by simp)
  · exact calm_nil

theorem keySign_calm {key : SigningKey} {u : Bool} {m : Bytes} {h : List Ev} {x : Res KeyError Bytes}
    (hs : KeySignRuns env key u m h x) (hx : ∀ e, x ≠ .err (.boundTokenSigning e)) : ¬ HadTrouble h := by
  rcases hs with ⟨_, _, _, _, hr, rfl⟩ | ⟨_, _, _, _, _, rfl⟩ | ⟨_, _, _, _, hr, rfl⟩ | ⟨rfl, _⟩
  · exact signRuns_calm hr (by simp)
  · exact absurd rfl (hx _)
  · exact signRuns_calm hr (by simp)
  · exact calm_nil

/-- The start of the history of a call. -/
theorem started_runs (h : Sys.Reach env base s) {pre post : List Event} {i : Nat} {call : ApiCall} {r : ApiResult}
    (ht : s.trace = pre ++ .returned i r :: post) (hst : .started i call ∈ pre) : (call.prog env).Runs (did pre i) r :=
  returned_runs h ht hst

theorem unsigned_finish (b : Builder) (p : Option PolicyFields) : (∃ fs, formFinishP b p = .ok fs) ∨ formFinishP b p = .err .keyNotFound ∨
    formFinishP b p = .err .xGoogMetaNameEmpty := by
  unfold formFinishP
  split
  · exact .inr (.inl rfl)
  · split
    · exact .inr (.inr rfl)
    · exact .inl ⟨_, rfl⟩

/-- C87. When a call fails with an error of its bound token, then the error tells how the call's own history ends: which
request was the last one, and what was wrong with it or with the answer; a status and body in the error are those of the
answer to the call's own last request. Whatever the other calls did. -/
theorem C87_error (h : Sys.Reach env base s) {pre post : List Event} {i : Nat} {call : ApiCall} {r : ApiResult} {e : BoundTokenError}
    (ht : s.trace = pre ++ .returned i r :: post) (hst : .started i call ∈ pre) (hf : FailedWith r e) :
    ∃ bt, call.key? = some bt ∧ Explains env bt.baseUrl bt.id (did pre i) e := by
  have hrun := started_runs h ht hst
  cases call with
  | url o =>
    obtain ⟨x, rfl, hu⟩ := prog_url hrun
    generalize hh : did pre i = hist at hu
    clear hrun
    cases hu with
    | full => cases hf
    | rejected hb hrej => cases hf <;> exact absurd rfl (urlRejection_not_token hrej _)
    | unknown hb hrej _ ha =>
      obtain ⟨bt, e', hk, hg, rfl⟩ := auth_token_error ha
      cases hf
      exact ⟨bt, url_own_key hk, getRuns_err hg⟩
    | aborted => cases hf
    | @named h0 h1 h2 t email y hb hrej hfit ha htail =>
      cases htail with
      | long => cases hf
      | header => cases hf
      | @signed _ z _ _ hs =>
        cases z with
        | ok d => cases hf
        | panic st => cases hf
        | err k =>
          rcases hs with ⟨_, _, _, _, _, hx⟩ | ⟨bt, e', hk, _, hr, hx⟩ | ⟨_, _, _, _, _, hx⟩ | ⟨_, hne, _⟩
          · cases hx
          · cases hx
            cases hf
            exact ⟨bt, url_own_key hk, signRuns_err hr⟩
          · cases hx
          · cases hf
            · exact absurd rfl (hne _).2
            · exact absurd rfl (hne _).1
  | form cs =>
    obtain ⟨x, rfl, hu⟩ := prog_form hrun
    cases ho : (cs.filterMap callOptions).getLast? with
    | none =>
      obtain ⟨_, hx⟩ := form_runs_unsigned ho hu
      rcases unsigned_finish (Builder.ofCalls cs) none with ⟨fs, h⟩ | h | h <;> (rw [h] at hx; subst hx; cases hf)
    | some o =>
      have hu := form_runs ho hu
      generalize hh : did pre i = hist at hu
      cases hu with
      | rejected hb hrej =>
        cases hf <;> (unfold formRejection at hrej; revert hrej; (repeat' split) <;> simp)
      | unknown hb hrej ha =>
        obtain ⟨bt, e', hk, hg, rfl⟩ := auth_token_error ha
        cases hf
        exact ⟨bt, form_own_key ho hk, getRuns_err hg⟩
      | aborted => cases hf
      | metaName => cases hf
      | @signed h0 h1 h2 t email z hb hrej ha hm hs =>
        cases z with
        | ok d => cases hf
        | panic st => cases hf
        | err k =>
          rcases hs with ⟨_, _, _, _, _, hx⟩ | ⟨bt, e', hk, _, hr, hx⟩ | ⟨_, _, _, _, _, hx⟩ | ⟨_, hne, _⟩
          · cases hx
          · cases hx
            cases hf
            exact ⟨bt, form_own_key ho hk, signRuns_err hr⟩
          · cases hx
          · cases hf
            exact absurd rfl (hne _).1

/-- The key of a call that does not use a bound token. -/
theorem url_key_none {o : UrlOptions} (hk : o.signingKey.boundToken? = none) : (ApiCall.url o).key? = none := hk

theorem form_key_none {cs : List Call} {o : SigningOptions} (ho : (cs.filterMap callOptions).getLast? = some o)
    (hk : o.signingKey.boundToken? = none) : (ApiCall.form cs).key? = none := by
  show (Builder.ofCalls cs).signingOptions.bind (·.signingKey.boundToken?) = none
  rw [(ofCalls_spec cs).options, ho]
  exact hk

/-- C87. When a call panics, then because its URL (of options that are otherwise in order), with the parameters for the
account it found, is longer than 65534 bytes; or because its headers, all in order, do not fit into a `HeaderMap`; or because signing is not implemented for its key, which is not a bound token; or while it gets a token: then the
call's own history ends with a cached expiry or a clock reading before 1970, or with a token that lives too long. -/
theorem C87_panic (h : Sys.Reach env base s) {pre post : List Event} {i : Nat} {call : ApiCall} {r : ApiResult} {site : PanicSite}
    (ht : s.trace = pre ++ .returned i r :: post) (hst : .started i call ∈ pre) (hp : AbortedAt r site) :
    (∃ o t email h1, call = .url o ∧ site = .urlToBeValid ∧ h1 <+: did pre i ∧ Named o.signingKey h1 email ∧
      ValidFrom o.accessibleAt (did pre i) t ∧ ValidUrl env o t ∧ TooLong env o t email) ∨
    (∃ o t, call = .url o ∧ site = .headerMapFull ∧ ValidFrom o.accessibleAt (did pre i) t ∧ TooManyHeaders env o t) ∨
    ((site = .hmacTodo ∨ site = .serviceAccountSignBlobTodo) ∧ call.key? = none) ∨
    ∃ bt, call.key? = some bt ∧ ExplainsPanic bt.baseUrl bt.id (did pre i) site := by
  have hrun := started_runs h ht hst
  cases call with
  | url o =>
    obtain ⟨x, rfl, hu⟩ := prog_url hrun
    clear hrun
    generalize hh : did pre i = hist at hu
    cases hp
    generalize hx : Res.panic site = y at hu
    cases hu with
    | @full _ t hb hover =>
      cases hx
      refine .inr (.inl ⟨o, t, rfl, rfl, ?_, overflows_iff.1 hover⟩)
      have := hb.valid (h' := [])
      rwa [List.append_nil] at this
    | rejected hb hrej => cases hx
    | unknown hb hrej ha => cases hx
    | aborted hb hrej _ ha =>
      cases hx
      obtain ⟨bt, hk, hg⟩ := auth_token_panic ha
      exact .inr (.inr (.inr ⟨bt, url_own_key hk, getRuns_panic hg⟩))
    | @named h0 h1 h2 t email y hb hrej hfit ha htail =>
      cases htail with
      | long hl =>
        cases hx
        rw [List.append_nil]
        obtain ⟨h', hp', hn⟩ := auth_named (h0 := h0) ha
        exact .inl ⟨o, t, email, h', rfl, rfl, hp', hn, hb.valid, validUrl_iff.2 ⟨hrej, hfit⟩, (tooLong_iff (urlRejection_time hrej)).2 hl⟩
      | header => cases hx
      | @signed _ z _ _ hs =>
        cases z with
        | ok d => cases hx
        | err k => cases hx
        | panic st =>
          cases hx
          rcases hs with ⟨_, _, _, _, _, hx⟩ | ⟨_, _, _, _, _, hx⟩ | ⟨bt, _, hk, _, hr, hx⟩ | ⟨_, _, hne, _⟩
          · cases hx
          · cases hx
          · cases hx
            exact .inr (.inr (.inr ⟨bt, url_own_key hk, signRuns_panic hr⟩))
          · exact .inr (.inr (.inl ⟨(hne _ rfl).1, url_key_none (hne _ rfl).2⟩))
  | form cs =>
    obtain ⟨x, rfl, hu⟩ := prog_form hrun
    clear hrun
    cases ho : (cs.filterMap callOptions).getLast? with
    | none =>
      obtain ⟨_, hx⟩ := form_runs_unsigned ho hu
      rcases unsigned_finish (Builder.ofCalls cs) none with ⟨fs, h⟩ | h | h <;> (rw [h] at hx; subst hx; cases hp)
    | some o =>
      have hu := form_runs ho hu
      generalize hh : did pre i = hist at hu
      cases hp
      generalize hx : Res.panic site = y at hu
      cases hu with
      | rejected hb hrej => cases hx
      | unknown hb hrej ha => cases hx
      | aborted hb hrej ha =>
        cases hx
        obtain ⟨bt, hk, hg⟩ := auth_token_panic ha
        exact .inr (.inr (.inr ⟨bt, form_own_key ho hk, getRuns_panic hg⟩))
      | metaName => cases hx
      | @signed h0 h1 h2 t email z hb hrej ha hm hs =>
        cases z with
        | ok d => cases hx
        | err k => cases hx
        | panic st =>
          cases hx
          rcases hs with ⟨_, _, _, _, _, hx⟩ | ⟨_, _, _, _, _, hx⟩ | ⟨bt, _, hk, _, hr, hx⟩ | ⟨_, _, hne, _⟩
          · cases hx
          · cases hx
          · cases hx
            exact .inr (.inr (.inr ⟨bt, form_own_key ho hk, signRuns_panic hr⟩))
          · exact .inr (.inr (.inl ⟨(hne _ rfl).1, form_key_none ho (hne _ rfl).2⟩))

/-- C87. No failed request is passed over: if a request of a call was not answered, was answered with a status outside
200..=299, or its answer broke off, then the call fails with an error of the bound token (and the error tells about it,
see `C87_error`). -/
theorem C87_not_passed_over (h : Sys.Reach env base s) {pre post : List Event} {i : Nat} {r : ApiResult}
    (ht : s.trace = pre ++ .returned i r :: post) (hb : HadTrouble (did pre i)) : ∃ e, FailedWith r e := by
  obtain ⟨call, hst, _⟩ := returned_done h ht
  have hrun := started_runs h ht hst
  cases call with
  | url o =>
    obtain ⟨x, rfl, hu⟩ := prog_url hrun
    generalize did pre i = hist at hu hb
    cases hu with
    | full hs => exact absurd hb hs.calm
    | rejected hs => exact absurd hb hs.calm
    | unknown hs hrej _ ha =>
      obtain ⟨bt, e', hk, hg, rfl⟩ := auth_token_error ha
      exact ⟨e', .urlAuthorizer e'⟩
    | aborted hs hrej _ ha => exact absurd hb (calm_append hs.calm (auth_calm ha (by simp)))
    | @named h0 h1 h2 t email y hs hrej _ ha htail =>
      have calm := calm_append hs.calm (auth_calm ha (by simp))
      cases htail with
      | long => exact absurd hb (calm_append calm calm_nil)
      | header => exact absurd hb (calm_append calm calm_nil)
      | @signed _ z _ _ hk =>
        rcases trouble_append.1 hb with hb | hb
        · exact absurd hb calm
        · cases z with
          | ok d => exact absurd hb (keySign_calm hk (by simp))
          | panic st => exact absurd hb (keySign_calm hk (by simp))
          | err k =>
            by_cases hx : ∃ e, k = .boundTokenSigning e
            · obtain ⟨e, rfl⟩ := hx
              exact ⟨e, .urlSigning e⟩
            · exact absurd hb (keySign_calm hk (fun e he => hx ⟨e, by simpa using he⟩))
  | form cs =>
    obtain ⟨x, rfl, hu⟩ := prog_form hrun
    cases ho : (cs.filterMap callOptions).getLast? with
    | none =>
      obtain ⟨hn, _⟩ := form_runs_unsigned ho hu
      rw [hn] at hb
      exact absurd hb calm_nil
    | some o =>
      have hu := form_runs ho hu
      generalize did pre i = hist at hu hb
      cases hu with
      | rejected hs => exact absurd hb hs.calm
      | unknown hs hrej ha =>
        obtain ⟨bt, e', hk, hg, rfl⟩ := auth_token_error ha
        exact ⟨e', .formAuthorizer e'⟩
      | aborted hs hrej ha => exact absurd hb (calm_append hs.calm (auth_calm ha (by simp)))
      | metaName hs hrej ha => exact absurd hb (calm_append hs.calm (auth_calm ha (by simp)))
      | @signed h0 h1 h2 t email z hs hrej ha hm hk =>
        rcases trouble_append.1 hb with hb | hb
        · exact absurd hb (calm_append hs.calm (auth_calm ha (by simp)))
        · cases z with
          | ok d => exact absurd hb (keySign_calm hk (by simp))
          | panic st => exact absurd hb (keySign_calm hk (by simp))
          | err k =>
            by_cases hx : ∃ e, k = .boundTokenSigning e
            · obtain ⟨e, rfl⟩ := hx
              exact ⟨e, .formSigning e⟩
            · exact absurd hb (keySign_calm hk (fun e he => hx ⟨e, by simpa using he⟩))

/-- C87. What a call returns is determined by its options and by what it did itself (what it read, was answered and found
in the cache): two calls with the same options and the same own history return the same, in whatever histories. -/
theorem C87_determined {base' : Nat → Str} {s' : Sys} (h : Sys.Reach env base s) (h' : Sys.Reach env base' s')
    {pre post pre' post' : List Event} {i i' : Nat} {call : ApiCall} {r r' : ApiResult}
    (ht : s.trace = pre ++ .returned i r :: post) (hst : .started i call ∈ pre)
    (ht' : s'.trace = pre' ++ .returned i' r' :: post') (hst' : .started i' call ∈ pre')
    (hd : did pre i = did pre' i') : r = r' := by
  have h1 := started_runs h ht hst
  have h2 := started_runs h' ht' hst'
  rw [hd] at h1
  exact Prog.Runs.unique h1 h2

/-- In a sane history no cached token expires before 1970, so that no call panics while it gets a token. -/
theorem sane_no_token_panic (h : Sys.Reach env base s) (hs : SaneHistory s.trace) {pre post : List Event}
    (ht : s.trace = pre ++ post) {i : Nat} {bt : BoundToken} {site : PanicSite}
    (hp : ExplainsPanic bt.baseUrl bt.id (did pre i) site) : False := by
  have mem : ∀ {e : Ev}, e ∈ did pre i → .did i e ∈ s.trace := by
    intro e he
    unfold did at he
    rw [List.mem_filterMap] at he
    obtain ⟨x, hx, he⟩ := he
    rw [ht]
    cases x <;> simp at he
    obtain ⟨rfl, rfl⟩ := he
    simp [hx]
  rcases hp with ⟨_, before, c, hd, hc⟩ | ⟨_, before, c, t, hd, hc⟩ | ⟨_, before, doc, token, life, t, hd, ⟨b1, s1, rfl, _⟩, htok, hlim⟩
  · obtain ⟨t1, t2, hp, _, _⟩ := did_split (trace := pre) (i := i) (a := before) (b := [.unlocked bt.id]) (by rw [hd])
    obtain ⟨j, t0, life, before', steps, after, hj, ⟨⟨_, _, doc, _, _, _, _, hsteps, _⟩, hex⟩, _⟩ :=
      locked_refreshed h (pre := t1) (i := i) (id := bt.id) (c := c) (post := t2 ++ post) (by rw [ht, hp]; simp)
    have : Event.did j (.clock t0) ∈ s.trace := by
      have hm : Ev.clock t0 ∈ did t1 j := by rw [hj, hsteps]; simp [refreshSteps]
      unfold did at hm
      rw [List.mem_filterMap] at hm
      obtain ⟨x, hx, he⟩ := hm
      rw [ht, hp]
      cases x <;> simp at he
      obtain ⟨rfl, rfl⟩ := he
      simp [hx]
    have h0 := hs.clock j t0 this
    have : 0 ≤ (life : Int) * 1000000000 := Int.mul_nonneg (Int.natCast_nonneg _) (by decide)
    rw [hex] at hc
    omega
  · have := hs.clock i t (mem (by rw [hd]; simp))
    omega
  · have h1 : Event.did i (.clock t) ∈ s.trace := mem (by rw [hd]; simp)
    have h2 : Event.did i (.body (some doc)) ∈ s.trace := mem (by rw [hd]; simp)
    have := hs.life i t i doc token life _ h1 h2 htok
    omega

/-- C87. If nobody reads a clock before 1970 and no token lives too long, then a call with a bound token panics at most
because its URL, with the parameters for the account it found, is longer than 65534 bytes, or because its headers do not fit into a `HeaderMap`; a form never panics. -/
theorem C87_sane_panic (h : Sys.Reach env base s) (hs : SaneHistory s.trace) {pre post : List Event} {i : Nat} {call : ApiCall}
    {r : ApiResult} {site : PanicSite} {bt : BoundToken}
    (ht : s.trace = pre ++ .returned i r :: post) (hst : .started i call ∈ pre) (hk : call.key? = some bt) (hp : AbortedAt r site) :
    (∃ o t email h1, call = .url o ∧ site = .urlToBeValid ∧ h1 <+: did pre i ∧ Named o.signingKey h1 email ∧
      ValidFrom o.accessibleAt (did pre i) t ∧ ValidUrl env o t ∧ TooLong env o t email) ∨
    ∃ o t, call = .url o ∧ site = .headerMapFull ∧ ValidFrom o.accessibleAt (did pre i) t ∧ TooManyHeaders env o t := by
  rcases C87_panic h ht hst hp with hl | hl | ⟨_, hn⟩ | ⟨bt', _, he⟩
  · exact .inl hl
  · exact .inr hl
  · rw [hk] at hn; cases hn
  · exact (sane_no_token_panic h hs (pre := pre) (post := .returned i r :: post) ht he).elim

/-- C87. Concurrency adds no outcomes: whatever a URL call returns in any history (a URL, an error or a panic), the call
can return alone, with the same cryptography and start of validity. -/
theorem C87_url_replay (h : Sys.Reach env base s) {pre post : List Event} {i : Nat} {o : UrlOptions} {x : Res BuildUrlError Str}
    (ht : s.trace = pre ++ .returned i (.url x) :: post) (hst : .started i (.url o) ∈ pre) :
    ∃ env' w w', SameComputation env' env ∧ ValidFrom o.accessibleAt (did pre i) (validFrom env' o.accessibleAt w) ∧
      buildSignedUrl env' o w = (x, w') := by
  obtain ⟨x', hx, hu⟩ := prog_url (started_runs h ht hst)
  cases hx
  have split : ∀ {env' : Env} {w : World}, (buildSignedUrl env' o w).1 = x → ∃ w', buildSignedUrl env' o w = (x, w') := by
    intro env' w hx
    exact ⟨(buildSignedUrl env' o w).2, by rw [← hx]⟩
  suffices ∃ env' w, SameComputation env' env ∧ ValidFrom o.accessibleAt (did pre i) (validFrom env' o.accessibleAt w) ∧
      (buildSignedUrl env' o w).1 = x by
    obtain ⟨env', w, h1, h2, h3⟩ := this
    obtain ⟨w', h4⟩ := split h3
    exact ⟨env', w, w', h1, h2, h4⟩
  generalize did pre i = hist at hu
  cases hu with
  | @full h0 t hb hover =>
    have hv := scripted_valid env (validFrom_given (hb.valid (h' := []))) (fun _ => 0) (fun _ => .execErr) (fun _ => true) none
    refine ⟨scripted env o.accessibleAt t (fun _ => 0) (fun _ => .execErr) (fun _ => true), cachedWorld none, scripted_same .., ?_, ?_⟩
    · rw [hv]
      have := hb.valid (h' := [])
      rwa [List.append_nil] at this
    · rw [buildSignedUrl_overflows _ _ _ (by rw [hv]; exact (overflows_congr (scripted_same ..)).2 hover)]
  | @rejected h0 t e hb hrej hover =>
    have hv := scripted_valid env (validFrom_given (hb.valid (h' := []))) (fun _ => 0) (fun _ => .execErr) (fun _ => true) none
    refine ⟨scripted env o.accessibleAt t (fun _ => 0) (fun _ => .execErr) (fun _ => true), cachedWorld none, scripted_same .., ?_, ?_⟩
    · rw [hv]
      have := hb.valid (h' := [])
      rwa [List.append_nil] at this
    · rw [buildSignedUrl_eq _ _ _ (by rw [hv]; exact fun h => hover ((overflows_congr (scripted_same ..)).1 h)), hv, urlRejection_congr (scripted_same ..), hrej]
  | unknown hb hrej hfit ha =>
    obtain ⟨env', w, c1, c2, c3⟩ := auth_replay ha (validFrom_given (hb.valid (h' := [])))
    refine ⟨env', w, c1, by rw [c2]; exact hb.valid, ?_⟩
    rw [buildSignedUrl_eq _ _ _ (HeadersFit.not_overflows ((headersFit_congr c1).2 hfit)), c2, urlRejection_congr c1, hrej]
    revert c3
    rcases o.signingKey.authorizer env' (clocked o.accessibleAt w) with ⟨y, w2⟩
    rintro rfl
    rfl
  | aborted hb hrej hfit ha =>
    obtain ⟨env', w, c1, c2, c3⟩ := auth_replay ha (validFrom_given (hb.valid (h' := [])))
    refine ⟨env', w, c1, by rw [c2]; exact hb.valid, ?_⟩
    rw [buildSignedUrl_eq _ _ _ (HeadersFit.not_overflows ((headersFit_congr c1).2 hfit)), c2, urlRejection_congr c1, hrej]
    revert c3
    rcases o.signingKey.authorizer env' (clocked o.accessibleAt w) with ⟨y, w2⟩
    rintro rfl
    rfl
  | @named h0 h1 h2 t email y hb hrej hfit ha htail =>
    cases htail with
    | long hl =>
      obtain ⟨env', w, c1, c2, c3⟩ := auth_replay ha (validFrom_given (hb.valid (h' := [])))
      refine ⟨env', w, c1, by rw [c2, List.append_assoc]; exact hb.valid, ?_⟩
      rw [buildSignedUrl_eq _ _ _ (HeadersFit.not_overflows ((headersFit_congr c1).2 hfit)), c2, urlRejection_congr c1, hrej]
      revert c3
      rcases o.signingKey.authorizer env' (clocked o.accessibleAt w) with ⟨y, w2⟩
      rintro rfl
      simp only
      rw [fullUrl_congr c1, if_pos hl]
      rfl
    | header hl hh =>
      obtain ⟨env', w, c1, c2, c3⟩ := auth_replay ha (validFrom_given (hb.valid (h' := [])))
      refine ⟨env', w, c1, by rw [c2, List.append_assoc]; exact hb.valid, ?_⟩
      rw [buildSignedUrl_eq _ _ _ (HeadersFit.not_overflows ((headersFit_congr c1).2 hfit)), c2, urlRejection_congr c1, hrej]
      revert c3
      rcases o.signingKey.authorizer env' (clocked o.accessibleAt w) with ⟨y, w2⟩
      rintro rfl
      simp only
      rw [fullUrl_congr c1, if_neg hl, if_pos hh]
      rfl
    | @signed _ z hl hh hs =>
      obtain ⟨env', w, w2, c1, c2, c3, c4⟩ := sign_replay ha hs (validFrom_given (hb.valid (h' := [])))
      refine ⟨env', w, c1, by rw [c2, List.append_assoc]; exact hb.valid, ?_⟩
      rw [buildSignedUrl_eq _ _ _ (HeadersFit.not_overflows ((headersFit_congr c1).2 hfit)), c2, urlRejection_congr c1, hrej]
      simp only [c3]
      rw [fullUrl_congr c1, if_neg hl, if_neg (by simpa using hh), partsOf_congr c1]
      revert c4
      rcases o.signingKey.sign env' o.useSignBlob (utf8 (partsOf env o t email).stringToSign) w2 with ⟨z', w3⟩
      rintro rfl
      cases z' <;> rfl

/-- C87. The same for forms, signed or not. -/
theorem C87_form_replay (h : Sys.Reach env base s) {pre post : List Event} {i : Nat} {cs : List Call}
    {x : Res FormError (List (Str × Str))}
    (ht : s.trace = pre ++ .returned i (.form x) :: post) (hst : .started i (.form cs) ∈ pre) :
    ∃ env' w w', SameComputation env' env ∧
      (∀ o, (cs.filterMap callOptions).getLast? = some o →
        ValidFrom o.accessibleAt (did pre i) (validFrom env' o.accessibleAt w)) ∧
      (Builder.ofCalls cs).build env' w = (x, w') := by
  obtain ⟨x', hx, hu⟩ := prog_form (started_runs h ht hst)
  cases hx
  suffices ∃ env' w, SameComputation env' env ∧ (∀ o, (cs.filterMap callOptions).getLast? = some o →
        ValidFrom o.accessibleAt (did pre i) (validFrom env' o.accessibleAt w)) ∧
      ((Builder.ofCalls cs).build env' w).1 = x by
    obtain ⟨env', w, h1, h2, h3⟩ := this
    exact ⟨env', w, ((Builder.ofCalls cs).build env' w).2, h1, h2, by rw [← h3]⟩
  cases ho : (cs.filterMap callOptions).getLast? with
  | none =>
    obtain ⟨_, rfl⟩ := form_runs_unsigned ho hu
    refine ⟨env, cachedWorld none, ⟨rfl, rfl, rfl, rfl, rfl, rfl⟩, by simp, ?_⟩
    rw [build_eq]
    unfold buildPolicyAndSignature
    rw [(ofCalls_spec cs).options, ho]
    simp only [M.pure_run, formFinishP]
    cases (Builder.ofCalls cs).key <;> rfl
  | some o =>
    have hu := form_runs ho hu
    suffices ∃ env' w, SameComputation env' env ∧ ValidFrom o.accessibleAt (did pre i) (validFrom env' o.accessibleAt w) ∧
        ((Builder.ofCalls cs).build env' w).1 = x by
      obtain ⟨env', w, h1, h2, h3⟩ := this
      exact ⟨env', w, h1, by rintro o' ho'; cases ho'; exact h2, h3⟩
    generalize did pre i = hist at hu
    cases hu with
    | @rejected h0 t e hb hrej =>
      have hv := scripted_valid env (validFrom_given (hb.valid (h' := []))) (fun _ => 0) (fun _ => .execErr) (fun _ => true) none
      refine ⟨scripted env o.accessibleAt t (fun _ => 0) (fun _ => .execErr) (fun _ => true), cachedWorld none, scripted_same .., ?_, ?_⟩
      · rw [hv]
        have := hb.valid (h' := [])
        rwa [List.append_nil] at this
      · rw [build_signed_eq _ _ _ _ ho, hv, hrej]
    | unknown hb hrej ha =>
      obtain ⟨env', w, c1, c2, c3⟩ := auth_replay ha (validFrom_given (hb.valid (h' := [])))
      refine ⟨env', w, c1, by rw [c2]; exact hb.valid, ?_⟩
      rw [build_signed_eq _ _ _ _ ho, c2, hrej]
      revert c3
      rcases o.signingKey.authorizer env' (clocked o.accessibleAt w) with ⟨y, w2⟩
      rintro rfl
      rfl
    | aborted hb hrej ha =>
      obtain ⟨env', w, c1, c2, c3⟩ := auth_replay ha (validFrom_given (hb.valid (h' := [])))
      refine ⟨env', w, c1, by rw [c2]; exact hb.valid, ?_⟩
      rw [build_signed_eq _ _ _ _ ho, c2, hrej]
      revert c3
      rcases o.signingKey.authorizer env' (clocked o.accessibleAt w) with ⟨y, w2⟩
      rintro rfl
      rfl
    | metaName hb hrej ha hm =>
      obtain ⟨env', w, c1, c2, c3⟩ := auth_replay ha (validFrom_given (hb.valid (h' := [])))
      refine ⟨env', w, c1, by rw [c2]; exact hb.valid, ?_⟩
      rw [build_signed_eq _ _ _ _ ho, c2, hrej]
      revert c3
      rcases o.signingKey.authorizer env' (clocked o.accessibleAt w) with ⟨y, w2⟩
      rintro rfl
      simp only
      rw [if_pos hm]
    | @signed h0 h1 h2 t email z hb hrej ha hm hs =>
      obtain ⟨env', w, w2, c1, c2, c3, c4⟩ := sign_replay ha hs (validFrom_given (hb.valid (h' := [])))
      refine ⟨env', w, c1, by rw [c2, List.append_assoc]; exact hb.valid, ?_⟩
      rw [build_signed_eq _ _ _ _ ho, c2, hrej]
      simp only [c3]
      rw [if_neg hm]
      revert c4
      generalize o.signingKey.sign env' o.useSignBlob _ w2 = zz
      obtain ⟨z', w3⟩ := zz
      rintro rfl
      cases z' <;> rfl

/-! ### Examples -/

/-- A check for sane histories. -/
def clocksIn (trace : List Event) : List Time := trace.filterMap fun
  | .did _ (.clock t) => some t
  | _ => none

def docsIn (trace : List Event) : List Str := trace.filterMap fun
  | .did _ (.body (some doc)) => some doc
  | _ => none

def saneCheck (trace : List Event) : Bool :=
  (clocksIn trace).all (fun t => decide (0 ≤ t)) &&
  (docsIn trace).all fun doc => match parseAccessToken doc with
    | none => true
    | some a => (clocksIn trace).all fun t => decide (t + (a.expiresIn : Int) * 1000000000 < 9223372036854775808 * 1000000000)

theorem sane_of_check {trace : List Event} (h : saneCheck trace = true) : SaneHistory trace := by
  unfold saneCheck at h
  rw [Bool.and_eq_true] at h
  have clocks : ∀ {i t}, Event.did i (.clock t) ∈ trace → t ∈ clocksIn trace := by
    intro i t ht
    exact List.mem_filterMap.2 ⟨_, ht, rfl⟩
  constructor
  · intro i t ht
    simpa using List.all_eq_true.1 h.1 t (clocks ht)
  · intro i t j doc token life type ht hd htok
    have := List.all_eq_true.1 h.2 doc (List.mem_filterMap.2 ⟨_, hd, rfl⟩)
    rw [parseAccessToken_iff.2 htok] at this
    simpa using List.all_eq_true.1 this t (clocks ht)

namespace Conformance

/-- The metadata server refuses the e-mail request of call 0, which returns. Call 1, which has waited, asks again and gets
a token, but no answer to its request for a signature. Call 2 finds the token; the answer to its request is no JSON. -/
def failing : List Move :=
  [.start 0 (.url btUrlOptions), .clock 0 atNow, .go 0, .start 1 (.form btCalls), .clock 1 atNow, .go 0,
   .status 0 (some 503), .body 0 (some (s% "busy")), .go 0, .finish 0,
   .go 1, .go 1, .status 1 (some 200), .body 1 (some (s% "a@b.c")), .go 1, .status 1 (some 200), .body 1 (some (tokenDoc (s% "3599"))),
   .clock 1 atNow, .go 1, .go 1, .go 1, .clock 1 atNow, .go 1, .start 2 (.url btUrlOptions), .go 1, .clock 2 atNow, .status 1 none,
   .finish 1, .go 2, .clock 2 atNow, .go 2, .go 2, .clock 2 atNow, .go 2, .go 2, .status 2 (some 200), .body 2 (some (s% "oops")), .finish 2]

/-- Three calls fail for three reasons. -/
def failedThrice (s : Sys) : Bool :=
  s.trace.any (fun
    | .returned 0 (.url (.err (.signedUrl (.signing (.boundTokenAuthorizer (.emailRequestStatus st b)))))) => st == 503 && b == s% "busy"
    | _ => false) &&
  s.trace.any (fun
    | .returned 1 (.form (.err (.signing (.boundTokenSigning .signBlobRequestExecute)))) => true
    | _ => false) &&
  s.trace.any (fun
    | .returned 2 (.url (.err (.signedUrl (.signing (.boundTokenSigning .signBlobRequestSuccessResponseDeserialize))))) => true
    | _ => false)

/-- Call 0 stores a token that it got when the clock stood before 1970, and then panics; and so does call 1, which found
that token. -/
def panicking : List Move :=
  [.start 0 (.url { btUrlOptions with accessibleAt := some atNow }), .go 0, .start 1 (.form btCalls), .clock 1 atNow, .go 0,
   .status 0 (some 200), .body 0 (some (s% "a@b.c")), .go 0, .status 0 (some 200), .body 0 (some (tokenDoc (s% "7"))),
   .clock 0 (-10 * nsPerSec), .go 0, .go 0, .go 1, .go 1, .go 0, .go 0, .finish 0, .finish 1]

def panickedTwice (s : Sys) : Bool :=
  s.trace.any (fun
    | .returned 0 (.url (.panic .expiresBeforeEpoch)) => true
    | _ => false) &&
  s.trace.any (fun
    | .returned 1 (.form (.panic .expiresBeforeEpoch)) => true
    | _ => false)

end Conformance

open Conformance

/-- Non-vacuity of `C87_error`, `C87_not_passed_over` and the replays, in a sane history. -/
example : ∃ s, Sys.Reach btEnv baseOf s ∧ (failedThrice s && saneCheck s.trace) = true :=
  leads_reach (ms := failing) (by decide +kernel)

/-- Non-vacuity of `C87_panic`; the history is not sane. -/
example : ∃ s, Sys.Reach btEnv baseOf s ∧ (panickedTwice s && !saneCheck s.trace) = true :=
  leads_reach (ms := panicking) (by decide +kernel)

/-- Non-vacuity of `C87_sane_panic`, up to the panic: the histories in which everything goes well are sane. -/
example : ∃ s, Sys.Reach btEnv baseOf s ∧ (returnedOk s 0 && returnedOk s 1 && saneCheck s.trace) = true :=
  leads_reach (ms := finished) (by decide +kernel)

end CSS
