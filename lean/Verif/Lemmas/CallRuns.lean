import Verif.Lemmas.Failures
import Verif.Props.UrlErrors
/-
The two entry points, taken apart along their steps.
-/
set_option linter.unusedSimpArgs false
namespace CSS
open Spec

/-- How finding the identity of a key can end. -/
def AuthRuns (env : Env) (key : SigningKey) (h : List Ev) (x : Res KeyError Str) : Prop :=
  (∃ bt email token, key = .boundToken bt ∧ GetRuns env bt h (.ok (email, token)) ∧ x = .ok email) ∨
  (∃ bt e, key = .boundToken bt ∧ GetRuns env bt h (.err e) ∧ x = .err (.boundTokenAuthorizer e)) ∨
  (∃ bt s, key = .boundToken bt ∧ GetRuns env bt h (.panic s) ∧ x = .panic s) ∨
  (h = [] ∧ ∃ email, x = .ok email ∧ (key.boundToken? = none ∧ Named key [] email) ∧
    ∀ env' w, key.authorizer env' w = (.ok email, w))

theorem auth_runs {env : Env} {key : SigningKey} {h : List Ev} {x : Res KeyError Str}
    (hr : Prog.Runs (key.authorizerP env) h x) : AuthRuns env key h x := by
  cases key with
  | boundToken bt =>
    rcases runs_bind hr with ⟨h1, ⟨email, token⟩, h2, rfl, hg, hr2⟩ | ⟨e, rfl, hg⟩ | ⟨s, rfl, hg⟩
    · obtain ⟨rfl, rfl⟩ := Prog.Runs.ret hr2
      obtain ⟨y, hx, hy⟩ := runs_mapErr hg
      cases y <;> simp [Res.mapErr] at hx
      subst hx
      rw [List.append_nil]
      exact .inl ⟨bt, email, token, rfl, get_runs hy, rfl⟩
    · obtain ⟨y, hx, hy⟩ := runs_mapErr hg
      cases y <;> simp [Res.mapErr] at hx
      subst hx
      exact .inr (.inl ⟨bt, _, rfl, get_runs hy, rfl⟩)
    · obtain ⟨y, hx, hy⟩ := runs_mapErr hg
      cases y <;> simp [Res.mapErr] at hx
      subst hx
      exact .inr (.inr (.inl ⟨bt, _, rfl, get_runs hy, rfl⟩))
  | hmac a k =>
    obtain ⟨rfl, rfl⟩ := Prog.Runs.ret hr
    exact .inr (.inr (.inr ⟨rfl, a, rfl, ⟨rfl, rfl⟩, fun _ _ => rfl⟩))
  | serviceAccount a k =>
    obtain ⟨rfl, rfl⟩ := Prog.Runs.ret hr
    exact .inr (.inr (.inr ⟨rfl, a, rfl, ⟨rfl, rfl⟩, fun _ _ => rfl⟩))

/-- How signing can end. -/
def KeySignRuns (env : Env) (key : SigningKey) (u : Bool) (m : Bytes) (h : List Ev) (x : Res KeyError Bytes) : Prop :=
  (∃ bt d, key = .boundToken bt ∧ u = true ∧ SignRuns env bt m h (.ok d) ∧ x = .ok d) ∨
  (∃ bt e, key = .boundToken bt ∧ u = true ∧ SignRuns env bt m h (.err e) ∧ x = .err (.boundTokenSigning e)) ∨
  (∃ bt s, key = .boundToken bt ∧ u = true ∧ SignRuns env bt m h (.panic s) ∧ x = .panic s) ∨
  (h = [] ∧ (∀ e, x ≠ .err (.boundTokenSigning e) ∧ x ≠ .err (.boundTokenAuthorizer e)) ∧
    (∀ s, x = .panic s → (s = .hmacTodo ∨ s = .serviceAccountSignBlobTodo) ∧ key.boundToken? = none) ∧
    ∀ env' w, SameComputation env' env → key.sign env' u m w = (x, w))

theorem keySign_runs {env : Env} {key : SigningKey} {u : Bool} {m : Bytes} {h : List Ev} {x : Res KeyError Bytes}
    (hr : Prog.Runs (key.signP env u m) h x) : KeySignRuns env key u m h x := by
  cases key with
  | boundToken bt =>
    cases u with
    | true =>
      obtain ⟨y, rfl, hy⟩ := runs_mapErr hr
      cases y with
      | ok d => exact .inl ⟨bt, d, rfl, rfl, sign_runs hy, rfl⟩
      | err e => exact .inr (.inl ⟨bt, e, rfl, rfl, sign_runs hy, rfl⟩)
      | panic s => exact .inr (.inr (.inl ⟨bt, s, rfl, rfl, sign_runs hy, rfl⟩))
    | false =>
      obtain ⟨rfl, rfl⟩ := Prog.Runs.ret hr
      exact .inr (.inr (.inr ⟨rfl, by simp, by simp [SigningKey.boundToken?], fun _ _ _ => rfl⟩))
  | hmac a k =>
    obtain ⟨rfl, rfl⟩ := Prog.Runs.ret hr
    exact .inr (.inr (.inr ⟨rfl, by simp, by simp [SigningKey.boundToken?], fun _ _ _ => rfl⟩))
  | serviceAccount a pem =>
    cases u with
    | true =>
      obtain ⟨rfl, rfl⟩ := Prog.Runs.ret hr
      exact .inr (.inr (.inr ⟨rfl, by simp, by simp [SigningKey.boundToken?], fun _ _ _ => rfl⟩))
    | false =>
      obtain ⟨rfl, rfl⟩ := Prog.Runs.ret hr
      refine .inr (.inr (.inr ⟨rfl, ?_, ?_, ?_⟩))
      · intro e
        unfold rsaSignPem
        constructor <;> (repeat' split) <;> simp
      · intro s hs
        unfold rsaSignPem at hs
        revert hs
        (repeat' split) <;> simp [SigningKey.boundToken?]
      · intro env' w hc
        show SigningKey.sign _ _ false m _ = _
        unfold SigningKey.sign
        simp only [Bool.false_eq_true, if_false, M.lift_run]
        rw [rsaSignPem_congr hc]

/-- The steps that fix the start of validity. -/
def Begins (given : Option Time) (h : List Ev) (t : Time) : Prop :=
  (given = some t ∧ h = []) ∨ (given = none ∧ h = [.clock t])

theorem begin_runs {ε : Type} {given : Option Time} {h : List Ev} {x : Res ε Time}
    (hr : Prog.Runs (P.timeOrNow (ε := ε) given) h x) : ∃ t, x = .ok t ∧ Begins given h t := by
  cases given with
  | some t =>
    obtain ⟨rfl, rfl⟩ := Prog.Runs.ret hr
    exact ⟨t, rfl, .inl ⟨rfl, rfl⟩⟩
  | none =>
    obtain ⟨t, h1, rfl, hr1⟩ := Prog.Runs.now hr
    obtain ⟨rfl, rfl⟩ := Prog.Runs.ret hr1
    exact ⟨t, rfl, .inr ⟨rfl, rfl⟩⟩

theorem Begins.valid {given : Option Time} {h h' : List Ev} {t : Time} (hb : Begins given h t) : ValidFrom given (h ++ h') t := by
  rcases hb with ⟨rfl, rfl⟩ | ⟨rfl, rfl⟩
  · exact .inl rfl
  · exact .inr ⟨rfl, rfl⟩

theorem Begins.calm {given : Option Time} {h : List Ev} {t : Time} (hb : Begins given h t) : ¬ HadTrouble h := by
  rcases hb with ⟨rfl, rfl⟩ | ⟨rfl, rfl⟩
  · exact calm_nil
  · exact calm_one (by simp) (by simp)

/-- How a URL call can go after its options were found to be in order. -/
inductive UrlTailRuns (env : Env) (o : UrlOptions) (t : Time) (email : Str) : List Ev → Res SignedUrlError Str → Prop
  | long : 65534 < (utf8 (fullUrl env o (required o t email))).length → UrlTailRuns env o t email [] (.panic .urlToBeValid)
  | header : ¬ 65534 < (utf8 (fullUrl env o (required o t email))).length → (¬ ∀ h ∈ o.headers, headerToStrOk h.2 = true) →
      UrlTailRuns env o t email [] (.err (.canonicalRequest .headerValueContainsInvalidCharacter))
  | signed {h : List Ev} {x : Res KeyError Bytes} : ¬ 65534 < (utf8 (fullUrl env o (required o t email))).length →
      (∀ h ∈ o.headers, headerToStrOk h.2 = true) →
      KeySignRuns env o.signingKey o.useSignBlob (utf8 ((partsOf env o t email).stringToSign)) h x →
      UrlTailRuns env o t email h (match x with
        | .ok digest => .ok ((partsOf env o t email).url (hexEncode digest))
        | .err e => .err (.signing e)
        | .panic s => .panic s)

theorem urlTail_runs {env : Env} {o : UrlOptions} {t : Time} {email : Str} {h : List Ev} {x : Res SignedUrlError Str}
    (hr : Prog.Runs (urlTailP env o t email) h x) : UrlTailRuns env o t email h x := by
  unfold urlTailP at hr
  split at hr
  · rename_i hl
    obtain ⟨rfl, rfl⟩ := Prog.Runs.ret hr
    exact .long hl
  rename_i hl
  split at hr
  · rename_i hh
    obtain ⟨rfl, rfl⟩ := Prog.Runs.ret hr
    exact .header hl hh
  rename_i hh
  have hh : ∀ h ∈ o.headers, headerToStrOk h.2 = true := by simpa using hh
  rcases runs_bind hr with ⟨h1, digest, h2, rfl, hg, hr2⟩ | ⟨e, rfl, hg⟩ | ⟨s, rfl, hg⟩
  · obtain ⟨rfl, rfl⟩ := Prog.Runs.ret hr2
    obtain ⟨y, hx, hy⟩ := runs_mapErr hg
    cases y <;> simp [Res.mapErr] at hx
    subst hx
    rw [List.append_nil]
    exact .signed hl hh (keySign_runs hy)
  · obtain ⟨y, hx, hy⟩ := runs_mapErr hg
    cases y <;> simp [Res.mapErr] at hx
    subst hx
    exact .signed hl hh (keySign_runs hy)
  · obtain ⟨y, hx, hy⟩ := runs_mapErr hg
    cases y <;> simp [Res.mapErr] at hx
    subst hx
    exact .signed hl hh (keySign_runs hy)

/-- How a URL call can go. -/
inductive UrlRuns (env : Env) (o : UrlOptions) : List Ev → Res BuildUrlError Str → Prop
  | full {h0 : List Ev} {t : Time} : Begins o.accessibleAt h0 t → Overflows env o t → UrlRuns env o h0 (.panic .headerMapFull)
  | rejected {h0 : List Ev} {t : Time} {e : BuildUrlError} : Begins o.accessibleAt h0 t → urlRejection env o t = some e → ¬ Overflows env o t →
      UrlRuns env o h0 (.err e)
  | unknown {h0 h1 : List Ev} {t : Time} {e : KeyError} : Begins o.accessibleAt h0 t → urlRejection env o t = none → HeadersFit env o.headers →
      AuthRuns env o.signingKey h1 (.err e) → UrlRuns env o (h0 ++ h1) (.err (.signedUrl (.signing e)))
  | aborted {h0 h1 : List Ev} {t : Time} {s : PanicSite} : Begins o.accessibleAt h0 t → urlRejection env o t = none → HeadersFit env o.headers →
      AuthRuns env o.signingKey h1 (.panic s) → UrlRuns env o (h0 ++ h1) (.panic s)
  | named {h0 h1 h2 : List Ev} {t : Time} {email : Str} {x : Res SignedUrlError Str} : Begins o.accessibleAt h0 t →
      urlRejection env o t = none → HeadersFit env o.headers → AuthRuns env o.signingKey h1 (.ok email) → UrlTailRuns env o t email h2 x →
      UrlRuns env o (h0 ++ h1 ++ h2) (x.mapErr .signedUrl)

theorem url_runs {env : Env} {o : UrlOptions} {h : List Ev} {x : Res BuildUrlError Str}
    (hr : Prog.Runs (buildSignedUrlP env o) h x) : UrlRuns env o h x := by
  rw [buildSignedUrlP_eq] at hr
  rcases runs_bind hr with ⟨h0, t, h', rfl, ht, hr2⟩ | ⟨e, rfl, ht⟩ | ⟨s, rfl, ht⟩
  · obtain ⟨t', htt, hb⟩ := begin_runs ht
    cases htt
    by_cases hover : Overflows env o t
    · rw [if_pos hover] at hr2
      obtain ⟨rfl, rfl⟩ := Prog.Runs.ret hr2
      rw [List.append_nil]
      exact .full hb hover
    rw [if_neg hover] at hr2
    cases hrej : urlRejection env o t with
    | some e =>
      rw [hrej] at hr2
      obtain ⟨rfl, rfl⟩ := Prog.Runs.ret hr2
      rw [List.append_nil]
      exact .rejected hb hrej hover
    | none =>
      rw [hrej] at hr2
      have hfit : HeadersFit env o.headers := Classical.byContradiction fun hn => hover ⟨hn, .inl hrej⟩
      obtain ⟨y, rfl, hy⟩ := runs_mapErr hr2
      rcases runs_bind hy with ⟨h1, email, h2, rfl, ha, hr3⟩ | ⟨e, rfl, ha⟩ | ⟨s, rfl, ha⟩
      · obtain ⟨z, hx, hz⟩ := runs_mapErr ha
        cases z <;> simp [Res.mapErr] at hx
        subst hx
        rw [← List.append_assoc]
        exact .named hb hrej hfit (auth_runs hz) (urlTail_runs hr3)
      · obtain ⟨z, hx, hz⟩ := runs_mapErr ha
        cases z <;> simp [Res.mapErr] at hx
        subst hx
        exact .unknown hb hrej hfit (auth_runs hz)
      · obtain ⟨z, hx, hz⟩ := runs_mapErr ha
        cases z <;> simp [Res.mapErr] at hx
        subst hx
        exact .aborted hb hrej hfit (auth_runs hz)
  · obtain ⟨_, h, _⟩ := begin_runs ht; cases h
  · obtain ⟨_, h, _⟩ := begin_runs ht; cases h

/-- How a form call with signing options can go. -/
inductive FormRuns (env : Env) (cs : List Call) (o : SigningOptions) : List Ev → Res FormError (List (Str × Str)) → Prop
  | rejected {h0 : List Ev} {t : Time} {e : FormError} : Begins o.accessibleAt h0 t → formRejection cs o t = some e →
      FormRuns env cs o h0 (.err e)
  | unknown {h0 h1 : List Ev} {t : Time} {e : KeyError} : Begins o.accessibleAt h0 t → formRejection cs o t = none →
      AuthRuns env o.signingKey h1 (.err e) → FormRuns env cs o (h0 ++ h1) (.err (.boundTokenAuthorizer e))
  | aborted {h0 h1 : List Ev} {t : Time} {s : PanicSite} : Begins o.accessibleAt h0 t → formRejection cs o t = none →
      AuthRuns env o.signingKey h1 (.panic s) → FormRuns env cs o (h0 ++ h1) (.panic s)
  | metaName {h0 h1 : List Ev} {t : Time} {email : Str} : Begins o.accessibleAt h0 t →
      formRejection cs o t = none → AuthRuns env o.signingKey h1 (.ok email) → (∃ m ∈ cs.filterMap callMeta, m.1 = []) →
      FormRuns env cs o (h0 ++ h1) (.err .xGoogMetaNameEmpty)
  | signed {h0 h1 h2 : List Ev} {t : Time} {email : Str} {x : Res KeyError Bytes} : Begins o.accessibleAt h0 t →
      formRejection cs o t = none → AuthRuns env o.signingKey h1 (.ok email) → (¬ ∃ m ∈ cs.filterMap callMeta, m.1 = []) →
      KeySignRuns env o.signingKey o.useSignBlob (utf8 (policyFields (Builder.ofCalls cs)
        ((lastValue cs (s% "bucket")).getD []) ((lastValue cs (s% "key")).getD []) o email t []).policy) h2 x →
      FormRuns env cs o (h0 ++ h1 ++ h2) (match x with
        | .ok digest => .ok (fieldList (Builder.ofCalls cs) ((lastValue cs (s% "key")).getD []) (some (policyFields (Builder.ofCalls cs)
            ((lastValue cs (s% "bucket")).getD []) ((lastValue cs (s% "key")).getD []) o email t digest)))
        | .err e => .err (.signing e)
        | .panic s => .panic s)

theorem form_runs {env : Env} {cs : List Call} {o : SigningOptions} {h : List Ev} {x : Res FormError (List (Str × Str))}
    (ho : (cs.filterMap callOptions).getLast? = some o)
    (hr : Prog.Runs ((Builder.ofCalls cs).buildP env) h x) : FormRuns env cs o h x := by
  have spec := ofCalls_spec cs
  have hpol : buildPolicyAndSignatureP env (Builder.ofCalls cs) =
      buildPolicyP env (Builder.ofCalls cs) o >>= fun p => pure (some p) := by
    unfold buildPolicyAndSignatureP
    rw [spec.options, ho]
  rw [buildP_eq, hpol, buildPolicyP_eq] at hr
  -- the policy
  have key : ∀ {h' : List Ev} {y : Res FormError PolicyFields},
      Prog.Runs (P.timeOrNow o.accessibleAt >>= fun t =>
        match formRejection cs o t with
        | some e => P.err e
        | none => P.mapErr .boundTokenAuthorizer (o.signingKey.authorizerP env) >>= formTailP env cs o t : P FormError PolicyFields) h' y →
      (∃ e, y = .err e ∧ FormRuns env cs o h' (.err e)) ∨ (∃ s, y = .panic s ∧ FormRuns env cs o h' (.panic s)) ∨
      (∃ p, y = .ok p ∧ FormRuns env cs o h' (.ok (fieldList (Builder.ofCalls cs) ((lastValue cs (s% "key")).getD []) (some p))) ∧
        (∃ k, lastValue cs (s% "key") = some k) ∧ ¬ ∃ m ∈ cs.filterMap callMeta, m.1 = []) := by
    intro h' y hr
    rcases runs_bind hr with ⟨h0, t, h'', rfl, ht, hr2⟩ | ⟨e, rfl, ht⟩ | ⟨s, rfl, ht⟩
    · obtain ⟨t', htt, hb⟩ := begin_runs ht
      cases htt
      cases hrej : formRejection cs o t with
      | some e =>
        rw [hrej] at hr2
        obtain ⟨rfl, rfl⟩ := Prog.Runs.ret hr2
        rw [List.append_nil]
        exact .inl ⟨e, rfl, .rejected hb hrej⟩
      | none =>
        rw [hrej] at hr2
        have hkey : ∃ k, lastValue cs (s% "key") = some k := by
          unfold formRejection at hrej
          cases hk : lastValue cs (s% "key") with
          | some k => exact ⟨k, rfl⟩
          | none =>
            rw [hk] at hrej
            revert hrej
            (repeat' split) <;> simp_all
        rcases runs_bind hr2 with ⟨h1, email, h2, rfl, ha, hr3⟩ | ⟨e, rfl, ha⟩ | ⟨s, rfl, ha⟩
        · obtain ⟨z, hx, hz⟩ := runs_mapErr ha
          cases z <;> simp [Res.mapErr] at hx
          subst hx
          unfold formTailP at hr3
          split at hr3
          · rename_i hm
            obtain ⟨rfl, rfl⟩ := Prog.Runs.ret hr3
            rw [List.append_nil]
            exact .inl ⟨_, rfl, .metaName hb hrej (auth_runs hz) hm⟩
          · rename_i hm
            rcases runs_bind hr3 with ⟨h3, digest, h4, rfl, hs, hr4⟩ | ⟨e, rfl, hs⟩ | ⟨s, rfl, hs⟩
            · obtain ⟨rfl, rfl⟩ := Prog.Runs.ret hr4
              obtain ⟨z, hx, hz'⟩ := runs_mapErr hs
              cases z <;> simp [Res.mapErr] at hx
              subst hx
              rw [List.append_nil, ← List.append_assoc]
              exact .inr (.inr ⟨_, rfl, .signed hb hrej (auth_runs hz) hm (keySign_runs hz'), hkey, hm⟩)
            · obtain ⟨z, hx, hz'⟩ := runs_mapErr hs
              cases z <;> simp [Res.mapErr] at hx
              subst hx
              rw [← List.append_assoc]
              exact .inl ⟨_, rfl, .signed hb hrej (auth_runs hz) hm (keySign_runs hz')⟩
            · obtain ⟨z, hx, hz'⟩ := runs_mapErr hs
              cases z <;> simp [Res.mapErr] at hx
              subst hx
              rw [← List.append_assoc]
              exact .inr (.inl ⟨_, rfl, .signed hb hrej (auth_runs hz) hm (keySign_runs hz')⟩)
        · obtain ⟨z, hx, hz⟩ := runs_mapErr ha
          cases z <;> simp [Res.mapErr] at hx
          subst hx
          exact .inl ⟨_, rfl, .unknown hb hrej (auth_runs hz)⟩
        · obtain ⟨z, hx, hz⟩ := runs_mapErr ha
          cases z <;> simp [Res.mapErr] at hx
          subst hx
          exact .inr (.inl ⟨_, rfl, .aborted hb hrej (auth_runs hz)⟩)
    · obtain ⟨_, h, _⟩ := begin_runs ht; cases h
    · obtain ⟨_, h, _⟩ := begin_runs ht; cases h
  rcases runs_bind hr with ⟨h1, p, h2, rfl, hp, hr2⟩ | ⟨e, rfl, hp⟩ | ⟨s, rfl, hp⟩
  · obtain ⟨rfl, rfl⟩ := Prog.Runs.ret hr2
    rw [List.append_nil]
    rcases runs_bind hp with ⟨h3, q, h4, rfl, hq, hr3⟩ | ⟨e, he, hq⟩ | ⟨s, he, hq⟩
    · obtain ⟨rfl, hpe⟩ := Prog.Runs.ret hr3
      cases hpe
      rw [List.append_nil]
      rcases key hq with ⟨e, h, _⟩ | ⟨s, h, _⟩ | ⟨q', h, hf, ⟨k, hk⟩, hm⟩
      · cases h
      · cases h
      · cases h
        unfold formFinishP
        rw [spec.key, hk, spec.metas]
        simp only
        rw [if_neg hm]
        rw [hk] at hf
        exact hf
    · cases he
    · cases he
  · rcases runs_bind hp with ⟨h3, q, h4, rfl, hq, hr3⟩ | ⟨e', he, hq⟩ | ⟨s, he, hq⟩
    · obtain ⟨_, hp⟩ := Prog.Runs.ret hr3
      cases hp
    · cases he
      rcases key hq with ⟨e, h, hf⟩ | ⟨s, h, _⟩ | ⟨q', h, _⟩ <;> cases h
      exact hf
    · cases he
  · rcases runs_bind hp with ⟨h3, q, h4, rfl, hq, hr3⟩ | ⟨e', he, hq⟩ | ⟨s, he, hq⟩
    · obtain ⟨_, hp⟩ := Prog.Runs.ret hr3
      cases hp
    · cases he
    · cases he
      rcases key hq with ⟨e, h, hf⟩ | ⟨s, h, hf⟩ | ⟨q', h, _⟩ <;> cases h
      exact hf

/-- A form call without signing options does nothing but compute. -/
theorem form_runs_unsigned {env : Env} {cs : List Call} {h : List Ev} {x : Res FormError (List (Str × Str))}
    (ho : (cs.filterMap callOptions).getLast? = none)
    (hr : Prog.Runs ((Builder.ofCalls cs).buildP env) h x) : h = [] ∧ x = formFinishP (Builder.ofCalls cs) none := by
  have spec := ofCalls_spec cs
  have hpol : buildPolicyAndSignatureP env (Builder.ofCalls cs) = pure none := by
    unfold buildPolicyAndSignatureP
    rw [spec.options, ho]
  rw [buildP_eq, hpol] at hr
  exact Prog.Runs.ret hr

/-- The run of a call, as a run of the entry point. -/
theorem prog_url {env : Env} {o : UrlOptions} {h : List Ev} {r : ApiResult}
    (hr : ((ApiCall.url o).prog env).Runs h r) : ∃ x, r = .url x ∧ UrlRuns env o h x := by
  obtain ⟨h1, x, h2, rfl, h3, h4⟩ := Prog.Runs.bind hr
  obtain ⟨rfl, rfl⟩ := Prog.Runs.ret h4
  rw [List.append_nil]
  exact ⟨x, rfl, url_runs h3⟩

theorem prog_form {env : Env} {cs : List Call} {h : List Ev} {r : ApiResult}
    (hr : ((ApiCall.form cs).prog env).Runs h r) : ∃ x, r = .form x ∧ Prog.Runs ((Builder.ofCalls cs).buildP env) h x := by
  obtain ⟨h1, x, h2, rfl, h3, h4⟩ := Prog.Runs.bind hr
  obtain ⟨rfl, rfl⟩ := Prog.Runs.ret h4
  rw [List.append_nil]
  exact ⟨x, rfl, h3⟩

end CSS
