import Verif.Lemmas.FormEq
import Verif.Lemmas.TokenPanic
import Verif.Lemmas.TokenGets
import Verif.Conformance
/-
C10, C11, C13, C14, C15, C59 for forms: which inputs `build` rejects, when it panics, and when it sends requests.
`cs` is the sequence of builder calls, `o` the signing options set last.
-/
set_option linter.unusedSimpArgs false
namespace CSS
open Spec

/-- `endOf9999` is the instant after 9999-12-31T23:59:59Z (checked by counting days). -/
example : endOf9999 = ((⟨9999, 12, 31, 23, 59, 59⟩ : DateTime).unix + 1) * 1000000000 := by
  simp [endOf9999, DateTime.unix, dayNumber, daysBeforeYear_eq, yearDelta, daysBeforeMonth, daysInMonth, LeapYear]

theorem build_rejected {env : Env} {cs : List Call} {o : SigningOptions} {w : World} {e : FormError}
    (ho : (cs.filterMap callOptions).getLast? = some o)
    (h : formRejection cs o (validFrom env o.accessibleAt w) = some e) :
    (Builder.ofCalls cs).build env w = (.err e, clocked o.accessibleAt w) := by
  rw [build_signed_eq env cs o w ho, h]

/-- If the outright checks pass, the error (if any) is one of the three later ones. -/
theorem build_accepted_err {env : Env} {cs : List Call} {o : SigningOptions} {w : World} {e : FormError}
    (ho : (cs.filterMap callOptions).getLast? = some o)
    (h : formRejection cs o (validFrom env o.accessibleAt w) = none)
    (he : ((Builder.ofCalls cs).build env w).1 = .err e) :
    e = .xGoogMetaNameEmpty ∨ (∃ k, e = .boundTokenAuthorizer k) ∨ ∃ k, e = .signing k := by
  rw [build_signed_eq env cs o w ho, h] at he
  simp only at he
  split at he
  · simp only [Res.err.injEq] at he; exact .inr (.inl ⟨_, he.symm⟩)
  · simp at he
  · split at he
    · simp only [Res.err.injEq] at he; exact .inl he.symm
    · split at he
      · simp only [Res.err.injEq] at he; exact .inr (.inr ⟨_, he.symm⟩)
      · simp at he
      · simp at he

theorem formRejection_iff {cs : List Call} {o : SigningOptions} {t : Time} :
    (formRejection cs o t = some .expirationBeforeAccessibleAt ↔ o.expiration ≤ t) ∧
    (formRejection cs o t = some .accessibleAtOutOfRange ↔ t < o.expiration ∧ (t < 0 ∨ endOf9999 ≤ t)) ∧
    (formRejection cs o t = some .expirationOutOfRange ↔ 0 ≤ t ∧ t < endOf9999 ∧ endOf9999 ≤ o.expiration) := by
  unfold formRejection
  by_cases h1 : o.expiration ≤ t
  · rw [if_pos h1]; simp; omega
  rw [if_neg h1]
  by_cases h2 : t < 0 ∨ endOf9999 ≤ t
  · rw [if_pos h2]; simp; omega
  rw [if_neg h2]
  by_cases h3 : endOf9999 ≤ o.expiration
  · rw [if_pos h3]; simp; omega
  rw [if_neg h3]
  have : ∀ e, (e = FormError.expirationBeforeAccessibleAt ∨ e = FormError.accessibleAtOutOfRange ∨ e = FormError.expirationOutOfRange) →
      ¬ (if lastValue cs (s% "bucket") = none then some FormError.bucketNotFound
        else if lastValue cs (s% "key") = none then some FormError.keyNotFound
        else if isHmac o.signingKey then some FormError.xGoogAlgorithmNotSupported else none) = some e := by
    intro e he h
    split at h
    · cases h; simp at he
    · split at h
      · cases h; simp at he
      · split at h
        · cases h; simp at he
        · cases h
  refine ⟨⟨fun h => absurd h (this _ (.inl rfl)), by omega⟩, ⟨fun h => absurd h (this _ (.inr (.inl rfl))), by omega⟩,
    ⟨fun h => absurd h (this _ (.inr (.inr rfl))), by omega⟩⟩

theorem build_time_error {env : Env} {cs : List Call} {o : SigningOptions} {w : World} {e : FormError}
    (ho : (cs.filterMap callOptions).getLast? = some o)
    (hne : e ≠ .xGoogMetaNameEmpty ∧ (∀ k, e ≠ .boundTokenAuthorizer k) ∧ ∀ k, e ≠ .signing k) :
    ((Builder.ofCalls cs).build env w).1 = .err e ↔ formRejection cs o (validFrom env o.accessibleAt w) = some e := by
  constructor
  · intro h
    cases hr : formRejection cs o (validFrom env o.accessibleAt w) with
    | none =>
      rcases build_accepted_err ho hr h with rfl | ⟨k, rfl⟩ | ⟨k, rfl⟩
      · exact absurd rfl hne.1
      · exact absurd rfl (hne.2.1 k)
      · exact absurd rfl (hne.2.2 k)
    | some e' =>
      rw [build_rejected ho hr] at h
      simp only [Res.err.injEq] at h
      rw [h]
  · intro h; rw [build_rejected ho h]

/-- C10. The time errors, each exactly characterised; `t` is the start of validity: the given instant or the
clock. -/
theorem C10_time_validation (env : Env) (cs : List Call) (o : SigningOptions) (w : World)
    (ho : (cs.filterMap callOptions).getLast? = some o) (t : Time) (ht : t = o.accessibleAt.getD (env.now w.ticks)) :
    (((Builder.ofCalls cs).build env w).1 = .err .expirationBeforeAccessibleAt ↔ o.expiration ≤ t) ∧
    (((Builder.ofCalls cs).build env w).1 = .err .accessibleAtOutOfRange ↔
      t < o.expiration ∧ (t < 0 ∨ endOf9999 ≤ t)) ∧
    (((Builder.ofCalls cs).build env w).1 = .err .expirationOutOfRange ↔
      0 ≤ t ∧ t < endOf9999 ∧ endOf9999 ≤ o.expiration) ∧
    (∀ fs, ((Builder.ofCalls cs).build env w).1 = .ok fs → 0 ≤ t ∧ t < o.expiration ∧ o.expiration < endOf9999) := by
  have ht' : validFrom env o.accessibleAt w = t := ht.symm
  have hi := formRejection_iff (cs := cs) (o := o) (t := t)
  rw [build_time_error ho (by simp), build_time_error ho (by simp), build_time_error ho (by simp), ht']
  refine ⟨hi.1, hi.2.1, hi.2.2, ?_⟩
  intro fs hok
  by_cases h1 : o.expiration ≤ t
  · rw [build_rejected ho (by rw [ht']; exact hi.1.2 h1)] at hok; simp at hok
  by_cases h2 : t < 0 ∨ endOf9999 ≤ t
  · rw [build_rejected ho (by rw [ht']; exact hi.2.1.2 ⟨by omega, h2⟩)] at hok; simp at hok
  by_cases h3 : endOf9999 ≤ o.expiration
  · rw [build_rejected ho (by rw [ht']; exact hi.2.2.2 ⟨by omega, by omega, h3⟩)] at hok; simp at hok
  omega

/-- Each of the four outcomes occurs. -/
example : (∃ fs, ((Builder.ofCalls Conformance.btCalls).build Conformance.btEnv Conformance.world).1 = .ok fs) ∧
    ((Builder.ofCalls [.policyDocumentSigningOptions { Conformance.btOptions with expiration := 1640995200 * nsPerSec }]).build
      Conformance.btEnv Conformance.world).1 = .err .expirationBeforeAccessibleAt ∧
    ((Builder.ofCalls [.policyDocumentSigningOptions { Conformance.btOptions with accessibleAt := some (-1) }]).build
      Conformance.btEnv Conformance.world).1 = .err .accessibleAtOutOfRange ∧
    ((Builder.ofCalls [.policyDocumentSigningOptions { Conformance.btOptions with expiration := endOf9999 }]).build
      Conformance.btEnv Conformance.world).1 = .err .expirationOutOfRange := by
  refine ⟨⟨_, rfl⟩, ?_, ?_, ?_⟩ <;> decide +kernel

/-- C11. With an HMAC key and signing options, `build` returns an error, panics never, and sends nothing. -/
theorem C11_hmac_form (env : Env) (cs : List Call) (o : SigningOptions) (accessId secret : Str) (w : World)
    (ho : (cs.filterMap callOptions).getLast? = some o) (hk : o.signingKey = .hmac accessId secret) :
    ∃ e w', (Builder.ofCalls cs).build env w = (.err e, w') ∧ w'.log = w.log ∧ w'.caches = w.caches := by
  have : ∃ e, formRejection cs o (validFrom env o.accessibleAt w) = some e := by
    unfold formRejection
    rw [hk]
    simp only [isHmac, if_true]
    split
    · exact ⟨_, rfl⟩
    · split
      · exact ⟨_, rfl⟩
      · split
        · exact ⟨_, rfl⟩
        · split
          · exact ⟨_, rfl⟩
          · split <;> exact ⟨_, rfl⟩
  obtain ⟨e, he⟩ := this
  exact ⟨e, _, build_rejected ho he, by simp, by simp⟩

/-- An otherwise valid form with an HMAC key. -/
example : ((Builder.ofCalls [.bucket (s% "b"), .key (s% "k"), .policyDocumentSigningOptions
      { Conformance.btOptions with signingKey := .hmac (s% "GOOG1") (s% "secret") }]).build
      Conformance.env Conformance.world).1 = .err .xGoogAlgorithmNotSupported := by decide +kernel

/-- Whether a signed form is acceptable apart from its key: what `build` checks besides signing. -/
def Spec.ValidForm (cs : List Call) (o : SigningOptions) (t : Time) : Prop :=
  0 ≤ t ∧ t < o.expiration ∧ o.expiration < endOf9999 ∧ lastValue cs (s% "bucket") ≠ none ∧
    lastValue cs (s% "key") ≠ none ∧ ∀ m ∈ cs.filterMap callMeta, m.1 ≠ []

theorem formRejection_none_iff {cs : List Call} {o : SigningOptions} {t : Time} (hk : isHmac o.signingKey = false) :
    formRejection cs o t = none ↔ 0 ≤ t ∧ t < o.expiration ∧ o.expiration < endOf9999 ∧
      lastValue cs (s% "bucket") ≠ none ∧ lastValue cs (s% "key") ≠ none := by
  unfold formRejection
  rw [hk]
  by_cases h1 : o.expiration ≤ t
  · rw [if_pos h1]; simp; omega
  rw [if_neg h1]
  by_cases h2 : t < 0 ∨ endOf9999 ≤ t
  · rw [if_pos h2]; simp; omega
  rw [if_neg h2]
  by_cases h3 : endOf9999 ≤ o.expiration
  · rw [if_pos h3]; simp; omega
  rw [if_neg h3]
  by_cases h4 : lastValue cs (s% "bucket") = none
  · rw [if_pos h4]; simp [h4]
  rw [if_neg h4]
  by_cases h5 : lastValue cs (s% "key") = none
  · rw [if_pos h5]; simp [h5]
  rw [if_neg h5]
  simp [h4, h5]
  omega

/-- C13, the violation: with a service account key and `use_sign_blob` set, every valid form panics, although
the documentation allows the combination. The panic set for service accounts is exactly this. -/
theorem C13_service_account_panics (env : Env) (cs : List Call) (o : SigningOptions) (email pem : Str) (w : World)
    (ho : (cs.filterMap callOptions).getLast? = some o) (hk : o.signingKey = .serviceAccount email pem) (s : PanicSite) :
    ((Builder.ofCalls cs).build env w).1 = .panic s ↔
      s = .serviceAccountSignBlobTodo ∧ o.useSignBlob = true ∧
        ValidForm cs o (o.accessibleAt.getD (env.now w.ticks)) := by
  have hh : isHmac o.signingKey = false := by rw [hk]; rfl
  have hnone := formRejection_none_iff (cs := cs) (o := o) (t := validFrom env o.accessibleAt w) hh
  rw [build_signed_eq env cs o w ho]
  unfold ValidForm
  change _ ↔ s = .serviceAccountSignBlobTodo ∧ o.useSignBlob = true ∧ 0 ≤ validFrom env o.accessibleAt w ∧
    validFrom env o.accessibleAt w < o.expiration ∧ _
  cases hr : formRejection cs o (validFrom env o.accessibleAt w) with
  | some e =>
    simp only [reduceCtorEq, false_iff]
    rintro ⟨_, _, h1, h2, h3, h4, h5, _⟩
    rw [hnone.2 ⟨h1, h2, h3, h4, h5⟩] at hr
    cases hr
  | none =>
    obtain ⟨h1, h2, h3, h4, h5⟩ := hnone.1 hr
    simp only [hk, SigningKey.authorizer, M.pure_run]
    by_cases hm : ∃ m ∈ cs.filterMap callMeta, m.1 = []
    · rw [if_pos hm]
      simp only [reduceCtorEq, false_iff]
      rintro ⟨_, _, _, _, _, _, _, h⟩
      obtain ⟨m, hm, h'⟩ := hm
      exact h m hm h'
    · rw [if_neg hm]
      have hm' : ∀ m ∈ cs.filterMap callMeta, m.1 ≠ [] := fun m hmm h => hm ⟨m, hmm, h⟩
      have hp := keySign_panic (env := env) (key := .serviceAccount email pem) (u := o.useSignBlob)
        (m := utf8 (policyFields (Builder.ofCalls cs) ((lastValue cs (s% "bucket")).getD []) ((lastValue cs (s% "key")).getD []) o
          email (validFrom env o.accessibleAt w) []).policy) (w := clocked o.accessibleAt w) (s := s)
      generalize SigningKey.sign env (.serviceAccount email pem) o.useSignBlob
        (utf8 (policyFields (Builder.ofCalls cs) ((lastValue cs (s% "bucket")).getD []) ((lastValue cs (s% "key")).getD []) o
          email (validFrom env o.accessibleAt w) []).policy) (clocked o.accessibleAt w) = x at hp
      obtain ⟨r, w3⟩ := x
      have hp' : r = .panic s ↔ o.useSignBlob = true ∧ s = .serviceAccountSignBlobTodo := by
        rw [hp]; simp
      cases r with
      | ok d =>
        simp only [reduceCtorEq, false_iff] at hp' ⊢
        rintro ⟨ha, hb, _⟩; exact hp' ⟨hb, ha⟩
      | err e =>
        simp only [reduceCtorEq, false_iff] at hp' ⊢
        rintro ⟨ha, hb, _⟩; exact hp' ⟨hb, ha⟩
      | panic p =>
        simp only [Res.panic.injEq] at hp' ⊢
        rw [hp']
        exact ⟨fun ⟨ha, hb⟩ => ⟨hb, ha, h1, h2, h3, h4, h5, hm'⟩, fun ⟨hb, ha, _⟩ => ⟨ha, hb⟩⟩

/-- The crate's own test form with `use_sign_blob` switched on panics. -/
example : ((Builder.ofCalls [.bucket (s% "b"), .key (s% "k"), .policyDocumentSigningOptions
      { Conformance.btOptions with signingKey := Conformance.testKey }]).build
      Conformance.env Conformance.world).1 = .panic .serviceAccountSignBlobTodo := by decide +kernel

/-- C13. A form without signing options never panics (and touches nothing). -/
theorem C13_unsigned_no_panic (env : Env) (cs : List Call) (w : World) (ho : cs.filterMap callOptions = []) :
    ((Builder.ofCalls cs).build env w).2 = w ∧ ∀ s, ((Builder.ofCalls cs).build env w).1 ≠ .panic s :=
  build_unsigned_eq env cs w ho

theorem build_boundToken_panic {env : Env} {cs : List Call} {o : SigningOptions} {bt : BoundToken} {w : World} {s : PanicSite}
    (ho : (cs.filterMap callOptions).getLast? = some o) (hk : o.signingKey = .boundToken bt)
    (h : ((Builder.ofCalls cs).build env w).1 = .panic s) :
    (getEmailAndToken env bt (clocked o.accessibleAt w)).1 = .panic s ∨
    (getEmailAndToken env bt (getEmailAndToken env bt (clocked o.accessibleAt w)).2).1 = .panic s := by
  rw [build_signed_eq env cs o w ho, hk] at h
  split at h
  · simp at h
  · have hsnd := authorizer_snd env bt (clocked o.accessibleAt w)
    have hpan := authorizer_panic (env := env) (key := .boundToken bt) (w := clocked o.accessibleAt w) (s := s)
    generalize (SigningKey.boundToken bt).authorizer env (clocked o.accessibleAt w) = x at h hsnd hpan
    obtain ⟨r, w2⟩ := x
    simp only at hsnd
    cases r with
    | err e => simp at h
    | panic p =>
      simp only at h hpan
      obtain ⟨bt', he, hg⟩ := hpan (by simpa using h)
      cases he
      exact .inl hg
    | ok email =>
      simp only at h
      split at h
      · simp at h
      · right
        rw [← hsnd]
        have hkp := keySign_panic (env := env) (key := .boundToken bt) (u := o.useSignBlob)
          (m := utf8 (policyFields (Builder.ofCalls cs) ((lastValue cs (s% "bucket")).getD [])
            ((lastValue cs (s% "key")).getD []) o email (validFrom env o.accessibleAt w) []).policy) (w := w2) (s := s)
        have : (SigningKey.sign env (.boundToken bt) o.useSignBlob (utf8 (policyFields (Builder.ofCalls cs) ((lastValue cs (s% "bucket")).getD [])
            ((lastValue cs (s% "key")).getD []) o email (validFrom env o.accessibleAt w) []).policy) w2).1 = .panic s := by
          generalize SigningKey.sign env (.boundToken bt) o.useSignBlob (utf8 (policyFields (Builder.ofCalls cs) ((lastValue cs (s% "bucket")).getD [])
            ((lastValue cs (s% "key")).getD []) o email (validFrom env o.accessibleAt w) []).policy) w2 = x at h
          obtain ⟨r, w3⟩ := x
          cases r with
          | ok d => simp at h
          | err e => simp at h
          | panic p => simpa using h
        rcases hkp.1 this with ⟨_, _, he, _⟩ | ⟨_, _, he, _⟩ | ⟨bt', he, _, hg⟩
        · cases he
        · cases he
        · cases he; exact hg

/-- C13. When `build` panics with a bound token, exactly: the times, bucket and key are in order, and getting e-mail and
token panics, the first time or (with `use_sign_blob`, after all metadata names were found non-empty) the second. -/
theorem C13_bound_token_panic_iff (env : Env) (cs : List Call) (o : SigningOptions) (bt : BoundToken) (w : World) (s : PanicSite)
    (t : Time) (ht : t = o.accessibleAt.getD (env.now w.ticks))
    (ho : (cs.filterMap callOptions).getLast? = some o) (hk : o.signingKey = .boundToken bt) :
    ((Builder.ofCalls cs).build env w).1 = .panic s ↔
      0 ≤ t ∧ t < o.expiration ∧ o.expiration < 253402300800 * 1000000000 ∧
      lastValue cs (s% "bucket") ≠ none ∧ lastValue cs (s% "key") ≠ none ∧
      (TokenPanics env bt (afterStart o.accessibleAt w) s ∨
      ∃ email token w2, GetsToken env bt (afterStart o.accessibleAt w) email token w2 ∧
        (∀ m ∈ cs.filterMap callMeta, m.1 ≠ []) ∧ o.useSignBlob = true ∧ TokenPanics env bt w2 s) := by
  have ht' : validFrom env o.accessibleAt w = t := ht.symm
  have hh : isHmac o.signingKey = false := by rw [hk]; rfl
  have hnone := formRejection_none_iff (cs := cs) (o := o) (t := t) hh
  rw [build_signed_eq env cs o w ho, ht', afterStart_eq]
  cases hr : formRejection cs o t with
  | some e =>
    simp only [reduceCtorEq, false_iff]
    rintro ⟨h1, h2, h3, h4, h5, _⟩
    rw [hnone.2 ⟨h1, h2, h3, h4, h5⟩] at hr
    cases hr
  | none =>
    obtain ⟨h1, h2, h3, h4, h5⟩ := hnone.1 hr
    simp only [h1, h2, h4, h5, true_and, not_false_eq_true, ne_eq, hk]
    rw [show o.expiration < 253402300800 * 1000000000 ↔ True from ⟨fun _ => trivial, fun _ => h3⟩]
    simp only [true_and]
    simp only [authorizer_boundToken_eq, ← getEmailAndToken_panic_iff, ← getEmailAndToken_ok_iff]
    generalize getEmailAndToken env bt (clocked o.accessibleAt w) = x
    obtain ⟨r, w2⟩ := x
    cases r with
    | err e => simp
    | panic p => simp
    | ok p =>
      obtain ⟨email, token⟩ := p
      simp only [reduceCtorEq, false_or, Prod.mk.injEq, Res.ok.injEq]
      by_cases hm : ∃ m ∈ cs.filterMap callMeta, m.1 = []
      · rw [if_pos hm]
        simp only [reduceCtorEq, false_iff]
        rintro ⟨_, _, _, _, h, _⟩
        obtain ⟨m, hm, h'⟩ := hm
        exact h m hm h'
      · rw [if_neg hm]
        have hm' : ∀ m ∈ cs.filterMap callMeta, ¬ m.1 = [] := fun m hmm h => hm ⟨m, hmm, h⟩
        have hp := keySign_panic (env := env) (key := .boundToken bt) (u := o.useSignBlob)
          (m := utf8 (policyFields (Builder.ofCalls cs) ((lastValue cs (s% "bucket")).getD []) ((lastValue cs (s% "key")).getD []) o
            email t []).policy) (w := w2) (s := s)
        generalize SigningKey.sign env (.boundToken bt) o.useSignBlob
          (utf8 (policyFields (Builder.ofCalls cs) ((lastValue cs (s% "bucket")).getD []) ((lastValue cs (s% "key")).getD []) o
            email t []).policy) w2 = x at hp
        obtain ⟨r, w3⟩ := x
        have hp' : r = .panic s ↔ o.useSignBlob = true ∧ (getEmailAndToken env bt w2).1 = .panic s := by
          rw [hp]; simp
        have hx : (∃ email_1 token_1 w2_1, ((email = email_1 ∧ token = token_1) ∧ w2 = w2_1) ∧
            (∀ m ∈ cs.filterMap callMeta, ¬ m.1 = []) ∧ o.useSignBlob = true ∧ (getEmailAndToken env bt w2_1).1 = .panic s) ↔
            r = .panic s := by
          rw [hp']
          constructor
          · rintro ⟨_, _, _, ⟨⟨rfl, rfl⟩, rfl⟩, _, h⟩; exact h
          · intro h; exact ⟨_, _, _, ⟨⟨rfl, rfl⟩, rfl⟩, hm', h⟩
        rw [hx]
        cases r <;> simp

/-- Both cases occur: at the first token request, and only at the second one, because the clock has gone back. -/
example : ((Builder.ofCalls [.bucket (s% "b"), .key (s% "k"), .policyDocumentSigningOptions
      { Conformance.btOptions with accessibleAt := some 5 }]).build { Conformance.btEnv with now := fun _ => -1 }
      { Conformance.world with caches := fun _ => some ⟨[], [], 5⟩ }).1 = .panic .nowBeforeEpoch ∧
    ((Builder.ofCalls [.bucket (s% "b"), .key (s% "k"), .policyDocumentSigningOptions
      { Conformance.btOptions with accessibleAt := some 5, useSignBlob := true }]).build
      { Conformance.btEnv with now := fun k => if k = 0 then 5 else -1 } Conformance.world).1 = .panic .nowBeforeEpoch := by
  decide +kernel

/-- C13. With a bound token, the only panics come from the clock being before 1970 or a token lifetime that
overflows the clock: `todo!()` is never reached, and if the clock and the lifetimes are sane there is no panic
at all. -/
theorem C13_bound_token_panics (env : Env) (cs : List Call) (o : SigningOptions) (bt : BoundToken) (w : World)
    (ho : (cs.filterMap callOptions).getLast? = some o) (hk : o.signingKey = .boundToken bt) :
    (∀ s, ((Builder.ofCalls cs).build env w).1 = .panic s →
      s = .expiresBeforeEpoch ∨ s = .nowBeforeEpoch ∨ s = .expiresOverflow) ∧
    (Sane env → SaneCaches w → ∀ s, ((Builder.ofCalls cs).build env w).1 ≠ .panic s) := by
  constructor
  · intro s h
    rcases build_boundToken_panic ho hk h with h | h
    · exact getEmailAndToken_tokenPanic (Prod.ext h rfl)
    · exact getEmailAndToken_tokenPanic (Prod.ext h rfl)
  · intro hs hw s h
    have hw1 : SaneCaches (clocked o.accessibleAt w) := by
      intro i c hc; rw [clocked_caches] at hc; exact hw i c hc
    rcases build_boundToken_panic ho hk h with h | h
    · exact getEmailAndToken_sane hs hw1 s h
    · exact getEmailAndToken_sane hs (getEmailAndToken_saneCaches hs.clock hw1) s h

/-- Sane environments exist, with a fresh world, and the two other panics do occur. -/
example : Sane Conformance.env ∧ SaneCaches Conformance.world := by
  refine ⟨⟨fun k => (by decide : (0 : Int) ≤ 1640995200 * nsPerSec), ?_⟩, ?_⟩
  · intro k r status text token life type j h; cases h
  · intro i c h; cases h
example : ((Builder.ofCalls Conformance.btCalls).build { Conformance.btEnv with net := fun k r => match k with
      | 1 => .response 200 (some (s% "{\"access_token\":\"\",\"expires_in\":18446744073709551615,\"token_type\":\"Bearer\"}"))
      | _ => Conformance.btNet k r } Conformance.world).1 = .panic .expiresOverflow ∧
    ((Builder.ofCalls [.bucket (s% "b"), .key (s% "k"), .policyDocumentSigningOptions
      { Conformance.btOptions with accessibleAt := some 5 }]).build { Conformance.btEnv with now := fun _ => -1 }
      { Conformance.world with caches := fun _ => some ⟨[], [], 5⟩ }).1 = .panic .nowBeforeEpoch := by decide +kernel

/-- C14. `build` with a service account or HMAC key sends no request and changes no cache, whatever happens. -/
theorem C14_form_no_network (env : Env) (cs : List Call) (w : World)
    (hk : ∀ o, (cs.filterMap callOptions).getLast? = some o → ∀ bt, o.signingKey ≠ .boundToken bt) :
    ((Builder.ofCalls cs).build env w).2.log = w.log ∧ ((Builder.ofCalls cs).build env w).2.caches = w.caches := by
  cases ho : (cs.filterMap callOptions).getLast? with
  | none =>
    have := build_unsigned_eq env cs w (List.getLast?_eq_none_iff.1 ho)
    rw [this.1]; exact ⟨rfl, rfl⟩
  | some o =>
    cases hkey : o.signingKey with
    | boundToken bt => exact absurd hkey (hk o ho bt)
    | hmac a b =>
      obtain ⟨e, w', h, h1, h2⟩ := C11_hmac_form env cs o a b w ho hkey
      rw [h]; exact ⟨h1, h2⟩
    | serviceAccount email pem =>
      rw [build_signed_eq env cs o w ho]
      cases formRejection cs o (validFrom env o.accessibleAt w) with
      | some e => simp
      | none =>
        simp only [hkey, SigningKey.authorizer, M.pure_run]
        split
        · simp
        · unfold SigningKey.sign
          cases hu : o.useSignBlob with
          | true => simp
          | false =>
            simp only [Bool.false_eq_true, if_false, M.lift_run]
            generalize rsaSignPem env pem _ = r
            cases r <;> simp

/-- C15 for forms. Missing bucket or key, bad times and HMAC keys are rejected before any request is sent, with
any kind of key. (For empty metadata names this is false, see `C15_empty_meta_name_after_network`.) -/
theorem C15_form_rejected_without_network_partial (env : Env) (cs : List Call) (o : SigningOptions) (w : World) (t : Time)
    (ho : (cs.filterMap callOptions).getLast? = some o) (ht : t = o.accessibleAt.getD (env.now w.ticks))
    (hbad : o.expiration ≤ t ∨ t < 0 ∨ endOf9999 ≤ t ∨ endOf9999 ≤ o.expiration ∨
      lastValue cs (s% "bucket") = none ∨ lastValue cs (s% "key") = none ∨ ∃ a b, o.signingKey = .hmac a b) :
    ∃ e w', (Builder.ofCalls cs).build env w = (.err e, w') ∧ w'.log = w.log ∧ w'.caches = w.caches := by
  cases hr : formRejection cs o (validFrom env o.accessibleAt w) with
  | some e => exact ⟨e, _, build_rejected ho hr, by simp, by simp⟩
  | none =>
    exfalso
    have ht' : validFrom env o.accessibleAt w = t := ht.symm
    rw [ht'] at hr
    by_cases hh : isHmac o.signingKey = true
    · unfold formRejection at hr
      simp only [hh, if_true] at hr
      repeat (split at hr; cases hr)
      cases hr
    · have hh' : isHmac o.signingKey = false := by simpa using hh
      obtain ⟨h1, h2, h3, h4, h5⟩ := (formRejection_none_iff hh').1 hr
      rcases hbad with h | h | h | h | h | h | ⟨a, b, h⟩
      · omega
      · omega
      · omega
      · omega
      · exact h4 h
      · exact h5 h
      · rw [h] at hh; exact hh rfl

/-- C15, counterexample: an empty metadata name is reported only after the two metadata requests were sent. -/
theorem C15_empty_meta_name_after_network :
    ∃ env cs o w, (cs.filterMap callOptions).getLast? = some o ∧
      (.xGoogMeta [] (s% "v")) ∈ cs ∧
      ((Builder.ofCalls cs).build env w).1 = .err .xGoogMetaNameEmpty ∧ w.log = [] ∧
      ((Builder.ofCalls cs).build env w).2.log.length = 2 :=
  ⟨Conformance.btEnv, .xGoogMeta [] (s% "v") :: Conformance.btCalls, Conformance.btOptions, Conformance.world,
    by decide +kernel, by decide +kernel, by decide +kernel, rfl, by decide +kernel⟩

/-- C59 for forms. With an empty metadata name no form is returned, and nothing is sent but (for a bound token) the two
requests for e-mail and token, in this order. -/
theorem C59_form_late_rejection (env : Env) (cs : List Call) (o : SigningOptions) (w : World)
    (ho : (cs.filterMap callOptions).getLast? = some o) (hbad : ∃ value, Call.xGoogMeta [] value ∈ cs) :
    (∀ fs, ((Builder.ofCalls cs).build env w).1 ≠ .ok fs) ∧
    ∃ more, ((Builder.ofCalls cs).build env w).2.log = w.log ++ more ∧
      (more = [] ∨ ∃ bt, o.signingKey = .boundToken bt ∧
        more <+: [metadataGet (emailUrl bt.baseUrl), metadataGet (tokenUrl bt.baseUrl)]) := by
  have hm : ∃ m ∈ cs.filterMap callMeta, m.1 = [] := by
    obtain ⟨v, hv⟩ := hbad
    exact ⟨([], v), List.mem_filterMap.2 ⟨_, hv, rfl⟩, rfl⟩
  rw [build_signed_eq env cs o w ho]
  cases formRejection cs o (validFrom env o.accessibleAt w) with
  | some e => exact ⟨fun url h => (nomatch h), [], by simp, .inl rfl⟩
  | none =>
    have hlog := authorizer_log env o.signingKey (clocked o.accessibleAt w)
    rw [clocked_log] at hlog
    generalize o.signingKey.authorizer env (clocked o.accessibleAt w) = x at hlog
    obtain ⟨r, w2⟩ := x
    cases r with
    | err e => exact ⟨fun url h => (nomatch h), hlog⟩
    | panic e => exact ⟨fun url h => (nomatch h), hlog⟩
    | ok email =>
      simp only
      rw [if_pos hm]
      exact ⟨fun url h => (nomatch h), hlog⟩

/-- Such a call, with a bound token. -/
example : ((.xGoogMeta [] (s% "v") :: Conformance.btCalls).filterMap callOptions).getLast? = some Conformance.btOptions ∧
    ((Builder.ofCalls (.xGoogMeta [] (s% "v") :: Conformance.btCalls)).build Conformance.btEnv
      Conformance.world).2.log.length = 2 := by decide +kernel

end CSS
