import Verif.Lemmas.Form
import Verif.Lemmas.Token
/- `build` with signing options as one equation. -/
set_option linter.unusedSimpArgs false
namespace CSS
open Spec

/-- `w` after reading the clock if no start time was given. -/
def clocked (given : Option Time) (w : World) : World :=
  match given with
  | some _ => w
  | none => w.tick

theorem timeOrNow_run {ε : Type} (env : Env) (given : Option Time) (w : World) :
    M.timeOrNow (ε := ε) env given w = (.ok (validFrom env given w), clocked given w) := by
  cases given <;> rfl

@[simp] theorem clocked_log (g : Option Time) (w : World) : (clocked g w).log = w.log := by cases g <;> rfl
@[simp] theorem clocked_caches (g : Option Time) (w : World) : (clocked g w).caches = w.caches := by cases g <;> rfl

theorem fromSystemTime_cases (t : Time) :
    (t < 0 ∨ endOf9999 ≤ t ∧ ∃ e, UnixTimestamp.fromSystemTime t = .err e) ∨
    (0 ≤ t ∧ t < endOf9999 ∧ UnixTimestamp.fromSystemTime t = .ok ⟨t / nsPerSec⟩) := by
  by_cases h : 0 ≤ t ∧ t < endOf9999
  · right
    refine ⟨h.1, h.2, fromSystemTime_ok.2 ⟨h.1, h.2, rfl⟩⟩
  · left
    by_cases h0 : t < 0
    · exact .inl h0
    right
    refine ⟨by omega, ?_⟩
    cases hf : UnixTimestamp.fromSystemTime t with
    | ok u => exact absurd ⟨(fromSystemTime_ok.1 hf).1, (fromSystemTime_ok.1 hf).2.1⟩ h
    | err e => exact ⟨e, rfl⟩
    | panic s =>
      unfold UnixTimestamp.fromSystemTime UnixTimestamp.tryFrom at hf
      rw [if_neg h0] at hf
      simp only at hf
      split at hf
      · cases hf
      · split at hf <;> cases hf

theorem fromSystemTime_run (t : Time) :
    ((UnixTimestamp.fromSystemTime t).mapErr fun _ => ()) =
      if t < 0 ∨ endOf9999 ≤ t then .err () else .ok ⟨t / nsPerSec⟩ := by
  by_cases h : t < 0 ∨ endOf9999 ≤ t
  · rw [if_pos h]
    cases hf : UnixTimestamp.fromSystemTime t with
    | ok u =>
      have := fromSystemTime_ok.1 hf
      exfalso
      rcases h with h | h
      · omega
      · have h2 := this.2.1
        unfold endOf9999 at h; unfold nsPerSec at h2; omega
    | err e => rfl
    | panic s =>
      unfold UnixTimestamp.fromSystemTime UnixTimestamp.tryFrom at hf
      split at hf
      · cases hf
      · simp only at hf
        split at hf
        · cases hf
        · split at hf <;> cases hf
  · rw [if_neg h]
    have : UnixTimestamp.fromSystemTime t = .ok ⟨t / nsPerSec⟩ := fromSystemTime_ok.2 ⟨by omega, by
      unfold endOf9999 at h; unfold nsPerSec; omega, rfl⟩
    rw [this]; rfl

theorem fromSystemTime_mapErr {ε : Type} (e : ε) (t : Time) :
    ((UnixTimestamp.fromSystemTime t).mapErr fun _ => e) =
      if t < 0 ∨ endOf9999 ≤ t then .err e else .ok ⟨t / nsPerSec⟩ := by
  have h := fromSystemTime_run t
  cases hf : UnixTimestamp.fromSystemTime t with
  | ok u => rw [hf] at h; split at h <;> simp_all
  | err x => rw [hf] at h; split at h <;> simp_all
  | panic s => rw [hf] at h; split at h <;> simp_all

/-- The computed fields, given the e-mail, the start and the signature. -/
def policyFields (b : Builder) (bucket key : Str) (o : SigningOptions) (email : Str) (t : Time) (digest : Bytes) : PolicyFields :=
  let at_ : UnixTimestamp := ⟨t / nsPerSec⟩
  let credential := email ++ s% "/" ++ (CredentialScope.mk (Date.fromUnixTimestamp at_)
    ⟨o.region.getD (s% "auto")⟩ .storage .goog4Request).toStr
  ⟨b64Encode (utf8 (PolicyDocument.mk (conditionList b bucket key .goog4RsaSha256 credential at_.toIso8601)
      ⟨⟨o.expiration / nsPerSec⟩⟩).toJson.render),
   s% "GOOG4-RSA-SHA256", credential, at_.toIso8601, hexEncode digest⟩

theorem isHmac_iff (k : SigningKey) : isHmac k = true ↔ k.xGoogAlgorithm ≠ .goog4RsaSha256 := by
  cases k <;> simp [isHmac, SigningKey.xGoogAlgorithm]

/-- `build` with signing options. -/
theorem build_signed_eq (env : Env) (cs : List Call) (o : SigningOptions) (w : World)
    (ho : (cs.filterMap callOptions).getLast? = some o) :
    (Builder.ofCalls cs).build env w =
      match formRejection cs o (validFrom env o.accessibleAt w) with
      | some e => (.err e, clocked o.accessibleAt w)
      | none =>
        match o.signingKey.authorizer env (clocked o.accessibleAt w) with
        | (.err e, w2) => (.err (.boundTokenAuthorizer e), w2)
        | (.panic s, w2) => (.panic s, w2)
        | (.ok email, w2) =>
          if ∃ m ∈ cs.filterMap callMeta, m.1 = [] then (.err .xGoogMetaNameEmpty, w2)
          else
            let bucket := (lastValue cs (s% "bucket")).getD []
            let key := (lastValue cs (s% "key")).getD []
            let p := policyFields (Builder.ofCalls cs) bucket key o email (validFrom env o.accessibleAt w)
            match o.signingKey.sign env o.useSignBlob (utf8 (p []).policy) w2 with
            | (.err e, w3) => (.err (.signing e), w3)
            | (.panic s, w3) => (.panic s, w3)
            | (.ok digest, w3) => (.ok (fieldList (Builder.ofCalls cs) key (some (p digest))), w3) := by
  have spec := ofCalls_spec cs
  rw [build_eq]
  unfold buildPolicyAndSignature
  rw [spec.options, ho]
  simp only
  rw [M.bind_run]
  unfold buildPolicy
  rw [M.bind_run, timeOrNow_run]
  simp only
  generalize validFrom env o.accessibleAt w = t
  unfold formRejection
  by_cases h1 : o.expiration ≤ t
  · rw [if_pos h1, if_pos h1]; rfl
  rw [if_neg h1, if_neg h1, M.bind_run, M.lift_run, fromSystemTime_mapErr]
  by_cases h2 : t < 0 ∨ endOf9999 ≤ t
  · rw [if_pos h2, if_pos h2]
  rw [if_neg h2, if_neg h2]
  simp only
  rw [M.bind_run, M.lift_run, fromSystemTime_mapErr]
  by_cases h3 : endOf9999 ≤ o.expiration
  · rw [if_pos h3, if_pos (.inr h3)]
  rw [if_neg h3, if_neg (by omega)]
  simp only
  rw [M.bind_run, M.lift_run, spec.bucket]
  cases hb : lastValue cs (s% "bucket") with
  | none => simp
  | some bucket =>
  rw [if_neg (by simp)]
  simp only [Res.ofOption_some]
  rw [M.bind_run, M.lift_run, spec.key]
  cases hk : lastValue cs (s% "key") with
  | none => simp
  | some key =>
  rw [if_neg (by simp)]
  simp only [Res.ofOption_some]
  by_cases h4 : o.signingKey.xGoogAlgorithm ≠ .goog4RsaSha256
  · rw [if_pos h4, if_pos ((isHmac_iff _).2 h4)]; rfl
  rw [if_neg h4, if_neg (fun h => h4 ((isHmac_iff _).1 h))]
  have halg : o.signingKey.xGoogAlgorithm = .goog4RsaSha256 := by simpa using h4
  rw [M.bind_run, M.mapErr_run]
  cases ha : o.signingKey.authorizer env (clocked o.accessibleAt w) with
  | mk r w2 =>
  cases r with
  | err e => rfl
  | panic e => rfl
  | ok email =>
  simp only [Res.mapErr_ok]
  rw [M.bind_run, M.lift_run]
  simp only [CredentialScope.new, Res.mapErr_ok]
  rw [M.bind_run, M.lift_run, buildConditions_eq, spec.metas]
  by_cases hm : ∃ m ∈ cs.filterMap callMeta, m.1 = []
  · rw [if_pos hm, if_pos hm]
  rw [if_neg hm, if_neg hm]
  simp only
  rw [M.bind_run, M.mapErr_run]
  have hpol : (policyFields (Builder.ofCalls cs) bucket key o email t []).policy =
      b64Encode (utf8 (PolicyDocument.mk (conditionList (Builder.ofCalls cs) bucket key o.signingKey.xGoogAlgorithm
        (email ++ s% "/" ++ (CredentialScope.mk (Date.fromUnixTimestamp ⟨t / nsPerSec⟩)
          (Location.tryFrom (o.region.getD (s% "auto"))) .storage .goog4Request).toStr) (UnixTimestamp.toIso8601 ⟨t / nsPerSec⟩))
        ⟨⟨o.expiration / nsPerSec⟩⟩).toJson.render) := by
    rw [halg]; rfl
  simp only [Option.getD_some]
  rw [hpol]
  cases hs : o.signingKey.sign env o.useSignBlob (utf8 (b64Encode (utf8 (PolicyDocument.mk (conditionList (Builder.ofCalls cs) bucket key o.signingKey.xGoogAlgorithm
        (email ++ s% "/" ++ (CredentialScope.mk (Date.fromUnixTimestamp ⟨t / nsPerSec⟩)
          (Location.tryFrom (o.region.getD (s% "auto"))) .storage .goog4Request).toStr) (UnixTimestamp.toIso8601 ⟨t / nsPerSec⟩))
        ⟨⟨o.expiration / nsPerSec⟩⟩).toJson.render))) w2 with
  | mk r w3 =>
  cases r with
  | err e => rfl
  | panic e => rfl
  | ok digest =>
    simp only [Res.mapErr_ok, M.pure_run, Prod.mk.injEq, and_true]
    rw [if_neg hm]
    refine congrArg Res.ok ?_
    simp only [policyFields, halg]
    rfl

/-- `build` without signing options. -/
theorem build_unsigned_eq (env : Env) (cs : List Call) (w : World) (ho : cs.filterMap callOptions = []) :
    ((Builder.ofCalls cs).build env w).2 = w ∧ ∀ s, ((Builder.ofCalls cs).build env w).1 ≠ .panic s := by
  have spec := ofCalls_spec cs
  rw [build_eq]
  unfold buildPolicyAndSignature
  rw [spec.options, ho]
  simp only [List.getLast?_nil, M.pure_run, true_and]
  intro s
  cases (Builder.ofCalls cs).key with
  | none => simp
  | some k => simp only; split <;> simp

/-- A form without signing options does not look at its surroundings. -/
theorem build_unsigned_congr {e₁ e₂ : Env} {w₁ w₂ : World} (cs : List Call) (ho : cs.filterMap callOptions = []) :
    ((Builder.ofCalls cs).build e₁ w₁).1 = ((Builder.ofCalls cs).build e₂ w₂).1 := by
  have spec := ofCalls_spec cs
  rw [build_eq, build_eq]
  unfold buildPolicyAndSignature
  rw [spec.options, ho]
  simp only [List.getLast?_nil, M.pure_run]

end CSS
