import Verif.Lemmas.Policy
import Verif.Lemmas.Token
import Verif.Lemmas.Base64
import Verif.Lemmas.Stamp
import Verif.Conformance
/-
C03, C04, C05, C06, C07, C08, C09: what a signed form contains. `cs` is the sequence of builder calls,
`o` the signing options set last, `fs` the returned fields.
-/
set_option linter.unusedSimpArgs false
namespace CSS
open Spec

/-- C05. The `policy` field occurs once; it is base64 of a text that has exactly one JSON reading:
`{"conditions": [...], "expiration": "..."}` whose conditions are the pinning conditions of the form's
fields, in form order, whatever characters the values contain. -/
theorem C05_policy_document (env : Env) (cs : List Call) (o : SigningOptions) (w w' : World) (fs : List (Str × Str))
    (ho : (cs.filterMap callOptions).getLast? = some o)
    (h : (Builder.ofCalls cs).build env w = (.ok fs, w')) :
    ∃ p expiration,
      fieldValues fs (s% "policy") = [p] ∧
      ∀ j, CarriesJson p j ↔ j = policyJson ((fs.filter fun f => ¬ exempt f.1).map pinning) expiration := by
  obtain ⟨p, key, ⟨hp⟩, hk, rfl⟩ := build_ok_signed ((ofCalls_spec cs).options.trans ho) h
  have hkey : hp.key = key := by have := hp.hkey; rw [hk] at this; exact (Option.some.inj this).symm
  refine ⟨p.policy, hp.ex.toRfc3339, values_policy _ _ _, ?_⟩
  have hpins := pins_fieldList (Builder.ofCalls cs) hp.bucket key p hp.hbucket hp.halg
  have hc := carriesJson_document (PolicyDocument.mk
    (conditionList (Builder.ofCalls cs) hp.bucket key .goog4RsaSha256 p.credential p.date) ⟨hp.ex⟩)
  rw [document_eq] at hc
  simp only at hc
  rw [← hpins] at hc
  have hpol : p.policy = b64Encode (utf8 (PolicyDocument.mk
    (conditionList (Builder.ofCalls cs) hp.bucket key .goog4RsaSha256 p.credential p.date) ⟨hp.ex⟩).toJson.render) := by
    rw [hp.hpolicy, hkey]
  rw [document_eq] at hpol
  simp only at hpol
  rw [← hpins] at hpol
  rw [← hpol] at hc
  intro j
  constructor
  · intro hj; exact carriesJson_unique hj hc
  · rintro rfl; exact hc

theorem policyJson_conditions {cs cs' : List Json} {e : Str}
    (h : HasMember (policyJson cs e) (s% "conditions") (.arr cs')) : cs' = cs := by
  obtain ⟨ms, pre, post, he, hm, hp⟩ := h
  unfold policyJson at he
  cases he
  cases pre with
  | nil => simp at hm; exact hm.1.symm
  | cons a pre =>
    cases pre with
    | nil => simp at hm
    | cons b pre => simp at hm

theorem policyJson_hasConditions (cs : List Json) (e : Str) : HasMember (policyJson cs e) (s% "conditions") (.arr cs) :=
  ⟨_, [], _, rfl, rfl, by simp⟩
theorem policyJson_hasExpiration (cs : List Json) (e : Str) : HasMember (policyJson cs e) (s% "expiration") (.str e) :=
  ⟨_, [(s% "conditions", .arr cs)], [], rfl, rfl, by simp⟩

/-- C03. Every field of a signed form except `policy` and `x-goog-signature` is pinned: whichever way the
policy field is read, the conditions contain `["eq", "$name", value]` with the identical value, or
`["content-length-range", n, n]` for `Content-Length` n. -/
theorem C03_every_field_pinned (env : Env) (cs : List Call) (o : SigningOptions) (w w' : World) (fs : List (Str × Str))
    (ho : (cs.filterMap callOptions).getLast? = some o)
    (h : (Builder.ofCalls cs).build env w = (.ok fs, w')) (p : Str) (j : Json) (conds : List Json)
    (hp : p ∈ fieldValues fs (s% "policy")) (hj : CarriesJson p j)
    (hc : HasMember j (s% "conditions") (.arr conds)) (name value : Str) (hf : (name, value) ∈ fs)
    (h1 : name ≠ s% "policy") (h2 : name ≠ s% "x-goog-signature") :
    (name ≠ s% "Content-Length" → .arr [.str (s% "eq"), .str ('$' :: name), .str value] ∈ conds) ∧
    (name = s% "Content-Length" → .arr [.str (s% "content-length-range"), .num value, .num value] ∈ conds) := by
  obtain ⟨p', e, hp', hall⟩ := C05_policy_document env cs o w w' fs ho h
  rw [hp'] at hp
  cases List.mem_singleton.1 hp
  cases (hall j).1 hj
  cases policyJson_conditions hc
  have hmem : pinning (name, value) ∈ (fs.filter fun f => ¬ exempt f.1).map pinning := by
    refine List.mem_map_of_mem ?_
    rw [List.mem_filter]
    refine ⟨hf, ?_⟩
    simp only [decide_eq_true_eq]
    rintro (h | h)
    · exact h1 h
    · exact h2 h
  constructor
  · intro hn
    have : pinning (name, value) = .arr [.str (s% "eq"), .str ('$' :: name), .str value] := by
      simp [pinning, hn, eqCond]
    rw [← this]; exact hmem
  · intro hn
    have : pinning (name, value) = .arr [.str (s% "content-length-range"), .num value, .num value] := by
      simp [pinning, hn, lengthCond]
    rw [← this]; exact hmem

/-- C04. Conversely the policy asks for nothing the form does not carry: each condition is the pin of one
field of the form, and the conditions come in the order of the fields, one per field. -/
theorem C04_every_condition_met (env : Env) (cs : List Call) (o : SigningOptions) (w w' : World) (fs : List (Str × Str))
    (ho : (cs.filterMap callOptions).getLast? = some o)
    (h : (Builder.ofCalls cs).build env w = (.ok fs, w')) (p : Str) (j : Json) (conds : List Json)
    (hp : p ∈ fieldValues fs (s% "policy")) (hj : CarriesJson p j)
    (hc : HasMember j (s% "conditions") (.arr conds)) :
    conds = (fs.filter fun f => ¬ exempt f.1).map pinning ∧
    ∀ c ∈ conds, ∃ name value, (name, value) ∈ fs ∧
      ((name ≠ s% "Content-Length" ∧ c = .arr [.str (s% "eq"), .str ('$' :: name), .str value]) ∨
       (name = s% "Content-Length" ∧ c = .arr [.str (s% "content-length-range"), .num value, .num value])) := by
  obtain ⟨p', e, hp', hall⟩ := C05_policy_document env cs o w w' fs ho h
  rw [hp'] at hp
  cases List.mem_singleton.1 hp
  cases (hall j).1 hj
  cases policyJson_conditions hc
  refine ⟨rfl, ?_⟩
  intro c hc
  obtain ⟨⟨n, v⟩, hf, rfl⟩ := List.mem_map.1 hc
  refine ⟨n, v, (List.mem_filter.1 hf).1, ?_⟩
  by_cases hn : n = s% "Content-Length"
  · right; exact ⟨hn, by simp [pinning, hn, lengthCond]⟩
  · left; exact ⟨hn, by simp [pinning, hn, eqCond]⟩

/-- C07. The expiration in the policy denotes the requested expiration cut to whole seconds: not after the
requested instant, and less than a second before it. -/
theorem C07_policy_expiration (env : Env) (cs : List Call) (o : SigningOptions) (w w' : World) (fs : List (Str × Str))
    (ho : (cs.filterMap callOptions).getLast? = some o)
    (h : (Builder.ofCalls cs).build env w = (.ok fs, w')) (p : Str) (j : Json)
    (hp : p ∈ fieldValues fs (s% "policy")) (hj : CarriesJson p j) :
    ∃ text t, HasMember j (s% "expiration") (.str text) ∧ Rfc3339Denotes text t ∧
      t * 1000000000 ≤ o.expiration ∧ o.expiration < (t + 1) * 1000000000 := by
  obtain ⟨pf, key, ⟨hpo⟩, hk, rfl⟩ := build_ok_signed ((ofCalls_spec cs).options.trans ho) h
  rw [values_policy] at hp
  cases List.mem_singleton.1 hp
  have hr := fromSystemTime_inRange hpo.hex
  have hc := civil_spec hpo.ex hr
  have hok := fromSystemTime_ok.1 hpo.hex
  unfold nsPerSec at hok
  have hpol := hpo.hpolicy
  have hdoc := carriesJson_document (PolicyDocument.mk
    (conditionList (Builder.ofCalls cs) hpo.bucket hpo.key .goog4RsaSha256 pf.credential pf.date) ⟨hpo.ex⟩)
  rw [← hpol] at hdoc
  cases carriesJson_unique hdoc hj
  refine ⟨hpo.ex.toRfc3339, hpo.ex.val, policyJson_hasExpiration _ _, ⟨_, hc.1, toRfc3339_eq _ hr, hc.2⟩, by omega, by omega⟩

theorem timeOrNow_eq {ε : Type} (env : Env) (given : Option Time) (w : World) :
    ∃ w1, M.timeOrNow (ε := ε) env given w = (.ok (validFrom env given w), w1) ∧ w1.log = w.log ∧ w1.caches = w.caches := by
  cases given with
  | some t => exact ⟨w, rfl, rfl, rfl⟩
  | none => exact ⟨_, rfl, rfl, rfl⟩

/-- C08. `x-goog-date` denotes the start of validity cut to whole seconds, and the date in the
credential is its first eight characters. -/
theorem C08_form_date (env : Env) (cs : List Call) (o : SigningOptions) (w w' : World) (fs : List (Str × Str))
    (ho : (cs.filterMap callOptions).getLast? = some o)
    (h : (Builder.ofCalls cs).build env w = (.ok fs, w')) :
    ∃ date t email, fieldValues fs (s% "x-goog-date") = [date] ∧ BasicDenotes date t ∧
      t * 1000000000 ≤ validFrom env o.accessibleAt w ∧ validFrom env o.accessibleAt w < (t + 1) * 1000000000 ∧
      fieldValues fs (s% "x-goog-credential") =
        [email ++ s% "/" ++ date.take 8 ++ s% "/" ++ o.region.getD (s% "auto") ++ s% "/storage/goog4_request"] := by
  obtain ⟨pf, key, ⟨hpo⟩, hk, rfl⟩ := build_ok_signed ((ofCalls_spec cs).options.trans ho) h
  obtain ⟨w1, ht, _⟩ := timeOrNow_eq (ε := FormError) env o.accessibleAt w
  have hat : hpo.accessibleAt = validFrom env o.accessibleAt w := by
    have := hpo.time; rw [ht] at this; simp only [Prod.mk.injEq, Res.ok.injEq] at this; exact this.1.symm
  have hr := fromSystemTime_inRange hpo.hat
  have hc := civil_spec hpo.at_ hr
  have hok := fromSystemTime_ok.1 hpo.hat
  rw [hat] at hok
  unfold nsPerSec at hok
  refine ⟨pf.date, hpo.at_.val, hpo.email, values_date _ _ _, ?_, by omega, by omega, ?_⟩
  · rw [hpo.hdate]; exact ⟨_, hc.1, toIso8601_eq _ hr, hc.2⟩
  · rw [values_credential, hpo.hcred, hpo.hdate]
    have hd : (Date.fromUnixTimestamp hpo.at_).toStr = hpo.at_.toIso8601.take 8 := by
      rw [date_eq _ hr, toIso8601_eq _ hr]
      simp [DateTime.basic, DateTime.yyyymmdd, d4, d2]
    simp [CredentialScope.toStr, hd, Service.asStr, RequestType.asStr]

theorem splitOn_ne_nil (sep : Char) (a : Str) : splitOn sep a ≠ [] := by
  cases a with
  | nil => simp [splitOn]
  | cons c a =>
    simp only [splitOn]
    split
    · simp
    · split <;> simp

theorem splitOn_snoc {sep : Char} (a : Str) {b : Str} (h : sep ∉ b) :
    splitOn sep (a ++ sep :: b) = splitOn sep a ++ [b] := by
  induction a with
  | nil => simp [splitOn, splitOn_none h]
  | cons c a ih =>
    by_cases hc : c = sep
    · simp [splitOn, hc, ih]
    · simp only [List.cons_append, splitOn, hc, if_false, ih]
      cases hs : splitOn sep a with
      | nil => exact absurd hs (splitOn_ne_nil sep a)
      | cons x xs => rfl

/-- C09. The credential is AUTHORIZER/YYYYMMDD/REGION/storage/goog4_request, where AUTHORIZER is the
identity behind the key and REGION defaults to `auto`. If the region contains no `/`, cutting the credential
at its slashes ends in exactly [YYYYMMDD, REGION, storage, goog4_request], so every part can be read back. -/
theorem C09_form_credential (env : Env) (cs : List Call) (o : SigningOptions) (w w' : World) (fs : List (Str × Str))
    (ho : (cs.filterMap callOptions).getLast? = some o)
    (h : (Builder.ofCalls cs).build env w = (.ok fs, w')) :
    ∃ email date, fieldValues fs (s% "x-goog-date") = [date] ∧ Authorizes env w w'.log o.signingKey email ∧
      fieldValues fs (s% "x-goog-credential") =
        [email ++ s% "/" ++ date.take 8 ++ s% "/" ++ o.region.getD (s% "auto") ++ s% "/storage/goog4_request"] ∧
      ('/' ∉ o.region.getD (s% "auto") → ∀ credential ∈ fieldValues fs (s% "x-goog-credential"),
        splitOn '/' credential = splitOn '/' email ++
          [date.take 8, o.region.getD (s% "auto"), s% "storage", s% "goog4_request"]) := by
  obtain ⟨pf, key, ⟨hpo⟩, hk, rfl⟩ := build_ok_signed ((ofCalls_spec cs).options.trans ho) h
  have hr := fromSystemTime_inRange hpo.hat
  have hd : (Date.fromUnixTimestamp hpo.at_).toStr = pf.date.take 8 := by
    rw [hpo.hdate, date_eq _ hr, toIso8601_eq _ hr]
    simp [DateTime.basic, DateTime.yyyymmdd, d4, d2]
  have hcred : pf.credential = hpo.email ++ s% "/" ++ pf.date.take 8 ++ s% "/" ++ o.region.getD (s% "auto") ++ s% "/storage/goog4_request" := by
    rw [hpo.hcred]
    simp [CredentialScope.toStr, hd, Service.asStr, RequestType.asStr]
  refine ⟨hpo.email, pf.date, values_date _ _ _, ?_, ?_, ?_⟩
  · have hw1 : hpo.w1.log = w.log ∧ hpo.w1.caches = w.caches := by
      obtain ⟨w1, ht, hl, hc⟩ := timeOrNow_eq (ε := FormError) env o.accessibleAt w
      have := hpo.time; rw [ht] at this; simp only [Prod.mk.injEq, Res.ok.injEq] at this
      rw [← this.2]; exact ⟨hl, hc⟩
    have ha := authorizer_authorizes hpo.auth
    have hs := keySign_prefix env o.signingKey o.useSignBlob (utf8 pf.policy) hpo.w2
    rw [hpo.sign] at hs
    have ha2 := authorizes_prefix ha hs
    cases hkey : o.signingKey with
    | boundToken bt =>
      rw [hkey] at ha2
      unfold Authorizes at ha2 ⊢
      simp only at ha2 ⊢
      rw [hw1.1, hw1.2] at ha2
      exact ha2
    | hmac a s => rw [hkey] at ha2; exact ha2
    | serviceAccount a s => rw [hkey] at ha2; exact ha2
  · rw [values_credential, hcred]
  · intro hreg credential hc
    rw [values_credential] at hc
    cases List.mem_singleton.1 hc
    have hdate : '/' ∉ pf.date.take 8 := by
      rw [← hd, date_eq _ hr]
      have dig : ∀ n : Fin 10, digit n.val ≠ '/' := by decide
      have dg : ∀ n, '/' ≠ digit (n % 10) := fun n => Ne.symm (dig ⟨n % 10, by omega⟩)
      simp only [DateTime.yyyymmdd, d4, d2, List.cons_append, List.nil_append, List.mem_cons, List.not_mem_nil, dg, or_self, not_false_iff]
    rw [hcred]
    have e : hpo.email ++ s% "/" ++ pf.date.take 8 ++ s% "/" ++ o.region.getD (s% "auto") ++ s% "/storage/goog4_request" =
        (((hpo.email ++ '/' :: pf.date.take 8) ++ '/' :: o.region.getD (s% "auto")) ++ '/' :: s% "storage") ++ '/' :: s% "goog4_request" := by
      simp
    rw [e, splitOn_snoc _ (by decide), splitOn_snoc _ (by decide), splitOn_snoc _ hreg, splitOn_snoc _ hdate]
    simp

/-- C06, service account. `x-goog-signature` is lower-case hex of the RSA signature, under the account's key,
of exactly the bytes of the `policy` field. -/
theorem C06_form_signature_service_account (env : Env) (cs : List Call) (o : SigningOptions) (email pem : Str)
    (w w' : World) (fs : List (Str × Str)) (ho : (cs.filterMap callOptions).getLast? = some o)
    (hkey : o.signingKey = .serviceAccount email pem)
    (h : (Builder.ofCalls cs).build env w = (.ok fs, w')) :
    ∃ policy signature der bytes, fieldValues fs (s% "policy") = [policy] ∧
      fieldValues fs (s% "x-goog-signature") = [signature] ∧ hexDecode signature = some bytes ∧
      env.pemParse pem = some der ∧ env.rsaFromPkcs8 der = true ∧ env.rsaSign der (utf8 policy) = some bytes := by
  obtain ⟨pf, key, ⟨hpo⟩, hk, rfl⟩ := build_ok_signed ((ofCalls_spec cs).options.trans ho) h
  have hs := hpo.sign
  rw [hkey] at hs
  unfold SigningKey.sign at hs
  simp only at hs
  cases hu : o.useSignBlob with
  | true => rw [hu] at hs; simp at hs
  | false =>
    rw [hu] at hs
    simp only [Bool.false_eq_true, if_false, M.lift_run] at hs
    unfold rsaSignPem at hs
    cases hpem : env.pemParse pem with
    | none => simp [hpem] at hs
    | some der =>
      cases hd : env.rsaFromPkcs8 der with
      | false => simp [hpem, hd] at hs
      | true =>
        cases hr : env.rsaSign der (utf8 pf.policy) with
        | none => simp [hpem, hd, hr] at hs
        | some sig =>
          simp [hpem, hd, hr] at hs
          refine ⟨pf.policy, pf.signature, der, sig, values_policy _ _ _, values_signature _ _ _, ?_, rfl, hd, hr⟩
          rw [hpo.hsig, hexDecode_hexEncode, hs.1]

/-- C06, bound token. `x-goog-signature` is lower-case hex of the blob that the signBlob endpoint returned for
the last request of the call, whose JSON payload decodes to exactly the bytes of the `policy` field. -/
theorem C06_form_signature_bound_token (env : Env) (cs : List Call) (o : SigningOptions) (bt : BoundToken)
    (w w' : World) (fs : List (Str × Str)) (ho : (cs.filterMap callOptions).getLast? = some o)
    (hkey : o.signingKey = .boundToken bt)
    (h : (Builder.ofCalls cs).build env w = (.ok fs, w')) :
    ∃ policy signature bytes r body payload text blob, fieldValues fs (s% "policy") = [policy] ∧
      fieldValues fs (s% "x-goog-signature") = [signature] ∧ hexDecode signature = some bytes ∧
      w'.log.getLast? = some r ∧ r.method = s% "POST" ∧ r.body = some body ∧
      JsonText (.obj [(s% "payload", .str payload)]) body ∧ base64Decode payload = some (utf8 policy) ∧
      Answered env w'.log (w'.log.length - 1) r text ∧ SignBlobText text blob ∧
      base64Decode blob = some bytes := by
  obtain ⟨pf, key, ⟨hpo⟩, hk, rfl⟩ := build_ok_signed ((ofCalls_spec cs).options.trans ho) h
  have hs := hpo.sign
  rw [hkey] at hs
  unfold SigningKey.sign at hs
  simp only at hs
  cases hu : o.useSignBlob with
  | false => rw [hu] at hs; simp at hs
  | true =>
    rw [hu] at hs
    simp only [if_true, M.mapErr_run] at hs
    cases hsg : bt.sign env (utf8 pf.policy) hpo.w2 with
    | mk r w3 =>
    rw [hsg] at hs
    cases r with
    | err e => simp at hs
    | panic e => simp at hs
    | ok sig =>
      simp at hs
      obtain ⟨hsig, rfl⟩ := hs
      obtain ⟨email, token, w4, body, blob, hg, rfl, hans, hparse, hb⟩ := sign_ok hsg
      refine ⟨pf.policy, pf.signature, sig, signBlobRequest email token (utf8 pf.policy), _, _, body, blob,
        values_policy _ _ _, values_signature _ _ _, ?_, ?_, rfl, rfl,
        render_text (.obj [(s% "payload", .str (b64Encode (utf8 pf.policy)))]) ?_, base64Decode_b64Encode _, ?_, hparse, ?_⟩
      · rw [hpo.hsig, hexDecode_hexEncode, hsig]
      · simp [World.sent]
      · simp [AllNums, AllNumsMembers]
      · have e : (w4.sent (signBlobRequest email token (utf8 pf.policy))).log.length - 1 = w4.log.length := by
          simp [World.sent]
        rw [e]; exact hans
      · rw [← b64Decode_eq, hb]

/-- Non-vacuity of C03-C09: a form signed with a service account (the crate's own test, 15 calls), and one
signed by a bound token whose cache is empty and whose values need JSON escapes. -/
example : (∃ fs w', (Builder.ofCalls Conformance.testCalls).build Conformance.env Conformance.world = (.ok fs, w')) ∧
    (∃ o email pem, (Conformance.testCalls.filterMap callOptions).getLast? = some o ∧
      o.signingKey = .serviceAccount email pem) := by
  constructor
  · have : ∃ fs, ((Builder.ofCalls Conformance.testCalls).build Conformance.env Conformance.world).1 = .ok fs := ⟨_, rfl⟩
    obtain ⟨fs, h⟩ := this
    exact ⟨fs, _, Prod.ext h rfl⟩
  · exact ⟨_, _, _, rfl, rfl⟩
example : (∃ fs w', (Builder.ofCalls Conformance.btCalls).build Conformance.btEnv Conformance.world = (.ok fs, w')) ∧
    (∃ o bt, (Conformance.btCalls.filterMap callOptions).getLast? = some o ∧ o.signingKey = .boundToken bt ∧
      '/' ∉ o.region.getD (s% "auto")) := by
  constructor
  · have : ∃ fs, ((Builder.ofCalls Conformance.btCalls).build Conformance.btEnv Conformance.world).1 = .ok fs := ⟨_, rfl⟩
    obtain ⟨fs, h⟩ := this
    exact ⟨fs, _, Prod.ext h rfl⟩
  · exact ⟨_, _, rfl, rfl, by decide⟩

end CSS
