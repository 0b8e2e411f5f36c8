import Verif.Props.FormFields
import Verif.Props.FormPolicy
import Verif.Props.FormErrors
/-
The theorems about forms, each applied to a concrete case: C02-C09, C13-C15.
-/
namespace CSS.Cases
open Spec Conformance

/-- The form of the crate's own test, signed with a service account key, with 15 setter calls. -/
theorem testForm : ∃ fs w', (Builder.ofCalls testCalls).build env world = (.ok fs, w') ∧
    (s% "acl", s% "public-read") ∈ fs ∧ (s% "Content-Length", s% "1024") ∈ fs := by
  obtain ⟨fs, w', h, hm⟩ := yields_iff (r := (Builder.ofCalls testCalls).build env world)
    (f := fun fs => decide ((s% "acl", s% "public-read") ∈ fs ∧ (s% "Content-Length", s% "1024") ∈ fs)) (by decide +kernel)
  exact ⟨fs, w', h, (decide_eq_true_iff.1 hm).1, (decide_eq_true_iff.1 hm).2⟩

/-- The options of that form. -/
theorem testForm_options : ∃ o email pem, (testCalls.filterMap callOptions).getLast? = some o ∧
    o.signingKey = .serviceAccount email pem := ⟨_, _, _, rfl, rfl⟩

/-- A form signed with a bound token with an empty cache. -/
theorem btForm : ∃ fs w', (Builder.ofCalls btCalls).build btEnv world = (.ok fs, w') := succeeds_iff (by decide +kernel)
theorem btForm_options : (btCalls.filterMap callOptions).getLast? = some btOptions := rfl

/-- C02_different_setters_commute. -/
example : (Builder.ofCalls [.key (s% "k"), .acl (s% "x"), .bucket (s% "y"), .expires (s% "z")]).build env world =
    (Builder.ofCalls [.key (s% "k"), .bucket (s% "y"), .acl (s% "x"), .expires (s% "z")]).build env world :=
  C02_different_setters_commute env [.key (s% "k")] [.expires (s% "z")] (.acl (s% "x")) (.bucket (s% "y")) world (by decide)

/-- C02_last_call_wins. -/
example : (Builder.ofCalls [.key (s% "k"), .acl (s% "x"), .bucket (s% "y"), .acl (s% "z"), .expires (s% "e")]).build env world =
    (Builder.ofCalls [.key (s% "k"), .bucket (s% "y"), .acl (s% "z"), .expires (s% "e")]).build env world :=
  C02_last_call_wins env [.key (s% "k")] [.bucket (s% "y")] [.expires (s% "e")] (.acl (s% "x")) (.acl (s% "z")) world rfl (by decide)

/-- C03_every_field_pinned, C04_every_condition_met, C05_policy_document, C07_policy_expiration. -/
example : ∃ fs w' p j conds, (Builder.ofCalls testCalls).build env world = (.ok fs, w') ∧ p ∈ fieldValues fs (s% "policy") ∧
    CarriesJson p j ∧ HasMember j (s% "conditions") (.arr conds) ∧
    .arr [.str (s% "eq"), .str (s% "$acl"), .str (s% "public-read")] ∈ conds ∧
    .arr [.str (s% "content-length-range"), .num (s% "1024"), .num (s% "1024")] ∈ conds ∧
    conds = (fs.filter fun f => ¬ exempt f.1).map pinning ∧
    ∃ text t, HasMember j (s% "expiration") (.str text) ∧ Rfc3339Denotes text t := by
  obtain ⟨fs, w', h, hacl, hlen⟩ := testForm
  obtain ⟨o, _, _, ho, _⟩ := testForm_options
  obtain ⟨p, expiration, hp, hj⟩ := C05_policy_document env testCalls o world w' fs ho h
  have hp' : p ∈ fieldValues fs (s% "policy") := by rw [hp]; simp
  have hj' := (hj _).2 rfl
  have hc := policyJson_hasConditions ((fs.filter fun f => ¬ exempt f.1).map pinning) expiration
  obtain ⟨text, t, h1, h2, _⟩ := C07_policy_expiration env testCalls o world w' fs ho h p _ hp' hj'
  exact ⟨fs, w', p, _, _, h, hp', hj', hc,
    (C03_every_field_pinned env testCalls o world w' fs ho h p _ _ hp' hj' hc _ _ hacl (by decide) (by decide)).1 (by decide),
    (C03_every_field_pinned env testCalls o world w' fs ho h p _ _ hp' hj' hc _ _ hlen (by decide) (by decide)).2 rfl,
    (C04_every_condition_met env testCalls o world w' fs ho h p _ _ hp' hj' hc).1, text, t, h1, h2⟩

/-- C06_form_signature_service_account, C08_form_date, C09_form_credential. -/
example : ∃ fs w' policy signature date credential, (Builder.ofCalls testCalls).build env world = (.ok fs, w') ∧
    fieldValues fs (s% "policy") = [policy] ∧ fieldValues fs (s% "x-goog-signature") = [signature] ∧
    hexDecode signature = some testSignature ∧
    fieldValues fs (s% "x-goog-date") = [date] ∧ fieldValues fs (s% "x-goog-credential") = [credential] := by
  obtain ⟨fs, w', h, _⟩ := testForm
  obtain ⟨o, email, pem, ho, hk⟩ := testForm_options
  obtain ⟨policy, signature, der, bytes, h1, h2, h3, _, _, h6⟩ :=
    C06_form_signature_service_account env testCalls o email pem world w' fs ho hk h
  obtain ⟨date, _, _, h7, _⟩ := C08_form_date env testCalls o world w' fs ho h
  obtain ⟨_, _, _, _, h8, _⟩ := C09_form_credential env testCalls o world w' fs ho h
  rw [show env.rsaSign der (utf8 policy) = some testSignature from rfl] at h6
  cases h6
  exact ⟨fs, w', policy, signature, date, _, h, h1, h2, h3, h7, h8⟩

/-- C08_form_date and C09_form_credential with a bound token, C06_form_signature_bound_token. -/
example : ∃ fs w' date credential, (Builder.ofCalls btCalls).build btEnv world = (.ok fs, w') ∧
    fieldValues fs (s% "x-goog-date") = [date] ∧ fieldValues fs (s% "x-goog-credential") = [credential] := by
  obtain ⟨fs, w', h⟩ := btForm
  obtain ⟨date, _, _, h7, _⟩ := C08_form_date btEnv btCalls btOptions world w' fs btForm_options h
  obtain ⟨_, _, _, _, h8, _⟩ := C09_form_credential btEnv btCalls btOptions world w' fs btForm_options h
  exact ⟨fs, w', date, _, h, h7, h8⟩

/-- C13_unsigned_no_panic. -/
example : ((Builder.ofCalls [.acl (s% "x"), .xGoogMeta (s% "a") (s% "b")]).build env world).2 = world :=
  (C13_unsigned_no_panic env [.acl (s% "x"), .xGoogMeta (s% "a") (s% "b")] world rfl).1

/-- C14_form_no_network. -/
example : ((Builder.ofCalls testCalls).build env world).2.log = [] :=
  (C14_form_no_network env testCalls world fun o ho bt hk => by
    obtain ⟨o', email, pem, ho', hk'⟩ := testForm_options
    rw [ho'] at ho
    cases ho
    rw [hk'] at hk
    cases hk).1

/-- C15_form_rejected_without_network_partial: a form with a bound token and no bucket. -/
example : ∃ e w', (Builder.ofCalls [.key (s% "k"), .policyDocumentSigningOptions btOptions]).build btEnv world = (.err e, w') ∧
    w'.log = [] := by
  obtain ⟨e, w', h, hl, _⟩ := C15_form_rejected_without_network_partial btEnv
    [.key (s% "k"), .policyDocumentSigningOptions btOptions] btOptions world _ rfl rfl (.inr (.inr (.inr (.inr (.inl (by decide))))))
  exact ⟨e, w', h, hl⟩

end CSS.Cases
