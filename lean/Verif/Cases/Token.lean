import Verif.Props.Token
import Verif.Props.TokenAccount
import Verif.Props.Codec
import Verif.Props.TimeRead
import Verif.Props.PolicyRead
import Verif.Props.Documents
import Verif.Props.Secrets
/-
The theorems about tokens, encodings, times and documents, each applied to a concrete case: C34, C41, C42, C44, C46-C48,
C50, C55, C58, C64.
-/
namespace CSS.Cases
open Spec Conformance

/-- C34_failure_keeps_cache: the server answers 404 and the cache holds an expired token. -/
example : (getEmailAndToken (answering 404 (s% "no")) btKey { world with caches := fun _ => some ⟨s% "e", s% "t", 5⟩ }).2.caches 0 =
    some ⟨s% "e", s% "t", 5⟩ := by
  rw [C34_failure_keeps_cache (answering 404 (s% "no")) btKey { world with caches := fun _ => some ⟨s% "e", s% "t", 5⟩ } (by
    intro p h
    have e : (getEmailAndToken (answering 404 (s% "no")) btKey { world with caches := fun _ => some ⟨s% "e", s% "t", 5⟩ }).1 =
        .err (.emailRequestStatus 404 (s% "no")) := by decide +kernel
    rw [e] at h
    cases h)]

/-- C41_sign_blob. -/
example : ∃ w' r payload, btKey.sign btEnv [1, 2] world = (.ok [0, 1, 255], w') ∧ w'.log.getLast? = some r ∧
    base64Decode payload = some [1, 2] := by
  have h : btKey.sign btEnv [1, 2] world = (.ok [0, 1, 255], (btKey.sign btEnv [1, 2] world).2) :=
    Prod.ext (by decide +kernel) rfl
  obtain ⟨r, body, payload, text, blob, h1, _, _, h4, _⟩ := C41_sign_blob btEnv btKey [1, 2] [0, 1, 255] world _ h
  exact ⟨_, r, payload, h, h1, h4⟩

/-- C44_other_keys_untouched: a second key whose cache is full. -/
example : (btKey.sign btEnv [1, 2] { world with caches := fun i => if i = 7 then some ⟨s% "x", s% "y", 9⟩ else none }).2.caches 7 =
    some ⟨s% "x", s% "y", 9⟩ :=
  (C44_other_keys_untouched btEnv btKey ⟨7, s% "http://other"⟩ [1, 2] _ (by decide)).2

/-- C58_form_signer and C58_url_signer. -/
example : ∃ fs w' signer, (Builder.ofCalls btCalls).build btEnv world = (.ok fs, w') ∧ AskedToSign w'.log signer := by
  obtain ⟨fs, w', h⟩ := succeeds_iff (r := (Builder.ofCalls btCalls).build btEnv world) (by decide +kernel)
  obtain ⟨_, _, signer, _, _, hs, _⟩ := C58_form_signer btEnv btCalls btOptions btKey world w' fs rfl rfl h
  exact ⟨fs, w', signer, h, hs⟩
example : ∃ url w' signer, buildSignedUrl btEnv btUrlOptions world = (.ok url, w') ∧ AskedToSign w'.log signer := by
  obtain ⟨url, w', h⟩ := btUrlOptions_ok
  obtain ⟨_, _, signer, _, _, hs, _⟩ := C58_url_signer btEnv btUrlOptions btKey world w' url rfl h
  exact ⟨url, w', signer, h, hs⟩

/-- C46_percentEncode_roundtrip and C46_percentEncode_injective. -/
example : percentDecode (percentEncode (s% "a b&c=d/é")) = utf8 (s% "a b&c=d/é") := C46_percentEncode_roundtrip _ (by decide)
example (t : Str) (ht : '%' ∉ t) (h : t ≠ s% "a=b") : percentEncode (s% "a=b") ≠ percentEncode t :=
  fun e => h (C46_percentEncode_injective _ _ (by decide) ht e).symm

/-- C47_rendering_denotes, C47_basic_is_read and C48_toSystemTime_back. -/
example : BasicDenotes (s% "20240229T235959Z") 1709251199 ∧ Rfc3339Denotes (s% "2024-02-29T23:59:59Z") 1709251199 := by
  obtain ⟨h1, h2, _⟩ := C47_rendering_denotes 1709251199 ⟨1709251199⟩ (by decide)
  refine ⟨?_, ?_⟩
  · rw [show (⟨1709251199⟩ : UnixTimestamp).toIso8601 = s% "20240229T235959Z" by decide +kernel] at h1
    exact h1
  · rw [show (⟨1709251199⟩ : UnixTimestamp).toRfc3339 = s% "2024-02-29T23:59:59Z" by decide +kernel] at h2
    exact h2
example : UnixTimestamp.fromIso8601 (⟨0⟩ : UnixTimestamp).toIso8601 = .ok ⟨0⟩ :=
  C47_basic_is_read _ 0 (C47_rendering_denotes 0 ⟨0⟩ (by decide)).1
example : ∃ time, (⟨1709251199⟩ : UnixTimestamp).toSystemTime = some time ∧ UnixTimestamp.fromSystemTime time = .ok ⟨1709251199⟩ := by
  obtain ⟨time, h1, _, h3⟩ := C48_toSystemTime_back 1709251199 ⟨1709251199⟩ (by decide) (by decide)
  exact ⟨time, h1, h3⟩

/-- C50_built_policy_readable. -/
example : ∃ fs w' p text d, (Builder.ofCalls testCalls).build env world = (.ok fs, w') ∧
    fieldValues fs (s% "policy") = [p] ∧ base64Decode p = some (utf8 text) ∧ readPolicy text = some d := by
  obtain ⟨fs, w', h⟩ := succeeds_iff (r := (Builder.ofCalls testCalls).build env world) (by decide +kernel)
  obtain ⟨p, text, d, h1, h2, h3, _⟩ := C50_built_policy_readable env testCalls _ world w' fs rfl (by
    intro n hn
    simp only [testCalls, List.mem_cons, reduceCtorEq, false_or, List.not_mem_nil, or_false, Call.contentLength.injEq] at hn
    subst hn
    decide) h
  exact ⟨fs, w', p, text, d, h, h1, h2, h3⟩

/-- A policy with a condition of each kind. -/
def policy : PolicyDocument := ⟨[.exactMatching (.xGoogMeta (s% "reviewer")) (s% "\u0001\"jane"), .startsWith .key (s% "a/"),
  .contentLengthRange 0 1000000], ⟨⟨1592305871⟩⟩⟩

theorem policy_ok : WellFormed policy ∧ ∀ c ∈ policy.conditions, ¬ NamesLength c := by
  refine ⟨⟨?_, ?_, ?_, by decide⟩, ?_⟩
  · intro f v h
    simp only [policy, List.mem_cons, Condition.exactMatching.injEq, reduceCtorEq, List.not_mem_nil, or_false] at h
    obtain ⟨rfl, _⟩ := h; decide
  · intro f v h
    simp only [policy, List.mem_cons, Condition.startsWith.injEq, reduceCtorEq, List.not_mem_nil, or_false, false_or] at h
    obtain ⟨rfl, _⟩ := h; decide
  · intro a b h
    simp only [policy, List.mem_cons, Condition.contentLengthRange.injEq, reduceCtorEq, List.not_mem_nil, or_false, false_or] at h
    obtain ⟨rfl, rfl⟩ := h; decide
  · intro c h
    simp only [policy, List.mem_cons, List.not_mem_nil, or_false] at h
    rcases h with rfl | rfl | rfl <;> simp [NamesLength]

/-- C50_round_trip, C50_writing_injective, C50_reading_sound. -/
example : readPolicy policy.toJson.render = some policy := (C50_round_trip policy policy_ok.1).2 policy_ok.2
example (e : PolicyDocument) (h : WellFormed e) (h' : ∀ c ∈ e.conditions, ¬ NamesLength c) (hne : e ≠ policy) :
    policy.toJson.render ≠ e.toJson.render :=
  fun heq => hne (C50_writing_injective policy e policy_ok.1 h policy_ok.2 h' heq).symm
example : PolicyOf policy.toJson policy :=
  C50_reading_sound _ _ policy (document_text policy) ((C50_round_trip policy policy_ok.1).2 policy_ok.2)

/-- C50_accepted: a text with no `\\u` escape. -/
example : ∃ j, JsonText j (s% "{\"conditions\":[[\"eq\",\"$key\",\"x\"]],\"expiration\":\"2020-06-16T11:11:11Z\"}") ∧
    PolicyOf j ⟨[.exactMatching .key (s% "x")], ⟨⟨1592305871⟩⟩⟩ :=
  (C50_accepted _ (by
    rintro ⟨pre, post, e⟩
    have : '\\' ∈ s% "{\"conditions\":[[\"eq\",\"$key\",\"x\"]],\"expiration\":\"2020-06-16T11:11:11Z\"}" := by rw [← e]; simp
    exact absurd this (by decide)) _).1 (by decide +kernel)

/-- C55_token_document and C55_blob_document. -/
example : TokenDoc (.obj [(s% "access_token", .str (s% "a")), (s% "expires_in", .num (s% "7")), (s% "token_type", .str (s% "Bearer"))])
    (s% "a") 7 (s% "Bearer") :=
  (C55_token_document (s := s% "{\"access_token\":\"a\",\"expires_in\":7,\"token_type\":\"Bearer\"}")
    ((parseJson_iff (fun _ => true) _ _).1 rfl).1 _ _ _).1 (by decide +kernel)
example : SignBlobDoc (.obj [(s% "keyId", .str (s% "k")), (s% "signedBlob", .str (s% "AA=="))]) (s% "AA==") :=
  (C55_blob_document (s := s% "{\"keyId\":\"k\",\"signedBlob\":\"AA==\"}")
    ((parseJson_iff (fun _ => true) _ _).1 rfl).1 _).1 (by decide +kernel)

/-- C55_token_unique. -/
example (token type : Str) (life : Nat)
    (h : TokenText (s% "{\"access_token\":\"a\",\"expires_in\":7,\"token_type\":\"Bearer\"}") token life type) : token = s% "a" ∧ life = 7 := by
  have h' : TokenText (s% "{\"access_token\":\"a\",\"expires_in\":7,\"token_type\":\"Bearer\"}") (s% "a") 7 (s% "Bearer") :=
    (C55_token_text _ _ _ _).1 (by decide +kernel)
  exact ⟨(C55_token_unique h h').1, (C55_token_unique h h').2.1⟩

end CSS.Cases
