import Verif.Model.ErrorChain
import Verif.Props.ErrorText
/-
C85: what a caller learns by following `source()` of an error.
-/
namespace CSS
open Spec

/-- Each text is a proper end of the one before. -/
def Spec.Nested : Str → List Str → Prop
  | _, [] => True
  | m, t :: ts => (∃ intro, intro ≠ [] ∧ m = intro ++ t) ∧ Nested t ts

/-- The form errors with causes, by their messages. -/
def Spec.causeIntros : List Str :=
  [s% "bound token authorizer", s% "bound token signing error: ", s% "service account private key pem parsing error: "]

theorem boundToken_causes (f : ForeignErrors) (b : BoundTokenError) :
    b.chain f = [] ∨ b.chain f = f.boundToken b :: f.boundTokenMore b ∧
      ∃ intro, intro ≠ [] ∧ b.text f.boundToken = intro ++ f.boundToken b := by
  cases b <;> first
    | exact .inl rfl
    | exact .inr ⟨rfl, _, by simp, rfl⟩

/-- What is known of the chain of an error with a message. -/
def Spec.Causes (f : ForeignErrors) (message : Str) (chain : List Str) : Prop :=
  ∃ own rest, chain = own ++ rest ∧ Nested message own ∧ own.length ≤ 3 ∧
    (rest = [] ∨ (∃ b, own.getLast? = some (f.boundToken b) ∧ rest = f.boundTokenMore b) ∨
      ∃ k, own.getLast? = some (f.key k) ∧ rest = f.keyMore k)

theorem key_causes (f : ForeignErrors) (k : KeyError) : ∃ own rest, k.chain f = own ++ rest ∧ Nested (k.text f.toSourceTexts) own ∧
    own.length ≤ 2 ∧ (rest = [] ∨ (∃ b, own.getLast? = some (f.boundToken b) ∧ rest = f.boundTokenMore b) ∨
      ∃ k, own.getLast? = some (f.key k) ∧ rest = f.keyMore k) := by
  have hb : ∀ (b : BoundTokenError) (intro : Str), intro ≠ [] → ∃ own rest, b.text f.boundToken :: b.chain f = own ++ rest ∧
      Nested (intro ++ b.text f.boundToken) own ∧ own.length ≤ 2 ∧
      (rest = [] ∨ (∃ b, own.getLast? = some (f.boundToken b) ∧ rest = f.boundTokenMore b) ∨
        ∃ k, own.getLast? = some (f.key k) ∧ rest = f.keyMore k) := by
    intro b intro hi
    rcases boundToken_causes f b with h | ⟨h, i, hne, ht⟩
    · exact ⟨[b.text f.boundToken], [], by rw [h]; rfl, ⟨⟨intro, hi, rfl⟩, trivial⟩, by simp, .inl rfl⟩
    · exact ⟨[b.text f.boundToken, f.boundToken b], f.boundTokenMore b, by rw [h]; rfl, ⟨⟨intro, hi, rfl⟩, ⟨i, hne, ht⟩, trivial⟩,
        by simp, .inr (.inl ⟨b, rfl, rfl⟩)⟩
  cases k with
  | boundTokenAuthorizer b => exact hb b _ (by simp)
  | boundTokenSigning b => exact hb b _ (by simp)
  | serviceAccountPrivateKeyPemParsing => exact ⟨[_], _, rfl, ⟨⟨_, by simp, rfl⟩, trivial⟩, by simp, .inr (.inr ⟨_, rfl, rfl⟩)⟩
  | _ => exact ⟨[], [], rfl, trivial, by simp, .inl rfl⟩

/-- C85. The causes of a form error are in its message: each of at most three texts, down to the one of the other crate's error,
is the end of the one before. What follows are that error's own causes. -/
theorem C85_form_causes (f : ForeignErrors) (e : FormError) : Causes f (e.text f.toSourceTexts) (e.chain f) := by
  cases e with
  | boundTokenAuthorizer k =>
    obtain ⟨own, rest, h1, h2, h3, h4⟩ := key_causes f k
    refine ⟨k.text f.toSourceTexts :: own, rest, by rw [FormError.chain, h1]; rfl, ⟨⟨_, by simp, rfl⟩, h2⟩, by simp; omega, ?_⟩
    rcases h4 with h4 | ⟨b, h4, h5⟩ | ⟨b, h4, h5⟩
    · exact .inl h4
    · exact .inr (.inl ⟨b, by rw [List.getLast?_cons, h4]; rfl, h5⟩)
    · exact .inr (.inr ⟨b, by rw [List.getLast?_cons, h4]; rfl, h5⟩)
  | signing k =>
    obtain ⟨own, rest, h1, h2, h3, h4⟩ := key_causes f k
    exact ⟨own, rest, h1, h2, by omega, h4⟩
  | _ => exact ⟨[], [], rfl, trivial, by simp, .inl rfl⟩

/-- C85. A form error has causes if and only if its message says so. -/
theorem C85_form_has_causes (f : ForeignErrors) (e : FormError) :
    e.chain f ≠ [] ↔ ∃ intro ∈ causeIntros, intro <+: e.text f.toSourceTexts := by
  have no : ∀ {a b r : Str}, (a.isPrefixOf b || b.isPrefixOf a) = false → ¬ a <+: b ++ r := by
    intro a b r h hp
    rw [Bool.or_eq_false_iff] at h
    have hb : b <+: b ++ r := List.prefix_append ..
    rcases Nat.le_total a.length b.length with hl | hl
    · exact absurd (List.isPrefixOf_iff_prefix.2 (List.prefix_of_prefix_length_le hp hb hl)) (by rw [h.1]; decide)
    · exact absurd (List.isPrefixOf_iff_prefix.2 (List.prefix_of_prefix_length_le hb hp hl)) (by rw [h.2]; decide)
  have none : ∀ {b r : Str}, (∀ a ∈ causeIntros, (a.isPrefixOf b || b.isPrefixOf a) = false) → ¬ ∃ intro ∈ causeIntros, intro <+: b ++ r :=
    fun h ⟨a, ha, hp⟩ => no (h a ha) hp
  have lit : ∀ {b : Str}, (∀ a ∈ causeIntros, (a.isPrefixOf b || b.isPrefixOf a) = false) → ¬ ∃ intro ∈ causeIntros, intro <+: b :=
    fun h => by have := none (r := []) h; rwa [List.append_nil] at this
  have yes : ∀ {a b r : Str}, a ∈ causeIntros → a.isPrefixOf b = true → ∃ intro ∈ causeIntros, intro <+: b ++ r :=
    fun ha hp => ⟨_, ha, (List.isPrefixOf_iff_prefix.1 hp).trans (List.prefix_append ..)⟩
  cases e with
  | boundTokenAuthorizer k => exact ⟨fun _ => yes (.head _) (by decide +kernel), fun _ => by simp [FormError.chain]⟩
  | signing k =>
    cases k with
    | boundTokenAuthorizer b => exact ⟨fun _ => yes (.head _) (by decide +kernel), fun _ => by simp [FormError.chain, KeyError.chain]⟩
    | boundTokenSigning b => exact ⟨fun _ => yes (.tail _ (.head _)) (by decide +kernel), fun _ => by simp [FormError.chain, KeyError.chain]⟩
    | serviceAccountPrivateKeyPemParsing =>
      exact ⟨fun _ => yes (.tail _ (.tail _ (.head _))) (by decide +kernel), fun _ => by simp [FormError.chain, KeyError.chain]⟩
    | boundTokenMustUseSignBlob => exact ⟨fun h => absurd rfl h, fun h => absurd h (lit (b := s% "bound token must use sign blob") (by decide +kernel))⟩
    | serviceAccountPrivateKeyPkcs8Parsing => exact ⟨fun h => absurd rfl h, fun h => absurd h (none (by decide +kernel))⟩
    | serviceAccountSigning => exact ⟨fun h => absurd rfl h, fun h => absurd h (none (by decide +kernel))⟩
  | _ => exact ⟨fun h => absurd rfl h, fun h => absurd h (lit (by simp only [FormError.text]; decide +kernel))⟩

/-- C85. A URL error has no causes: `source()` is always `None`, whatever has happened. -/
theorem C85_url_no_causes (e : BuildUrlError) : e.chain = [] := by
  cases e with
  | credentialScope c => cases c; rfl
  | expiration c => cases c; rfl
  | httpMethod c => cases c; rfl
  | signedUrl s =>
    cases s with
    | canonicalRequest c => cases c; rfl
    | _ => rfl
  | _ => rfl

/-- C85. The errors of key files have a cause exactly if the file cannot be opened or read, or is no JSON; only in the last case
is the cause not in the message. -/
theorem C85_key_causes (f : ForeignErrors) (env : Env) (file : FileResult) (e : SigningKeyError)
    (h : SigningKey.serviceAccountFromPath env file = .err e) :
    ((∀ text, file ≠ .text text) ∧ ∃ cause, e.chain f = cause :: f.fileMore e ∧
      e.text f.toSourceTexts = s% "service account file open error: " ++ cause) ∨
    (∃ text, file = .text text ∧ (¬ ∃ j, ReadableJson env text j) ∧ ∃ cause, e.chain f = cause :: f.fileMore e ∧
      e.text f.toSourceTexts = s% "service account json deserialize error") ∨
    (∃ text j, file = .text text ∧ ReadableJson env text j) ∧ e.chain f = [] := by
  rcases C73_key_message f.toSourceTexts env file e h with ⟨⟨t, ht⟩, hf⟩ | ⟨text, rfl, ⟨ht, hj⟩ | ⟨j, hj, hr⟩⟩
  · refine .inl ⟨hf, ?_⟩
    cases e <;> first
      | exact ⟨_, rfl, rfl⟩
      | (exfalso; revert ht; simp [SigningKeyError.text])
  · refine .inr (.inl ⟨text, rfl, hj, ?_⟩)
    cases e <;> first
      | exact ⟨_, rfl, rfl⟩
      | (exfalso; revert ht; simp [SigningKeyError.text])
  · refine .inr (.inr ⟨⟨text, j, rfl, hj⟩, ?_⟩)
    rcases hr with ⟨ht, _⟩ | ⟨ht, _⟩ | ⟨ht, _⟩ | ⟨ht, _⟩ | ⟨ht, _⟩ <;> cases e <;> first
      | rfl
      | (exfalso; revert ht; simp [SigningKeyError.text])

/-- The three cases: no file, no JSON, no object. -/
example (f : ForeignErrors) :
    let chain := fun (file : FileResult) => match SigningKey.serviceAccountFromPath Conformance.env file with
      | .err e => some (e.chain f)
      | _ => none
    chain .openError = some (f.file .serviceAccountFileOpen :: f.fileMore .serviceAccountFileOpen) ∧
    chain (.text (s% "{")) = some (f.file .serviceAccountJsonDeserialize :: f.fileMore .serviceAccountJsonDeserialize) ∧
    chain (.text (s% "[]")) = some [] := ⟨rfl, rfl, rfl⟩

open Conformance in
/-- C85. The same failure, the metadata server cannot be reached, in a form and in a URL: the form error has three causes of
known texts, and then the causes of the failure of the connection; the URL error has none. -/
theorem C85_url_hides_causes (f : ForeignErrors) : ∃ env cs o w e e',
    ((Builder.ofCalls cs).build env w).1 = .err e ∧ (buildSignedUrl env o w).1 = .err e' ∧
    e.chain f = [s% "bound token authorizer error: bound token / email request / execute error: " ++ f.boundToken .emailRequestExecute,
      s% "bound token / email request / execute error: " ++ f.boundToken .emailRequestExecute, f.boundToken .emailRequestExecute] ++
      f.boundTokenMore .emailRequestExecute ∧
    e'.text f.toSourceTexts = s% "signing error: bound token authorizer error: bound token / email request / execute error: " ++
      f.boundToken .emailRequestExecute ∧
    e'.chain = [] := by
  refine ⟨{ btEnv with net := fun _ _ => .execErr }, btCalls, btUrlOptions, world,
    .boundTokenAuthorizer (.boundTokenAuthorizer .emailRequestExecute),
    .signedUrl (.signing (.boundTokenAuthorizer .emailRequestExecute)), by decide +kernel, by decide +kernel, ?_, rfl, rfl⟩
  rfl

end CSS
