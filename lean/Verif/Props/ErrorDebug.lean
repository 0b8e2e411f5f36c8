import Verif.Model.ErrorDebug
import Verif.Spec.Debug
import Verif.Props.ErrorText
/-
C107: what `{:?}` of errors and forms says.
-/
set_option linter.unusedSimpArgs false
namespace CSS
open Spec

/-! ### Hexadecimal numbers -/

theorem natHexAux_fuel : ∀ (f g n : Nat), n < f → n < g → natHexAux f n = natHexAux g n := by
  intro f
  induction f with
  | zero => intro g n h; omega
  | succ f ih =>
    intro g n h1 h2
    cases g with
    | zero => omega
    | succ g =>
      unfold natHexAux
      by_cases h : n < 16
      · simp [h]
      · simp only [h, if_false]
        rw [ih g (n / 16) (by omega) (by omega)]

theorem natHex_lt {n : Nat} (h : n < 16) : natHex n = [hexLower n] := by
  simp [natHex, natHexAux, h]

theorem natHex_ge {n : Nat} (h : 16 ≤ n) : natHex n = natHex (n / 16) ++ [hexLower (n % 16)] := by
  have : ¬ n < 16 := by omega
  rw [natHex, natHexAux, if_neg this, natHex, natHexAux_fuel n (n / 16 + 1) (n / 16) (by omega) (by omega)]

theorem hexLower_facts : ∀ n < 16, hexVal? (hexLower n) = some n ∧ hexLower n ≠ '}' ∧
    32 ≤ (hexLower n).toNat ∧ (hexLower n).toNat ≤ 126 := by decide

theorem hex_induction {P : Nat → Prop} (h0 : ∀ n, n < 16 → P n)
    (h1 : ∀ n, 16 ≤ n → P (n / 16) → P n) (n : Nat) : P n := by
  induction n using Nat.strongRecOn with
  | ind n ih =>
    by_cases h : n < 16
    · exact h0 n h
    · exact h1 n (by omega) (ih _ (by omega))

theorem hexNumber_natHex (n : Nat) : hexNumber (natHex n) = n := by
  induction n using hex_induction with
  | h0 n h => rw [natHex_lt h]; simp [hexNumber, (hexLower_facts n h).1]
  | h1 n h ih =>
    rw [natHex_ge h]
    unfold hexNumber at ih ⊢
    rw [List.foldl_append, ih]
    simp only [List.foldl_cons, List.foldl_nil, (hexLower_facts (n % 16) (by omega)).1, Option.getD_some]
    omega

theorem natHex_inj {m n : Nat} (h : natHex m = natHex n) : m = n := by
  rw [← hexNumber_natHex m, ← hexNumber_natHex n, h]

theorem natHex_ne_nil (n : Nat) : natHex n ≠ [] := by
  by_cases h : n < 16
  · rw [natHex_lt h]; simp
  · rw [natHex_ge (by omega)]; simp

theorem natHex_digit (n : Nat) : ∀ c ∈ natHex n, ∃ k, k < 16 ∧ c = hexLower k := by
  induction n using hex_induction with
  | h0 n h => rw [natHex_lt h]; intro c hc; simp at hc; exact ⟨n, h, hc⟩
  | h1 n h ih =>
    rw [natHex_ge h]; intro c hc
    rcases List.mem_append.1 hc with hc | hc
    · exact ih c hc
    · simp at hc; exact ⟨n % 16, by omega, hc⟩

theorem natHex_length : ∀ k n, 0 < k → n < 16 ^ k → (natHex n).length ≤ k := by
  intro k
  induction k with
  | zero => intro n h; omega
  | succ k ih =>
    intro n _ hn
    by_cases h : n < 16
    · rw [natHex_lt h]; simp
    · rw [natHex_ge (by omega)]
      have hk : 0 < k := by
        rcases Nat.eq_zero_or_pos k with h0 | h0
        · subst h0; simp at hn; omega
        · exact h0
      have := ih (n / 16) hk (by rw [Nat.pow_succ] at hn; omega)
      simp; omega

/-! ### Strings -/

/-- What stands for a character: itself, a backslash with a letter, or its number. -/
theorem escapeDebug_cases (p : Char → Bool) (c : Char) :
    (escapeDebug p c = [c] ∧ c ≠ '"' ∧ c ≠ '\\' ∧
      ((32 ≤ c.toNat ∧ c.toNat ≤ 126) ∨ (127 < c.toNat ∧ p c = true))) ∨
    (∃ k, (k, c) ∈ [('0', '\x00'), ('t', '\t'), ('r', '\r'), ('n', '\n'), ('"', '"'), ('\\', '\\')] ∧
      escapeDebug p c = ['\\', k]) ∨
    escapeDebug p c = s% "\\u{" ++ natHex c.toNat ++ s% "}" := by
  unfold escapeDebug
  split
  · rename_i h; exact .inr (.inl ⟨'0', by simp [h], rfl⟩)
  split
  · rename_i h; exact .inr (.inl ⟨'t', by simp [h], rfl⟩)
  split
  · rename_i h; exact .inr (.inl ⟨'r', by simp [h], rfl⟩)
  split
  · rename_i h; exact .inr (.inl ⟨'n', by simp [h], rfl⟩)
  split
  · rename_i h; exact .inr (.inl ⟨'"', by simp [h], rfl⟩)
  split
  · rename_i h; exact .inr (.inl ⟨'\\', by simp [h], rfl⟩)
  rename_i hq hb
  split
  · rename_i h; exact .inl ⟨rfl, hq, hb, .inl h⟩
  split
  · rename_i h; exact .inl ⟨rfl, hq, hb, .inr h⟩
  exact .inr (.inr rfl)

/-- Text up to a character that is not in it. -/
theorem upto_unique {d : Char} {a b : Str} (ha : d ∉ a) (hb : d ∉ b) {r r' : Str} (h : a ++ d :: r = b ++ d :: r') :
    a = b ∧ r = r' := by
  induction a generalizing b with
  | nil =>
    cases b with
    | nil => simpa using h
    | cons y b =>
      simp only [List.nil_append, List.cons_append, List.cons.injEq] at h
      exact absurd (by simp [h.1]) hb
  | cons x a ih =>
    cases b with
    | nil =>
      simp only [List.nil_append, List.cons_append, List.cons.injEq] at h
      exact absurd (by simp [h.1]) ha
    | cons y b =>
      simp only [List.cons_append, List.cons.injEq] at h
      have := ih (fun hh => ha (by simp [hh])) (b := b) (fun hh => hb (by simp [hh])) h.2
      exact ⟨by rw [h.1, this.1], this.2⟩

theorem natHex_no_brace (n : Nat) : '}' ∉ natHex n := by
  intro h
  obtain ⟨k, hk, hc⟩ := natHex_digit n _ h
  exact (hexLower_facts k hk).2.1 hc.symm

theorem simpleEscapes : ∀ x ∈ [('0', '\x00'), ('t', '\t'), ('r', '\r'), ('n', '\n'), ('"', '"'), ('\\', '\\')],
    ∀ y ∈ [('0', '\x00'), ('t', '\t'), ('r', '\r'), ('n', '\n'), ('"', '"'), ('\\', '\\')], x.1 = y.1 → x.2 = y.2 := by
  decide

theorem simpleEscapes_u : ∀ x ∈ [('0', '\x00'), ('t', '\t'), ('r', '\r'), ('n', '\n'), ('"', '"'), ('\\', '\\')],
    x.1 ≠ 'u' ∧ 32 ≤ x.1.toNat ∧ x.1.toNat ≤ 126 ∧ LiteralChar ['\\', x.1] x.2 := by
  simp only [List.mem_cons, List.not_mem_nil, or_false, forall_eq_or_imp, forall_eq]
  exact ⟨⟨by decide, by decide, by decide, .nul⟩, ⟨by decide, by decide, by decide, .tab⟩,
    ⟨by decide, by decide, by decide, .cr⟩, ⟨by decide, by decide, by decide, .nl⟩,
    ⟨by decide, by decide, by decide, .quote⟩, ⟨by decide, by decide, by decide, .backslash⟩⟩

theorem escapeDebug_unique {p : Char → Bool} {c c' : Char} {r r' : Str}
    (h : escapeDebug p c ++ r = escapeDebug p c' ++ r') : c = c' ∧ r = r' := by
  rcases escapeDebug_cases p c with ⟨h1, _, hb, _⟩ | ⟨k, hk, h1⟩ | h1 <;>
    rcases escapeDebug_cases p c' with ⟨h2, _, hb', _⟩ | ⟨k', hk', h2⟩ | h2 <;> rw [h1, h2] at h
  · simpa using h
  · simp at h; exact absurd h.1 hb
  · simp at h; exact absurd h.1 hb
  · simp at h; exact absurd h.1.symm hb'
  · simp only [List.cons_append, List.nil_append, List.cons.injEq, true_and] at h
    exact ⟨simpleEscapes _ hk _ hk' h.1, h.2⟩
  · simp only [List.cons_append, List.nil_append, List.cons.injEq, true_and] at h
    exact absurd h.1 (simpleEscapes_u _ hk).1
  · simp at h; exact absurd h.1.symm hb'
  · simp only [List.cons_append, List.nil_append, List.cons.injEq, true_and] at h
    exact absurd h.1.symm (simpleEscapes_u _ hk').1
  · simp only [List.cons_append, List.nil_append, List.append_assoc, List.cons.injEq, true_and] at h
    obtain ⟨h3, h4⟩ := upto_unique (natHex_no_brace _) (natHex_no_brace _) h
    exact ⟨Char.toNat_inj.1 (natHex_inj h3), h4⟩

theorem escapeDebug_head (p : Char → Bool) (c : Char) : ∃ x t, escapeDebug p c = x :: t ∧ x ≠ '"' := by
  rcases escapeDebug_cases p c with ⟨h, hq, _⟩ | ⟨k, _, h⟩ | h
  · exact ⟨c, [], h, hq⟩
  · exact ⟨'\\', [k], h, by decide⟩
  · exact ⟨'\\', _, h, by decide⟩

/-- A quoted string ends where it ends. -/
theorem debugStr_unique {p : Char → Bool} {s s' r r' : Str} (h : debugStr p s ++ r = debugStr p s' ++ r') :
    s = s' ∧ r = r' := by
  simp only [debugStr, List.cons_append, List.append_assoc, List.cons.injEq, true_and, List.nil_append] at h
  induction s generalizing s' with
  | nil =>
    cases s' with
    | nil => simpa using h
    | cons c s' =>
      obtain ⟨x, t, hx, hq⟩ := escapeDebug_head p c
      simp only [List.flatMap_nil, List.nil_append, List.flatMap_cons, hx, List.cons_append, List.cons.injEq] at h
      exact absurd h.1.symm hq
  | cons c s ih =>
    cases s' with
    | nil =>
      obtain ⟨x, t, hx, hq⟩ := escapeDebug_head p c
      simp only [List.flatMap_nil, List.nil_append, List.flatMap_cons, hx, List.cons_append, List.cons.injEq] at h
      exact absurd h.1 hq
    | cons c' s' =>
      simp only [List.flatMap_cons, List.append_assoc] at h
      obtain ⟨rfl, h2⟩ := escapeDebug_unique h
      obtain ⟨rfl, h3⟩ := ih h2
      exact ⟨rfl, h3⟩

theorem debugStr_inj {p : Char → Bool} {s s' : Str} (h : debugStr p s = debugStr p s') : s = s' :=
  (debugStr_unique (r := []) (r' := []) (by rw [h])).1

theorem literalChar_escape (p : Char → Bool) (c : Char) : LiteralChar (escapeDebug p c) c := by
  rcases escapeDebug_cases p c with ⟨h, hq, hb, _⟩ | ⟨k, hk, h⟩ | h
  · rw [h]; exact .plain c hq hb
  · rw [h]; exact (simpleEscapes_u _ hk).2.2.2
  · rw [h]
    refine .unicode _ c (natHex_ne_nil _) (natHex_length 6 _ (by omega) ?_) ?_ (hexNumber_natHex _)
    · have := c.valid
      have h1 : c.toNat < 1114112 := by
        rcases this with h | h
        · exact Nat.lt_trans h (by decide)
        · exact h.2
      omega
    · intro d hd
      obtain ⟨k, hk, rfl⟩ := natHex_digit _ d hd
      rw [(hexLower_facts k hk).1]; simp

theorem literal_debugStr (p : Char → Bool) (s : Str) : Literal (debugStr p s) s := by
  refine ⟨s.flatMap (escapeDebug p), rfl, ?_⟩
  induction s with
  | nil => exact .nil
  | cons c s ih => exact .cons _ c _ s (literalChar_escape p c) ih

/-! ### Variants -/

theorem paren_split {a b r r' : Str} (ha : '(' ∉ a) (hb : '(' ∉ b) (h : a ++ (s% "(" ++ r) = b ++ (s% "(" ++ r')) :
    a = b ∧ r = r' := upto_unique ha hb h

/-- A variant's name and its fields can be read off its text. -/
theorem debugTuple_unique {n n' : Str} {fs fs' : List Str} (hn : '(' ∉ n) (hn' : '(' ∉ n')
    (h : debugTuple n fs = debugTuple n' fs') : n = n' ∧ commaSep fs = commaSep fs' := by
  unfold debugTuple at h
  by_cases h1 : fs = [] <;> by_cases h2 : fs' = []
  · rw [if_pos h1, if_pos h2] at h; subst h1; subst h2; exact ⟨h, rfl⟩
  · rw [if_pos h1, if_neg h2] at h; exact absurd (by rw [h]; simp) hn
  · rw [if_neg h1, if_pos h2] at h; exact absurd (by rw [← h]; simp) hn'
  · rw [if_neg h1, if_neg h2] at h
    obtain ⟨h3, h4⟩ := paren_split hn hn' h
    exact ⟨h3, List.append_cancel_right h4⟩

/-- Names that are told apart, with no parenthesis in them. -/
structure NameList (names : List Str) : Prop where
  distinct : ∀ i < names.length, ∀ j < names.length, names.getD i [] = names.getD j [] → i = j
  noParen : ∀ i < names.length, '(' ∉ names.getD i []

theorem NameList.unique {names : List Str} (hl : NameList names) {i j : Nat} (hi : i < names.length) (hj : j < names.length)
    {fs fs' : List Str} (h : debugTuple (names.getD i []) fs = debugTuple (names.getD j []) fs') :
    i = j ∧ commaSep fs = commaSep fs' := by
  obtain ⟨h1, h2⟩ := debugTuple_unique (hl.noParen i hi) (hl.noParen j hj) h
  exact ⟨hl.distinct i hi j hj h1, h2⟩

def tokenNames : List Str := [
  s% "EmailRequestBuild",
  s% "EmailRequestErrorResponse",
  s% "EmailRequestExecute",
  s% "EmailRequestStatus",
  s% "EmailRequestSuccessResponse",
  s% "SignBlobRequestBuild",
  s% "SignBlobRequestErrorResponse",
  s% "SignBlobRequestExecute",
  s% "SignBlobRequestStatus",
  s% "SignBlobRequestSuccessResponse",
  s% "SignBlobRequestSuccessResponseBase64Decode",
  s% "SignBlobRequestSuccessResponseDeserialize",
  s% "TokenRequestBuild",
  s% "TokenRequestErrorResponse",
  s% "TokenRequestExecute",
  s% "TokenRequestInvalidTokenType",
  s% "TokenRequestStatus",
  s% "TokenRequestSuccessResponse",
  s% "TokenRequestSuccessResponseDeserialize"]

theorem tokenNames_ok : NameList tokenNames := ⟨by decide +kernel, by decide +kernel⟩

def tokenDebugFields (t : DebugTexts) (e : BoundTokenError) : List Str :=
  match e with
  | .emailRequestStatus s b | .signBlobRequestStatus s b | .tokenRequestStatus s b => [natDec s, debugStr t.printable b]
  | .tokenRequestInvalidTokenType s => [debugStr t.printable s]
  | e => [t.boundToken e]

theorem tokenDebug_shape (t : DebugTexts) (e : BoundTokenError) :
    e.debug t = debugTuple (tokenNames.getD (tokenTag e) []) (tokenDebugFields t e) := by cases e <;> rfl

theorem digits_no_comma (n : Nat) : ',' ∉ natDec n := fun h => absurd (natDec_digits n _ h) (by decide)

theorem statusFields_unique {p : Char → Bool} {m n : Nat} {a b : Str}
    (h : commaSep [natDec m, debugStr p a] = commaSep [natDec n, debugStr p b]) : m = n ∧ a = b := by
  obtain ⟨h1, h2⟩ := upto_unique (digits_no_comma m) (digits_no_comma n) h
  exact ⟨natDec_inj h1, debugStr_inj (List.append_cancel_left (as := [' ']) h2)⟩

theorem tokenDebug_injective {t t' : DebugTexts} (hp : t.printable = t'.printable) {e e' : BoundTokenError}
    (h : e.debug t = e'.debug t') : e = e' := by
  rw [tokenDebug_shape, tokenDebug_shape] at h
  obtain ⟨ht, hd⟩ := tokenNames_ok.unique (tokenTag_lt e) (tokenTag_lt e') h
  clear h
  cases e <;> cases e' <;> first
    | rfl
    | (simp [tokenTag] at ht; done)
    | (simp only [tokenDebugFields, ← hp] at hd; obtain ⟨rfl, rfl⟩ := statusFields_unique hd; rfl)
    | (simp only [tokenDebugFields, ← hp, commaSep] at hd; rw [debugStr_inj hd])

def keyNames : List Str := [
  s% "BoundTokenAuthorizer",
  s% "BoundTokenMustUseSignBlob",
  s% "BoundTokenSigning",
  s% "ServiceAccountPrivateKeyPemParsing",
  s% "ServiceAccountPrivateKeyPkcs8Parsing",
  s% "ServiceAccountSigning"]

theorem keyNames_ok : NameList keyNames := ⟨by decide +kernel, by decide +kernel⟩

def keyDebugFields (t : DebugTexts) (e : KeyError) : List Str :=
  match e with
  | .boundTokenAuthorizer b | .boundTokenSigning b => [b.debug t]
  | .boundTokenMustUseSignBlob => []
  | e => [t.key e]

theorem keyDebug_injective {t t' : DebugTexts} (hp : t.printable = t'.printable) {e e' : KeyError}
    (h : e.debug t = e'.debug t') : e = e' := by
  have shape : ∀ t e, KeyError.debug t e = debugTuple (keyNames.getD (keyTag e) []) (keyDebugFields t e) := by
    intro t e; cases e <;> rfl
  rw [shape, shape] at h
  obtain ⟨ht, hd⟩ := keyNames_ok.unique (keyTag_lt e) (keyTag_lt e') h
  clear h
  cases e <;> cases e' <;> first
    | rfl
    | (simp [keyTag] at ht; done)
    | (simp only [keyDebugFields, commaSep] at hd; rw [tokenDebug_injective hp hd])

theorem scopeDebug_injective {e e' : CredentialScopeError} (h : e.debug = e'.debug) : e = e' := by
  obtain ⟨s, r⟩ := e
  obtain ⟨s', r'⟩ := e'
  cases s <;> cases s' <;> cases r <;> cases r' <;> first
    | rfl
    | exact absurd h (by decide +kernel)

theorem signedUrlDebug_injective {t t' : DebugTexts} (hp : t.printable = t'.printable) {e e' : SignedUrlError}
    (h : e.debug t = e'.debug t') : e = e' := by
  cases e with
  | canonicalRequest c =>
    cases c
    cases e' with
    | canonicalRequest c' => cases c'; rfl
    | hostHeaderNotFound => exact absurd (debugTuple_unique (by decide) (by decide) h).1 (by decide)
    | signing k' => exact absurd (debugTuple_unique (by decide) (by decide) h).1 (by decide)
  | hostHeaderNotFound =>
    cases e' with
    | canonicalRequest c' => exact absurd (debugTuple_unique (by decide) (by decide) h).1 (by decide)
    | hostHeaderNotFound => rfl
    | signing k' => exact absurd (debugTuple_unique (by decide) (by decide) h).1 (by decide)
  | signing k =>
    cases e' with
    | canonicalRequest c' => exact absurd (debugTuple_unique (by decide) (by decide) h).1 (by decide)
    | hostHeaderNotFound => exact absurd (debugTuple_unique (by decide) (by decide) h).1 (by decide)
    | signing k' => rw [keyDebug_injective hp (debugTuple_unique (by decide) (by decide) h).2]

def urlNames : List Str := [
  s% "CredentialScope",
  s% "Expiration",
  s% "ExpirationOutOfRange",
  s% "HttpMethod",
  s% "HttpRequest",
  s% "InvalidHeaderName",
  s% "InvalidHeaderValue",
  s% "Now",
  s% "SignedUrl"]

theorem urlNames_ok : NameList urlNames := ⟨by decide +kernel, by decide +kernel⟩

def urlNumber : BuildUrlError → Nat
  | .credentialScope _ => 0
  | .expiration _ => 1
  | .expirationOutOfRange => 2
  | .httpMethod _ => 3
  | .httpRequest => 4
  | .invalidHeaderName => 5
  | .invalidHeaderValue => 6
  | .now => 7
  | .signedUrl _ => 8

def urlDebugFields (t : DebugTexts) (e : BuildUrlError) : List Str :=
  match e with
  | .credentialScope c => [c.debug]
  | .expiration c => [c.debug]
  | .httpMethod c => [c.debug t]
  | .signedUrl c => [c.debug t]
  | .expirationOutOfRange | .now => []
  | e => [t.http e]

theorem urlKind_injective {t t' : DebugTexts} (hp : t.printable = t'.printable) {e e' : BuildUrlError}
    (h : e.debugKind t = e'.debugKind t') : e = e' := by
  have shape : ∀ t e, BuildUrlError.debugKind t e = debugTuple (urlNames.getD (urlNumber e) []) (urlDebugFields t e) := by
    intro t e; cases e <;> rfl
  have hlt : ∀ e, urlNumber e < urlNames.length := by
    intro e
    have : urlNames.length = 9 := rfl
    rw [this]; cases e <;> simp [urlNumber]
  rw [shape, shape] at h
  obtain ⟨ht, hd⟩ := urlNames_ok.unique (hlt e) (hlt e') h
  clear h shape hlt
  cases e with
  | credentialScope c =>
    cases e' <;> first
      | exact congrArg _ (scopeDebug_injective hd)
      | (simp [urlNumber] at ht; done)
  | expiration c =>
    cases e' <;> first
      | (simp [urlNumber] at ht; done)
      | skip
    obtain ⟨n⟩ := c
    rename_i c'
    obtain ⟨n'⟩ := c'
    simp only [urlDebugFields, commaSep, ExpirationError.debug] at hd
    rw [intDec_inj (debugTuple_unique (by decide) (by decide) hd).2]
  | httpMethod c =>
    cases e' <;> first
      | (simp [urlNumber] at ht; done)
      | skip
    obtain ⟨n⟩ := c
    rename_i c'
    obtain ⟨n'⟩ := c'
    simp only [urlDebugFields, commaSep, HttpVerbError.debug, ← hp] at hd
    rw [debugStr_inj (debugTuple_unique (by decide) (by decide) hd).2]
  | signedUrl c =>
    cases e' <;> first
      | exact congrArg _ (signedUrlDebug_injective hp hd)
      | (simp [urlNumber] at ht; done)
  | _ =>
    cases e' <;> first
      | rfl
      | (simp [urlNumber] at ht; done)

/-- C107 for URLs. The `Debug` text of an error of `build_signed_url` tells what went wrong: failures with the same text are
the same failure, with the same data in it, whatever the texts of other crates' errors are. -/
theorem C107_url_debug_distinct (t t' : DebugTexts) (hp : t.printable = t'.printable) (e e' : BuildUrlError)
    (h : e.debug t = e'.debug t') : e = e' :=
  urlKind_injective hp (debugTuple_unique (by decide) (by decide) h).2

def formNames : List Str := [
  s% "AccessibleAtOutOfRange",
  s% "BoundTokenAuthorizer",
  s% "BucketNotFound",
  s% "ExpirationBeforeAccessibleAt",
  s% "ExpirationOutOfRange",
  s% "KeyNotFound",
  s% "Signing",
  s% "XGoogAlgorithmNotSupported",
  s% "XGoogCredentialInvalid",
  s% "XGoogMetaNameEmpty"]

theorem formNames_ok : NameList formNames := ⟨by decide +kernel, by decide +kernel⟩

def formNumber : FormError → Nat
  | .accessibleAtOutOfRange => 0
  | .boundTokenAuthorizer _ => 1
  | .bucketNotFound => 2
  | .expirationBeforeAccessibleAt => 3
  | .expirationOutOfRange => 4
  | .keyNotFound => 5
  | .signing _ => 6
  | .xGoogAlgorithmNotSupported => 7
  | .xGoogCredentialInvalid _ => 8
  | .xGoogMetaNameEmpty => 9

def formErrorFields (t : DebugTexts) (e : FormError) : List Str :=
  match e with
  | .boundTokenAuthorizer k | .signing k => [k.debug t]
  | .xGoogCredentialInvalid c => [c.debug]
  | _ => []

/-- C107 for forms. All failures of `build` are told apart, also the one of the credential that `Display` merges. -/
theorem C107_form_debug_distinct (t t' : DebugTexts) (hp : t.printable = t'.printable) (e e' : FormError)
    (h : e.debug t = e'.debug t') : e = e' := by
  have h := (debugTuple_unique (by decide) (by decide) h).2
  simp only [commaSep] at h
  have shape : ∀ t e, FormError.debugKind t e = debugTuple (formNames.getD (formNumber e) []) (formErrorFields t e) := by
    intro t e; cases e <;> rfl
  have hlt : ∀ e, formNumber e < formNames.length := by
    intro e
    have : formNames.length = 10 := rfl
    rw [this]; cases e <;> simp [formNumber]
  rw [shape, shape] at h
  obtain ⟨ht, hd⟩ := formNames_ok.unique (hlt e) (hlt e') h
  clear h shape hlt
  cases e with
  | boundTokenAuthorizer k =>
    cases e' <;> first
      | exact congrArg _ (keyDebug_injective hp hd)
      | (simp [formNumber] at ht; done)
  | signing k =>
    cases e' <;> first
      | exact congrArg _ (keyDebug_injective hp hd)
      | (simp [formNumber] at ht; done)
  | xGoogCredentialInvalid c =>
    cases e' <;> first
      | exact congrArg _ (scopeDebug_injective hd)
      | (simp [formNumber] at ht; done)
  | _ =>
    cases e' <;> first
      | rfl
      | (simp [formNumber] at ht; done)

/-- C107 for service account files. All failures are told apart, also opening the file and reading it, whose messages are
alike (`C74_open_and_read_alike`). -/
theorem C107_key_debug_distinct (t t' : DebugTexts) (e e' : SigningKeyError) (h : e.debug t = e'.debug t') : e = e' := by
  have h := (debugTuple_unique (by decide) (by decide) h).2
  simp only [commaSep] at h
  cases e <;> cases e' <;> simp only [SigningKeyError.debugKind] at h <;> first
    | rfl
    | exact absurd (debugTuple_unique (by decide) (by decide) h).1 (by decide)

/-! ### Forms -/

theorem debugField_unique {p : Char → Bool} {f g : Str × Str} {r r' : Str}
    (h : debugField p f ++ r = debugField p g ++ r') : f = g ∧ r = r' := by
  have h' : debugStr p f.1 ++ (s% ", " ++ (debugStr p f.2 ++ (s% ")" ++ r))) =
      debugStr p g.1 ++ (s% ", " ++ (debugStr p g.2 ++ (s% ")" ++ r'))) := by
    simpa [debugField, debugTuple, commaSep] using h
  obtain ⟨h1, h2⟩ := debugStr_unique h'
  obtain ⟨h3, h4⟩ := debugStr_unique (List.append_cancel_left h2)
  exact ⟨Prod.ext h1 h3, List.append_cancel_left h4⟩

theorem debugField_head (p : Char → Bool) (f : Str × Str) : ∃ r, debugField p f = '(' :: r :=
  ⟨_, by simp [debugField, debugTuple]; rfl⟩

theorem debugFields_unique {p : Char → Bool} : ∀ {fs gs : List (Str × Str)},
    commaSep (fs.map (debugField p)) ++ s% "]" = commaSep (gs.map (debugField p)) ++ s% "]" → fs = gs
  | [], [], _ => rfl
  | [], g :: gs, h => by
    obtain ⟨r, hr⟩ := debugField_head p g
    cases gs <;> simp [commaSep, hr] at h
  | f :: fs, [], h => by
    obtain ⟨r, hr⟩ := debugField_head p f
    cases fs <;> simp [commaSep, hr] at h
  | [f], [g], h => by
    simp only [List.map_cons, List.map_nil, commaSep] at h
    rw [(debugField_unique h).1]
  | [f], g :: g' :: gs, h => by
    simp only [List.map_cons, List.map_nil, commaSep, List.append_assoc] at h
    have := (debugField_unique h).2
    simp at this
  | f :: f' :: fs, [g], h => by
    simp only [List.map_cons, List.map_nil, commaSep, List.append_assoc] at h
    have := (debugField_unique h).2
    simp at this
  | f :: f' :: fs, g :: g' :: gs, h => by
    simp only [List.map_cons, commaSep, List.append_assoc] at h
    obtain ⟨h1, h2⟩ := debugField_unique h
    have h3 := List.append_cancel_left h2
    have := debugFields_unique (fs := f' :: fs) (gs := g' :: gs) (by simpa only [List.map_cons] using h3)
    rw [h1, this]

/-- C107. Forms with the same `Debug` text have the same fields in the same order. -/
theorem C107_form_text_distinct (printable : Char → Bool) (fs gs : List (Str × Str))
    (h : debugForm printable fs = debugForm printable gs) : fs = gs := by
  have h := (debugTuple_unique (by decide) (by decide) h).2
  simp only [commaSep] at h
  exact debugFields_unique (List.append_cancel_left h)

/-- C107. The `Debug` text of a form is Rust for the list of its fields: names and values in string literals, in order. -/
theorem C107_form_text (printable : Char → Bool) (fields : List (Str × Str)) :
    ∃ text, PairsLiteral text fields ∧ debugForm printable fields = s% "HtmlFormData([" ++ text ++ s% "])" := by
  have pair : ∀ f : Str × Str, PairLiteral (debugField printable f) f := by
    intro f
    exact ⟨_, _, by simp [debugField, debugTuple, commaSep], literal_debugStr printable f.1, literal_debugStr printable f.2⟩
  have list : ∀ fs : List (Str × Str), PairsLiteral (commaSep (fs.map (debugField printable))) fs := by
    intro fs
    induction fs with
    | nil => exact .none
    | cons f fs ih =>
      cases fs with
      | nil => exact .one _ _ (pair f)
      | cons g fs =>
        have := PairsLiteral.more _ _ _ _ _ (pair f) ih
        simpa only [List.map_cons, commaSep, List.append_assoc] using this
  exact ⟨_, list fields, by simp [debugForm, debugTuple, commaSep]⟩

/-! ### One line -/

theorem visible_append {p : Char → Bool} {a b : Str} (ha : Visible p a) (hb : Visible p b) : Visible p (a ++ b) := by
  intro c hc
  rcases List.mem_append.1 hc with h | h
  · exact ha c h
  · exact hb c h

/-- Characters from the space to `~`. -/
def plainAscii (s : Str) : Bool := s.all fun c => 32 ≤ c.toNat && c.toNat ≤ 126

theorem visible_plain {p : Char → Bool} {s : Str} (h : plainAscii s = true) : Visible p s := by
  intro c hc
  have := List.all_eq_true.1 h c hc
  simp at this
  exact .inl this

theorem visible_commaSep {p : Char → Bool} {l : List Str} (h : ∀ x ∈ l, Visible p x) : Visible p (commaSep l) := by
  induction l with
  | nil => intro c hc; simp [commaSep] at hc
  | cons x l ih =>
    cases l with
    | nil => exact h x (by simp)
    | cons y l => exact visible_append (h x (by simp)) (visible_append (visible_plain (by decide)) (ih fun z hz => h z (by simp [hz])))

theorem visible_tuple {p : Char → Bool} {n : Str} {fs : List Str} (hn : plainAscii n = true) (h : ∀ x ∈ fs, Visible p x) :
    Visible p (debugTuple n fs) := by
  unfold debugTuple
  split
  · exact visible_plain hn
  · exact visible_append (visible_plain hn) (visible_append (visible_plain (by decide))
      (visible_append (visible_commaSep h) (visible_plain (by decide))))

theorem visible_str (p : Char → Bool) (s : Str) : Visible p (debugStr p s) := by
  have hq : Visible p (s% "\"") := visible_plain (by decide)
  refine visible_append (a := s% "\"") hq (visible_append ?_ hq)
  intro c hc
  obtain ⟨x, _, hx⟩ := List.mem_flatMap.1 hc
  rcases escapeDebug_cases p x with ⟨h, _, _, hv⟩ | ⟨k, hk, h⟩ | h
  · rw [h] at hx
    simp only [List.mem_singleton] at hx
    rw [hx]; exact hv
  · rw [h] at hx
    simp only [List.mem_cons, List.not_mem_nil, or_false] at hx
    rcases hx with rfl | rfl
    · exact .inl (by decide)
    · exact .inl ⟨(simpleEscapes_u _ hk).2.1, (simpleEscapes_u _ hk).2.2.1⟩
  · rw [h] at hx
    have : Visible p (s% "\\u{" ++ natHex x.toNat ++ s% "}") := by
      refine visible_append (visible_append (visible_plain (by decide)) ?_) (visible_plain (by decide))
      intro d hd
      obtain ⟨k, hk, rfl⟩ := natHex_digit _ d hd
      exact .inl (hexLower_facts k hk).2.2
    exact this c hx

theorem visible_natDec (p : Char → Bool) (n : Nat) : Visible p (natDec n) := by
  intro c hc
  have := natDec_digits n c hc
  simp [isDigit] at this
  exact .inl (by omega)

theorem visible_intDec (p : Char → Bool) (n : Int) : Visible p (intDec n) := by
  unfold intDec
  split
  · exact visible_append (a := s% "-") (visible_plain (by decide)) (visible_natDec p _)
  · exact visible_natDec p _

/-- C107. The `Debug` text of a form has no control characters, whatever its fields are. -/
theorem C107_form_visible (printable : Char → Bool) (fields : List (Str × Str)) :
    Visible printable (debugForm printable fields) := by
  refine visible_tuple (by decide) ?_
  intro x hx
  simp only [List.mem_singleton] at hx
  subst hx
  refine visible_append (visible_plain (by decide)) (visible_append (visible_commaSep ?_) (visible_plain (by decide)))
  intro x hx
  obtain ⟨f, _, rfl⟩ := List.mem_map.1 hx
  refine visible_tuple (by decide) ?_
  intro y hy
  simp only [List.mem_cons, List.not_mem_nil, or_false] at hy
  rcases hy with rfl | rfl <;> exact visible_str _ _

/-- The texts of values of other crates have no control characters. -/
structure VisibleTexts (t : DebugTexts) : Prop where
  boundToken : ∀ e, Visible t.printable (t.boundToken e)
  key : ∀ e, Visible t.printable (t.key e)
  file : ∀ e, Visible t.printable (t.file e)
  http : ∀ e, Visible t.printable (t.http e)
  toStr : Visible t.printable t.toStr

theorem visible_one {p : Char → Bool} {n x : Str} (hn : plainAscii n = true) (h : Visible p x) :
    Visible p (debugTuple n [x]) :=
  visible_tuple hn fun y hy => by simp only [List.mem_singleton] at hy; rw [hy]; exact h

theorem visible_none {p : Char → Bool} {n : Str} (hn : plainAscii n = true) : Visible p (debugTuple n []) :=
  visible_tuple hn fun y hy => by simp at hy

theorem visible_two {p : Char → Bool} {n x y : Str} (hn : plainAscii n = true) (h : Visible p x) (h' : Visible p y) :
    Visible p (debugTuple n [x, y]) :=
  visible_tuple hn fun z hz => by
    simp only [List.mem_cons, List.not_mem_nil, or_false] at hz
    rcases hz with rfl | rfl
    · exact h
    · exact h'

theorem visible_token {t : DebugTexts} (ht : VisibleTexts t) (e : BoundTokenError) : Visible t.printable (e.debug t) := by
  cases e <;> first
    | exact visible_one (by decide) (ht.boundToken _)
    | exact visible_two (by decide) (visible_natDec _ _) (visible_str _ _)
    | exact visible_one (by decide) (visible_str _ _)

theorem visible_key {t : DebugTexts} (ht : VisibleTexts t) (e : KeyError) : Visible t.printable (e.debug t) := by
  cases e <;> first
    | exact visible_one (by decide) (ht.key _)
    | exact visible_one (by decide) (visible_token ht _)
    | exact visible_none (by decide)

theorem visible_scope {p : Char → Bool} (e : CredentialScopeError) : Visible p e.debug := by
  obtain ⟨s, r⟩ := e
  cases s <;> cases r <;> exact visible_plain (by decide +kernel)

/-- C107. The `Debug` text of an error of `build_signed_url` has no control characters, whatever the HTTP method and the
answers of servers are in it, unless the texts of other crates have some: it stays on one line of a log. -/
theorem C107_url_visible (t : DebugTexts) (ht : VisibleTexts t) (e : BuildUrlError) : Visible t.printable (e.debug t) := by
  refine visible_one (by decide) ?_
  cases e with
  | credentialScope c => exact visible_one (by decide) (visible_scope c)
  | expiration c => cases c; exact visible_one (by decide) (visible_one (by decide) (visible_intDec _ _))
  | httpMethod c => cases c; exact visible_one (by decide) (visible_one (by decide) (visible_str _ _))
  | signedUrl c =>
    refine visible_one (by decide) ?_
    cases c with
    | canonicalRequest c => cases c; exact visible_one (by decide) (visible_one (by decide) ht.toStr)
    | hostHeaderNotFound => exact visible_none (by decide)
    | signing k => exact visible_one (by decide) (visible_key ht k)
  | expirationOutOfRange => exact visible_none (by decide)
  | now => exact visible_none (by decide)
  | _ => exact visible_one (by decide) (ht.http _)

/-- C107 for the errors of forms. -/
theorem C107_form_error_visible (t : DebugTexts) (ht : VisibleTexts t) (e : FormError) : Visible t.printable (e.debug t) := by
  refine visible_one (by decide) ?_
  cases e with
  | boundTokenAuthorizer k => exact visible_one (by decide) (visible_key ht k)
  | signing k => exact visible_one (by decide) (visible_key ht k)
  | xGoogCredentialInvalid c => exact visible_one (by decide) (visible_scope c)
  | _ => exact visible_none (by decide)

/-- C107 for the errors of service account files. -/
theorem C107_key_visible (t : DebugTexts) (ht : VisibleTexts t) (e : SigningKeyError) : Visible t.printable (e.debug t) := by
  refine visible_one (by decide) ?_
  cases e <;> first
    | exact visible_one (by decide) (ht.file _)
    | exact visible_none (by decide)

/-- C107, contrast: the message of a failed call (`Display`) may have line breaks in it, here from the HTTP method; its
`Debug` text has none. -/
theorem C107_message_breaks_lines : ∃ o w' e, buildSignedUrl Conformance.env o Conformance.world = (.err e, w') ∧
    ∀ src, ¬ Visible (fun _ => true) (e.text src) := by
  refine ⟨{ Conformance.urlOptions with httpMethod := s% "GET\nall is well" }, _,
    .httpMethod (.invalidHttpVerb (s% "GET\nall is well")), Prod.ext (y := (_, _)) (by decide +kernel) rfl, ?_⟩
  · intro src h
    have := h '\n' (by simp only [BuildUrlError.text]; decide)
    exact absurd this (by decide)

end CSS
