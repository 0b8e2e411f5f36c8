import Verif.Lemmas.PolicyText
import Verif.Props.Time
import Verif.Props.FormPolicy
import Verif.Conformance
/-
C50: reading policy documents back.
-/
set_option linter.unusedSimpArgs false
namespace CSS
open Spec

theorem toStr_contentLength {f : Field} (h : f.toStr = s% "Content-Length") : f = .contentLength := by
  cases f with
  | xGoogMeta m => exact absurd h (by unfold Field.toStr; simp)
  | contentLength => rfl
  | _ => exact absurd h (by decide)

theorem toStr_metaEmpty {f : Field} (h : f.toStr = s% "x-goog-meta-") : f = .xGoogMeta [] := by
  cases f with
  | xGoogMeta m =>
    unfold Field.toStr at h
    have : m = [] := List.append_cancel_left (as := s% "x-goog-meta-") (by simpa using h)
    rw [this]
  | _ => exact absurd h (by decide)

theorem names_toStr {f : Field} (h1 : f ≠ .contentLength) (h2 : f ≠ .xGoogMeta []) : Names f.toStr f :=
  ⟨rfl, fun e => h2 (toStr_metaEmpty e), fun e => h1 (toStr_contentLength e)⟩

theorem condOf_toJson {d : PolicyDocument} (hd : WellFormed d) {c : Condition} (hc : c ∈ d.conditions) :
    CondOf c.toJson c ↔ ¬ NamesLength c := by
  cases c with
  | exactMatching f v =>
    constructor
    · rintro ⟨name, hn, h | h⟩ e
      · simp only [Condition.toJson, Json.arr.injEq, List.cons.injEq, Json.str.injEq] at h
        obtain ⟨_, h, _⟩ := h
        have hf : f.toStr = name := List.tail_eq_of_cons_eq h
        have e : f = .contentLength := e
        subst e
        exact hn.2.2 hf.symm
      · cases h
    · intro h
      exact ⟨f.toStr, names_toStr h (hd.exact f v hc), .inl rfl⟩
  | startsWith f v =>
    constructor
    · rintro ⟨name, hn, h⟩ e
      simp only [Condition.toJson, Json.arr.injEq, List.cons.injEq, Json.str.injEq] at h
      obtain ⟨_, h, _⟩ := h
      have hf : f.toStr = name := List.tail_eq_of_cons_eq h
      have e : f = .contentLength := e
      subst e
      exact hn.2.2 hf.symm
    · intro h
      exact ⟨f.toStr, names_toStr h (hd.starts f v hc), rfl⟩
  | contentLengthRange a b =>
    constructor
    · intro _ h; exact h
    · intro _
      obtain ⟨h1, h2⟩ := hd.length a b hc
      exact ⟨_, _, ⟨natDec_Digits a, decVal_natDec a, h1⟩, ⟨natDec_Digits b, decVal_natDec b, h2⟩, rfl⟩

theorem zip_map_self {α β : Type} (f : α → β) (l : List α) : ∀ p ∈ (l.map f).zip l, p.1 = f p.2 ∧ p.2 ∈ l := by
  induction l with
  | nil => intro p hp; simp at hp
  | cons a l ih =>
    intro p hp
    simp only [List.map_cons, List.zip_cons_cons, List.mem_cons] at hp
    rcases hp with rfl | hp
    · exact ⟨rfl, by simp⟩
    · exact ⟨(ih p hp).1, by simp [(ih p hp).2]⟩

theorem mem_zip_map {α β : Type} (f : α → β) (l : List α) : ∀ a ∈ l, (f a, a) ∈ (l.map f).zip l := by
  induction l with
  | nil => intro a ha; simp at ha
  | cons b l ih =>
    intro a ha
    simp only [List.map_cons, List.zip_cons_cons, List.mem_cons] at ha ⊢
    rcases ha with rfl | ha
    · exact .inl rfl
    · exact .inr (ih a ha)

theorem policyOf_toJson {d : PolicyDocument} (hd : WellFormed d) :
    PolicyOf d.toJson d ↔ ∀ c ∈ d.conditions, ¬ NamesLength c := by
  constructor
  · rintro ⟨jc, je, ⟨xs, rfl, _, hc⟩, he, h⟩ c hm
    rcases h with ⟨ms, e, h1, h2⟩ | e
    · unfold PolicyDocument.toJson at e
      simp only [Json.obj.injEq] at e
      subst e
      simp only [OnlyMember, List.filter_cons, decide_true, if_true] at h1
      rw [if_neg (by simp)] at h1
      simp only [List.filter_nil, List.map_cons, List.map_nil, List.cons.injEq, Json.arr.injEq, and_true] at h1
      subst h1
      exact (condOf_toJson hd hm).1 (hc _ (mem_zip_map Condition.toJson d.conditions c hm))
    · cases e
  · intro h
    refine ⟨.arr (d.conditions.map Condition.toJson), .str d.expiration.toStr, ⟨_, rfl, by simp, ?_⟩, ?_,
      .inl ⟨_, rfl, rfl, rfl⟩⟩
    · intro p hp
      obtain ⟨h1, h2⟩ := zip_map_self Condition.toJson d.conditions p hp
      rw [h1]
      exact (condOf_toJson hd h2).2 (h _ h2)
    · have hr : UnixTimestamp.tryFrom d.expiration.ts.val = .ok d.expiration.ts := by
        unfold UnixTimestamp.tryFrom; rw [if_pos hd.expiration]
      exact ⟨_, rfl, rfc3339_readsAs (C47_rendering_denotes _ _ hr).2.1, hd.expiration⟩

/-- C50. A policy document survives being written and read back if and only if no condition names
`Content-Length` (such a condition is written but refused by the reader). -/
theorem C50_round_trip (d : PolicyDocument) (hd : WellFormed d) :
    readPolicy d.toJson.render = some d ↔ ∀ c ∈ d.conditions, ¬ NamesLength c := by
  constructor
  · intro h
    exact (policyOf_toJson hd).1 (readPolicy_of_json (document_text d) h)
  · intro h
    exact readPolicy_complete (plainDoc_render d) ((policyOf_toJson hd).2 h)

/-- C50. Whatever is read from a JSON text is the document that text denotes: each condition is one of
the three forms, with a known field name, in the order written; the expiration is the instant written. -/
theorem C50_reading_sound (s : Str) (j : Json) (d : PolicyDocument) (hj : JsonText j s) (h : readPolicy s = some d) :
    PolicyOf j d := readPolicy_of_json hj h

/-- C50. Among texts without `\u` escapes, the ones accepted are exactly the JSON texts that denote a
policy document, and the document is the one denoted. -/
theorem C50_accepted (s : Str) (hs : NoUnicodeEscape s) (d : PolicyDocument) :
    readPolicy s = some d ↔ ∃ j, JsonText j s ∧ PolicyOf j d :=
  ⟨readPolicy_sound hs, fun ⟨_, hj, hd⟩ => readPolicy_complete (plainDoc_noU hj hs hd) hd⟩

/-- C50. Field names print and parse as inverse functions; the only field whose name is not read back is
the metadata field with an empty name, which parsing never produces. -/
theorem C50_field_names (s : Str) (f : Field) :
    (Field.new s = some f → f.toStr = s) ∧ (f ≠ .xGoogMeta [] → Field.new f.toStr = some f) ∧
    Field.new s ≠ some (.xGoogMeta []) := by
  refine ⟨fun h => (fieldNew_sound h).1, fun h => fieldNew_complete fun e => h (toStr_metaEmpty e), ?_⟩
  intro h
  obtain ⟨h1, h2⟩ := fieldNew_sound h
  exact h2 h1.symm

/-- C50. An expiration text is accepted if and only if it is a timestamp in the years 0000 to 9999, and
then read as the instant it denotes. The text the crate writes for an instant is read back as it. -/
theorem C50_expiration (v : Str) (e : PolicyExpiration) :
    (PolicyExpiration.fromStr v = .ok e ↔
      ReadsAs v e.ts.val ∧ -62167219200 ≤ e.ts.val ∧ e.ts.val ≤ 253402300799) ∧
    (-62167219200 ≤ e.ts.val ∧ e.ts.val ≤ 253402300799 → PolicyExpiration.fromStr e.toStr = .ok e) := by
  have h1 : ∀ v, PolicyExpiration.fromStr v = .ok e ↔
      ReadsAs v e.ts.val ∧ -62167219200 ≤ e.ts.val ∧ e.ts.val ≤ 253402300799 := by
    intro v
    rw [fromStr_ok]
    constructor
    · rintro ⟨v', h, h2⟩; cases h; exact h2
    · intro h; exact ⟨v, rfl, h⟩
  refine ⟨h1 v, fun hr => (h1 _).2 ⟨?_, hr⟩⟩
  have hr' : UnixTimestamp.tryFrom e.ts.val = .ok e.ts := by
    unfold UnixTimestamp.tryFrom; rw [if_pos hr]
  exact rfc3339_readsAs (C47_rendering_denotes _ _ hr').2.1

/-- C50. Documents that are written alike are alike. -/
theorem C50_writing_injective (d e : PolicyDocument) (hd : WellFormed d) (he : WellFormed e)
    (hd' : ∀ c ∈ d.conditions, ¬ NamesLength c) (he' : ∀ c ∈ e.conditions, ¬ NamesLength c)
    (h : d.toJson.render = e.toJson.render) : d = e := by
  have h1 := (C50_round_trip d hd).2 hd'
  rw [h, (C50_round_trip e he).2 he'] at h1
  exact (Option.some.inj h1).symm

theorem mem_optCond {c : Condition} {f : Field} {v : Option Str} (h : c ∈ optCond f v) : ∃ x, c = .exactMatching f x := by
  cases v with
  | none => simp [optCond] at h
  | some x => simp [optCond] at h; exact ⟨x, h⟩

/-- The conditions of a form: exact matches on fields other than `Content-Length`, and length ranges. -/
theorem mem_conditionList {b : Builder} {bucket key : Str} {alg : SigningAlgorithm} {cred date : Str} {c : Condition}
    (h : c ∈ conditionList b bucket key alg cred date) :
    (∃ f v, c = .exactMatching f v ∧ f ≠ .contentLength ∧ ∀ m, f = .xGoogMeta m → ∃ v, (m, v) ∈ b.xGoogMeta) ∨
    ∃ n, b.contentLength = some n ∧ c = .contentLengthRange n n := by
  have opt : ∀ {f : Field} {v : Option Str}, c ∈ optCond f v → f ≠ .contentLength → (∀ m, f ≠ .xGoogMeta m) →
      ∃ f v, c = .exactMatching f v ∧ f ≠ .contentLength ∧ ∀ m, f = .xGoogMeta m → ∃ v, (m, v) ∈ b.xGoogMeta := by
    intro f v h h1 h2
    obtain ⟨x, rfl⟩ := mem_optCond h
    exact ⟨f, x, rfl, h1, fun m e => absurd e (h2 m)⟩
  unfold conditionList at h
  simp only [List.mem_append, List.mem_cons, List.not_mem_nil, or_false, List.mem_map] at h
  rcases h with ((((((((((((((h | h) | h) | h) | h) | h) | h) | h) | h) | h) | h) | h) | h) | h) | h)
  case inl.inl.inl.inl.inl.inl.inl.inl.inl.inr =>
    right
    unfold lengthConds at h
    cases hb : b.contentLength with
    | none => rw [hb] at h; simp at h
    | some n => rw [hb] at h; simp at h; exact ⟨n, rfl, h⟩
  case inr =>
    obtain ⟨m, hm, rfl⟩ := h
    left
    refine ⟨_, _, rfl, by simp, ?_⟩
    rintro m' e
    simp only [Field.xGoogMeta.injEq] at e
    exact ⟨m.2, by rw [← e]; exact hm⟩
  all_goals left
  all_goals first
    | exact opt h (by decide) (by intro m e; cases e)
    | (rcases h with rfl | rfl <;> exact ⟨_, _, rfl, by decide, by intro m e; cases e⟩)
    | (subst h; exact ⟨_, _, rfl, by decide, by intro m e; cases e⟩)

theorem contentLength_called (cs : List Call) {n : Nat} (h : (Builder.ofCalls cs).contentLength = some n) :
    Call.contentLength n ∈ cs := by
  induction cs using list_snoc_induction with
  | nil => cases h
  | snoc cs c ih =>
    rw [ofCalls_snoc] at h
    by_cases hc : c = .contentLength n
    · simp [hc]
    · rw [List.mem_append]
      left
      refine ih ?_
      cases c with
      | contentLength m =>
        simp only [Builder.apply, Option.some.injEq] at h
        exact absurd (by rw [h]) hc
      | _ => exact h

/-- C50. The policy of every signed form is readable: the `policy` field decodes to a text that the
crate's own reader accepts. What it returns has one condition per field of the form, in form order, and
the requested expiration, in whole seconds. -/
theorem C50_built_policy_readable (env : Env) (cs : List Call) (o : SigningOptions) (w w' : World)
    (fs : List (Str × Str)) (ho : (cs.filterMap callOptions).getLast? = some o)
    (hlen : ∀ n, Call.contentLength n ∈ cs → n ≤ 18446744073709551615)
    (h : (Builder.ofCalls cs).build env w = (.ok fs, w')) :
    ∃ p text d, fieldValues fs (s% "policy") = [p] ∧ base64Decode p = some (utf8 text) ∧ readPolicy text = some d ∧
      d.conditions.map Condition.toJson = (fs.filter fun f => ¬ exempt f.1).map pinning ∧
      d.expiration.ts.val = o.expiration / 1000000000 := by
  obtain ⟨p, key, ⟨hp⟩, hk, rfl⟩ := build_ok_signed ((ofCalls_spec cs).options.trans ho) h
  have hkey : hp.key = key := by have := hp.hkey; rw [hk] at this; exact (Option.some.inj this).symm
  obtain ⟨d, hd⟩ : ∃ d, d = PolicyDocument.mk
    (conditionList (Builder.ofCalls cs) hp.bucket key .goog4RsaSha256 p.credential p.date) ⟨hp.ex⟩ := ⟨_, rfl⟩
  have hpol := hp.hpolicy
  rw [hkey, ← hd] at hpol
  have hmem : ∀ c ∈ d.conditions, (∃ f v, c = .exactMatching f v ∧ f ≠ .contentLength ∧ f ≠ .xGoogMeta []) ∨
      ∃ n, n ≤ 18446744073709551615 ∧ c = .contentLengthRange n n := by
    intro c hc
    rw [hd] at hc
    rcases mem_conditionList hc with ⟨f, v, rfl, h1, h2⟩ | ⟨n, h1, rfl⟩
    · refine .inl ⟨f, v, rfl, h1, ?_⟩
      rintro rfl
      obtain ⟨v', hv⟩ := h2 [] rfl
      exact hp.metas ⟨([], v'), hv, rfl⟩
    · refine .inr ⟨n, hlen n ?_, rfl⟩
      exact contentLength_called cs h1
  have hwf : WellFormed d := by
    refine ⟨?_, ?_, ?_, ?_⟩
    · intro f v hc
      rcases hmem _ hc with ⟨f', v', e, h1, h2⟩ | ⟨n, _, e⟩
      · cases e; exact h2
      · cases e
    · intro f v hc
      rcases hmem _ hc with ⟨f', v', e, h1, h2⟩ | ⟨n, _, e⟩ <;> cases e
    · intro a b hc
      rcases hmem _ hc with ⟨f', v', e, h1, h2⟩ | ⟨n, hn, e⟩
      · cases e
      · cases e; exact ⟨hn, hn⟩
    · rw [hd]; exact fromSystemTime_inRange hp.hex
  have hnl : ∀ c ∈ d.conditions, ¬ NamesLength c := by
    intro c hc
    rcases hmem _ hc with ⟨f', v', rfl, h1, h2⟩ | ⟨n, hn, rfl⟩
    · exact h1
    · intro h; exact h
  refine ⟨p.policy, d.toJson.render, d, values_policy _ _ _, ?_, (C50_round_trip d hwf).2 hnl, ?_, ?_⟩
  · rw [hpol]; exact base64Decode_b64Encode _
  · rw [hd]; exact (pins_fieldList (Builder.ofCalls cs) hp.bucket key p hp.hbucket hp.halg).symm
  · rw [hd]; exact (fromSystemTime_ok.1 hp.hex).2.2

theorem parseU32_digits {s : Str} (hne : s ≠ []) (hd : s.all isDigit = true) :
    parseU32 s = if decVal s ≤ 4294967295 then some (decVal s) else none := by
  cases s with
  | nil => exact absurd rfl hne
  | cons c r =>
    have hc : c ≠ '+' := by
      rintro rfl
      rw [List.all_cons, Bool.and_eq_true] at hd
      exact absurd hd.1 (by decide)
    unfold parseU32
    split
    · rename_i ds e
      simp only [List.cons.injEq] at e
      exact absurd e.1 hc
    · simp only
      rw [if_neg (by rw [hd]; simp)]

theorem utf8Char_digit {n : Nat} (hn : n < 10) : utf8Char (digit n) = [UInt8.ofNat (48 + n)] := by
  unfold utf8Char
  rw [digit_toNat hn, if_pos (by omega)]

theorem tryFrom_ymd {y m d : Nat} (hy : y ≤ 9999) (hm : 1 ≤ m ∧ m ≤ 12) (hd : 1 ≤ d ∧ d ≤ 31) :
    Date.tryFrom (d4 y ++ d2 m ++ d2 d) = some ⟨y * 10000 + m * 100 + d⟩ := by
  have hlen : (utf8 (d4 y ++ d2 m ++ d2 d)).length = 8 := by
    simp only [d4, d2, List.cons_append, List.nil_append, utf8_cons, utf8_nil]
    rw [utf8Char_digit (by omega), utf8Char_digit (by omega), utf8Char_digit (by omega), utf8Char_digit (by omega),
      utf8Char_digit (by omega), utf8Char_digit (by omega), utf8Char_digit (by omega), utf8Char_digit (by omega)]
    rfl
  have hdec : decVal (d4 y ++ d2 m ++ d2 d) = y * 10000 + m * 100 + d := by
    simp only [d4, d2, List.cons_append, List.nil_append, decVal, List.foldl_cons, List.foldl_nil]
    rw [digit_toNat (by omega), digit_toNat (by omega), digit_toNat (by omega), digit_toNat (by omega),
      digit_toNat (by omega), digit_toNat (by omega), digit_toNat (by omega), digit_toNat (by omega)]
    omega
  have hdig : (d4 y ++ d2 m ++ d2 d).all isDigit = true := by
    simp only [d4, d2, List.cons_append, List.nil_append, List.all_cons, List.all_nil, Bool.and_true, Bool.and_eq_true]
    refine ⟨?_, ?_, ?_, ?_, ?_, ?_, ?_, ?_⟩ <;> exact digit_isDigit (by omega)
  have hb : y * 10000 + m * 100 + d ≤ 4294967295 := by omega
  have h1 : (y * 10000 + m * 100 + d) / 10000 = y := by omega
  have h2 : (y * 10000 + m * 100 + d) % 10000 / 100 = m := by omega
  have h3 : (y * 10000 + m * 100 + d) % 100 = d := by omega
  have hp : parseU32 (d4 y ++ d2 m ++ d2 d) = some (y * 10000 + m * 100 + d) := by
    rw [parseU32_digits (by simp [d4]) hdig, hdec, if_pos hb]
  unfold Date.tryFrom
  rw [if_neg (fun h => h hlen), hp]
  simp only [h1, h2, h3]
  rw [if_neg (by omega), if_neg (fun h => h hm), if_neg (fun h => h hd)]

/-- C50. A date printed in a credential scope is read back as the same date. -/
theorem C50_date_round_trip (t : UnixTimestamp) (h : -62167219200 ≤ t.val ∧ t.val ≤ 253402300799) :
    Date.tryFrom (Date.fromUnixTimestamp t).toStr = some (Date.fromUnixTimestamp t) := by
  obtain ⟨hv, _⟩ := civil_spec t h
  have hy : t.civil.year ≤ 9999 := hv.year
  have hm : 1 ≤ t.civil.month ∧ t.civil.month ≤ 12 := hv.month
  have hd : 1 ≤ t.civil.day ∧ t.civil.day ≤ 31 := by
    have := hv.day.2
    have h31 : daysInMonth t.civil.toSpec.year t.civil.toSpec.month ≤ 31 := by
      unfold daysInMonth; split <;> (try split) <;> omega
    exact ⟨hv.day.1, Nat.le_trans this h31⟩
  rw [date_eq t h]
  exact tryFrom_ymd hy hm hd

/-! ### concrete cases -/

/-- The document of the crate's own test (src/private/policy_document.rs:37-62). -/
example : readPolicy (s% "{\n  \"conditions\": [\n    {\"bucket\": \"travel-maps\"},\n    [\"eq\", \"$Content-Type\", \"image/jpeg\"],\n    [\"starts-with\", \"$key\", \"\"],\n    [\"content-length-range\", 0, 1000000]\n  ],\n  \"expiration\": \"2020-06-16T11:11:11Z\"\n}") =
    some ⟨[.exactMatching .bucket (s% "travel-maps"), .exactMatching .contentType (s% "image/jpeg"),
      .startsWith .key [], .contentLengthRange 0 1000000], ⟨⟨1592305871⟩⟩⟩ := by decide +kernel
/-- Its conditions name no `Content-Length`, and it is well formed. -/
example : WellFormed ⟨[.exactMatching .bucket (s% "travel-maps"), .exactMatching (.xGoogMeta (s% "reviewer")) (s% "\u0001\"jane"),
      .startsWith .key [], .contentLengthRange 0 1000000], ⟨⟨1592305871⟩⟩⟩ := by
  refine ⟨?_, ?_, ?_, by decide⟩
  · intro f v h
    simp only [List.mem_cons, Condition.exactMatching.injEq, reduceCtorEq, List.not_mem_nil, or_false] at h
    rcases h with ⟨rfl, _⟩ | ⟨rfl, _⟩ <;> decide
  · intro f v h
    simp only [List.mem_cons, Condition.startsWith.injEq, reduceCtorEq, List.not_mem_nil, or_false, false_or] at h
    obtain ⟨rfl, _⟩ := h; decide
  · intro a b h
    simp only [List.mem_cons, Condition.contentLengthRange.injEq, reduceCtorEq, List.not_mem_nil, or_false, false_or] at h
    obtain ⟨rfl, rfl⟩ := h; decide
/-- Unknown members are skipped, repeated ones refused; an array of the two values will do. -/
example : readPolicy (s% "{\"x\":[1,{}],\"expiration\":\"2020-06-16T11:11:11Z\",\"conditions\":[]}") = some ⟨[], ⟨⟨1592305871⟩⟩⟩ ∧
    readPolicy (s% "{\"conditions\":[],\"conditions\":[],\"expiration\":\"2020-06-16T11:11:11Z\"}") = none ∧
    readPolicy (s% "[[],\"2020-06-16t11:11:11.5+00:00\"]") = some ⟨[], ⟨⟨1592305871⟩⟩⟩ := by decide +kernel
/-- `NoUnicodeEscape` in `C50_accepted` is needed: a tag spelt with an escape is refused, although the
JSON value is the same. -/
example : readPolicy (s% "{\"conditions\":[[\"\\u0065q\",\"$key\",\"x\"]],\"expiration\":\"2020-06-16T11:11:11Z\"}") = none ∧
    (readPolicy (s% "{\"conditions\":[[\"eq\",\"$key\",\"x\"]],\"expiration\":\"2020-06-16T11:11:11Z\"}")).isSome = true := by
  decide +kernel
/-- A condition on `Content-Length` is written but not read. -/
example : readPolicy (PolicyDocument.mk [.exactMatching .contentLength (s% "1")] ⟨⟨0⟩⟩).toJson.render = none := by decide +kernel
/-- Date texts: an explicit plus sign is accepted, so printing does not undo reading. -/
example : Date.tryFrom (s% "20200102") = some ⟨20200102⟩ ∧ Date.tryFrom (s% "+2020102") = some ⟨2020102⟩ ∧
    Date.tryFrom (s% "20201301") = none := by decide +kernel
/-- The hypotheses of `C50_built_policy_readable` are met. -/
example : (∃ fs w', (Builder.ofCalls Conformance.testCalls).build Conformance.env Conformance.world = (.ok fs, w')) ∧
    (Conformance.testCalls.filterMap callOptions).getLast?.isSome = true := by
  constructor
  · have : ∃ fs, ((Builder.ofCalls Conformance.testCalls).build Conformance.env Conformance.world).1 = .ok fs := ⟨_, rfl⟩
    obtain ⟨fs, h⟩ := this
    exact ⟨fs, _, Prod.ext h rfl⟩
  · rfl

end CSS
