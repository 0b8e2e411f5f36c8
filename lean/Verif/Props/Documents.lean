import Verif.Lemmas.StructText
/-
C55: which answers of the metadata server and of `signBlob` are accepted, and what is read from them.
-/
set_option linter.unusedSimpArgs false
namespace CSS
open Spec

theorem digits_iff {l : Str} (h : JNum l) : l.all isDigit = true ↔ Digits l := by
  constructor
  · intro ha
    refine ⟨?_, fun c hc => (isDigit_iff c).1 (List.all_eq_true.1 ha c hc)⟩
    rcases JNum_split h with ⟨ip, fr, ex, rfl, hi, _, _⟩ | ⟨ip, fr, ex, rfl, _, _, _⟩
    · obtain ⟨c, t, rfl, _⟩ := intPart_head hi; simp
    · simp
  · intro hd; exact List.all_eq_true.2 (digits_all hd)

theorem digits_iff' {l : Str} : Digits l ↔ l ≠ [] ∧ l.all isDigit = true := by
  constructor
  · intro h; exact ⟨h.1, List.all_eq_true.2 (digits_all h)⟩
  · intro h; exact ⟨h.1, fun c hc => (isDigit_iff c).1 (List.all_eq_true.1 h.2 c hc)⟩

mutual
/-- All numbers of a JSON text are number literals. -/
theorem JVal_nums (j : Json) (t : Str) (h : JVal j t) : AllNums JNum j := by
  match j, h with
  | .null, _ => simp [AllNums]
  | .bool true, _ => simp [AllNums]
  | .bool false, _ => simp [AllNums]
  | .str _, _ => simp [AllNums]
  | .num l, h => simp only [JVal] at h; simpa [AllNums] using h.2
  | .arr [], _ => simp [AllNums, AllNumsElems]
  | .arr (x :: xs), h =>
    simp only [JVal] at h
    obtain ⟨_, t, _, rs, _, hx, _, hxs, _⟩ := h
    simp only [AllNums, AllNumsElems]
    exact ⟨JVal_nums x t hx, JElems_nums xs rs hxs⟩
  | .obj [], _ => simp [AllNums, AllNumsMembers]
  | .obj ((k, x) :: ms), h =>
    simp only [JVal] at h
    obtain ⟨_, _, _, _, t, _, rs, _, _, _, _, hx, _, hms, _⟩ := h
    simp only [AllNums, AllNumsMembers]
    exact ⟨JVal_nums x t hx, JMembers_nums ms rs hms⟩
theorem JElems_nums (xs : List Json) (t : Str) (h : JElems xs t) : AllNumsElems JNum xs := by
  match xs, h with
  | [], _ => simp [AllNumsElems]
  | x :: xs, h =>
    simp only [JElems] at h
    obtain ⟨_, t, _, rs, _, hx, _, hxs, _⟩ := h
    simp only [AllNumsElems]
    exact ⟨JVal_nums x t hx, JElems_nums xs rs hxs⟩
theorem JMembers_nums (ms : List (Str × Json)) (t : Str) (h : JMembers ms t) : AllNumsMembers JNum ms := by
  match ms, h with
  | [], _ => simp [AllNumsMembers]
  | (k, x) :: ms, h =>
    simp only [JMembers] at h
    obtain ⟨_, _, _, _, t, _, rs, _, _, _, _, hx, _, hms, _⟩ := h
    simp only [AllNumsMembers]
    exact ⟨JVal_nums x t hx, JMembers_nums ms rs hms⟩
end

theorem allNums_mem {p : Str → Prop} {ms : List (Str × Json)} (h : AllNumsMembers p ms) {m : Str × Json} (hm : m ∈ ms) :
    AllNums p m.2 := by
  induction ms with
  | nil => simp at hm
  | cons a ms ih =>
    simp only [AllNumsMembers] at h
    rcases List.mem_cons.1 hm with rfl | hm
    · exact h.1
    · exact ih h.2 hm

theorem onlyMember_mem {ms : List (Str × Json)} {k : Str} {x : Json} (h : OnlyMember ms k x) : ∃ m ∈ ms, m.2 = x := by
  have : x ∈ (ms.filter fun m => m.1 = k).map (·.2) := by rw [h]; simp
  obtain ⟨m, hm, e⟩ := List.mem_map.1 this
  exact ⟨m, (List.mem_filter.1 hm).1, e⟩

/-- A JSON document is accepted as the answer of the token endpoint exactly if it is a token document, and
then the token, lifetime and type are those it gives. -/
theorem C55_token_document {j : Json} {s : Str} (h : JsonText j s) (token : Str) (life : Nat) (type : Str) :
    parseAccessToken s = some ⟨token, life, type⟩ ↔ TokenDoc j token life type := by
  have hnum : AllNums JNum j := by obtain ⟨_, t, _, _, hj, _⟩ := h; exact JVal_nums j t hj
  have hp : parseAccessToken s = some ⟨token, life, type⟩ ↔
      evalStruct tokenFields j = some [.s token, .n life, .s type] := by
    rw [← parseStruct_complete h tokenFields (by decide)]
    unfold parseAccessToken
    rw [← tokenFields]
    generalize parseStruct tokenFields s = o
    constructor
    · intro h
      split at h
      · cases h; rfl
      · cases h
    · rintro rfl; rfl
  rw [hp]
  cases j with
  | obj ms =>
    simp only [AllNums] at hnum
    let val : Str → FieldVal := fun k =>
      if k = s% "access_token" then .s token else if k = s% "expires_in" then .n life else .s type
    have hv1 : val (s% "access_token") = .s token := by simp [val]
    have hv2 : val (s% "expires_in") = .n life := by simp [val]
    have hv3 : val (s% "token_type") = .s type := by simp [val]
    have key := evalMembers_iff tokenFields val ms []
    simp only [tokenFields_lookup (fun k kind => _), hv1, hv2, hv3] at key
    have e : evalStruct tokenFields (.obj ms) = some [.s token, .n life, .s type] ↔
        ∃ acc', evalMembers tokenFields [] ms = some acc' ∧ acc'.lookup (s% "access_token") = some (.s token) ∧
          acc'.lookup (s% "expires_in") = some (.n life) ∧ acc'.lookup (s% "token_type") = some (.s type) := by
      simp only [evalStruct, Option.bind_eq_some_iff]
      constructor
      · rintro ⟨acc, h1, h2⟩; exact ⟨acc, h1, mapM_three.1 h2⟩
      · rintro ⟨acc, h1, h2⟩; exact ⟨acc, h1, mapM_three.2 h2⟩
    have key2 : (∃ acc', evalMembers tokenFields [] ms = some acc' ∧ acc'.lookup (s% "access_token") = some (.s token) ∧
          acc'.lookup (s% "expires_in") = some (.n life) ∧ acc'.lookup (s% "token_type") = some (.s type)) ↔
        (∃ x, OnlyMember ms (s% "access_token") x ∧ kindOf .string x = some (.s token)) ∧
        (∃ x, OnlyMember ms (s% "expires_in") x ∧ kindOf .u64 x = some (.n life)) ∧
        (∃ x, OnlyMember ms (s% "token_type") x ∧ kindOf .string x = some (.s type)) := by
      rw [key]
      simp
    rw [e, key2]
    simp only [kindOf_string, kindOf_u64]
    constructor
    · rintro ⟨⟨_, h1, _, rfl, e1⟩, ⟨_, h2, lit, rfl, hd, hle, e2⟩, ⟨_, h3, _, rfl, e3⟩⟩
      cases e1; cases e2; cases e3
      have hl : JNum lit := by
        obtain ⟨m, hm, e⟩ := onlyMember_mem h2
        have := allNums_mem hnum hm
        rw [e] at this; simpa [AllNums] using this
      exact ⟨lit, ⟨(digits_iff hl).1 hd, rfl, hle⟩, .inl ⟨ms, rfl, h1, h2, h3⟩⟩
    · rintro ⟨lit, ⟨hd, hv, hle⟩, ⟨ms', e, h1, h2, h3⟩ | e⟩
      · cases e
        subst hv
        exact ⟨⟨_, h1, _, rfl, rfl⟩, ⟨_, h2, lit, rfl, (digits_iff'.1 hd).2, hle, rfl⟩, ⟨_, h3, _, rfl, rfl⟩⟩
      · cases e
  | arr xs =>
    simp only [AllNums] at hnum
    simp only [evalStruct]
    constructor
    · intro h
      match xs, h, hnum with
      | [], h, _ => cases h
      | [x], h, _ =>
        simp only [tokenFields, evalSeq] at h
        cases hx : kindOf .string x <;> rw [hx] at h <;> cases h
      | [x, y], h, _ =>
        simp only [tokenFields, evalSeq] at h
        cases hx : kindOf .string x <;> rw [hx] at h
        · cases h
        · cases hy : kindOf .u64 y <;> rw [hy] at h <;> cases h
      | x :: y :: z :: u :: t, h, _ =>
        simp only [tokenFields, evalSeq] at h
        cases hx : kindOf .string x <;> rw [hx] at h
        · cases h
        · cases hy : kindOf .u64 y <;> rw [hy] at h
          · cases h
          · cases hz : kindOf .string z <;> rw [hz] at h <;> cases h
      | [x, y, z], h, hnum =>
        simp only [tokenFields, evalSeq] at h
        simp only [AllNumsElems] at hnum
        cases hx : kindOf .string x <;> rw [hx] at h
        · cases h
        · cases hy : kindOf .u64 y <;> rw [hy] at h
          · cases h
          · cases hz : kindOf .string z <;> rw [hz] at h
            · cases h
            · cases h
              obtain ⟨_, rfl, e1⟩ := kindOf_string.1 hx
              obtain ⟨lit, rfl, hd, hle, e2⟩ := kindOf_u64.1 hy
              obtain ⟨_, rfl, e3⟩ := kindOf_string.1 hz
              cases e1; cases e2; cases e3
              have hl : JNum lit := by simpa [AllNums] using hnum.2.1
              exact ⟨lit, ⟨(digits_iff hl).1 hd, rfl, hle⟩, .inr rfl⟩
    · rintro ⟨lit, ⟨hd, hv, hle⟩, ⟨ms', e, _⟩ | e⟩
      · cases e
      · cases e
        subst hv
        have : kindOf .u64 (.num lit) = some (.n (decVal lit)) := kindOf_u64.2 ⟨lit, rfl, (digits_iff'.1 hd).2, hle, rfl⟩
        simp [tokenFields, evalSeq, kindOf_string, kindOf, (digits_iff'.1 hd).2, hle]
  | _ =>
    simp only [evalStruct]
    constructor
    · intro h; cases h
    · rintro ⟨lit, _, ⟨ms', e, _⟩ | e⟩ <;> cases e

/-- A JSON document is accepted as the answer of `signBlob` exactly if it has the two string members, and
then the signature is taken from `signedBlob`. -/
theorem C55_blob_document {j : Json} {s : Str} (h : JsonText j s) (blob : Str) :
    parseSignBlobResponse s = some blob ↔ SignBlobDoc j blob := by
  have hp : parseSignBlobResponse s = some blob ↔
      ∃ keyId, evalStruct blobFields j = some [.s keyId, .s blob] := by
    rw [← parseStruct_complete h blobFields (by decide)]
    unfold parseSignBlobResponse
    rw [← blobFields]
    generalize parseStruct blobFields s = o
    constructor
    · intro h
      split at h
      · cases h; exact ⟨_, rfl⟩
      · cases h
    · rintro ⟨k, rfl⟩; rfl
  rw [hp]
  unfold SignBlobDoc
  refine exists_congr fun keyId => ?_
  cases j with
  | obj ms =>
    let val : Str → FieldVal := fun k => if k = s% "keyId" then .s keyId else .s blob
    have hv1 : val (s% "keyId") = .s keyId := by simp [val]
    have hv2 : val (s% "signedBlob") = .s blob := by simp [val]
    have key := evalMembers_iff blobFields val ms []
    simp only [blobFields_lookup (fun k kind => _), hv1, hv2] at key
    have e : evalStruct blobFields (.obj ms) = some [.s keyId, .s blob] ↔
        ∃ acc', evalMembers blobFields [] ms = some acc' ∧ acc'.lookup (s% "keyId") = some (.s keyId) ∧
          acc'.lookup (s% "signedBlob") = some (.s blob) := by
      simp only [evalStruct, Option.bind_eq_some_iff]
      constructor
      · rintro ⟨acc, h1, h2⟩; exact ⟨acc, h1, mapM_two.1 h2⟩
      · rintro ⟨acc, h1, h2⟩; exact ⟨acc, h1, mapM_two.2 h2⟩
    have key2 : (∃ acc', evalMembers blobFields [] ms = some acc' ∧ acc'.lookup (s% "keyId") = some (.s keyId) ∧
          acc'.lookup (s% "signedBlob") = some (.s blob)) ↔
        (∃ x, OnlyMember ms (s% "keyId") x ∧ kindOf .string x = some (.s keyId)) ∧
        (∃ x, OnlyMember ms (s% "signedBlob") x ∧ kindOf .string x = some (.s blob)) := by
      rw [key]
      simp
    rw [e, key2]
    simp only [kindOf_string]
    constructor
    · rintro ⟨⟨_, h1, _, rfl, e1⟩, ⟨_, h3, _, rfl, e3⟩⟩
      cases e1; cases e3
      exact .inl ⟨ms, rfl, h1, h3⟩
    · rintro (⟨ms', e, h1, h3⟩ | e)
      · cases e
        exact ⟨⟨_, h1, _, rfl, rfl⟩, ⟨_, h3, _, rfl, rfl⟩⟩
      · cases e
  | arr xs =>
    simp only [evalStruct]
    constructor
    · intro h
      match xs, h with
      | [], h => cases h
      | [x], h =>
        simp only [blobFields, evalSeq] at h
        cases hx : kindOf .string x <;> rw [hx] at h <;> cases h
      | x :: y :: z :: t, h =>
        simp only [blobFields, evalSeq] at h
        cases hx : kindOf .string x <;> rw [hx] at h
        · cases h
        · cases hy : kindOf .string y <;> rw [hy] at h <;> cases h
      | [x, y], h =>
        simp only [blobFields, evalSeq] at h
        cases hx : kindOf .string x <;> rw [hx] at h
        · cases h
        · cases hy : kindOf .string y <;> rw [hy] at h
          · cases h
          · cases h
            obtain ⟨_, rfl, e1⟩ := kindOf_string.1 hx
            obtain ⟨_, rfl, e2⟩ := kindOf_string.1 hy
            cases e1; cases e2
            exact .inr rfl
    · rintro (⟨ms', e, _⟩ | e)
      · cases e
      · cases e
        simp [blobFields, evalSeq, kindOf]
  | _ =>
    simp only [evalStruct]
    constructor
    · intro h; cases h
    · rintro (⟨ms', e, _⟩ | e) <;> cases e

/-- Of all texts, exactly the token texts are accepted as the answer of the token endpoint, and the token, lifetime and
type are those they give. -/
theorem C55_token_text (s token : Str) (life : Nat) (type : Str) :
    parseAccessToken s = some ⟨token, life, type⟩ ↔ TokenText s token life type := parseAccessToken_iff

/-- Of all texts, exactly the `signBlob` texts are accepted as its answer, and the signature is the one they give. -/
theorem C55_blob_text (s blob : Str) : parseSignBlobResponse s = some blob ↔ SignBlobText s blob :=
  parseSignBlobResponse_iff

/-- Nothing else can be read from the same text. -/
theorem C55_token_unique {s token token' type type' : Str} {life life' : Nat} (h : TokenText s token life type)
    (h' : TokenText s token' life' type') : token = token' ∧ life = life' ∧ type = type' := by
  rw [← C55_token_text] at h h'
  rw [h] at h'
  cases h'
  exact ⟨rfl, rfl, rfl⟩

theorem C55_blob_unique {s blob blob' : Str} (h : SignBlobText s blob) (h' : SignBlobText s blob') : blob = blob' := by
  rw [← C55_blob_text] at h h'
  rw [h] at h'
  cases h'
  rfl

/-- A usual token document is accepted. -/
example : TokenText (s% "{\"access_token\":\"ya29.x\", \"expires_in\":3599,\"token_type\":\"Bearer\",\"scope\":[1,{}]}")
    (s% "ya29.x") 3599 (s% "Bearer") := (C55_token_text _ _ _ _).1 (by decide +kernel)

example : SignBlobText (s% " {\"keyId\":\"k\", \"signedBlob\":\"AA==\"}\n") (s% "AA==") :=
  (C55_blob_text _ _).1 (by decide +kernel)

/-- An answer without `signedBlob`, and an answer with something after the object, are no `signBlob` texts. -/
example (blob : Str) : ¬ SignBlobText (s% "{\"keyId\":\"k\"}") blob := by
  rw [← C55_blob_text, show parseSignBlobResponse (s% "{\"keyId\":\"k\"}") = none by decide +kernel]
  exact fun h => nomatch h
example (blob : Str) : ¬ SignBlobText (s% "{\"keyId\":\"k\",\"signedBlob\":\"AA==\"} x") blob := by
  rw [← C55_blob_text, show parseSignBlobResponse (s% "{\"keyId\":\"k\",\"signedBlob\":\"AA==\"} x") = none by decide +kernel]
  exact fun h => nomatch h

/-- A repeated member is rejected. -/
example : parseAccessToken (s% "{\"access_token\":\"a\",\"access_token\":\"b\",\"expires_in\":1,\"token_type\":\"Bearer\"}") = none := by
  decide +kernel

/-- A lone surrogate escape stands for no string … -/
theorem lone_surrogate_no_string (v : Str) : ¬ JStr (s% "\\ud800") v := by
  intro h
  cases h with
  | char _ h _ _ => exact absurd rfl h
  | esc he _ => revert he; simp [escapes]
  | unicode hq hs _ =>
    have : hexQuad 'd' '8' '0' '0' = some 0xD800 := by decide
    rw [this] at hq
    cases hq
    exact hs ⟨by decide, by decide⟩

/-- … but it is accepted inside an ignored member, so the text is a token text and no JSON. -/
theorem C55_ignored_surrogate :
    parseAccessToken (s% "{\"access_token\":\"a\",\"expires_in\":1,\"token_type\":\"Bearer\",\"x\":\"\\ud800\"}") =
      some ⟨s% "a", 1, s% "Bearer"⟩ := by decide +kernel

end CSS
