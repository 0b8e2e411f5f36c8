import Verif.Lemmas.Codec
/- percent_encode, percent-decoding, form-urlencoding. -/
set_option linter.unusedSimpArgs false
namespace CSS
open Spec

/-- The characters `percent_encode` replaces. -/
def reserved : Str := s% "!\"#$&'()*+,:;=?@[]"

theorem percentEncodeChar_not {c : Char} (h : c ∉ reserved) : percentEncodeChar c = [c] := by
  unfold percentEncodeChar
  split <;> first | rfl | (exfalso; apply h; decide)

theorem percentEncodeChar_mem {c : Char} (h : c ∈ reserved) :
    c.toNat < 128 ∧ c ≠ '%' ∧ ∃ a b x y, percentEncodeChar c = ['%', a, b] ∧ a ∉ reserved ∧ b ∉ reserved ∧
      hexVal? a = some x ∧ hexVal? b = some y ∧ x * 16 + y = c.toNat := by
  have key : ∀ c ∈ reserved, c.toNat < 128 ∧ c ≠ '%' ∧
      ∃ a ∈ s% "0123456789ABCDEF", ∃ b ∈ s% "0123456789ABCDEF", percentEncodeChar c = ['%', a, b] ∧
        a ∉ reserved ∧ b ∉ reserved ∧ (hexVal? a).isSome ∧ (hexVal? b).isSome ∧
        (hexVal? a).getD 0 * 16 + (hexVal? b).getD 0 = c.toNat := by decide +kernel
  obtain ⟨h1, h2, a, _, b, _, e, ha, hb, hx, hy, hv⟩ := key c h
  refine ⟨h1, h2, a, b, (hexVal? a).getD 0, (hexVal? b).getD 0, e, ha, hb, ?_, ?_, hv⟩
  · cases hh : hexVal? a <;> simp_all
  · cases hh : hexVal? b <;> simp_all

theorem hexVal?_not_reserved {c : Char} {x : Nat} (h : hexVal? c = some x) : c ∉ reserved ∧ c ≠ '%' := by
  constructor
  · intro hm
    have : ∀ c ∈ reserved, hexVal? c = none := by decide +kernel
    rw [this c hm] at h; cases h
  · rintro rfl
    have : hexVal? '%' = none := by decide +kernel
    rw [this] at h; cases h

theorem hexVal?_percent : hexVal? '%' = none := by decide +kernel

theorem percentEncode_nil : percentEncode [] = [] := rfl
theorem percentEncode_cons (c : Char) (r : Str) :
    percentEncode (c :: r) = percentEncodeChar c ++ percentEncode r := rfl
theorem percentEncode_append (a b : Str) : percentEncode (a ++ b) = percentEncode a ++ percentEncode b := by
  simp [percentEncode]

theorem pd_plain {c : Char} (h : c ≠ '%') (r : Str) : percentDecode (c :: r) = utf8Char c ++ percentDecode r := by
  conv => lhs; unfold percentDecode
  simp [h]

theorem pd_hex {a b : Char} {x y : Nat} (ha : hexVal? a = some x) (hb : hexVal? b = some y) (r : Str) :
    percentDecode ('%' :: a :: b :: r) = UInt8.ofNat (x * 16 + y) :: percentDecode r := by
  conv => lhs; unfold percentDecode
  simp [ha, hb]

theorem pd_raw {r : Str} (h : ∀ a b r', r = a :: b :: r' → hexVal? a = none ∨ hexVal? b = none) :
    percentDecode ('%' :: r) = 37 :: percentDecode r := by
  have e : utf8Char '%' = [37] := by decide
  conv => lhs; unfold percentDecode
  rw [if_pos rfl]
  match r with
  | [] => simp [e, percentDecode]
  | [a] => simp [e]
  | a :: b :: r' =>
    simp only
    rcases h a b r' rfl with h | h
    · simp [h, e]
    · cases hexVal? a <;> simp [h, e]

/-- The first character of an encoding is a hex digit iff the first character of the source is. -/
theorem percentEncode_head (c : Char) (r : Str) :
    (c ∉ reserved ∧ percentEncode (c :: r) = c :: percentEncode r) ∨
    (c ∈ reserved ∧ ∃ t, percentEncode (c :: r) = '%' :: t) := by
  by_cases h : c ∈ reserved
  · obtain ⟨_, _, a, b, _, _, e, _⟩ := percentEncodeChar_mem h
    exact .inr ⟨h, a :: b :: percentEncode r, by rw [percentEncode_cons, e]; rfl⟩
  · exact .inl ⟨h, by rw [percentEncode_cons, percentEncodeChar_not h]; rfl⟩

theorem percentDecode_encode (s : Str) : percentDecode (percentEncode s) = percentDecode s := by
  match s with
  | [] => rfl
  | c :: r =>
    by_cases hm : c ∈ reserved
    · obtain ⟨hlt, hne, a, b, x, y, e, _, _, hx, hy, hv⟩ := percentEncodeChar_mem hm
      rw [percentEncode_cons, e, pd_plain hne, utf8Char_ascii hlt]
      show percentDecode ('%' :: a :: b :: percentEncode r) = _
      rw [pd_hex hx hy, percentDecode_encode r, hv]; rfl
    · rw [percentEncode_cons, percentEncodeChar_not hm]
      by_cases hp : c = '%'
      · subst hp
        match hr : r with
        | [] => rfl
        | [a] =>
          have ih := percentDecode_encode [a]
          show percentDecode ('%' :: percentEncode [a]) = _
          rw [pd_raw, pd_raw, ih]
          · intro a' b' r' h; simp at h
          · intro a' b' r' h
            rcases percentEncode_head a [] with ⟨_, e⟩ | ⟨_, t, e⟩
            · rw [e, percentEncode_nil] at h; simp at h
            · rw [e] at h; cases h; exact .inl hexVal?_percent
        | a :: b :: r' =>
          cases ha : hexVal? a with
          | none =>
            have ih := percentDecode_encode (a :: b :: r')
            show percentDecode ('%' :: percentEncode (a :: b :: r')) = _
            rw [pd_raw, pd_raw, ih]
            · intro a' b' r'' h; cases h; exact .inl ha
            · intro a' b' r'' h
              rcases percentEncode_head a (b :: r') with ⟨_, e⟩ | ⟨_, t, e⟩
              · rw [e] at h; rw [← (List.cons.inj h).1]; exact .inl ha
              · rw [e] at h; cases h; exact .inl hexVal?_percent
          | some x =>
            have hna := (hexVal?_not_reserved ha).1
            cases hb : hexVal? b with
            | none =>
              have ih := percentDecode_encode (a :: b :: r')
              show percentDecode ('%' :: percentEncode (a :: b :: r')) = _
              rw [pd_raw, pd_raw, ih]
              · intro a' b' r'' h; cases h; exact .inr hb
              · intro a' b' r'' h
                rw [percentEncode_cons, percentEncodeChar_not hna] at h
                rcases percentEncode_head b r' with ⟨_, e⟩ | ⟨_, t, e⟩
                · rw [e] at h; cases h; exact .inr hb
                · rw [e] at h; cases h; exact .inr hexVal?_percent
            | some y =>
              have hnb := (hexVal?_not_reserved hb).1
              rw [percentEncode_cons, percentEncodeChar_not hna, percentEncode_cons, percentEncodeChar_not hnb]
              show percentDecode ('%' :: a :: b :: percentEncode r') = _
              rw [pd_hex ha hb, pd_hex ha hb, percentDecode_encode r']
      · show percentDecode (c :: percentEncode r) = _
        rw [pd_plain hp, pd_plain hp, percentDecode_encode r]
termination_by s.length

theorem percentEncode_not_reserved (s : Str) : ∀ c ∈ percentEncode s, c ∉ reserved := by
  intro c hc
  unfold percentEncode at hc
  rw [List.mem_flatMap] at hc
  obtain ⟨d, _, hc⟩ := hc
  by_cases hm : d ∈ reserved
  · obtain ⟨_, _, a, b, x, y, e, ha, hb, _⟩ := percentEncodeChar_mem hm
    rw [e] at hc
    simp only [List.mem_cons, List.not_mem_nil, or_false] at hc
    rcases hc with rfl | rfl | rfl
    · decide
    · exact ha
    · exact hb
  · rw [percentEncodeChar_not hm] at hc
    simp only [List.mem_cons, List.not_mem_nil, or_false] at hc
    subst hc; exact hm

theorem percentEncode_id {s : Str} (h : ∀ c ∈ s, c ∉ reserved) : percentEncode s = s := by
  induction s with
  | nil => rfl
  | cons c r ih =>
    rw [percentEncode_cons, percentEncodeChar_not (h c (by simp)), ih (fun d hd => h d (by simp [hd]))]; rfl

theorem percentEncode_idem (s : Str) : percentEncode (percentEncode s) = percentEncode s :=
  percentEncode_id (percentEncode_not_reserved s)

theorem percentDecode_plain {s : Str} (h : '%' ∉ s) : percentDecode s = utf8 s := by
  induction s with
  | nil => rfl
  | cons c r ih =>
    rw [pd_plain (by rintro rfl; simp at h), utf8_cons, ih (fun hh => h (by simp [hh]))]

/-- Characters that occur in an encoding but not in the source are `%` and upper-case hex digits. -/
theorem percentEncode_mem {s : Str} {c : Char} (hc : c ∈ percentEncode s) :
    c ∈ s ∨ c ∈ s% "%0123456789ABCDEF" := by
  unfold percentEncode at hc
  rw [List.mem_flatMap] at hc
  obtain ⟨d, hd, hc⟩ := hc
  by_cases hm : d ∈ reserved
  · right
    have key : ∀ d ∈ reserved, ∀ c ∈ percentEncodeChar d, c ∈ s% "%0123456789ABCDEF" := by decide +kernel
    exact key d hm c hc
  · rw [percentEncodeChar_not hm] at hc
    simp only [List.mem_cons, List.not_mem_nil, or_false] at hc
    subst hc; exact .inl hd

/-! ### form-urlencoding -/

/-- The characters `form_urlencoded` may write. -/
def formSafe (c : Char) : Prop :=
  c = '*' ∨ c = '-' ∨ c = '.' ∨ c = '_' ∨ c = '+' ∨ c = '%' ∨ (48 ≤ c.toNat ∧ c.toNat ≤ 57) ∨
    (65 ≤ c.toNat ∧ c.toNat ≤ 90) ∨ (97 ≤ c.toNat ∧ c.toNat ≤ 122)

theorem toNat_ofNat_small {n : Nat} (h : n < 0xD800) : (Char.ofNat n).toNat = n := by
  have : n.isValidChar := .inl h
  simp [Char.ofNat, this, Char.ofNatAux, Char.toNat]

/-- All facts about one encoded byte, checked for all 256 bytes. -/
theorem formByte_facts (b : UInt8) :
    (∀ c ∈ formByte b, c.toNat < 128 ∧ (c.toNat = 42 ∨ c.toNat = 45 ∨ c.toNat = 46 ∨ c.toNat = 95 ∨
      c.toNat = 43 ∨ c.toNat = 37 ∨ (48 ≤ c.toNat ∧ c.toNat ≤ 57) ∨ (65 ≤ c.toNat ∧ c.toNat ≤ 90) ∨
      (97 ≤ c.toNat ∧ c.toNat ≤ 122))) ∧
    ((formByte b = [Char.ofNat b.toNat] ∧ b.toNat ≠ 37 ∧ b.toNat ≠ 43 ∧ b.toNat < 128) ∨
     (formByte b = ['+'] ∧ b.toNat = 32) ∨
     (formByte b = ['%', hexUpper (b.toNat / 16), hexUpper (b.toNat % 16)])) := by
  have key : ∀ n : Fin 256, (∀ c ∈ formByte (UInt8.ofNat n.val), c.toNat < 128 ∧ (c.toNat = 42 ∨ c.toNat = 45 ∨ c.toNat = 46 ∨ c.toNat = 95 ∨
      c.toNat = 43 ∨ c.toNat = 37 ∨ (48 ≤ c.toNat ∧ c.toNat ≤ 57) ∨ (65 ≤ c.toNat ∧ c.toNat ≤ 90) ∨
      (97 ≤ c.toNat ∧ c.toNat ≤ 122))) ∧
      ((formByte (UInt8.ofNat n.val) = [Char.ofNat n.val] ∧ n.val ≠ 37 ∧ n.val ≠ 43 ∧ n.val < 128) ∨
     (formByte (UInt8.ofNat n.val) = ['+'] ∧ n.val = 32) ∨
     (formByte (UInt8.ofNat n.val) = ['%', hexUpper (n.val / 16), hexUpper (n.val % 16)])) := by
    decide +kernel
  have := key ⟨b.toNat, byte_lt b⟩
  simp only [ofNat_toNat8] at this
  exact this

theorem hexVal_hexUpper {n : Nat} (h : n < 16) :
    hexVal (UInt8.ofNat (hexUpper n).toNat) = some n ∧ (hexUpper n).toNat ≠ 43 ∧ (hexUpper n).toNat < 128 := by
  have : ∀ n : Fin 16, hexVal (UInt8.ofNat (hexUpper n.val).toNat) = some n.val ∧ (hexUpper n.val).toNat ≠ 43 ∧ (hexUpper n.val).toNat < 128 := by decide +kernel
  exact this ⟨n, h⟩

def plusToSpace (b : UInt8) : UInt8 := if b.toNat = 43 then 32 else b

theorem pctDecode_plain {a : UInt8} (h : a.toNat ≠ 37) (r : Bytes) : pctDecode (a :: r) = a :: pctDecode r := by
  match r with
  | [] => simp [pctDecode]
  | [b] => simp [pctDecode]
  | b :: c :: r => conv => lhs; unfold pctDecode
                   simp [h]

theorem pctDecode_hex {b c : UInt8} {x y : Nat} (hb : hexVal b = some x) (hc : hexVal c = some y) (r : Bytes) :
    pctDecode (37 :: b :: c :: r) = UInt8.ofNat (x * 16 + y) :: pctDecode r := by
  conv => lhs; unfold pctDecode
  simp [hb, hc]

theorem formEncode_chars {s : Str} {c : Char} (hc : c ∈ formEncode s) :
    c.toNat < 128 ∧ (c.toNat = 42 ∨ c.toNat = 45 ∨ c.toNat = 46 ∨ c.toNat = 95 ∨
      c.toNat = 43 ∨ c.toNat = 37 ∨ (48 ≤ c.toNat ∧ c.toNat ≤ 57) ∨ (65 ≤ c.toNat ∧ c.toNat ≤ 90) ∨
      (97 ≤ c.toNat ∧ c.toNat ≤ 122)) := by
  unfold formEncode at hc
  rw [List.mem_flatMap] at hc
  obtain ⟨b, _, hc⟩ := hc
  exact (formByte_facts b).1 c hc

theorem pctDecode_formBytes (bs : Bytes) :
    pctDecode ((utf8 (bs.flatMap formByte)).map plusToSpace) = bs := by
  induction bs with
  | nil => rfl
  | cons b r ih =>
    rw [List.flatMap_cons, utf8_append, List.map_append]
    rcases (formByte_facts b).2 with ⟨e, h1, h2, h3⟩ | ⟨e, h⟩ | e
    · have hn : (Char.ofNat b.toNat).toNat = b.toNat := toNat_ofNat_small (by omega)
      rw [e, utf8_cons, utf8_nil, utf8Char_ascii (by rw [hn]; exact h3), hn, ofNat_toNat8]
      simp only [List.append_nil, List.map_cons, List.map_nil, List.cons_append, List.nil_append]
      rw [show plusToSpace b = b by simp [plusToSpace, h2], pctDecode_plain h1, ih]
    · rw [e]
      have : (utf8 ['+']).map plusToSpace = [32] := by decide
      rw [this, List.cons_append, List.nil_append, pctDecode_plain (by decide), ih]
      congr 1
      rw [← ofNat_toNat8 b, h]; rfl
    · have hb := byte_lt b
      have h1 := hexVal_hexUpper (show b.toNat / 16 < 16 by omega)
      have h2 := hexVal_hexUpper (show b.toNat % 16 < 16 by omega)
      rw [e, utf8_cons, utf8_cons, utf8_cons, utf8_nil, utf8Char_ascii h1.2.2, utf8Char_ascii h2.2.2]
      have e37 : utf8Char '%' = [37] := by decide
      rw [e37]
      simp only [List.append_nil, List.map_cons, List.map_nil, List.cons_append, List.nil_append]
      have p1 : plusToSpace (UInt8.ofNat (hexUpper (b.toNat / 16)).toNat) = UInt8.ofNat (hexUpper (b.toNat / 16)).toNat := by
        unfold plusToSpace; rw [toNat_ofNat8 (by omega), if_neg h1.2.1]
      have p2 : plusToSpace (UInt8.ofNat (hexUpper (b.toNat % 16)).toNat) = UInt8.ofNat (hexUpper (b.toNat % 16)).toNat := by
        unfold plusToSpace; rw [toNat_ofNat8 (by omega), if_neg h2.2.1]
      rw [p1, p2, show plusToSpace 37 = 37 by decide, pctDecode_hex h1.1 h2.1, ih,
        show b.toNat / 16 * 16 + b.toNat % 16 = b.toNat by omega, ofNat_toNat8]

theorem formDecode_formEncode (s : Str) : formDecode (utf8 (formEncode s)) = s := by
  have : formDecode (utf8 (formEncode s)) = utf8Lossy (pctDecode ((utf8 (formEncode s)).map plusToSpace)) := rfl
  rw [this]
  unfold formEncode
  rw [pctDecode_formBytes, utf8Lossy_utf8]

theorem splitAll_append (a b : Bytes) : splitAll 38 (a ++ 38 :: b) = splitAll 38 a ++ splitAll 38 b := by
  induction a with
  | nil => simp [splitAll]
  | cons x a ih =>
    simp only [List.cons_append, splitAll]
    split
    · rw [ih]; simp
    · rw [ih]
      cases h : splitAll 38 a with
      | nil => cases a <;> simp [splitAll] at h <;> (split at h <;> try simp at h) <;> (split at h <;> simp at h)
      | cons hd tl => simp

theorem splitAll_none {a : Bytes} (h : (38 : UInt8) ∉ a) : splitAll 38 a = [a] := by
  induction a with
  | nil => rfl
  | cons x a ih =>
    simp only [List.mem_cons, not_or] at h
    simp only [splitAll]
    rw [if_neg (by simpa [eq_comm] using h.1), ih h.2]

theorem splitFirstB_append {a b : Bytes} (h : (61 : UInt8) ∉ a) : splitFirstB 61 (a ++ 61 :: b) = (a, b) := by
  induction a with
  | nil => simp [splitFirstB]
  | cons x a ih =>
    simp only [List.mem_cons, not_or] at h
    simp only [List.cons_append, splitFirstB]
    rw [if_neg (by simpa [eq_comm] using h.1), ih h.2]

theorem formParse_append (a b : Bytes) : formParse (a ++ 38 :: b) = formParse a ++ formParse b := by
  unfold formParse
  rw [splitAll_append]; simp

theorem mem_utf8_formEncode {s : Str} {b : UInt8} (hb : b ∈ utf8 (formEncode s)) : b ≠ 38 ∧ b ≠ 61 := by
  rw [utf8_ascii (fun c hc => (formEncode_chars hc).1), List.mem_map] at hb
  obtain ⟨c, hc, rfl⟩ := hb
  have h := formEncode_chars hc
  constructor
  · intro e
    have := congrArg UInt8.toNat e
    rw [toNat_ofNat8 (by omega)] at this
    simp at this; omega
  · intro e
    have := congrArg UInt8.toNat e
    rw [toNat_ofNat8 (by omega)] at this
    simp at this; omega

theorem formParse_pair (k v : Str) : formParse (utf8 (formEncode k ++ ['='] ++ formEncode v)) = [(k, v)] := by
  have e : utf8 (formEncode k ++ ['='] ++ formEncode v) = utf8 (formEncode k) ++ 61 :: utf8 (formEncode v) := by
    rw [utf8_append, utf8_append, show utf8 ['='] = [61] by decide]; simp
  have hn : (38 : UInt8) ∉ utf8 (formEncode k) ++ 61 :: utf8 (formEncode v) := by
    intro h
    simp only [List.mem_append, List.mem_cons] at h
    rcases h with h | h | h
    · exact (mem_utf8_formEncode h).1 rfl
    · cases h
    · exact (mem_utf8_formEncode h).1 rfl
  have h61 : (61 : UInt8) ∉ utf8 (formEncode k) := fun h => (mem_utf8_formEncode h).2 rfl
  rw [e]
  unfold formParse
  rw [splitAll_none hn]
  simp [splitFirstB_append h61, formDecode_formEncode]

theorem formParse_nil : formParse [] = [] := by decide

theorem formParse_extendPairs (q : Str) (ps : List (Str × Str)) :
    formParse (utf8 (extendPairs q ps)) = formParse (utf8 q) ++ ps := by
  induction ps generalizing q with
  | nil => simp [extendPairs]
  | cons p ps ih =>
    have : extendPairs q (p :: ps) = extendPairs (appendPair q p.1 p.2) ps := rfl
    rw [this, ih]
    have : formParse (utf8 (appendPair q p.1 p.2)) = formParse (utf8 q) ++ [p] := by
      unfold appendPair
      by_cases hq : q = []
      · subst hq
        simp only [if_true, List.nil_append]
        rw [formParse_pair]; rw [utf8_nil, formParse_nil]; rfl
      · rw [if_neg hq]
        have : utf8 (q ++ ['&'] ++ formEncode p.1 ++ ['='] ++ formEncode p.2) =
            utf8 q ++ 38 :: utf8 (formEncode p.1 ++ ['='] ++ formEncode p.2) := by
          simp only [utf8_append]
          rw [show utf8 ['&'] = [38] by decide]; simp
        rw [this, formParse_append, formParse_pair]
    rw [this]; simp

end CSS
