import Verif.Model.Text
/- UTF-8: decoding undoes encoding; byte order is code point order. -/
set_option linter.unusedSimpArgs false
namespace CSS

theorem toNat_ofNat8 {n : Nat} (h : n < 256) : (UInt8.ofNat n).toNat = n := by
  simp [UInt8.toNat_ofNat']; omega

theorem char_range (c : Char) : c.toNat < 0xD800 ∨ (0xDFFF < c.toNat ∧ c.toNat < 0x110000) := by
  have := c.valid
  simpa [UInt32.isValidChar, Nat.isValidChar] using this

theorem char_ofNat_toNat (c : Char) : Char.ofNat c.toNat = c := by simp

theorem utf8Lossy_ascii (b : UInt8) (r : Bytes) (h : b.toNat < 0x80) :
    utf8Lossy (b :: r) = Char.ofNat b.toNat :: utf8Lossy r := by
  conv => lhs; unfold utf8Lossy
  simp [h]

theorem utf8Lossy_char (c : Char) (r : Bytes) : utf8Lossy (utf8Char c ++ r) = c :: utf8Lossy r := by
  have hr := char_range c
  have hc := char_ofNat_toNat c
  unfold utf8Char
  generalize c.toNat = n at hr hc
  by_cases h1 : n < 0x80
  · simp only [h1, if_true, List.cons_append, List.nil_append]
    rw [utf8Lossy_ascii _ _ (by rw [toNat_ofNat8 (by omega)]; exact h1), toNat_ofNat8 (by omega), hc]
  · by_cases h2 : n < 0x800
    · simp only [h1, h2, if_true, if_false, List.cons_append, List.nil_append]
      conv => lhs; unfold utf8Lossy
      have b0 : (UInt8.ofNat (0xC0 + n / 64)).toNat = 0xC0 + n / 64 := toNat_ofNat8 (by omega)
      have b1 : (UInt8.ofNat (0x80 + n % 64)).toNat = 0x80 + n % 64 := toNat_ofNat8 (by omega)
      simp only [isCont, b0, b1]
      rw [if_neg (by omega), if_pos (by omega), if_pos (by simp; omega)]
      rw [show (192 + n / 64 - 192) * 64 + (128 + n % 64 - 128) = n by omega, hc]
    · by_cases h3 : n < 0x10000
      · simp only [h1, h2, h3, if_true, if_false, List.cons_append, List.nil_append]
        conv => lhs; unfold utf8Lossy
        have b0 : (UInt8.ofNat (0xE0 + n / 4096)).toNat = 0xE0 + n / 4096 := toNat_ofNat8 (by omega)
        have b1 : (UInt8.ofNat (0x80 + n / 64 % 64)).toNat = 0x80 + n / 64 % 64 := toNat_ofNat8 (by omega)
        have b2 : (UInt8.ofNat (0x80 + n % 64)).toNat = 0x80 + n % 64 := toNat_ofNat8 (by omega)
        have hok : ok3 (UInt8.ofNat (0xE0 + n / 4096)) (UInt8.ofNat (0x80 + n / 64 % 64)) = true := by
          simp only [ok3, isCont, b0, b1, Bool.or_eq_true, Bool.and_eq_true, decide_eq_true_eq]
          omega
        simp only [hok, isCont, b0, b1, b2]
        rw [if_neg (by omega), if_neg (by omega), if_pos (by omega), if_pos trivial, if_pos (by simp; omega)]
        rw [show (224 + n / 4096 - 224) * 4096 + (128 + n / 64 % 64 - 128) * 64 + (128 + n % 64 - 128) = n by omega, hc]
      · simp only [h1, h2, h3, if_true, if_false, List.cons_append, List.nil_append]
        conv => lhs; unfold utf8Lossy
        have b0 : (UInt8.ofNat (0xF0 + n / 262144)).toNat = 0xF0 + n / 262144 := toNat_ofNat8 (by omega)
        have b1 : (UInt8.ofNat (0x80 + n / 4096 % 64)).toNat = 0x80 + n / 4096 % 64 := toNat_ofNat8 (by omega)
        have b2 : (UInt8.ofNat (0x80 + n / 64 % 64)).toNat = 0x80 + n / 64 % 64 := toNat_ofNat8 (by omega)
        have b3 : (UInt8.ofNat (0x80 + n % 64)).toNat = 0x80 + n % 64 := toNat_ofNat8 (by omega)
        have hok : ok4 (UInt8.ofNat (0xF0 + n / 262144)) (UInt8.ofNat (0x80 + n / 4096 % 64)) = true := by
          simp only [ok4, isCont, b0, b1, Bool.or_eq_true, Bool.and_eq_true, decide_eq_true_eq]
          omega
        simp only [hok, isCont, b0, b1, b2, b3]
        rw [if_neg (by omega), if_neg (by omega), if_neg (by omega), if_pos (by omega), if_pos trivial,
          if_pos (by simp; omega), if_pos (by simp; omega)]
        rw [show (240 + n / 262144 - 240) * 262144 + (128 + n / 4096 % 64 - 128) * 4096
          + (128 + n / 64 % 64 - 128) * 64 + (128 + n % 64 - 128) = n by omega, hc]

theorem utf8_nil : utf8 [] = [] := rfl
theorem utf8_cons (c : Char) (s : Str) : utf8 (c :: s) = utf8Char c ++ utf8 s := rfl
theorem utf8_append (a b : Str) : utf8 (a ++ b) = utf8 a ++ utf8 b := by simp [utf8]

/-- Decoding undoes encoding. -/
theorem utf8Lossy_utf8 (s : Str) : utf8Lossy (utf8 s) = s := by
  induction s with
  | nil => simp [utf8, utf8Lossy]
  | cons c s ih => rw [utf8_cons, utf8Lossy_char, ih]

theorem utf8_inj {a b : Str} (h : utf8 a = utf8 b) : a = b := by
  rw [← utf8Lossy_utf8 a, ← utf8Lossy_utf8 b, h]

/-- An ASCII character is one byte. -/
theorem utf8Char_ascii {c : Char} (h : c.toNat < 128) : utf8Char c = [UInt8.ofNat c.toNat] := by
  simp [utf8Char, h]

/-- ASCII text: one byte per character. -/
theorem utf8_ascii {s : Str} (h : ∀ c ∈ s, c.toNat < 128) : utf8 s = s.map fun c => UInt8.ofNat c.toNat := by
  induction s with
  | nil => rfl
  | cons c s ih =>
    rw [utf8_cons, utf8Char_ascii (h c (by simp)), ih (fun d hd => h d (by simp [hd]))]; rfl

theorem utf8_length_ascii {s : Str} (h : ∀ c ∈ s, c.toNat < 128) : (utf8 s).length = s.length := by
  rw [utf8_ascii h]; simp

/-- All bytes of a non-ASCII character are ≥ 0x80. -/
theorem utf8Char_nonascii {c : Char} (h : 128 ≤ c.toNat) : ∀ b ∈ utf8Char c, 128 ≤ b.toNat := by
  have hr := char_range c
  unfold utf8Char
  simp only
  intro b hb
  rw [if_neg (by omega)] at hb
  split at hb
  · simp only [List.mem_cons, List.not_mem_nil, or_false] at hb
    rcases hb with rfl | rfl <;> rw [toNat_ofNat8 (by omega)] <;> omega
  · split at hb
    · simp only [List.mem_cons, List.not_mem_nil, or_false] at hb
      rcases hb with rfl | rfl | rfl <;> rw [toNat_ofNat8 (by omega)] <;> omega
    · simp only [List.mem_cons, List.not_mem_nil, or_false] at hb
      rcases hb with rfl | rfl | rfl | rfl <;> rw [toNat_ofNat8 (by omega)] <;> omega

theorem utf8Char_ne_nil (c : Char) : utf8Char c ≠ [] := by
  unfold utf8Char; simp only; split <;> (try split) <;> (try split) <;> simp

/-- A byte below 128 in the encoding of a text is one of its characters. -/
theorem mem_utf8_ascii {s : Str} {b : UInt8} (hb : b ∈ utf8 s) (h : b.toNat < 128) :
    ∃ c ∈ s, c.toNat = b.toNat := by
  unfold utf8 at hb
  rw [List.mem_flatMap] at hb
  obtain ⟨c, hc, hbc⟩ := hb
  refine ⟨c, hc, ?_⟩
  by_cases hca : c.toNat < 128
  · rw [utf8Char_ascii hca] at hbc
    simp only [List.mem_singleton] at hbc
    rw [hbc, toNat_ofNat8 (by omega)]
  · have := utf8Char_nonascii (by omega) b hbc; omega

end CSS
