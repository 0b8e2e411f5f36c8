import Verif.Model.Codec
import Verif.Spec.Codec
import Verif.Lemmas.Utf8
/- hex, base64, percent-encoding, form-urlencoding. -/
set_option linter.unusedSimpArgs false
namespace CSS
open Spec

theorem byte_lt (b : UInt8) : b.toNat < 256 := b.toNat_lt
theorem ofNat_toNat8 (b : UInt8) : UInt8.ofNat b.toNat = b := by simp

/-! ### hex -/

theorem lowerHexVal_hexLower {n : Nat} (h : n < 16) : lowerHexVal (hexLower n) = some n := by
  have : ∀ n : Fin 16, lowerHexVal (hexLower n.val) = some n.val := by decide
  exact this ⟨n, h⟩

theorem hexDecode_hexEncode (bs : Bytes) : hexDecode (hexEncode bs) = some bs := by
  induction bs with
  | nil => rfl
  | cons b r ih =>
    have hb := byte_lt b
    simp only [hexEncode, List.flatMap_cons, List.cons_append, List.nil_append, hexDecode] at ih ⊢
    rw [lowerHexVal_hexLower (by omega), lowerHexVal_hexLower (by omega), ih]
    simp only [Option.bind_eq_bind, Option.bind_some]
    rw [show b.toNat / 16 * 16 + b.toNat % 16 = b.toNat by omega, ofNat_toNat8]

theorem hexEncode_chars (bs : Bytes) : ∀ c ∈ hexEncode bs, c ∈ s% "0123456789abcdef" := by
  intro c hc
  have key : ∀ n : Fin 16, hexLower n.val ∈ s% "0123456789abcdef" := by decide
  unfold hexEncode at hc
  rw [List.mem_flatMap] at hc
  obtain ⟨b, _, hc⟩ := hc
  have hb := byte_lt b
  simp only [List.mem_cons, List.not_mem_nil, or_false] at hc
  rcases hc with rfl | rfl
  · exact key ⟨b.toNat / 16, by omega⟩
  · exact key ⟨b.toNat % 16, by omega⟩

theorem hexEncode_length (bs : Bytes) : (hexEncode bs).length = 2 * bs.length := by
  induction bs with
  | nil => rfl
  | cons b r ih => simp only [hexEncode, List.flatMap_cons, List.length_append] at ih ⊢; simp [ih]; omega

/-! ### base64 -/

theorem b64Alphabet_char {n : Nat} (h : n < 64) : b64Alphabet.idxOf? (b64Char n) = some n := by
  have : ∀ n : Fin 64, b64Alphabet.idxOf? (b64Char n.val) = some n.val := by decide
  exact this ⟨n, h⟩

theorem b64Char_ne_pad {n : Nat} (h : n < 64) : b64Char n ≠ '=' := by
  have : ∀ n : Fin 64, b64Char n.val ≠ '=' := by decide
  exact this ⟨n, h⟩

theorem b64Char_mem {n : Nat} (h : n < 64) : b64Char n ∈ b64Alphabet := by
  have : ∀ n : Fin 64, b64Char n.val ∈ b64Alphabet := by decide
  exact this ⟨n, h⟩

/-- One full group. -/
theorem base64Decode_group (x y z w : Nat) (hx : x < 64) (hy : y < 64) (hz : z < 64) (hw : w < 64) (r : Str) :
    base64Decode (b64Char x :: b64Char y :: b64Char z :: b64Char w :: r) =
      (base64Decode r).map fun rest =>
        UInt8.ofNat ((((x * 64 + y) * 64 + z) * 64 + w) / 65536)
          :: UInt8.ofNat ((((x * 64 + y) * 64 + z) * 64 + w) / 256 % 256)
          :: UInt8.ofNat ((((x * 64 + y) * 64 + z) * 64 + w) % 256) :: rest := by
  have hwp := b64Char_ne_pad hw
  conv => lhs; unfold base64Decode
  split
  · rename_i h; simp at h
  · rename_i h; simp only [List.cons.injEq] at h; exact absurd h.2.2.2.1 hwp
  · rename_i h; simp only [List.cons.injEq] at h; exact absurd h.2.2.2.1 hwp
  · rename_i a b c d r' _ _ h
    simp only [List.cons.injEq] at h
    obtain ⟨rfl, rfl, rfl, rfl, rfl⟩ := h
    rw [b64Alphabet_char hx, b64Alphabet_char hy, b64Alphabet_char hz, b64Alphabet_char hw]
    cases base64Decode r <;> simp
  · rename_i h; exact (h _ _ _ _ _ rfl).elim

theorem base64Decode_b64Encode (bs : Bytes) : base64Decode (b64Encode bs) = some bs := by
  match bs with
  | [] => simp [b64Encode, base64Decode]
  | [a] =>
    have ha := byte_lt a
    simp only [b64Encode, base64Decode]
    rw [b64Alphabet_char (by omega), b64Alphabet_char (by omega)]
    simp only [Option.bind_eq_bind, Option.bind_some]
    rw [if_pos (by omega), show (a.toNat / 4 * 64 + a.toNat % 4 * 16) / 16 = a.toNat by omega, ofNat_toNat8]
  | [a, b] =>
    have ha := byte_lt a
    have hb := byte_lt b
    have hp : b64Char (b.toNat % 16 * 4) ≠ '=' := b64Char_ne_pad (by omega)
    simp only [b64Encode]
    unfold base64Decode
    split
    · rename_i h; simp at h
    · rename_i h; simp only [List.cons.injEq] at h; exact absurd h.2.2.1 hp
    · rename_i h; simp only [List.cons.injEq] at h
      obtain ⟨rfl, rfl, rfl, _, _⟩ := h
      rw [b64Alphabet_char (by omega), b64Alphabet_char (by omega), b64Alphabet_char (by omega)]
      simp only [Option.bind_eq_bind, Option.bind_some]
      rw [if_pos (by omega)]
      rw [show ((a.toNat / 4 * 64 + (a.toNat % 4 * 16 + b.toNat / 16)) * 64 + b.toNat % 16 * 4) / 1024 = a.toNat by omega,
        show ((a.toNat / 4 * 64 + (a.toNat % 4 * 16 + b.toNat / 16)) * 64 + b.toNat % 16 * 4) / 4 % 256 = b.toNat by omega,
        ofNat_toNat8, ofNat_toNat8]
    · rename_i h _; simp only [List.cons.injEq] at *
      rename_i hh
      obtain ⟨rfl, rfl, rfl, rfl, rfl⟩ := hh
      rename_i h1 h2
      first
        | exact absurd rfl (h1 _ _ _)
        | (simp_all)
    · rename_i _ _ h _ _ ; simp_all
  | a :: b :: c :: r =>
    have ha := byte_lt a
    have hb := byte_lt b
    have hc := byte_lt c
    rw [b64Encode, base64Decode_group _ _ _ _ (by omega) (by omega) (by omega) (by omega),
      base64Decode_b64Encode r]
    simp only [Option.map_some]
    generalize hn : ((a.toNat / 4 * 64 + (a.toNat % 4 * 16 + b.toNat / 16)) * 64 + (b.toNat % 16 * 4 + c.toNat / 64)) * 64 + c.toNat % 64 = n
    have e : n = a.toNat * 65536 + b.toNat * 256 + c.toNat := by omega
    rw [show n / 65536 = a.toNat by omega, show n / 256 % 256 = b.toNat by omega,
      show n % 256 = c.toNat by omega, ofNat_toNat8, ofNat_toNat8, ofNat_toNat8]

end CSS
