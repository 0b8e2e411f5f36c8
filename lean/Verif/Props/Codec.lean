import Verif.Lemmas.Percent
/-
C45 (hex is faithful) and C46 (laws of the canonical percent-encoding).
-/
namespace CSS
open Spec

/-- C45. Two lower-case hex digits per byte; an independent decoder recovers exactly the bytes. -/
theorem C45_hex_faithful (bs : Bytes) :
    hexDecode (hexEncode bs) = some bs ∧ (hexEncode bs).length = 2 * bs.length ∧
      ∀ c ∈ hexEncode bs, c ∈ s% "0123456789abcdef" :=
  ⟨hexDecode_hexEncode bs, hexEncode_length bs, hexEncode_chars bs⟩

/-- C45. Distinct signatures have distinct hex. -/
theorem C45_hex_injective (a b : Bytes) (h : hexEncode a = hexEncode b) : a = b := by
  have := hexDecode_hexEncode a
  rw [h, hexDecode_hexEncode b] at this
  exact (Option.some.inj this).symm

example : hexEncode [0, 255, 10] = s% "00ff0a" := by decide

/-- C46. The output contains none of the reserved characters, encoding twice is encoding once, and the
output percent-decodes (RFC 3986) to the same bytes as the input does. -/
theorem C46_percentEncode_laws (s : Str) :
    (∀ c ∈ percentEncode s, c ∉ s% "!\"#$&'()*+,:;=?@[]") ∧
    percentEncode (percentEncode s) = percentEncode s ∧
    percentDecode (percentEncode s) = percentDecode s :=
  ⟨percentEncode_not_reserved s, percentEncode_idem s, percentDecode_encode s⟩

/-- C46. Without `%` in the input, decoding returns the input, so encoding is injective there. -/
theorem C46_percentEncode_roundtrip (s : Str) (h : '%' ∉ s) :
    percentDecode (percentEncode s) = utf8 s := by
  rw [percentDecode_encode, percentDecode_plain h]

theorem C46_percentEncode_injective (s t : Str) (hs : '%' ∉ s) (ht : '%' ∉ t)
    (h : percentEncode s = percentEncode t) : s = t := by
  apply utf8_inj
  rw [← C46_percentEncode_roundtrip s hs, ← C46_percentEncode_roundtrip t ht, h]

/-- C46. The encoding works character by character: one of the reserved characters becomes `%` and the two
upper-case hex digits of its code, every other character (also `/`, `%`, the space and all non-ASCII
characters) is copied. Together with `percentEncode [] = []` this determines the encoding. -/
theorem C46_percentEncode_per_char (c : Char) (r : Str) :
    percentEncode [] = [] ∧
    (c ∈ s% "!\"#$&'()*+,:;=?@[]" →
      ∃ hi lo : Nat, hi < 16 ∧ lo < 16 ∧ c.toNat = 16 * hi + lo ∧
        percentEncode (c :: r) = '%' :: (s% "0123456789ABCDEF").getD hi ' ' ::
          (s% "0123456789ABCDEF").getD lo ' ' :: percentEncode r) ∧
    (c ∉ s% "!\"#$&'()*+,:;=?@[]" → percentEncode (c :: r) = c :: percentEncode r) := by
  refine ⟨rfl, fun h => ?_, fun h => ?_⟩
  · have key : ∀ c ∈ s% "!\"#$&'()*+,:;=?@[]", c.toNat / 16 < 16 ∧
        percentEncodeChar c = ['%', (s% "0123456789ABCDEF").getD (c.toNat / 16) ' ',
          (s% "0123456789ABCDEF").getD (c.toNat % 16) ' '] := by decide +kernel
    obtain ⟨h1, h2⟩ := key c h
    refine ⟨c.toNat / 16, c.toNat % 16, h1, Nat.mod_lt _ (by decide), (Nat.div_add_mod _ _).symm, ?_⟩
    rw [percentEncode_cons, h2]; rfl
  · rw [percentEncode_cons, percentEncodeChar_not h]; rfl

example : '%' ∉ s% "a b&c=d/é" ∧ percentEncode (s% "a b&c=d/é") = s% "a b%26c%3Dd/é" := by decide

/-- C46. In general the encoding is not injective: `%` is not encoded. -/
theorem C46_percentEncode_not_injective :
    ∃ s t, s ≠ t ∧ percentEncode s = percentEncode t ∧ percentDecode (percentEncode t) ≠ utf8 t :=
  ⟨s% "&", s% "%26", by decide, by decide, by decide +kernel⟩

end CSS
