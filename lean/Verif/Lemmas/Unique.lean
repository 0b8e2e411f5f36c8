import Verif.Lemmas.Base64
/- Encodings are unique: strict base64 and lower-case hex texts are determined by the bytes they denote. -/
set_option linter.unusedSimpArgs false
namespace CSS
open Spec

theorem lowerHexVal_some {c : Char} {n : Nat} (h : lowerHexVal c = some n) : n < 16 ∧ c = hexLower n := by
  unfold lowerHexVal at h
  have hm : c ∈ s% "0123456789abcdef" := by
    apply Classical.byContradiction
    intro hc
    rw [List.idxOf?_eq_none_iff.2 hc] at h
    cases h
  have key : ∀ c ∈ s% "0123456789abcdef", ∀ n, (s% "0123456789abcdef").idxOf? c = some n → n < 16 ∧ c = hexLower n := by
    have : ∀ c ∈ s% "0123456789abcdef", ∃ m, (s% "0123456789abcdef").idxOf? c = some m ∧ m < 16 ∧ c = hexLower m := by
      intro c hc
      have : ∀ c ∈ s% "0123456789abcdef", ((s% "0123456789abcdef").idxOf? c).any (fun m => decide (m < 16 ∧ c = hexLower m)) = true := by
        decide
      have := this c hc
      cases hx : (s% "0123456789abcdef").idxOf? c with
      | none => rw [hx] at this; simp at this
      | some m => rw [hx] at this; exact ⟨m, rfl, by simpa using this⟩
    intro c hc n hn
    obtain ⟨m, h1, h2⟩ := this c hc
    rw [h1] at hn
    cases hn
    exact h2
  exact key c hm n h

theorem hexDecode_some : ∀ {s : Str} {bs : Bytes}, hexDecode s = some bs → s = hexEncode bs
  | [], bs, h => by simp [hexDecode] at h; subst h; rfl
  | [_], bs, h => by simp [hexDecode] at h
  | a :: b :: r, bs, h => by
    simp only [hexDecode, Option.bind_eq_bind, Option.bind_eq_some_iff, Option.some.injEq] at h
    obtain ⟨x, hx, y, hy, rest, hr, rfl⟩ := h
    have h1 := lowerHexVal_some hx
    have h2 := lowerHexVal_some hy
    have ih := hexDecode_some hr
    have e : (UInt8.ofNat (x * 16 + y)).toNat = x * 16 + y := toNat_ofNat8 (by omega)
    simp only [hexEncode, List.flatMap_cons, List.cons_append, List.nil_append] at ih ⊢
    rw [e, show (x * 16 + y) / 16 = x by omega, show (x * 16 + y) % 16 = y by omega, ← h1.2, ← h2.2, ih]

theorem b64Alphabet_some {c : Char} {n : Nat} (h : b64Alphabet.idxOf? c = some n) : n < 64 ∧ c = b64Char n := by
  have hm : c ∈ b64Alphabet := by
    apply Classical.byContradiction
    intro hc
    rw [List.idxOf?_eq_none_iff.2 hc] at h
    cases h
  have : ∀ c ∈ b64Alphabet, (b64Alphabet.idxOf? c).any (fun m => decide (m < 64 ∧ c = b64Char m)) = true := by
    decide +kernel
  have := this c hm
  rw [h] at this
  simpa using this

theorem base64Decode_some : ∀ {s : Str} {bs : Bytes}, base64Decode s = some bs → s = b64Encode bs
  | [], bs, h => by simp [base64Decode] at h; subst h; rfl
  | [_], bs, h => by rw [← b64Decode_eq] at h; simp [b64Decode] at h
  | [_, _], bs, h => by rw [← b64Decode_eq] at h; simp [b64Decode] at h
  | [_, _, _], bs, h => by rw [← b64Decode_eq] at h; simp [b64Decode] at h
  | [a, b, c, d], bs, h => by
    rw [← b64Decode_eq] at h
    simp only [b64Decode, Option.bind_eq_bind, Option.bind_eq_some_iff, b64Val_eq] at h
    obtain ⟨x, hx, y, hy, h⟩ := h
    have h1 := b64Alphabet_some hx
    have h2 := b64Alphabet_some hy
    split at h
    · rename_i hcd
      split at h
      · rename_i hz
        cases h
        obtain ⟨rfl, rfl⟩ := hcd
        simp only [b64Encode]
        rw [toNat_ofNat8 (by omega), show (x * 4 + y / 16) / 4 = x by omega, show (x * 4 + y / 16) % 4 * 16 = y by omega,
          ← h1.2, ← h2.2]
      · cases h
    · rename_i hcd
      simp only [Option.bind_eq_some_iff] at h
      obtain ⟨z, hz, h⟩ := h
      have h3 := b64Alphabet_some hz
      split at h
      · rename_i hd
        subst hd
        split at h
        · rename_i hzz
          cases h
          simp only [b64Encode]
          rw [toNat_ofNat8 (by omega), toNat_ofNat8 (by omega), show (x * 4 + y / 16) / 4 = x by omega,
            show (x * 4 + y / 16) % 4 * 16 + (y % 16 * 16 + z / 4) / 16 = y by omega,
            show (y % 16 * 16 + z / 4) % 16 * 4 = z by omega, ← h1.2, ← h2.2, ← h3.2]
        · cases h
      · simp only [Option.bind_eq_some_iff] at h
        obtain ⟨v, hv, h⟩ := h
        have h4 := b64Alphabet_some hv
        cases h
        simp only [b64Encode]
        rw [toNat_ofNat8 (by omega), toNat_ofNat8 (by omega), toNat_ofNat8 (by omega), show (x * 4 + y / 16) / 4 = x by omega,
          show (x * 4 + y / 16) % 4 * 16 + (y % 16 * 16 + z / 4) / 16 = y by omega,
          show (y % 16 * 16 + z / 4) % 16 * 4 + (z % 4 * 64 + v) / 64 = z by omega,
          show (z % 4 * 64 + v) % 64 = v by omega, ← h1.2, ← h2.2, ← h3.2, ← h4.2]
  | a :: b :: c :: d :: e :: r, bs, h => by
    rw [base64Decode_long] at h
    simp only [Option.bind_eq_bind, Option.bind_eq_some_iff, Option.some.injEq] at h
    obtain ⟨x, hx, y, hy, z, hz, v, hv, rest, hr, rfl⟩ := h
    have h1 := b64Alphabet_some hx
    have h2 := b64Alphabet_some hy
    have h3 := b64Alphabet_some hz
    have h4 := b64Alphabet_some hv
    have ih := base64Decode_some hr
    obtain ⟨e1, e2, e3⟩ := group_bytes h1.1 h2.1 h3.1 h4.1
    rw [e1, e2, e3, b64Encode, toNat_ofNat8 (by omega), toNat_ofNat8 (by omega), toNat_ofNat8 (by omega),
      show (x * 4 + y / 16) / 4 = x by omega,
      show (x * 4 + y / 16) % 4 * 16 + (y % 16 * 16 + z / 4) / 16 = y by omega,
      show (y % 16 * 16 + z / 4) % 16 * 4 + (z % 4 * 64 + v) / 64 = z by omega,
      show (z % 4 * 64 + v) % 64 = v by omega, ← h1.2, ← h2.2, ← h3.2, ← h4.2, ← ih]

end CSS
