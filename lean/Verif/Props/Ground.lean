import Verif.Lemmas.Utf8
import Verif.Lemmas.Json
/-
The specifications share a handful of text primitives with the model (`utf8`, `natDec`, `digit`, `decVal`, `join`,
`asciiLower`). Here each is shown equal to the function of Lean's standard library with the same meaning, so that
none of them can be wrong in the model and in the specification at once.
-/
set_option linter.unusedSimpArgs false
namespace CSS
open Spec

/-- One character in UTF-8. -/
theorem ground_utf8Char (c : Char) : utf8Char c = String.utf8EncodeChar c := by
  have hr := char_range c
  unfold utf8Char String.utf8EncodeChar
  have e : c.val.toNat = c.toNat := rfl
  simp only [e]
  generalize c.toNat = n at hr
  by_cases h1 : n < 0x80
  · rw [if_pos h1, if_pos (show n ≤ 127 by omega)]
  rw [if_neg h1, if_neg (show ¬ n ≤ 127 by omega)]
  by_cases h2 : n < 0x800
  · rw [if_pos h2, if_pos (show n ≤ 2047 by omega)]
    rw [show n / 64 % 0x20 + 0xc0 = 0xC0 + n / 64 by omega, show n % 0x40 + 0x80 = 0x80 + n % 64 by omega]
  rw [if_neg h2, if_neg (show ¬ n ≤ 2047 by omega)]
  by_cases h3 : n < 0x10000
  · rw [if_pos h3, if_pos (show n ≤ 65535 by omega)]
    rw [show n / 4096 % 0x10 + 0xe0 = 0xE0 + n / 4096 by omega, show n / 64 % 0x40 + 0x80 = 0x80 + n / 64 % 64 by omega,
      show n % 0x40 + 0x80 = 0x80 + n % 64 by omega]
  rw [if_neg h3, if_neg (show ¬ n ≤ 65535 by omega)]
  rw [show n / 262144 % 0x08 + 0xf0 = 0xF0 + n / 262144 by omega,
    show n / 4096 % 0x40 + 0x80 = 0x80 + n / 4096 % 64 by omega,
    show n / 64 % 0x40 + 0x80 = 0x80 + n / 64 % 64 by omega, show n % 0x40 + 0x80 = 0x80 + n % 64 by omega]

/-- A text in UTF-8: the bytes of Lean's own `String`. -/
theorem ground_utf8 (s : Str) : utf8 s = (String.ofList s).toUTF8.data.toList := by
  have h : utf8 s = s.flatMap String.utf8EncodeChar := by
    unfold utf8
    congr 1
    funext c
    exact ground_utf8Char c
  rw [h]
  simp [String.toUTF8, List.utf8Encode]

theorem ground_digit (n : Nat) (h : n < 10) : digit n = Nat.digitChar n := by
  have : ∀ n : Fin 10, digit n.val = Nat.digitChar n.val := by decide
  exact this ⟨n, h⟩

theorem natDecAux_toDigits (n : Nat) : ∀ f, n < f → natDecAux f n = Nat.toDigits 10 n := by
  induction n using Nat.strongRecOn with
  | _ n ih =>
    intro f hf
    obtain ⟨f, rfl⟩ : ∃ g, f = g + 1 := ⟨f - 1, by omega⟩
    rw [natDecAux]
    by_cases h : n < 10
    · rw [if_pos h, Nat.toDigits_of_lt_base h, ground_digit n h]
    · rw [if_neg h, ih (n / 10) (by omega) f (by omega), Nat.toDigits_eq_if (by decide) (b := 10) (n := n), if_neg h,
        ground_digit _ (Nat.mod_lt _ (by decide))]

/-- A number in decimal. -/
theorem ground_natDec (n : Nat) : natDec n = (Nat.repr n).toList := by
  unfold natDec Nat.repr
  rw [natDecAux_toDigits n _ (by omega)]
  simp

/-- Joining texts. -/
theorem ground_join (sep : Str) (xs : List Str) : join sep xs = sep.intercalate xs := by
  match xs with
  | [] => rfl
  | [x] => simp [join, List.intercalate]
  | x :: y :: r =>
    rw [join, ground_join sep (y :: r)]
    simp [List.intercalate, List.intersperse]

/-- ASCII lower case. -/
theorem ground_asciiLower (s : Str) : asciiLower s = s.map Char.toLower := by
  unfold asciiLower
  congr 1
  funext c
  by_cases h : c.toNat < 128
  · exact forall_ascii (P := fun c => asciiLowerChar c = c.toLower) (by decide +kernel) c h
  · unfold asciiLowerChar Char.toLower
    rw [if_neg (by omega)]
    have : ¬ (c.val ≥ 'A'.val ∧ c.val ≤ 'Z'.val) := by
      rintro ⟨_, h2⟩
      have h2' : c.val.toNat ≤ 90 := h2
      have : c.val.toNat = c.toNat := rfl
      omega
    split
    · rename_i hh; exact absurd hh this
    · rfl

/-- The value of a digit string is Lean's `String.toNat?`-style value: appending a digit multiplies by ten and adds. -/
theorem ground_decVal_natDec (n : Nat) : decVal (Nat.toDigits 10 n) = n := by
  induction n using Nat.strongRecOn with
  | _ n ih =>
    by_cases h : n < 10
    · rw [Nat.toDigits_of_lt_base h]
      have : ∀ n : Fin 10, decVal [Nat.digitChar n.val] = n.val := by decide
      exact this ⟨n, h⟩
    · rw [Nat.toDigits_eq_if (by decide) (b := 10) (n := n), if_neg h]
      unfold decVal at ih ⊢
      rw [List.foldl_append, ih (n / 10) (by omega)]
      have : ∀ n : Fin 10, (Nat.digitChar n.val).toNat - 48 = n.val := by decide
      have := this ⟨n % 10, Nat.mod_lt _ (by decide)⟩
      simp only [List.foldl_cons, List.foldl_nil]
      simp only at this
      rw [this]; omega

example : natDec 3599 = s% "3599" ∧ join (s% "\n") [s% "a", s% "b"] = s% "a\nb" ∧ asciiLower (s% "X-Goog") = s% "x-goog" ∧
    utf8 (s% "é") = [0xC3, 0xA9] ∧ decVal (s% "0042") = 42 := by decide +kernel

end CSS
