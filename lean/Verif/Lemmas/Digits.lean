import Verif.Model.Json
/- Decimal rendering. -/
namespace CSS

theorem natDecAux_fuel : ∀ (f g n : Nat), n < f → n < g → natDecAux f n = natDecAux g n := by
  intro f
  induction f with
  | zero => intro g n h; omega
  | succ f ih =>
    intro g n h1 h2
    cases g with
    | zero => omega
    | succ g =>
      unfold natDecAux
      by_cases h : n < 10
      · simp [h]
      · simp only [h, if_false]
        rw [ih g (n / 10) (by omega) (by omega)]

theorem natDec_lt {n : Nat} (h : n < 10) : natDec n = [digit n] := by
  simp [natDec, natDecAux, h]

theorem natDec_ge {n : Nat} (h : 10 ≤ n) : natDec n = natDec (n / 10) ++ [digit (n % 10)] := by
  have : ¬ n < 10 := by omega
  rw [natDec, natDecAux, if_neg this, natDec, natDecAux_fuel n (n / 10 + 1) (n / 10) (by omega) (by omega)]

theorem digit_toNat {n : Nat} (h : n < 10) : (digit n).toNat = 48 + n := by
  have : n = 0 ∨ n = 1 ∨ n = 2 ∨ n = 3 ∨ n = 4 ∨ n = 5 ∨ n = 6 ∨ n = 7 ∨ n = 8 ∨ n = 9 := by omega
  rcases this with h | h | h | h | h | h | h | h | h | h <;> subst h <;> decide

theorem digit_isDigit {n : Nat} (h : n < 10) : isDigit (digit n) = true := by
  unfold isDigit; rw [digit_toNat h]; simp; omega

theorem digit_inj {m n : Nat} (hm : m < 10) (hn : n < 10) (h : digit m = digit n) : m = n := by
  have := congrArg Char.toNat h
  rw [digit_toNat hm, digit_toNat hn] at this; omega

/-- Induction principle along decimal digits. -/
theorem dec_induction {P : Nat → Prop} (h0 : ∀ n, n < 10 → P n)
    (h1 : ∀ n, 10 ≤ n → P (n / 10) → P n) (n : Nat) : P n := by
  induction n using Nat.strongRecOn with
  | ind n ih =>
    by_cases h : n < 10
    · exact h0 n h
    · exact h1 n (by omega) (ih _ (by omega))

theorem decVal_append (a : Str) (c : Char) : decVal (a ++ [c]) = decVal a * 10 + (c.toNat - 48) := by
  simp [decVal]

theorem decVal_natDec (n : Nat) : decVal (natDec n) = n := by
  induction n using dec_induction with
  | h0 n h => rw [natDec_lt h]; simp [decVal, digit_toNat h]
  | h1 n h ih =>
    rw [natDec_ge h, decVal_append, ih, digit_toNat (by omega)]; omega

theorem natDec_inj {m n : Nat} (h : natDec m = natDec n) : m = n := by
  rw [← decVal_natDec m, ← decVal_natDec n, h]

theorem natDec_ne_nil (n : Nat) : natDec n ≠ [] := by
  induction n using dec_induction with
  | h0 n h => rw [natDec_lt h]; simp
  | h1 n h ih => rw [natDec_ge h]; simp

theorem natDec_digits (n : Nat) : ∀ c ∈ natDec n, isDigit c = true := by
  induction n using dec_induction with
  | h0 n h => rw [natDec_lt h]; intro c hc; simp at hc; subst hc; exact digit_isDigit h
  | h1 n h ih =>
    rw [natDec_ge h]; intro c hc
    rcases List.mem_append.1 hc with hc | hc
    · exact ih c hc
    · simp at hc; subst hc; exact digit_isDigit (by omega)

theorem natDec_head_ne_zero {n : Nat} (h : n ≠ 0) : (natDec n).head? ≠ some '0' := by
  induction n using dec_induction with
  | h0 n hn =>
    rw [natDec_lt hn]; simp only [List.head?_cons, ne_eq, Option.some.injEq]
    intro he
    have := digit_inj (m := n) (n := 0) hn (by omega) (by rw [he]; decide)
    omega
  | h1 n hn ih =>
    rw [natDec_ge hn, List.head?_append]
    have h1 := ih (by omega)
    cases hc : (natDec (n / 10)).head? with
    | none => exact absurd (List.head?_eq_none_iff.1 hc) (natDec_ne_nil _)
    | some c => rw [hc] at h1; simpa using h1

theorem natDec_length_lt {n : Nat} : ∀ k, 0 < k → n < 10 ^ k → (natDec n).length ≤ k := by
  induction n using dec_induction with
  | h0 n h => intro k hk _; rw [natDec_lt h]; simp; omega
  | h1 n h ih =>
    intro k hk hn
    rw [natDec_ge h]
    cases k with
    | zero => omega
    | succ k =>
      by_cases hk0 : k = 0
      · subst hk0; simp at hn; omega
      · have := ih k (by omega) (by rw [Nat.pow_succ] at hn; omega)
        simp; omega

end CSS
