import Verif.Model.Iso8601
import Verif.Lemmas.Rfc3339
/- The basic-format reader on basic-format texts. -/
namespace CSS
open Spec

theorem digit_not_white {n : Nat} (h : n < 10) : isWhiteSpace (digit n) = false ∧ digit n ≠ '-' ∧ digit n ≠ '+' := by
  revert n; decide +kernel

theorem scanItem_two {n : Nat} (h : n < 100) (r : Str) : scanItem 2 (d2 n ++ r) = some (n, r) := by
  have h1 : n / 10 % 10 < 10 := by omega
  have h2 : n % 10 < 10 := by omega
  unfold scanItem scanDigits
  simp [d2, digit_not_white h1, digit_isDigit h1, digit_isDigit h2, decVal, digit_toNat h1, digit_toNat h2]
  omega

theorem scanYear_four {n : Nat} (h : n < 10000) (r : Str) : scanYear (d4 n ++ r) = some ((n : Int), r) := by
  have h0 : n / 1000 % 10 < 10 := by omega
  have h1 : n / 100 % 10 < 10 := by omega
  have h2 : n / 10 % 10 < 10 := by omega
  have h3 : n % 10 < 10 := by omega
  have hd := digit_not_white h0
  have e : (d4 n ++ r).dropWhile isWhiteSpace = d4 n ++ r := by simp [d4, hd.1]
  unfold scanYear
  rw [e]
  have : scanDigits (some 4) (d4 n ++ r) = some (n, r) := by
    unfold scanDigits
    simp [d4, digit_isDigit h0, digit_isDigit h1, digit_isDigit h2, digit_isDigit h3, decVal, digit_toNat h0, digit_toNat h1,
      digit_toNat h2, digit_toNat h3]
    omega
  split
  · rename_i hx; simp [d4] at hx; exact absurd hx.1 hd.2.1
  · rename_i hx; simp [d4] at hx; exact absurd hx.1 hd.2.2
  · rw [this]; rfl

theorem daysInMonth_cycle (q r m : Nat) : daysInMonth (q * 400 + r) m = daysInMonth r m := by
  unfold daysInMonth; split <;> simp [leap_cycle]

theorem daysBeforeMonth_cycle (q r m : Nat) : daysBeforeMonth (q * 400 + r) m = daysBeforeMonth r m := by
  induction m with
  | zero => rfl
  | succ m ih =>
    cases m with
    | zero => rfl
    | succ m => simp only [daysBeforeMonth, ih, daysInMonth_cycle]

theorem daysBeforeMonth_day_le (y m d : Nat) (hm : 1 ≤ m ∧ m ≤ 12) (hd : 1 ≤ d ∧ d ≤ daysInMonth y m) :
    daysBeforeMonth y m + d ≤ daysInYear y := by
  obtain ⟨h1, h2⟩ := hm
  have hc : m = 1 ∨ m = 2 ∨ m = 3 ∨ m = 4 ∨ m = 5 ∨ m = 6 ∨ m = 7 ∨ m = 8 ∨ m = 9 ∨ m = 10 ∨ m = 11 ∨ m = 12 := by omega
  by_cases hL : LeapYear y
  · rcases hc with h|h|h|h|h|h|h|h|h|h|h|h <;> subst h <;> simp [daysBeforeMonth, daysInMonth, daysInYear, hL] at hd ⊢ <;> omega
  · rcases hc with h|h|h|h|h|h|h|h|h|h|h|h <;> subst h <;> simp [daysBeforeMonth, daysInMonth, daysInYear, hL] at hd ⊢ <;> omega

theorem parseIso8601_basic {c : DateTime} (hv : c.Valid) : parseIso8601 c.basic = some c.unix := by
  have hd := hv.day.2
  have hdm := daysInMonth_le c.year c.month
  have hm := hv.month.2
  have hy := hv.year
  have hho := hv.hour
  have hmi := hv.minute
  have hse := hv.second
  have hc : c.year = c.year / 400 * 400 + c.year % 400 := by omega
  have e400 : ((c.year : Int) % 400).toNat = c.year % 400 := by omega
  have hdm' : daysInMonth (c.year % 400) c.month = daysInMonth c.year c.month := by
    rw [← daysInMonth_cycle (c.year / 400), ← hc]
  have hdb : daysBeforeMonth (c.year % 400) c.month = daysBeforeMonth c.year c.month := by
    rw [← daysBeforeMonth_cycle (c.year / 400), ← hc]
  have hyy : daysBeforeYear c.year = 146097 * (c.year / 400) + daysBeforeYear (c.year % 400) := by
    rw [← daysBeforeYear_cycle, ← hc]
  have ho : ymdToOrdinal (c.year % 400) c.month c.day = some (daysBeforeMonth c.year c.month + c.day) :=
    ymdToOrdinal_iff.2 ⟨hv.month, by rw [hdm']; exact hv.day, by rw [hdb]⟩
  have ec : ∀ ch r, scanChar ch (ch :: r) = some r := fun ch r => scanChar_iff.2 rfl
  unfold parseIso8601 DateTime.basic DateTime.yyyymmdd
  simp only [List.append_assoc, List.cons_append, List.nil_append]
  simp only [Option.bind_eq_bind, scanYear_four (show c.year < 10000 by omega), ec,
    scanItem_two (show c.month < 100 by omega), scanItem_two (show c.day < 100 by omega),
    scanItem_two (show c.hour < 100 by omega), scanItem_two (show c.minute < 100 by omega),
    scanItem_two (show c.second < 100 by omega), Option.bind_some, e400, ho]
  rw [if_neg (by simp), if_neg (by omega), if_neg (by omega)]
  simp only [Option.some.injEq, DateTime.unix, epoch_day]
  rw [numDaysFromCe_eq, if_neg (by omega)]
  unfold dayNumber
  rw [hyy]
  have := hv.day.1
  omega

end CSS
