import Verif.Model.Time
import Verif.Spec.Calendar
import Verif.Lemmas.Digits
/- The model's calendar arithmetic agrees with counting days. -/
namespace CSS
open Spec

theorem isLeap_iff (y : Nat) : isLeap y = true ↔ LeapYear y := by
  unfold isLeap LeapYear
  simp only [Bool.or_eq_true, Bool.and_eq_true, decide_eq_true_eq, ne_eq]
  omega

theorem daysBeforeYear_eq (y : Nat) : daysBeforeYear y = 365 * y + yearDelta y := by
  induction y with
  | zero => decide
  | succ y ih =>
    rw [daysBeforeYear, ih]
    unfold daysInYear yearDelta
    by_cases h : LeapYear y
    · rw [if_pos h]; unfold LeapYear at h; omega
    · rw [if_neg h]; unfold LeapYear at h; omega

theorem cycleToYo_spec (c : Nat) (h : c < 146097) :
    (cycleToYo c).1 < 400 ∧ daysBeforeYear (cycleToYo c).1 + (cycleToYo c).2 = c ∧
      c < daysBeforeYear ((cycleToYo c).1 + 1) := by
  rw [daysBeforeYear_eq, daysBeforeYear_eq]
  unfold cycleToYo
  simp only
  split
  · rename_i h1
    have hpos : c / 365 ≠ 0 := by
      intro h0; rw [h0] at h1; unfold yearDelta at h1; omega
    obtain ⟨y, hy⟩ := Nat.exists_eq_succ_of_ne_zero hpos
    rw [hy] at h1 ⊢
    unfold yearDelta at *
    simp only [Nat.succ_eq_add_one, Nat.add_sub_cancel] at *
    omega
  · rename_i h1
    unfold yearDelta at *
    simp only
    omega

theorem daysBeforeYear_cycle (q r : Nat) :
    daysBeforeYear (q * 400 + r) = 146097 * q + daysBeforeYear r := by
  rw [daysBeforeYear_eq, daysBeforeYear_eq]; unfold yearDelta; omega

theorem leap_cycle (q r : Nat) : LeapYear (q * 400 + r) ↔ LeapYear r := by
  unfold LeapYear; omega

theorem daysInYear_cycle (q r : Nat) : daysInYear (q * 400 + r) = daysInYear r := by
  unfold daysInYear; simp only [leap_cycle]

theorem ordinalToMd_spec (y o : Nat) (h : o < daysInYear y) :
    1 ≤ (ordinalToMd (monthLengths (isLeap y)) 1 o).1 ∧ (ordinalToMd (monthLengths (isLeap y)) 1 o).1 ≤ 12 ∧
    1 ≤ (ordinalToMd (monthLengths (isLeap y)) 1 o).2 ∧
    (ordinalToMd (monthLengths (isLeap y)) 1 o).2 ≤
      daysInMonth y (ordinalToMd (monthLengths (isLeap y)) 1 o).1 ∧
    daysBeforeMonth y (ordinalToMd (monthLengths (isLeap y)) 1 o).1 +
      ((ordinalToMd (monthLengths (isLeap y)) 1 o).2 - 1) = o := by
  have hl := isLeap_iff y
  unfold daysInYear at h
  cases hb : isLeap y with
  | true =>
    have hL : LeapYear y := hl.1 hb
    simp only [hL, if_true] at h
    simp only [monthLengths, if_true]
    repeat (rw [ordinalToMd]; split; simp [daysBeforeMonth, daysInMonth, hL] <;> omega)
    omega
  | false =>
    have hL : ¬ LeapYear y := fun hc => by rw [hl.2 hc] at hb; exact absurd hb (by decide)
    simp only [hL, if_false] at h
    simp only [monthLengths, if_false, Bool.false_eq_true]
    repeat (rw [ordinalToMd]; split; simp [daysBeforeMonth, daysInMonth, hL] <;> omega)
    omega

theorem dayToYmd_spec (day : Nat) :
    1 ≤ (dayToYmd day).2.1 ∧ (dayToYmd day).2.1 ≤ 12 ∧ 1 ≤ (dayToYmd day).2.2 ∧
    (dayToYmd day).2.2 ≤ daysInMonth (dayToYmd day).1 (dayToYmd day).2.1 ∧
    dayNumber (dayToYmd day).1 (dayToYmd day).2.1 (dayToYmd day).2.2 = day ∧
    daysBeforeYear (dayToYmd day).1 ≤ day := by
  have hc := cycleToYo_spec (day % 146097) (Nat.mod_lt _ (by decide))
  obtain ⟨h1, h2, h3⟩ := hc
  have ho : (cycleToYo (day % 146097)).2 < daysInYear (day / 146097 * 400 + (cycleToYo (day % 146097)).1) := by
    rw [daysInYear_cycle]
    rw [daysBeforeYear] at h3; omega
  have hm := ordinalToMd_spec _ _ ho
  obtain ⟨m1, m2, m3, m4, m5⟩ := hm
  have hy := daysBeforeYear_cycle (day / 146097) (cycleToYo (day % 146097)).1
  refine ⟨m1, m2, m3, m4, ?_, ?_⟩
  · simp only [dayToYmd, dayNumber]
    rw [hy]
    omega
  · simp only [dayToYmd]; rw [hy]; omega

theorem daysBeforeYear_mono {a b : Nat} (h : a ≤ b) : daysBeforeYear a ≤ daysBeforeYear b := by
  rw [daysBeforeYear_eq, daysBeforeYear_eq]; unfold yearDelta; omega

theorem epoch_day : dayNumber 1970 1 1 = 719528 := by
  simp [dayNumber, daysBeforeYear_eq, daysBeforeMonth, yearDelta]

/-- A timestamp in the range accepted by `UnixTimestamp::try_from`. -/
def UnixTimestamp.InRange (t : UnixTimestamp) : Prop := -62167219200 ≤ t.val ∧ t.val ≤ 253402300799

/-- The civil time of the model as a specification date. -/
def Civil.toSpec (c : Civil) : DateTime := ⟨c.year, c.month, c.day, c.hour, c.minute, c.second⟩

theorem civil_spec (t : UnixTimestamp) (h : t.InRange) :
    t.civil.toSpec.Valid ∧ t.civil.toSpec.unix = t.val := by
  obtain ⟨h1, h2⟩ := h
  have hd := dayToYmd_spec (t.val / 86400 + 719528).toNat
  obtain ⟨m1, m2, m3, m4, m5, m6⟩ := hd
  have hdb : (t.val / 86400 + 719528).toNat < 3652425 := by omega
  have hy : (dayToYmd (t.val / 86400 + 719528).toNat).1 ≤ 9999 := by
    by_cases hy : (dayToYmd (t.val / 86400 + 719528).toNat).1 ≤ 9999
    · exact hy
    · have := daysBeforeYear_mono (a := 10000) (b := (dayToYmd (t.val / 86400 + 719528).toNat).1) (by omega)
      have h10 : daysBeforeYear 10000 = 3652425 := by rw [daysBeforeYear_eq]; decide
      omega
  refine ⟨⟨hy, ⟨m1, m2⟩, ⟨m3, m4⟩, ?_, ?_, ?_⟩, ?_⟩
  · show (t.val % 86400).toNat / 3600 < 24; omega
  · show (t.val % 86400).toNat / 60 % 60 < 60; omega
  · show (t.val % 86400).toNat % 60 < 60; omega
  · show ((dayNumber (dayToYmd (t.val / 86400 + 719528).toNat).1 (dayToYmd (t.val / 86400 + 719528).toNat).2.1
        (dayToYmd (t.val / 86400 + 719528).toNat).2.2 : Int) - (dayNumber 1970 1 1 : Int)) * 86400 +
        (((t.val % 86400).toNat / 3600 * 3600 + (t.val % 86400).toNat / 60 % 60 * 60 +
          (t.val % 86400).toNat % 60 : Nat) : Int) = t.val
    rw [m5, epoch_day]
    omega

/-! ### Rendering -/

theorem fmt2_eq {n : Nat} (h : n < 100) : fmt2 n = d2 n := by
  unfold fmt2 d2 padZero
  by_cases h1 : n < 10
  · rw [natDec_lt h1]
    have e : n / 10 % 10 = 0 := by omega
    have e2 : n % 10 = n := by omega
    rw [e, e2]; simp; rfl
  · rw [natDec_ge (by omega), natDec_lt (by omega)]
    have e : n / 10 % 10 = n / 10 := by omega
    rw [e]; simp

theorem fmtYear_eq {n : Nat} (h : n < 10000) : fmtYear n = d4 n := by
  unfold fmtYear d4 padZero
  have hz : digit 0 = '0' := by decide
  by_cases h1 : n < 10
  · rw [natDec_lt h1]
    have e1 : n / 1000 % 10 = 0 := by omega
    have e2 : n / 100 % 10 = 0 := by omega
    have e3 : n / 10 % 10 = 0 := by omega
    have e4 : n % 10 = n := by omega
    rw [e1, e2, e3, e4, hz]; simp [List.replicate]
  · by_cases h2 : n < 100
    · rw [natDec_ge (by omega), natDec_lt (by omega)]
      have e1 : n / 1000 % 10 = 0 := by omega
      have e2 : n / 100 % 10 = 0 := by omega
      have e3 : n / 10 % 10 = n / 10 := by omega
      rw [e1, e2, e3, hz]; simp [List.replicate]
    · by_cases h3 : n < 1000
      · rw [natDec_ge (by omega), natDec_ge (by omega), natDec_lt (by omega)]
        have e1 : n / 1000 % 10 = 0 := by omega
        have e2 : n / 10 / 10 = n / 100 % 10 := by omega
        rw [e1, e2, hz]; simp
      · rw [natDec_ge (by omega), natDec_ge (by omega), natDec_ge (by omega), natDec_lt (by omega)]
        have e1 : n / 10 / 10 / 10 = n / 1000 % 10 := by omega
        have e2 : n / 10 / 10 % 10 = n / 100 % 10 := by omega
        rw [e1, e2]; simp

theorem toIso8601_eq (t : UnixTimestamp) (h : t.InRange) : t.toIso8601 = t.civil.toSpec.basic := by
  obtain ⟨hv, _⟩ := civil_spec t h
  have hm : t.civil.month ≤ 12 := hv.month.2
  have hd : t.civil.day ≤ 31 := by
    have := hv.day.2
    have h31 : daysInMonth t.civil.toSpec.year t.civil.toSpec.month ≤ 31 := by
      unfold daysInMonth; split <;> (try split) <;> omega
    exact Nat.le_trans this h31
  have hy : t.civil.year ≤ 9999 := hv.year
  have hh : t.civil.hour < 24 := hv.hour
  have hmi : t.civil.minute < 60 := hv.minute
  have hs : t.civil.second < 60 := hv.second
  unfold UnixTimestamp.toIso8601 DateTime.basic DateTime.yyyymmdd
  simp only [Civil.toSpec]
  rw [fmtYear_eq (by omega), fmt2_eq (by omega), fmt2_eq (by omega), fmt2_eq (by omega),
    fmt2_eq (by omega), fmt2_eq (by omega)]

theorem toRfc3339_eq (t : UnixTimestamp) (h : t.InRange) : t.toRfc3339 = t.civil.toSpec.rfc3339 := by
  obtain ⟨hv, _⟩ := civil_spec t h
  have hm : t.civil.month ≤ 12 := hv.month.2
  have hd : t.civil.day ≤ 31 := by
    have := hv.day.2
    have h31 : daysInMonth t.civil.toSpec.year t.civil.toSpec.month ≤ 31 := by
      unfold daysInMonth; split <;> (try split) <;> omega
    exact Nat.le_trans this h31
  have hy : t.civil.year ≤ 9999 := hv.year
  have hh : t.civil.hour < 24 := hv.hour
  have hmi : t.civil.minute < 60 := hv.minute
  have hs : t.civil.second < 60 := hv.second
  unfold UnixTimestamp.toRfc3339 DateTime.rfc3339
  simp only [Civil.toSpec]
  rw [fmtYear_eq (by omega), fmt2_eq (by omega), fmt2_eq (by omega), fmt2_eq (by omega),
    fmt2_eq (by omega), fmt2_eq (by omega)]

/-- `{:08}` of `year*10000 + month*100 + day`. -/
theorem padZero8 {y m d : Nat} (hy : y ≤ 9999) (hm : m ≤ 12) (hd : d ≤ 31) :
    padZero 8 (natDec (y * 10000 + m * 100 + d)) = d4 y ++ d2 m ++ d2 d := by
  have key : ∀ k n, n < 10 ^ (k + 1) → padZero (k + 1) (natDec n) =
      padZero k (natDec (n / 10)) ++ [digit (n % 10)] ∨ (k = 0 ∧ natDec n = [digit (n % 10)]) := by
    intro k n hn
    by_cases h : n < 10
    · by_cases hk : k = 0
      · right; refine ⟨hk, ?_⟩; rw [natDec_lt h, Nat.mod_eq_of_lt h]
      · left
        have : n / 10 = 0 := by omega
        rw [this, natDec_lt h, natDec_lt (by omega), Nat.mod_eq_of_lt h]
        obtain ⟨k, rfl⟩ := Nat.exists_eq_succ_of_ne_zero hk
        have hz : digit 0 = '0' := by decide
        simp only [padZero, List.length_singleton, hz]
        rw [show k.succ + 1 - 1 = k + 1 by omega, show k.succ - 1 = k by omega]
        rw [List.replicate_succ']
    · by_cases hk : k = 0
      · subst hk; simp at hn; omega
      · left
        rw [natDec_ge (n := n) (by omega)]
        simp only [padZero, List.length_append, List.length_singleton]
        rw [show k + 1 - ((natDec (n / 10)).length + 1) = k - (natDec (n / 10)).length by omega]
        simp
  have step : ∀ k n, k ≠ 0 → n < 10 ^ (k + 1) → padZero (k + 1) (natDec n) =
      padZero k (natDec (n / 10)) ++ [digit (n % 10)] := by
    intro k n hk hn
    rcases key k n hn with h | ⟨h, _⟩
    · exact h
    · exact absurd h hk
  have n8 : y * 10000 + m * 100 + d < 10 ^ (7 + 1) := by simp; omega
  rw [step 7 _ (by omega) n8, step 6 _ (by omega) (by simp; omega), step 5 _ (by omega) (by simp; omega),
    step 4 _ (by omega) (by simp; omega)]
  have hy4 := fmtYear_eq (n := y) (by omega)
  unfold fmtYear at hy4
  rw [show (y * 10000 + m * 100 + d) / 10 / 10 / 10 / 10 = y by omega, hy4]
  simp only [d2]
  rw [show (y * 10000 + m * 100 + d) / 10 / 10 / 10 % 10 = m / 10 % 10 by omega,
    show (y * 10000 + m * 100 + d) / 10 / 10 % 10 = m % 10 by omega,
    show (y * 10000 + m * 100 + d) / 10 % 10 = d / 10 % 10 by omega,
    show (y * 10000 + m * 100 + d) % 10 = d % 10 by omega]
  simp

theorem date_eq (t : UnixTimestamp) (h : t.InRange) :
    (Date.fromUnixTimestamp t).toStr = t.civil.toSpec.yyyymmdd := by
  obtain ⟨hv, _⟩ := civil_spec t h
  have hm : t.civil.month ≤ 12 := hv.month.2
  have hd : t.civil.day ≤ 31 := by
    have := hv.day.2
    have h31 : daysInMonth t.civil.toSpec.year t.civil.toSpec.month ≤ 31 := by
      unfold daysInMonth; split <;> (try split) <;> omega
    exact Nat.le_trans this h31
  exact padZero8 hv.year hm hd

theorem fromSystemTime_ok {t : Time} {u : UnixTimestamp} :
    UnixTimestamp.fromSystemTime t = .ok u ↔
      (0 ≤ t ∧ t < 253402300800 * nsPerSec ∧ u.val = t / nsPerSec) := by
  unfold UnixTimestamp.fromSystemTime UnixTimestamp.tryFrom nsPerSec
  obtain ⟨v⟩ := u
  constructor
  · intro h
    split at h
    · cases h
    · dsimp only at h
      split at h
      · cases h
      · split at h
        · simp only [Res.ok.injEq, UnixTimestamp.mk.injEq] at h; dsimp only; omega
        · cases h
  · rintro ⟨h1, h2, h3⟩
    dsimp only at h3 ⊢
    rw [if_neg (by omega), if_neg (by omega), if_pos (by omega), h3]

theorem fromSystemTime_inRange {t : Time} {u : UnixTimestamp}
    (h : UnixTimestamp.fromSystemTime t = .ok u) : u.InRange := by
  rw [fromSystemTime_ok] at h
  obtain ⟨h1, h2, h3⟩ := h
  unfold UnixTimestamp.InRange nsPerSec at *
  omega

end CSS
