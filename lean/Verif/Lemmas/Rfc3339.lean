import Verif.Model.Rfc3339
import Verif.Spec.Rfc3339
import Verif.Lemmas.Stamp
import Verif.Lemmas.JsonValue
namespace CSS
open Spec

theorem digit_of_isDigit {c : Char} (h : isDigit c = true) : c = digit (c.toNat - 48) ∧ c.toNat - 48 < 10 := by
  unfold isDigit at h
  simp only [Bool.and_eq_true, decide_eq_true_eq] at h
  have h9 : c.toNat - 48 < 10 := by omega
  refine ⟨?_, h9⟩
  apply Char.ext
  apply UInt32.toNat_inj.1
  have := digit_toNat h9
  show c.toNat = (digit (c.toNat - 48)).toNat
  omega

theorem scanNumber_two {s r : Str} {n : Nat} : scanNumber 2 s = some (n, r) ↔ n < 100 ∧ s = d2 n ++ r := by
  constructor
  · intro h
    unfold scanNumber at h
    split at h
    · rename_i hc
      obtain ⟨hl, hd⟩ := hc
      match s, hl, hd, h with
      | a :: b :: s, _, hd, h =>
        simp only [List.take_succ_cons, List.take_zero, List.all_cons, List.all_nil, Bool.and_true,
          Bool.and_eq_true] at hd
        obtain ⟨ea, ha⟩ := digit_of_isDigit hd.1
        obtain ⟨eb, hb⟩ := digit_of_isDigit hd.2
        simp [decVal] at h
        obtain ⟨h1, h2⟩ := h
        generalize a.toNat - 48 = x at *
        generalize b.toNat - 48 = y at *
        refine ⟨by omega, ?_⟩
        have e1 : n / 10 % 10 = x := by omega
        have e2 : n % 10 = y := by omega
        simp [d2, e1, e2, ← ea, ← eb, h2]
    · cases h
  · rintro ⟨hn, rfl⟩
    have h1 : n / 10 % 10 < 10 := by omega
    have h2 : n % 10 < 10 := by omega
    unfold scanNumber
    rw [if_pos (by simp [d2, digit_isDigit h1, digit_isDigit h2])]
    simp [d2, decVal, digit_toNat h1, digit_toNat h2]
    omega

theorem scanNumber_four {s r : Str} {n : Nat} : scanNumber 4 s = some (n, r) ↔ n < 10000 ∧ s = d4 n ++ r := by
  constructor
  · intro h
    unfold scanNumber at h
    split at h
    · rename_i hc
      obtain ⟨hl, hd⟩ := hc
      match s, hl, hd, h with
      | a :: b :: c :: d :: s, _, hd, h =>
        simp only [List.take_succ_cons, List.take_zero, List.all_cons, List.all_nil, Bool.and_true,
          Bool.and_eq_true] at hd
        obtain ⟨ea, ha⟩ := digit_of_isDigit hd.1
        obtain ⟨eb, hb⟩ := digit_of_isDigit hd.2.1
        obtain ⟨ec, hc⟩ := digit_of_isDigit hd.2.2.1
        obtain ⟨ed, hd'⟩ := digit_of_isDigit hd.2.2.2
        simp [decVal] at h
        obtain ⟨h1, h2⟩ := h
        generalize a.toNat - 48 = x at *
        generalize b.toNat - 48 = y at *
        generalize c.toNat - 48 = z at *
        generalize d.toNat - 48 = u at *
        refine ⟨by omega, ?_⟩
        have e1 : n / 1000 % 10 = x := by omega
        have e2 : n / 100 % 10 = y := by omega
        have e3 : n / 10 % 10 = z := by omega
        have e4 : n % 10 = u := by omega
        simp [d4, e1, e2, e3, e4, ← ea, ← eb, ← ec, ← ed, h2]
    · cases h
  · rintro ⟨hn, rfl⟩
    have h1 : n / 1000 % 10 < 10 := by omega
    have h2 : n / 100 % 10 < 10 := by omega
    have h3 : n / 10 % 10 < 10 := by omega
    have h4 : n % 10 < 10 := by omega
    unfold scanNumber
    rw [if_pos (by simp [d4, digit_isDigit h1, digit_isDigit h2, digit_isDigit h3, digit_isDigit h4])]
    simp [d4, decVal, digit_toNat h1, digit_toNat h2, digit_toNat h3, digit_toNat h4]
    omega

theorem scanChar_iff {c : Char} {s r : Str} : scanChar c s = some r ↔ s = c :: r := by
  cases s with
  | nil => simp [scanChar]
  | cons d s =>
    simp only [scanChar]
    split
    · rename_i h; subst h; simp
    · rename_i h; simp [h]

theorem scanOffset_iff {s r : Str} {off : Int} :
    scanOffset s = some (off, r) ↔ ∃ z, ZoneDenotes z off ∧ s = z ++ r := by
  cases s with
  | nil =>
    simp only [scanOffset, reduceCtorEq, false_iff]
    rintro ⟨z, hz, e⟩
    rcases hz with ⟨rfl | rfl, _⟩ | ⟨h, m, _, _, sg, rfl, _⟩ <;> simp at e
  | cons c s =>
    simp only [scanOffset]
    split
    · rename_i hc
      constructor
      · intro h
        simp only [Option.some.injEq, Prod.mk.injEq] at h
        refine ⟨[c], .inl ⟨?_, h.1.symm⟩, by simp [h.2]⟩
        rcases hc with rfl | rfl <;> simp
      · rintro ⟨z, hz, e⟩
        rcases hz with ⟨hz, rfl⟩ | ⟨h, m, _, _, sg, rfl, hs⟩
        · rcases hz with rfl | rfl <;> simp at e <;> simp [e.2]
        · exfalso
          simp only [List.cons_append, List.cons.injEq] at e
          rw [e.1] at hc
          rcases hs with ⟨rfl, _⟩ | ⟨rfl | rfl, _⟩ <;> revert hc <;> decide
    · rename_i hc
      split
      · rename_i hs
        constructor
        · intro h
          split at h
          · cases h
          · rename_i hh r1 e1
            obtain ⟨_, e1⟩ := scanNumber_two.1 e1
            split at h
            · cases h
            · rename_i r2 e2
              have e2 := scanChar_iff.1 e2
              split at h
              · cases h
              · rename_i m r3 e3
                obtain ⟨_, e3⟩ := scanNumber_two.1 e3
                split at h
                · cases h
                · split at h
                  · cases h
                  · rename_i hm hb
                    simp only [Option.some.injEq, Prod.mk.injEq] at h
                    obtain ⟨h1, h2⟩ := h
                    refine ⟨c :: (d2 hh ++ [':'] ++ d2 m), .inr ⟨hh, m, by omega, by omega, c, rfl, ?_⟩, ?_⟩
                    · rcases hs with hs | hs
                      · left; rw [if_pos hs] at h1; exact ⟨hs, h1.symm⟩
                      · right
                        have : c ≠ '+' := by rcases hs with rfl | rfl <;> decide
                        rw [if_neg this] at h1
                        exact ⟨hs, h1.symm⟩
                    · rw [e1, e2, e3, h2]; simp
        · rintro ⟨z, hz, e⟩
          rcases hz with ⟨hz, rfl⟩ | ⟨h, m, hh, hm, sg, rfl, hs'⟩
          · exfalso
            rcases hz with rfl | rfl <;> simp at e <;> exact hc (by simp [e.1])
          · simp only [List.cons_append, List.cons.injEq, List.append_assoc] at e
            obtain ⟨rfl, e⟩ := e
            have e1 : scanNumber 2 s = some (h, ':' :: (d2 m ++ r)) :=
              scanNumber_two.2 ⟨by omega, by rw [e]; simp⟩
            have e2 : scanNumber 2 (d2 m ++ r) = some (m, r) := scanNumber_two.2 ⟨by omega, rfl⟩
            rw [e1]
            simp only [scanChar, if_true]
            rw [e2]
            simp only
            rw [if_neg (by omega), if_neg (by omega)]
            rcases hs' with ⟨rfl, rfl⟩ | ⟨hs', rfl⟩
            · simp
            · have : c ≠ '+' := by rcases hs' with rfl | rfl <;> decide
              rw [if_neg this]
      · rename_i hs
        simp only [reduceCtorEq, false_iff]
        rintro ⟨z, hz, e⟩
        rcases hz with ⟨hz, rfl⟩ | ⟨h, m, hh, hm, sg, rfl, hs'⟩
        · rcases hz with rfl | rfl <;> simp at e <;> exact hc (by simp [e.1])
        · simp only [List.cons_append, List.cons.injEq] at e
          obtain ⟨rfl, e⟩ := e
          rcases hs' with ⟨rfl, _⟩ | ⟨h | h, _⟩ <;> simp_all

theorem scanFraction_sound {s r : Str} (h : scanFraction s = some r) : ∃ f, Fraction f ∧ s = f ++ r := by
  unfold scanFraction at h
  split at h
  · rename_i t
    split at h
    · cases h
    · rename_i hne
      simp only [Option.some.injEq] at h
      refine ⟨'.' :: t.takeWhile isDigit, .inr ⟨_, ⟨hne, ?_⟩, rfl⟩, ?_⟩
      · intro c hc
        exact (isDigit_iff c).1 (List.all_eq_true.1 (List.all_takeWhile (p := isDigit) (l := t)) c hc)
      · rw [← h]; simp [List.takeWhile_append_dropWhile]
  · simp only [Option.some.injEq] at h
    exact ⟨[], .inl rfl, by simp [h]⟩

theorem zone_head {z : Str} {off : Int} (h : ZoneDenotes z off) : ∃ c t, z = c :: t ∧ isDigit c = false ∧ c ≠ '.' := by
  rcases h with ⟨rfl | rfl, _⟩ | ⟨h, m, _, _, sg, rfl, hs⟩
  · exact ⟨_, _, rfl, by decide, by decide⟩
  · exact ⟨_, _, rfl, by decide, by decide⟩
  · refine ⟨sg, _, rfl, ?_⟩
    rcases hs with ⟨rfl, _⟩ | ⟨rfl | rfl, _⟩ <;> decide

theorem scanFraction_complete {f z : Str} {off : Int} (hf : Fraction f) (hz : ZoneDenotes z off) (r : Str) :
    scanFraction (f ++ (z ++ r)) = some (z ++ r) := by
  obtain ⟨c, t, rfl, hd, hdot⟩ := zone_head hz
  rcases hf with rfl | ⟨ds, hds, rfl⟩
  · unfold scanFraction
    split
    · rename_i h; simp at h; exact absurd h.1 hdot
    · rfl
  · have hall : ∀ x ∈ ds, isDigit x = true := fun x hx => (isDigit_iff x).2 (hds.2 x hx)
    have ht : (ds ++ (c :: t ++ r)).takeWhile isDigit = ds := by
      rw [List.takeWhile_append_of_pos hall]; simp [hd]
    have hdr : (ds ++ (c :: t ++ r)).dropWhile isDigit = c :: t ++ r := by
      rw [List.dropWhile_append_of_pos hall]; simp [hd]
    simp only [List.cons_append, scanFraction]
    rw [show ds ++ c :: (t ++ r) = ds ++ (c :: t ++ r) by simp, ht, hdr, if_neg hds.1]; simp

/-- Days from CE of chrono are the counted days. -/
theorem numDaysFromCe_eq (y o : Nat) : numDaysFromCe y o = (daysBeforeYear y : Int) + o - 366 := by
  rw [daysBeforeYear_eq]
  unfold numDaysFromCe yearDelta
  simp only
  cases y with
  | zero => simp; omega
  | succ y =>
    rw [if_neg (by omega)]
    simp only
    have e : ((y + 1 : Nat) : Int) - 1 = (y : Int) := by omega
    rw [e]
    have h1 : (y : Int) * 1461 / 4 = 365 * y + (y / 4 : Nat) := by omega
    have h2 : (y : Int) / 100 = (y / 100 : Nat) := by omega
    have h3 : (y : Int) / 100 / 4 = (y / 400 : Nat) := by omega
    have h4 : (y + 1 + 3) / 4 = y / 4 + 1 := by omega
    have h5 : (y + 1 + 99) / 100 = y / 100 + 1 := by omega
    have h6 : (y + 1 + 399) / 400 = y / 400 + 1 := by omega
    have h7 : y / 100 ≤ y / 4 := by omega
    rw [h1, h3, h2, h4, h5, h6]
    generalize y / 4 = a at *
    generalize y / 100 = b at *
    generalize y / 400 = c at *
    omega

theorem ymdToOrdinal_iff {y m d o : Nat} :
    ymdToOrdinal y m d = some o ↔
      (1 ≤ m ∧ m ≤ 12) ∧ (1 ≤ d ∧ d ≤ daysInMonth y m) ∧ o = daysBeforeMonth y m + d := by
  have key : 1 ≤ m ∧ m ≤ 12 → (monthLengths (isLeap y)).getD (m - 1) 0 = daysInMonth y m ∧
      ((monthLengths (isLeap y)).take (m - 1)).sum = daysBeforeMonth y m := by
    rintro ⟨h1, h2⟩
    have hm : m = 1 ∨ m = 2 ∨ m = 3 ∨ m = 4 ∨ m = 5 ∨ m = 6 ∨ m = 7 ∨ m = 8 ∨ m = 9 ∨ m = 10 ∨ m = 11 ∨ m = 12 := by
      omega
    by_cases hl : LeapYear y
    · have := (isLeap_iff y).2 hl
      rcases hm with h | h | h | h | h | h | h | h | h | h | h | h <;> subst h <;>
        simp [monthLengths, this, daysInMonth, daysBeforeMonth, hl]
    · have : isLeap y = false := by
        cases h : isLeap y
        · rfl
        · exact absurd ((isLeap_iff y).1 h) hl
      rcases hm with h | h | h | h | h | h | h | h | h | h | h | h <;> subst h <;>
        simp [monthLengths, this, daysInMonth, daysBeforeMonth, hl]
  unfold ymdToOrdinal
  split
  · rename_i h
    obtain ⟨k1, k2⟩ := key ⟨h.1, h.2.1⟩
    rw [k1] at h
    rw [k2]
    simp only [Option.some.injEq]
    constructor
    · rintro rfl; exact ⟨⟨h.1, h.2.1⟩, h.2.2, rfl⟩
    · rintro ⟨_, _, rfl⟩; rfl
  · rename_i h
    simp only [reduceCtorEq, false_iff]
    rintro ⟨h1, h2, _⟩
    obtain ⟨k1, _⟩ := key h1
    exact h ⟨h1.1, h1.2, by rw [k1]; exact h2⟩

theorem parseRfc3339_iff {s : Str} {t : Int} : parseRfc3339 s = some t ↔ ReadsAs s t := by
  constructor
  · intro h
    unfold parseRfc3339 at h
    simp only [Option.bind_eq_bind, Option.bind_eq_some_iff] at h
    obtain ⟨⟨y, s1⟩, e1, s2, e2, ⟨mo, s3⟩, e3, s4, e4, ⟨d, s5⟩, e5, s6, e6, ⟨hh, s7⟩, e7, s8, e8, ⟨mi, s9⟩, e9, s10, e10,
      ⟨se, s11⟩, e11, s12, e12, ⟨off, s13⟩, e13, h⟩ := h
    split at h
    · cases h
    · rename_i hnil
      split at h
      · cases h
      · rename_i hr
        simp only [Option.bind_eq_some_iff, Option.some.injEq] at h
        obtain ⟨o, eo, rfl⟩ := h
        obtain ⟨b1, e1⟩ := scanNumber_four.1 e1
        have e2 := scanChar_iff.1 e2
        obtain ⟨b3, e3⟩ := scanNumber_two.1 e3
        have e4 := scanChar_iff.1 e4
        obtain ⟨b5, e5⟩ := scanNumber_two.1 e5
        obtain ⟨sep, hsep, e6⟩ : ∃ sep, sep ∈ s% "Tt " ∧ s5 = sep :: s6 := by
          cases s5 with
          | nil => simp [scanSep] at e6
          | cons c r =>
            simp only [scanSep] at e6
            split at e6
            · rename_i hc
              simp only [Option.some.injEq] at e6
              refine ⟨c, ?_, by rw [e6]⟩
              rcases hc with rfl | rfl | rfl <;> decide
            · cases e6
        obtain ⟨b7, e7⟩ := scanNumber_two.1 e7
        have e8 := scanChar_iff.1 e8
        obtain ⟨b9, e9⟩ := scanNumber_two.1 e9
        have e10 := scanChar_iff.1 e10
        obtain ⟨b11, e11⟩ := scanNumber_two.1 e11
        obtain ⟨f, hf, e12⟩ := scanFraction_sound e12
        obtain ⟨z, hz, e13⟩ := scanOffset_iff.1 e13
        obtain ⟨v1, v2, rfl⟩ := ymdToOrdinal_iff.1 eo
        have hs13 : s13 = [] := by simpa using hnil
        simp only at e1 e2 e3 e4 e5 e7 e8 e9 e10 e11 e12 e13
        refine ⟨⟨y, mo, d, hh, mi, if se = 60 then 59 else se⟩, se, sep, f, z, off,
          ⟨by simp; omega, v1, v2, by simp; omega, by simp; omega, by simp; split <;> omega⟩, ?_, hsep, hf, hz, ?_, ?_⟩
        · simp only; split
          · rename_i h60; right; exact ⟨h60, rfl⟩
          · left; rfl
        · rw [e1, e2, e3, e4, e5, e6, e7, e8, e9, e10, e11, e12, e13, hs13]; simp
        · simp only [DateTime.unix, epoch_day]
          rw [numDaysFromCe_eq]
          unfold dayNumber
          have := v2.1
          omega
  · rintro ⟨c, se, sep, f, z, off, hv, hse, hsep, hf, hz, hs, ht⟩
    rw [hs, ht]
    clear hs ht
    have hd := hv.day.2
    have hdm := daysInMonth_le c.year c.month
    have hm := hv.month.2
    have e1 : ∀ r, scanNumber 4 (d4 c.year ++ r) = some (c.year, r) := fun r =>
      scanNumber_four.2 ⟨by have := hv.year; omega, rfl⟩
    have e2 : ∀ n r, n < 100 → scanNumber 2 (d2 n ++ r) = some (n, r) := fun n r h => scanNumber_two.2 ⟨h, rfl⟩
    have ec : ∀ ch r, scanChar ch (ch :: r) = some r := fun ch r => scanChar_iff.2 rfl
    have hf' := scanFraction_complete hf hz []
    have hz' : scanOffset (z ++ []) = some (off, []) := scanOffset_iff.2 ⟨z, hz, rfl⟩
    simp only [List.append_nil] at hf' hz'
    have hse' : se ≤ 60 := by have := hv.second; omega
    have hho := hv.hour
    have hmi := hv.minute
    have ho : ymdToOrdinal c.year c.month c.day = some (daysBeforeMonth c.year c.month + c.day) :=
      ymdToOrdinal_iff.2 ⟨hv.month, hv.day, rfl⟩
    have hsp : sep = 't' ∨ sep = 'T' ∨ sep = ' ' := by
      simp at hsep; rcases hsep with h | h | h <;> simp [h]
    unfold parseRfc3339
    simp only [List.append_assoc, List.cons_append, List.nil_append]
    simp only [Option.bind_eq_bind, e1, ec, e2 _ _ (show c.month < 100 by omega), e2 _ _ (show c.day < 100 by omega),
      e2 _ _ (show c.hour < 100 by omega), e2 _ _ (show c.minute < 100 by omega), e2 _ _ (show se < 100 by omega),
      Option.bind_some, scanSep, if_pos hsp, hf', hz', ho]
    rw [if_neg (by simp), if_neg (by omega)]
    simp only [Option.some.injEq, DateTime.unix, epoch_day]
    rw [numDaysFromCe_eq]
    unfold dayNumber
    have := hv.day.1
    have hss := hv.second
    have : (if se = 60 then 59 else se) = c.second := by
      split <;> omega
    rw [this]
    omega

/-- A text is read as at most one instant. -/
theorem readsAs_unique {s : Str} {t t' : Int} (h : ReadsAs s t) (h' : ReadsAs s t') : t = t' := by
  have h1 := parseRfc3339_iff.2 h
  have h2 := parseRfc3339_iff.2 h'
  rw [h1] at h2; simpa using h2

theorem fromRfc3339_ok {s : Str} {t : UnixTimestamp} :
    UnixTimestamp.fromRfc3339 s = .ok t ↔ ReadsAs s t.val ∧ t.InRange := by
  unfold UnixTimestamp.fromRfc3339
  constructor
  · intro h
    split at h
    · cases h
    · rename_i n e
      unfold UnixTimestamp.tryFrom at h
      split at h
      · rename_i h'
        split at h'
        · rename_i hr; cases h'; cases h
          exact ⟨parseRfc3339_iff.1 e, hr⟩
        · cases h'
      · cases h
      · cases h
  · rintro ⟨h, hr⟩
    rw [parseRfc3339_iff.2 h]
    have : UnixTimestamp.tryFrom t.val = .ok t := by
      unfold UnixTimestamp.tryFrom; exact if_pos hr
    simp only [this]

theorem rfc3339_readsAs {s : Str} {t : Int} (h : Rfc3339Denotes s t) : ReadsAs s t := by
  obtain ⟨c, hc, rfl, rfl⟩ := h
  exact ⟨c, c.second, 'T', [], ['Z'], 0, hc, .inl rfl, by decide, .inl rfl, .inl ⟨.inl rfl, rfl⟩,
    by simp [DateTime.rfc3339], by simp⟩

end CSS
