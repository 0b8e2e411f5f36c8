import Verif.Spec.Iso8601
import Verif.Lemmas.Iso8601
import Verif.Lemmas.Json
/- The basic-format reader reads exactly the texts of the specification. -/
namespace CSS
open Spec

theorem isWhiteSpace_mem (c : Char) : isWhiteSpace c = true ↔ c.toNat ∈ whiteSpace := by
  unfold isWhiteSpace whiteSpace
  simp only [Bool.or_eq_true, Bool.and_eq_true, decide_eq_true_eq, List.mem_cons, List.not_mem_nil, or_false]
  omega

theorem isDigit_not_white {c : Char} (h : isDigit c = true) : isWhiteSpace c = false := by
  obtain ⟨e, h9⟩ := digit_of_isDigit h
  rw [e]; exact (digit_not_white h9).1

theorem isoDropWhile_split (p : Char → Bool) (s : Str) :
    ∃ w, s = w ++ s.dropWhile p ∧ (∀ c ∈ w, p c = true) ∧ ∀ c ∈ (s.dropWhile p).head?, p c = false := by
  induction s with
  | nil => exact ⟨[], rfl, by simp, by simp⟩
  | cons a s ih =>
    cases h : p a with
    | true =>
      obtain ⟨w, e, h1, h2⟩ := ih
      refine ⟨a :: w, ?_, ?_, ?_⟩
      · simp only [List.dropWhile_cons, h, if_true, List.cons_append]; rw [← e]
      · intro c hc
        rcases List.mem_cons.1 hc with rfl | hc
        · exact h
        · exact h1 c hc
      · simpa only [List.dropWhile_cons, h, if_true] using h2
    | false =>
      refine ⟨[], ?_, by simp, ?_⟩
      · simp [h]
      · simp [h]

theorem isoDropWhile_append {p : Char → Bool} {w r : Str} (hw : ∀ c ∈ w, p c = true) (hr : ∀ c ∈ r.head?, p c = false) :
    (w ++ r).dropWhile p = r := by
  induction w with
  | nil =>
    cases r with
    | nil => rfl
    | cons a r => simp [hr a (by simp)]
  | cons a w ih =>
    simp only [List.cons_append, List.dropWhile_cons, hw a (by simp), if_true]
    exact ih fun c hc => hw c (by simp [hc])

theorem takeWhile_isDigit {ds r : Str} (hd : ∀ c ∈ ds, isDigit c = true) (hr : ∀ c ∈ r.head?, isDigit c = false) :
    (ds ++ r).takeWhile isDigit = ds := by
  induction ds with
  | nil =>
    cases r with
    | nil => rfl
    | cons a r => simp [hr a (by simp)]
  | cons a w ih =>
    simp only [List.cons_append, List.takeWhile_cons, hd a (by simp), if_true]
    rw [ih fun c hc => hd c (by simp [hc])]

theorem take_takeWhile_split (max : Nat) (s : Str) :
    ∃ ds r, s = ds ++ r ∧ (s.take max).takeWhile isDigit = ds ∧ (∀ c ∈ ds, isDigit c = true) ∧ ds.length ≤ max ∧
      (ds.length = max ∨ ∀ c ∈ r.head?, isDigit c = false) := by
  induction max generalizing s with
  | zero => exact ⟨[], s, rfl, by simp, by simp, by simp, .inl rfl⟩
  | succ n ih =>
    cases s with
    | nil => exact ⟨[], [], rfl, by simp, by simp, by simp, .inr (by simp)⟩
    | cons a s =>
      cases h : isDigit a with
      | false => exact ⟨[], a :: s, rfl, by simp [h], by simp, by simp, .inr (by simp [h])⟩
      | true =>
        obtain ⟨ds, r, e, h1, h2, h3, h4⟩ := ih s
        refine ⟨a :: ds, r, by rw [e]; rfl, by simp [h, h1], ?_, by simpa using h3, ?_⟩
        · intro c hc
          rcases List.mem_cons.1 hc with rfl | hc
          · exact h
          · exact h2 c hc
        · rcases h4 with h4 | h4
          · left; simp [h4]
          · exact .inr h4

theorem take_takeWhile_eq {max : Nat} {ds r : Str} (hd : ∀ c ∈ ds, isDigit c = true) (hl : ds.length ≤ max)
    (hr : ds.length = max ∨ ∀ c ∈ r.head?, isDigit c = false) : ((ds ++ r).take max).takeWhile isDigit = ds := by
  rcases hr with hr | hr
  · subst hr
    rw [List.take_left' rfl]
    have := takeWhile_isDigit (r := []) hd (by simp)
    simpa using this
  · rw [List.take_append]
    rw [List.take_of_length_le hl]
    apply takeWhile_isDigit hd
    intro c hc
    cases r with
    | nil => simp at hc
    | cons a r =>
      cases h : max - ds.length with
      | zero => rw [h] at hc; simp at hc
      | succ k => rw [h] at hc; simp at hc; subst hc; exact hr a (by simp)

theorem noDigitNext_iff (r : Str) : NoDigitNext r ↔ ∀ c ∈ r.head?, isDigit c = false := by
  unfold NoDigitNext
  constructor
  · intro h c hc
    cases e : isDigit c with
    | false => rfl
    | true => exact absurd ((isDigit_iff c).1 e) (h c hc)
  · intro h c hc hm
    have := h c hc
    rw [(isDigit_iff c).2 hm] at this
    cases this

theorem digits_iff_isDigit (ds : Str) : Digits ds ↔ ds ≠ [] ∧ ∀ c ∈ ds, isDigit c = true := by
  unfold Digits
  simp only [isDigit_iff]

theorem scanDigits_some {max : Nat} {s r : Str} {n : Nat} :
    scanDigits (some max) s = some (n, r) ↔ ∃ ds, s = ds ++ r ∧ Digits ds ∧ ds.length ≤ max ∧ decVal ds = n ∧
      (ds.length = max ∨ NoDigitNext r) := by
  simp only [noDigitNext_iff, digits_iff_isDigit]
  constructor
  · intro h
    obtain ⟨ds, r', e, h1, h2, h3, h4⟩ := take_takeWhile_split max s
    unfold scanDigits at h
    simp only [h1] at h
    split at h
    · cases h
    · rename_i hne
      simp only [Option.some.injEq, Prod.mk.injEq] at h
      obtain ⟨rfl, rfl⟩ := h
      subst e
      simp only [List.drop_left']
      exact ⟨ds, rfl, ⟨hne, h2⟩, h3, rfl, h4⟩
  · rintro ⟨ds, rfl, hd, hl, rfl, hr⟩
    unfold scanDigits
    simp only [take_takeWhile_eq hd.2 hl hr, if_neg hd.1, List.drop_left']

theorem scanDigits_none {s r : Str} {n : Nat} :
    scanDigits none s = some (n, r) ↔ ∃ ds, s = ds ++ r ∧ Digits ds ∧ decVal ds = n ∧
      NoDigitNext r := by
  simp only [noDigitNext_iff, digits_iff_isDigit]
  constructor
  · intro h
    obtain ⟨ds, r', e, h1, h2, h3, h4⟩ := take_takeWhile_split (s.length + 1) s
    rw [List.take_of_length_le (by omega)] at h1
    have h5 : ∀ c ∈ r'.head?, isDigit c = false := by
      rcases h4 with h4 | h4
      · have := congrArg List.length e; simp at this; omega
      · exact h4
    unfold scanDigits at h
    simp only [h1] at h
    split at h
    · cases h
    · rename_i hne
      simp only [Option.some.injEq, Prod.mk.injEq] at h
      obtain ⟨rfl, rfl⟩ := h
      subst e
      simp only [List.drop_left']
      exact ⟨ds, rfl, ⟨hne, h2⟩, rfl, h5⟩
  · rintro ⟨ds, rfl, hd, rfl, hr⟩
    unfold scanDigits
    simp only [takeWhile_isDigit hd.2 hr, if_neg hd.1, List.drop_left']

theorem digits_head {ds r : Str} (h : Digits ds) : ∃ a t, ds ++ r = a :: t ∧ isDigit a = true := by
  obtain ⟨hne, hd⟩ := (digits_iff_isDigit ds).1 h
  cases ds with
  | nil => exact absurd rfl hne
  | cons a t => exact ⟨a, t ++ r, rfl, hd a (by simp)⟩

theorem scanItem_iff {max : Nat} {s r : Str} {n : Nat} :
    scanItem max s = some (n, r) ↔ ∃ f, s = f ++ r ∧ Field max f n r := by
  unfold scanItem
  rw [scanDigits_some]
  constructor
  · rintro ⟨ds, e, hd, hl, hn, hr⟩
    obtain ⟨w, ew, hw, _⟩ := isoDropWhile_split isWhiteSpace s
    refine ⟨w ++ ds, ?_, w, ds, rfl, fun c hc => (isWhiteSpace_mem c).1 (hw c hc), hd, hl, hn, hr⟩
    rw [e] at ew; rw [ew, List.append_assoc]
  · rintro ⟨f, rfl, w, ds, rfl, hw, hd, hl, hn, hr⟩
    refine ⟨ds, ?_, hd, hl, hn, hr⟩
    rw [List.append_assoc]
    apply isoDropWhile_append fun c hc => (isWhiteSpace_mem c).2 (hw c hc)
    obtain ⟨a, t, e, ha⟩ := digits_head (r := r) hd
    intro c hc
    rw [e] at hc; simp at hc; subst hc
    exact isDigit_not_white ha

theorem scanYear_iff {s r : Str} {y : Int} :
    scanYear s = some (y, r) ↔ ∃ f, s = f ++ r ∧ YearField f y r := by
  constructor
  · intro h
    obtain ⟨w, ew, hw, _⟩ := isoDropWhile_split isWhiteSpace s
    have hb : Blank w := fun c hc => (isWhiteSpace_mem c).1 (hw c hc)
    unfold scanYear at h
    split at h
    · rename_i t e
      simp only [Option.map_eq_some_iff, Prod.mk.injEq] at h
      obtain ⟨⟨n, r'⟩, h, rfl, rfl⟩ := h
      obtain ⟨ds, rfl, hd, rfl, hr⟩ := scanDigits_none.1 h
      rw [e] at ew
      refine ⟨w ++ '-' :: ds, by rw [ew]; simp, .inr ⟨w, '-', ds, rfl, hb, hd, hr, .inr ⟨rfl, rfl⟩⟩⟩
    · rename_i t e
      simp only [Option.map_eq_some_iff, Prod.mk.injEq] at h
      obtain ⟨⟨n, r'⟩, h, rfl, rfl⟩ := h
      obtain ⟨ds, rfl, hd, rfl, hr⟩ := scanDigits_none.1 h
      rw [e] at ew
      refine ⟨w ++ '+' :: ds, by rw [ew]; simp, .inr ⟨w, '+', ds, rfl, hb, hd, hr, .inl ⟨rfl, rfl⟩⟩⟩
    · simp only [Option.map_eq_some_iff, Prod.mk.injEq] at h
      obtain ⟨⟨n, r'⟩, h, rfl, rfl⟩ := h
      obtain ⟨f, e, hf⟩ := scanItem_iff.1 h
      exact ⟨f, e, .inl ⟨n, hf, rfl⟩⟩
  · rintro ⟨f, rfl, ⟨n, hf, rfl⟩ | ⟨w, sign, ds, rfl, hw, hd, hr, hs⟩⟩
    · have hi : scanItem 4 (f ++ r) = some (n, r) := scanItem_iff.2 ⟨f, rfl, hf⟩
      unfold scanItem at hi
      obtain ⟨ds, e, hd, _⟩ := scanDigits_some.1 hi
      obtain ⟨a, t, e', ha⟩ := digits_head (r := r) hd
      obtain ⟨ea, h9⟩ := digit_of_isDigit ha
      have hx := digit_not_white h9
      rw [← ea] at hx
      unfold scanYear
      split
      · rename_i e2; rw [e, e'] at e2; cases e2; exact absurd rfl hx.2.1
      · rename_i e2; rw [e, e'] at e2; cases e2; exact absurd rfl hx.2.2
      · rw [hi]; rfl
    · have e : (w ++ sign :: ds ++ r).dropWhile isWhiteSpace = sign :: (ds ++ r) := by
        rw [List.append_assoc]
        apply isoDropWhile_append fun c hc => (isWhiteSpace_mem c).2 (hw c hc)
        intro c hc
        simp at hc; subst hc
        rcases hs with ⟨rfl, _⟩ | ⟨rfl, _⟩ <;> decide
      have h0 : scanDigits none (ds ++ r) = some (decVal ds, r) := scanDigits_none.2 ⟨ds, rfl, hd, rfl, hr⟩
      unfold scanYear
      rw [e]
      rcases hs with ⟨rfl, rfl⟩ | ⟨rfl, rfl⟩
      · simp [h0]
      · simp [h0]

/-- The seconds of a date in a year of the 400-year cycle are those of the calendar, for years from 0. -/
theorem cycle_unix {c : DateTime} (h1 : 1 ≤ c.day) :
    (numDaysFromCe (c.year % 400) (daysBeforeMonth (c.year % 400) c.month + c.day) + ((c.year : Int) / 400) * 146097 - 719163) * 86400
      + (c.hour * 3600 + c.minute * 60 + c.second : Nat) = c.unix := by
  have hc : c.year = c.year / 400 * 400 + c.year % 400 := by omega
  have hdb : daysBeforeMonth (c.year % 400) c.month = daysBeforeMonth c.year c.month := by
    rw [← daysBeforeMonth_cycle (c.year / 400), ← hc]
  have hyy : daysBeforeYear c.year = 146097 * (c.year / 400) + daysBeforeYear (c.year % 400) := by
    rw [← daysBeforeYear_cycle, ← hc]
  simp only [DateTime.unix, epoch_day]
  rw [numDaysFromCe_eq, hdb]
  unfold dayNumber
  rw [hyy]
  omega

theorem parseIso8601_iff {s : Str} {t : Int} (ht : -62167219200 ≤ t ∧ t ≤ 253402300799) :
    parseIso8601 s = some t ↔ BasicReadsAs s t := by
  constructor
  · intro h
    unfold parseIso8601 at h
    simp only [Option.bind_eq_bind, Option.bind_eq_some_iff] at h
    obtain ⟨⟨y, s1⟩, e1, ⟨mo, s2⟩, e2, ⟨d, s3⟩, e3, s4, e4, ⟨hh, s5⟩, e5, ⟨mi, s6⟩, e6, ⟨se, s7⟩, e7, s8, e8, h⟩ := h
    split at h
    · cases h
    rename_i hnil
    split at h
    · cases h
    rename_i hr
    split at h
    · cases h
    rename_i hy
    simp only [Option.bind_eq_some_iff, Option.some.injEq] at h
    obtain ⟨o, eo, et⟩ := h
    obtain ⟨fy, e1, k1⟩ := scanYear_iff.1 e1
    obtain ⟨fm, e2, k2⟩ := scanItem_iff.1 e2
    obtain ⟨fd, e3, k3⟩ := scanItem_iff.1 e3
    have e4 := scanChar_iff.1 e4
    obtain ⟨fh, e5, k5⟩ := scanItem_iff.1 e5
    obtain ⟨fi, e6, k6⟩ := scanItem_iff.1 e6
    obtain ⟨fs, e7, k7⟩ := scanItem_iff.1 e7
    have e8 := scanChar_iff.1 e8
    have hs8 : s8 = [] := by simpa using hnil
    obtain ⟨v1, v2, rfl⟩ := ymdToOrdinal_iff.1 eo
    simp only at *
    subst hs8 e8 e7 e6 e5 e4 e3 e2 e1
    have hb := daysBeforeMonth_day_le (y % 400).toNat mo d v1 v2
    have hm := daysBeforeYear_mono (a := (y % 400).toNat + 1) (b := 400) (by omega)
    have h400 : daysBeforeYear 400 = 146097 := by rw [daysBeforeYear_eq]; decide
    rw [daysBeforeYear] at hm
    have hse : (if se = 60 then 59 else se) < 60 := by split <;> omega
    have hy0 : 0 ≤ y := by
      rw [numDaysFromCe_eq] at et
      have : 0 ≤ y / 400 := by omega
      omega
    obtain ⟨n, rfl⟩ : ∃ n : Nat, y = n := ⟨y.toNat, by omega⟩
    have e400 : ((n : Int) % 400).toNat = n % 400 := by omega
    rw [e400] at et v2 hb hm
    have hc : n = n / 400 * 400 + n % 400 := by omega
    have hu := cycle_unix (c := ⟨n, mo, d, hh, mi, if se = 60 then 59 else se⟩) v2.1
    simp only at hu
    rw [hu] at et
    have hn : n ≤ 9999 := by
      have hyy : daysBeforeYear n = 146097 * (n / 400) + daysBeforeYear (n % 400) := by
        rw [← daysBeforeYear_cycle, ← hc]
      have h3 : daysBeforeYear 10000 = 3652425 := by rw [daysBeforeYear_eq]; decide
      rcases Nat.lt_or_ge 9999 n with hlt | hge
      · have := daysBeforeYear_mono (a := 10000) (b := n) (by omega)
        have hu' := et
        simp only [DateTime.unix] at hu'
        rw [epoch_day] at hu'
        simp only [dayNumber] at hu'
        omega
      · exact hge
    refine ⟨⟨n, mo, d, hh, mi, if se = 60 then 59 else se⟩, se, fy, fm, fd, fh, fi, fs,
      ⟨hn, v1, ?_, by simp; omega, by simp; omega, hse⟩, ?_, rfl, k1, k2, k3, k5, k6, k7, et.symm⟩
    · simp only
      rw [← daysInMonth_cycle (n / 400), ← hc] at v2
      exact v2
    · simp only; split
      · rename_i h60; right; exact ⟨h60, rfl⟩
      · left; rfl
  · rintro ⟨c, se, fy, fm, fd, fh, fi, fs, hv, hse, rfl, k1, k2, k3, k5, k6, k7, e⟩
    rw [e]
    clear e ht
    have hc : c.year = c.year / 400 * 400 + c.year % 400 := by omega
    have e400 : ((c.year : Int) % 400).toNat = c.year % 400 := by omega
    have hdm' : daysInMonth (c.year % 400) c.month = daysInMonth c.year c.month := by
      rw [← daysInMonth_cycle (c.year / 400), ← hc]
    have ho : ymdToOrdinal (c.year % 400) c.month c.day = some (daysBeforeMonth (c.year % 400) c.month + c.day) :=
      ymdToOrdinal_iff.2 ⟨hv.month, by rw [hdm']; exact hv.day, rfl⟩
    have hho := hv.hour
    have hmi := hv.minute
    have hss := hv.second
    have hy := hv.year
    unfold parseIso8601
    simp only [Option.bind_eq_bind, scanYear_iff.2 ⟨fy, rfl, k1⟩, scanItem_iff.2 ⟨fm, rfl, k2⟩, scanItem_iff.2 ⟨fd, rfl, k3⟩,
      scanItem_iff.2 ⟨fh, rfl, k5⟩, scanItem_iff.2 ⟨fi, rfl, k6⟩, scanItem_iff.2 ⟨fs, rfl, k7⟩, scanChar_iff.2 rfl,
      Option.bind_some, e400, ho]
    rw [if_neg (by simp), if_neg (by omega), if_neg (by omega)]
    have hs : (if se = 60 then 59 else se) = c.second := by split <;> omega
    rw [hs, cycle_unix hv.day.1]

end CSS
