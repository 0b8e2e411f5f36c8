import Verif.Lemmas.Calendar
import Verif.Spec.Codec
/- Order and injectivity of timestamp texts. -/
set_option linter.unusedSimpArgs false
namespace CSS
open Spec

theorem lexLt_cons_eq (a : Char) (x y : Str) : LexLt (a :: x) (a :: y) ↔ LexLt x y := by
  simp [LexLt]

theorem lexLt_irrefl (x : Str) : ¬ LexLt x x := by
  induction x with
  | nil => simp [LexLt]
  | cons a x ih => simp [LexLt, ih]

theorem lexLt_append_eq (p x y : Str) : LexLt (p ++ x) (p ++ y) ↔ LexLt x y := by
  induction p with
  | nil => simp
  | cons a p ih => simp [LexLt, ih]

theorem lexLt_append_of_lt {a b : Str} (h : a.length = b.length) (hl : LexLt a b) (x y : Str) :
    LexLt (a ++ x) (b ++ y) := by
  induction a generalizing b with
  | nil => cases b with
    | nil => simp [LexLt] at hl
    | cons _ _ => simp at h
  | cons c a ih => cases b with
    | nil => simp at h
    | cons d b =>
      simp only [LexLt, List.cons_append] at hl ⊢
      rcases hl with hl | ⟨h1, h2⟩
      · exact Or.inl hl
      · exact Or.inr ⟨h1, ih (by simpa using h) h2⟩

theorem d2_lt {m n : Nat} (hm : m < 100) (hn : n < 100) (h : m < n) : LexLt (d2 m) (d2 n) := by
  simp only [d2, LexLt]
  rw [digit_toNat (by omega), digit_toNat (by omega), digit_toNat (by omega), digit_toNat (by omega)]
  by_cases h1 : m / 10 % 10 < n / 10 % 10
  · left; omega
  · right
    have e : m / 10 % 10 = n / 10 % 10 := by omega
    exact ⟨by rw [e], Or.inl (by omega)⟩

theorem d4_lt {m n : Nat} (hm : m < 10000) (hn : n < 10000) (h : m < n) : LexLt (d4 m) (d4 n) := by
  have e4 : ∀ k, k < 10000 → d4 k = d2 (k / 100) ++ d2 (k % 100) := by
    intro k hk
    simp only [d4, d2, List.cons_append, List.nil_append]
    rw [show k / 100 / 10 % 10 = k / 1000 % 10 by omega, show k % 100 / 10 % 10 = k / 10 % 10 by omega,
      show k % 100 % 10 = k % 10 by omega]
  rw [e4 m hm, e4 n hn]
  by_cases h1 : m / 100 < n / 100
  · have hl := d2_lt (by omega) (by omega) h1
    exact lexLt_append_of_lt (by simp [d2, d4]) hl _ _
  · have e : m / 100 = n / 100 := by omega
    rw [e, lexLt_append_eq]
    exact d2_lt (by omega) (by omega) (by omega)

theorem daysInMonth_le (y m : Nat) : daysInMonth y m ≤ 31 := by
  unfold daysInMonth; split <;> (try split) <;> omega

theorem daysBeforeMonth_lt (y : Nat) {m m' : Nat} (h1 : 1 ≤ m) (h : m < m') (h2 : m' ≤ 12) :
    daysBeforeMonth y m + daysInMonth y m ≤ daysBeforeMonth y m' := by
  have hs : ∀ k, 1 ≤ k → daysBeforeMonth y (k + 1) = daysBeforeMonth y k + daysInMonth y k := by
    intro k hk
    obtain ⟨j, rfl⟩ := Nat.exists_eq_succ_of_ne_zero (by omega : k ≠ 0)
    rfl
  induction m' with
  | zero => omega
  | succ k ih =>
    by_cases hk : m = k
    · subst hk; rw [hs m h1]; omega
    · have := ih (by omega) (by omega)
      rw [hs k (by omega)]; omega

theorem dayInYear_lt (y m d : Nat) (h1 : 1 ≤ m) (h2 : m ≤ 12) (h3 : 1 ≤ d) (h4 : d ≤ daysInMonth y m) :
    daysBeforeMonth y m + (d - 1) < daysInYear y := by
  have hb : daysBeforeMonth y m + daysInMonth y m ≤ daysInYear y := by
    have h12 : daysBeforeMonth y 12 + daysInMonth y 12 = daysInYear y := by
      unfold daysInYear
      by_cases hL : LeapYear y <;> simp [daysBeforeMonth, daysInMonth, hL]
    by_cases hm : m = 12
    · subst hm; omega
    · have := daysBeforeMonth_lt y h1 (show m < 12 by omega) (by omega)
      omega
  omega

theorem daysBeforeYear_lt {y y' : Nat} (h : y < y') :
    daysBeforeYear y + daysInYear y ≤ daysBeforeYear y' :=
  daysBeforeYear_mono (a := y + 1) (b := y') h

/-- If the date-time components of `c` come lexicographically before those of `c'`, the instant is
earlier; the texts compare accordingly. -/
theorem stamp_cases (c c' : DateTime) (hc : c.Valid) (hc' : c'.Valid) :
    (c.unix < c'.unix ∧ LexLt c.basic c'.basic ∧ LexLt c.rfc3339 c'.rfc3339) ∨
    (c'.unix < c.unix ∧ LexLt c'.basic c.basic ∧ LexLt c'.rfc3339 c.rfc3339) ∨ c = c' := by
  have aux : ∀ c c' : DateTime, c.Valid → c'.Valid →
      (c.year < c'.year ∨ (c.year = c'.year ∧ (c.month < c'.month ∨ (c.month = c'.month ∧
        (c.day < c'.day ∨ (c.day = c'.day ∧ (c.hour < c'.hour ∨ (c.hour = c'.hour ∧
        (c.minute < c'.minute ∨ (c.minute = c'.minute ∧ c.second < c'.second)))))))))) →
      (c.unix < c'.unix ∧ LexLt c.basic c'.basic ∧ LexLt c.rfc3339 c'.rfc3339) := by
    intro c c' hc hc' h
    obtain ⟨y, m, d, hh, mi, s⟩ := c
    obtain ⟨y', m', d', hh', mi', s'⟩ := c'
    obtain ⟨v1, v2, v3, v4, v5, v6⟩ := hc
    obtain ⟨w1, w2, w3, w4, w5, w6⟩ := hc'
    simp only at *
    have l1 := daysInMonth_le y m
    have l2 := daysInMonth_le y' m'
    have k1 := dayInYear_lt y m d v2.1 v2.2 v3.1 v3.2
    have k2 := dayInYear_lt y' m' d' w2.1 w2.2 w3.1 w3.2
    simp only [DateTime.unix, DateTime.basic, DateTime.yyyymmdd, DateTime.rfc3339, dayNumber, List.append_assoc]
    rcases h with h | ⟨rfl, h | ⟨rfl, h | ⟨rfl, h | ⟨rfl, h | ⟨rfl, h⟩⟩⟩⟩⟩
    · have hy := daysBeforeYear_lt h
      have hl := d4_lt (by omega) (by omega) h
      refine ⟨by omega, ?_, ?_⟩ <;> exact lexLt_append_of_lt (by simp [d2, d4]) hl _ _
    · have hy := daysBeforeMonth_lt y v2.1 h w2.2
      have hl := d2_lt (by omega) (by omega) h
      refine ⟨by omega, ?_, ?_⟩ <;> simp only [lexLt_append_eq, lexLt_cons_eq, List.cons_append, List.nil_append] <;>
        first | exact lexLt_append_of_lt (by simp [d2, d4]) hl _ _ | exact hl
    · have hl := d2_lt (by omega) (by omega) h
      refine ⟨by omega, ?_, ?_⟩ <;> simp only [lexLt_append_eq, lexLt_cons_eq, List.cons_append, List.nil_append] <;>
        first | exact lexLt_append_of_lt (by simp [d2, d4]) hl _ _ | exact hl
    · have hl := d2_lt (by omega) (by omega) h
      refine ⟨by omega, ?_, ?_⟩ <;> simp only [lexLt_append_eq, lexLt_cons_eq, List.cons_append, List.nil_append] <;>
        first | exact lexLt_append_of_lt (by simp [d2, d4]) hl _ _ | exact hl
    · have hl := d2_lt (by omega) (by omega) h
      refine ⟨by omega, ?_, ?_⟩ <;> simp only [lexLt_append_eq, lexLt_cons_eq, List.cons_append, List.nil_append] <;>
        first | exact lexLt_append_of_lt (by simp [d2, d4]) hl _ _ | exact hl
    · have hl := d2_lt (by omega) (by omega) h
      refine ⟨by omega, ?_, ?_⟩ <;> simp only [lexLt_append_eq, lexLt_cons_eq, List.cons_append, List.nil_append] <;>
        first | exact lexLt_append_of_lt (by simp [d2, d4]) hl _ _ | exact hl
  have tri : ∀ c c' : DateTime, (c.year < c'.year ∨ (c.year = c'.year ∧ (c.month < c'.month ∨ (c.month = c'.month ∧
        (c.day < c'.day ∨ (c.day = c'.day ∧ (c.hour < c'.hour ∨ (c.hour = c'.hour ∧
        (c.minute < c'.minute ∨ (c.minute = c'.minute ∧ c.second < c'.second)))))))))) ∨
      (c'.year < c.year ∨ (c'.year = c.year ∧ (c'.month < c.month ∨ (c'.month = c.month ∧
        (c'.day < c.day ∨ (c'.day = c.day ∧ (c'.hour < c.hour ∨ (c'.hour = c.hour ∧
        (c'.minute < c.minute ∨ (c'.minute = c.minute ∧ c'.second < c.second)))))))))) ∨ c = c' := by
    intro c c'
    by_cases e : c = c'
    · exact Or.inr (Or.inr e)
    · have : ¬ (c.year = c'.year ∧ c.month = c'.month ∧ c.day = c'.day ∧ c.hour = c'.hour ∧
          c.minute = c'.minute ∧ c.second = c'.second) := by
        rintro ⟨a1, a2, a3, a4, a5, a6⟩
        apply e
        cases c; cases c'; simp_all
      omega
  rcases tri c c' with h | h | h
  · exact Or.inl (aux c c' hc hc' h)
  · exact Or.inr (Or.inl (aux c' c hc' hc h))
  · exact Or.inr (Or.inr h)

/-- A basic-format text denotes at most one instant. -/
theorem basicDenotes_unique {s : Str} {t t' : Int} (h : BasicDenotes s t) (h' : BasicDenotes s t') :
    t = t' := by
  obtain ⟨c, hc, hs, rfl⟩ := h
  obtain ⟨c', hc', hs', rfl⟩ := h'
  rcases stamp_cases c c' hc hc' with ⟨_, h, _⟩ | ⟨_, h, _⟩ | h
  · rw [← hs, ← hs'] at h; exact absurd h (lexLt_irrefl _)
  · rw [← hs, ← hs'] at h; exact absurd h (lexLt_irrefl _)
  · rw [h]

/-- An RFC 3339 text of this shape denotes at most one instant. -/
theorem rfc3339Denotes_unique {s : Str} {t t' : Int} (h : Rfc3339Denotes s t) (h' : Rfc3339Denotes s t') :
    t = t' := by
  obtain ⟨c, hc, hs, rfl⟩ := h
  obtain ⟨c', hc', hs', rfl⟩ := h'
  rcases stamp_cases c c' hc hc' with ⟨_, _, h⟩ | ⟨_, _, h⟩ | h
  · rw [← hs, ← hs'] at h; exact absurd h (lexLt_irrefl _)
  · rw [← hs, ← hs'] at h; exact absurd h (lexLt_irrefl _)
  · rw [h]

end CSS
