import Verif.Lemmas.Sort
/- The byte order of UTF-8 text is the order of code points. -/
set_option linter.unusedSimpArgs false
namespace CSS
open Spec

theorem char_lt_limit (c : Char) : c.toNat < 0x110000 := by
  have := c.valid
  rcases this with h | h
  · exact Nat.lt_trans h (by decide)
  · exact h.2

theorem bytesLe_cons_lt {a b : UInt8} (h : a.toNat < b.toNat) (x y : Bytes) :
    bytesLe (a :: x) (b :: y) = true ∧ bytesLe (b :: y) (a :: x) = false := by
  simp only [bytesLe]
  rw [if_pos h, if_neg (by omega), if_pos h]
  exact ⟨rfl, rfl⟩

theorem bytesLe_cons_eq {a b : UInt8} (h : a.toNat = b.toNat) (x y : Bytes) :
    bytesLe (a :: x) (b :: y) = bytesLe x y := by
  simp only [bytesLe]
  rw [if_neg (by omega), if_neg (by omega)]

/-- Lexicographic comparison of two byte heads. -/
theorem bytesLe_step {a b : Nat} (ha : a < 256) (hb : b < 256) (x y : Bytes) (h : a ≤ b)
    (hrec : a = b → bytesLe x y = true ∧ bytesLe y x = false) :
    bytesLe (UInt8.ofNat a :: x) (UInt8.ofNat b :: y) = true ∧ bytesLe (UInt8.ofNat b :: y) (UInt8.ofNat a :: x) = false := by
  have ea : (UInt8.ofNat a).toNat = a := toNat_ofNat8 ha
  have eb : (UInt8.ofNat b).toNat = b := toNat_ofNat8 hb
  rcases Nat.lt_or_ge a b with hlt | hge
  · exact bytesLe_cons_lt (by rw [ea, eb]; exact hlt) _ _
  · have hab : a = b := by omega
    rw [bytesLe_cons_eq (by rw [ea, eb, hab]), bytesLe_cons_eq (by rw [ea, eb, hab])]
    exact hrec hab

theorem utf8Char_lt {c d : Char} (h : c.toNat < d.toNat) (x y : Bytes) :
    bytesLe (utf8Char c ++ x) (utf8Char d ++ y) = true ∧ bytesLe (utf8Char d ++ y) (utf8Char c ++ x) = false := by
  have hd := char_lt_limit d
  unfold utf8Char
  generalize c.toNat = m at *
  generalize d.toNat = n at *
  simp only
  split
  · split
    · exact bytesLe_step (by omega) (by omega) _ _ (by omega) (by omega)
    · split
      · exact bytesLe_step (by omega) (by omega) _ _ (by omega) (by omega)
      · split
        · exact bytesLe_step (by omega) (by omega) _ _ (by omega) (by omega)
        · exact bytesLe_step (by omega) (by omega) _ _ (by omega) (by omega)
  · split
    · rw [if_neg (by omega)]
      split
      · exact bytesLe_step (by omega) (by omega) _ _ (by omega) fun _ =>
          bytesLe_step (by omega) (by omega) _ _ (by omega) (by omega)
      · split
        · exact bytesLe_step (by omega) (by omega) _ _ (by omega) (by omega)
        · exact bytesLe_step (by omega) (by omega) _ _ (by omega) (by omega)
    · split
      · rw [if_neg (by omega), if_neg (by omega)]
        split
        · exact bytesLe_step (by omega) (by omega) _ _ (by omega) fun _ =>
            bytesLe_step (by omega) (by omega) _ _ (by omega) fun _ =>
              bytesLe_step (by omega) (by omega) _ _ (by omega) (by omega)
        · exact bytesLe_step (by omega) (by omega) _ _ (by omega) (by omega)
      · rw [if_neg (by omega), if_neg (by omega), if_neg (by omega)]
        exact bytesLe_step (by omega) (by omega) _ _ (by omega) fun _ =>
          bytesLe_step (by omega) (by omega) _ _ (by omega) fun _ =>
            bytesLe_step (by omega) (by omega) _ _ (by omega) fun _ =>
              bytesLe_step (by omega) (by omega) _ _ (by omega) (by omega)

theorem bytesLe_append_left (p x y : Bytes) : bytesLe (p ++ x) (p ++ y) = bytesLe x y := by
  induction p with
  | nil => rfl
  | cons a p ih => rw [List.cons_append, List.cons_append, bytesLe_cons_eq rfl, ih]

/-- The order of `str` in Rust is the lexicographic order of code points. -/
theorem strLe_iff (a b : Str) : strLe a b = true ↔ a = b ∨ LexLt a b := by
  induction a generalizing b with
  | nil =>
    cases b with
    | nil => simp [strLe, utf8, bytesLe]
    | cons d b => simp [strLe, utf8, bytesLe, LexLt]
  | cons c a ih =>
    cases b with
    | nil =>
      simp only [reduceCtorEq, LexLt, or_self, iff_false]
      intro h
      have := strLe_antisymm h (by simp [strLe, utf8, bytesLe])
      cases this
    | cons d b =>
      unfold strLe at ih ⊢
      rw [utf8_cons, utf8_cons]
      simp only [LexLt, List.cons.injEq]
      rcases Nat.lt_trichotomy c.toNat d.toNat with h | h | h
      · rw [(utf8Char_lt h _ _).1]
        simp [h]
      · have hcd : c = d := Char.toNat_inj.1 h
        subst hcd
        rw [bytesLe_append_left, ih]
        simp
      · rw [(utf8Char_lt h _ _).2]
        simp only [Bool.false_eq_true, false_iff]
        rintro (⟨rfl, _⟩ | h' | ⟨rfl, _⟩) <;> omega

end CSS
