import Verif.Lemmas.Utf8
import Verif.Spec.UrlStandard
/- Replacing invalid UTF-8: the model's decoder is the declarative one. -/
set_option linter.unusedSimpArgs false
namespace CSS
open Spec

theorem utf8Char_shape (c : Char) :
    (∃ b0, utf8Char c = [b0] ∧ b0.toNat < 0x80) ∨
    (∃ b0 b1, utf8Char c = [b0, b1] ∧ (0xC2 ≤ b0.toNat ∧ b0.toNat ≤ 0xDF) ∧ isCont b1 = true) ∨
    (∃ b0 b1 b2, utf8Char c = [b0, b1, b2] ∧ (0xE0 ≤ b0.toNat ∧ b0.toNat ≤ 0xEF) ∧ ok3 b0 b1 = true ∧ isCont b2 = true) ∨
    (∃ b0 b1 b2 b3, utf8Char c = [b0, b1, b2, b3] ∧ (0xF0 ≤ b0.toNat ∧ b0.toNat ≤ 0xF4) ∧ ok4 b0 b1 = true ∧
      isCont b2 = true ∧ isCont b3 = true) := by
  have hr := char_range c
  unfold utf8Char
  generalize c.toNat = n at hr
  by_cases h1 : n < 0x80
  · simp only [h1, if_true]
    exact .inl ⟨_, rfl, by rw [toNat_ofNat8 (by omega)]; exact h1⟩
  by_cases h2 : n < 0x800
  · simp only [h1, h2, if_true, if_false]
    refine .inr (.inl ⟨_, _, rfl, ?_, ?_⟩)
    · rw [toNat_ofNat8 (by omega)]; omega
    · simp only [isCont]; rw [toNat_ofNat8 (by omega)]; simp; omega
  by_cases h3 : n < 0x10000
  · simp only [h1, h2, h3, if_true, if_false]
    have b0 : (UInt8.ofNat (0xE0 + n / 4096)).toNat = 0xE0 + n / 4096 := toNat_ofNat8 (by omega)
    have b1 : (UInt8.ofNat (0x80 + n / 64 % 64)).toNat = 0x80 + n / 64 % 64 := toNat_ofNat8 (by omega)
    have b2 : (UInt8.ofNat (0x80 + n % 64)).toNat = 0x80 + n % 64 := toNat_ofNat8 (by omega)
    refine .inr (.inr (.inl ⟨_, _, _, rfl, ?_, ?_, ?_⟩))
    · rw [b0]; omega
    · simp only [ok3, isCont, b0, b1, Bool.or_eq_true, Bool.and_eq_true, decide_eq_true_eq]; omega
    · simp only [isCont, b2]; simp; omega
  · simp only [h1, h2, h3, if_true, if_false]
    have b0 : (UInt8.ofNat (0xF0 + n / 262144)).toNat = 0xF0 + n / 262144 := toNat_ofNat8 (by omega)
    have b1 : (UInt8.ofNat (0x80 + n / 4096 % 64)).toNat = 0x80 + n / 4096 % 64 := toNat_ofNat8 (by omega)
    have b2 : (UInt8.ofNat (0x80 + n / 64 % 64)).toNat = 0x80 + n / 64 % 64 := toNat_ofNat8 (by omega)
    have b3 : (UInt8.ofNat (0x80 + n % 64)).toNat = 0x80 + n % 64 := toNat_ofNat8 (by omega)
    refine .inr (.inr (.inr ⟨_, _, _, _, rfl, ?_, ?_, ?_, ?_⟩))
    · rw [b0]; omega
    · simp only [ok4, isCont, b0, b1, Bool.or_eq_true, Bool.and_eq_true, decide_eq_true_eq]; omega
    · simp only [isCont, b2]; simp; omega
    · simp only [isCont, b3]; simp; omega

theorem toNat_ofNat_valid {n : Nat} (h : n < 0xD800 ∨ (0xDFFF < n ∧ n < 0x110000)) : (Char.ofNat n).toNat = n := by
  have hv : n.isValidChar := by unfold Nat.isValidChar; omega
  rw [Char.ofNat, dif_pos hv]
  rfl

theorem eq_ofNat8 {b : UInt8} {n : Nat} (h : b.toNat = n) : UInt8.ofNat n = b := by
  rw [← h]; simp

theorem utf8Char_one {b0 : UInt8} (h : b0.toNat < 0x80) : utf8Char (Char.ofNat b0.toNat) = [b0] := by
  have hn := toNat_ofNat_valid (n := b0.toNat) (by omega)
  unfold utf8Char
  simp only [hn, h, if_true]
  rw [eq_ofNat8 rfl]

theorem utf8Char_two {b0 b1 : UInt8} (h : 0xC2 ≤ b0.toNat ∧ b0.toNat ≤ 0xDF) (h1 : isCont b1 = true) :
    utf8Char (Char.ofNat ((b0.toNat - 0xC0) * 64 + (b1.toNat - 0x80))) = [b0, b1] := by
  simp only [isCont, Bool.and_eq_true, decide_eq_true_eq] at h1
  have hn := toNat_ofNat_valid (n := (b0.toNat - 0xC0) * 64 + (b1.toNat - 0x80)) (by omega)
  unfold utf8Char
  simp only [hn]
  rw [if_neg (by omega), if_pos (by omega), eq_ofNat8 (b := b0) (by omega), eq_ofNat8 (b := b1) (by omega)]

theorem utf8Char_three {b0 b1 b2 : UInt8} (h1 : ok3 b0 b1 = true) (h2 : isCont b2 = true) :
    utf8Char (Char.ofNat ((b0.toNat - 0xE0) * 4096 + (b1.toNat - 0x80) * 64 + (b2.toNat - 0x80))) = [b0, b1, b2] := by
  simp only [ok3, isCont, Bool.or_eq_true, Bool.and_eq_true, decide_eq_true_eq] at h1 h2
  have hn := toNat_ofNat_valid (n := (b0.toNat - 0xE0) * 4096 + (b1.toNat - 0x80) * 64 + (b2.toNat - 0x80)) (by omega)
  unfold utf8Char
  simp only [hn]
  rw [if_neg (by omega), if_neg (by omega), if_pos (by omega), eq_ofNat8 (b := b0) (by omega),
    eq_ofNat8 (b := b1) (by omega), eq_ofNat8 (b := b2) (by omega)]

theorem utf8Char_four {b0 b1 b2 b3 : UInt8} (h1 : ok4 b0 b1 = true) (h2 : isCont b2 = true) (h3 : isCont b3 = true) :
    utf8Char (Char.ofNat ((b0.toNat - 0xF0) * 262144 + (b1.toNat - 0x80) * 4096 + (b2.toNat - 0x80) * 64 +
      (b3.toNat - 0x80))) = [b0, b1, b2, b3] := by
  simp only [ok4, isCont, Bool.or_eq_true, Bool.and_eq_true, decide_eq_true_eq] at h1 h2 h3
  have hn := toNat_ofNat_valid (n := (b0.toNat - 0xF0) * 262144 + (b1.toNat - 0x80) * 4096 + (b2.toNat - 0x80) * 64 +
      (b3.toNat - 0x80)) (by omega)
  unfold utf8Char
  simp only [hn]
  rw [if_neg (by omega), if_neg (by omega), if_neg (by omega), eq_ofNat8 (b := b0) (by omega),
    eq_ofNat8 (b := b1) (by omega), eq_ofNat8 (b := b2) (by omega), eq_ofNat8 (b := b3) (by omega)]

theorem begins_two {b0 x : UInt8} (h : Begins [b0, x]) :
    ((0xC2 ≤ b0.toNat ∧ b0.toNat ≤ 0xDF) ∧ isCont x = true) ∨ ((0xE0 ≤ b0.toNat ∧ b0.toNat ≤ 0xEF) ∧ ok3 b0 x = true) ∨
    ((0xF0 ≤ b0.toNat ∧ b0.toNat ≤ 0xF4) ∧ ok4 b0 x = true) := by
  obtain ⟨c, hc⟩ := h
  rcases utf8Char_shape c with ⟨_, e, _⟩ | ⟨_, _, e, h1, h2⟩ | ⟨_, _, _, e, h1, h2, _⟩ | ⟨_, _, _, _, e, h1, h2, _⟩
  all_goals
    rw [e] at hc
    simp only [List.cons_prefix_cons, List.prefix_nil, List.nil_prefix, and_true, reduceCtorEq, and_false] at hc
  · obtain ⟨rfl, rfl⟩ := hc; exact .inl ⟨h1, h2⟩
  · obtain ⟨rfl, rfl⟩ := hc; exact .inr (.inl ⟨h1, h2⟩)
  · obtain ⟨rfl, rfl⟩ := hc; exact .inr (.inr ⟨h1, h2⟩)

theorem begins_three {b0 b1 x : UInt8} (h : Begins [b0, b1, x]) :
    ((0xE0 ≤ b0.toNat ∧ b0.toNat ≤ 0xEF) ∧ isCont x = true) ∨ ((0xF0 ≤ b0.toNat ∧ b0.toNat ≤ 0xF4) ∧ isCont x = true) := by
  obtain ⟨c, hc⟩ := h
  rcases utf8Char_shape c with ⟨_, e, _⟩ | ⟨_, _, e, _⟩ | ⟨_, _, _, e, h1, _, h2⟩ | ⟨_, _, _, _, e, h1, _, h2, _⟩
  all_goals
    rw [e] at hc
    simp only [List.cons_prefix_cons, List.prefix_nil, List.nil_prefix, and_true, reduceCtorEq, and_false] at hc
  · obtain ⟨rfl, rfl, rfl⟩ := hc; exact .inl ⟨h1, h2⟩
  · obtain ⟨rfl, rfl, rfl⟩ := hc; exact .inr ⟨h1, h2⟩

theorem begins_four {b0 b1 b2 x : UInt8} (h : Begins [b0, b1, b2, x]) : isCont x = true := by
  obtain ⟨c, hc⟩ := h
  rcases utf8Char_shape c with ⟨_, e, _⟩ | ⟨_, _, e, _⟩ | ⟨_, _, _, e, h1, _, h2⟩ | ⟨_, _, _, _, e, h1, _, _, h2⟩
  all_goals
    rw [e] at hc
    simp only [List.cons_prefix_cons, List.prefix_nil, List.nil_prefix, and_true, reduceCtorEq, and_false] at hc
  obtain ⟨rfl, rfl, rfl, rfl⟩ := hc; exact h2

/-- No character's encoding is a prefix of these bytes. -/
theorem no_char {b0 : UInt8} {p : Bytes} (h : (0x80 ≤ b0.toNat ∧ p = []) ∨ (0xE0 ≤ b0.toNat ∧ p.length ≤ 1) ∨
    (0xF0 ≤ b0.toNat ∧ p.length ≤ 2)) (c : Char) : ¬ utf8Char c <+: b0 :: p := by
  intro hc
  have hl := hc.length_le
  rcases utf8Char_shape c with ⟨_, e, h1⟩ | ⟨_, _, e, h1, _⟩ | ⟨_, _, _, e, h1, _⟩ | ⟨_, _, _, _, e, h1, _⟩
  all_goals
    rw [e] at hc hl
    rw [List.cons_prefix_cons] at hc
    obtain ⟨rfl, hc⟩ := hc
    simp only [List.length_cons, List.length_nil] at hl
    rcases h with ⟨h, rfl⟩ | ⟨h, h'⟩ | ⟨h, h'⟩ <;> try simp only [List.length_nil] at hl
    all_goals omega

theorem lossy_bad {p r : Bytes} {t : Str} (hp : p ≠ []) (hfull : ∀ c, ¬ utf8Char c <+: p)
    (hsub : p.length = 1 ∨ Begins p) (hno : ∀ x r', r = x :: r' → ¬ Begins (p ++ [x])) (h : Lossy r t) :
    Lossy (p ++ r) (replacementChar :: t) := by
  have key : ∀ q, q <+: p ++ r → p.length < q.length → ∃ x r', r = x :: r' ∧ p ++ [x] <+: q := by
    intro q hq hlt
    cases r with
    | nil => have := hq.length_le; simp at this; omega
    | cons x r' =>
      refine ⟨x, r', rfl, ?_⟩
      have h2 : p ++ [x] <+: p ++ x :: r' := ⟨r', by simp⟩
      exact List.prefix_of_prefix_length_le h2 hq (by simp; omega)
  have e : replacementChar = '�' := by decide
  rw [e]
  refine .bad p r hp ?_ hsub ?_ h
  · intro c hc
    by_cases hlt : p.length < (utf8Char c).length
    · obtain ⟨x, r', e, hx⟩ := key _ hc hlt
      exact hno x r' e ⟨c, hx⟩
    · exact hfull c (List.prefix_of_prefix_length_le hc ⟨r, rfl⟩ (by omega))
  · intro q hq hb
    apply Classical.byContradiction
    intro hlt
    obtain ⟨x, r', e, hx⟩ := key q hq (by omega)
    obtain ⟨c, hc⟩ := hb
    exact hno x r' e ⟨c, hx.trans hc⟩

theorem isCont_80 : isCont 0x80 = true := by decide

theorem lossy_utf8Lossy (bs : Bytes) : Lossy bs (utf8Lossy bs) := by
  induction bs using utf8Lossy.induct with
  | case1 => rw [utf8Lossy]; exact .nil
  | case2 b0 r h ih =>
    rw [utf8Lossy.eq_def]
    simp only
    rw [if_pos h]
    have := Lossy.char (Char.ofNat b0.toNat) ih
    rwa [utf8Char_one h] at this
  | case3 b0 h h2 b1 r1 h3 ih =>
    rw [utf8Lossy.eq_def]
    simp only
    rw [if_neg h, if_pos h2]
    simp only [h3, if_true]
    have := Lossy.char (Char.ofNat ((b0.toNat - 0xC0) * 64 + (b1.toNat - 0x80))) ih
    rwa [utf8Char_two h2 h3] at this
  | case4 b0 h h2 b1 r1 h3 ih =>
    rw [utf8Lossy.eq_def]
    simp only
    rw [if_neg h, if_pos h2]
    simp only [if_neg h3]
    refine lossy_bad (p := [b0]) (by simp) (no_char (.inl ⟨by omega, rfl⟩)) (.inl rfl) ?_ ih
    rintro x r' e hb
    simp only [List.cons.injEq] at e
    obtain ⟨rfl, _⟩ := e
    rcases begins_two hb with ⟨_, h⟩ | ⟨h, _⟩ | ⟨h, _⟩
    · exact h3 h
    · omega
    · omega
  | case5 b0 h h2 =>
    rw [utf8Lossy.eq_def]
    simp only
    rw [if_neg h, if_pos h2]
    exact lossy_bad (p := [b0]) (by simp) (no_char (.inl ⟨by omega, rfl⟩)) (.inl rfl) (by intro x r' e; cases e) .nil
  | case6 b0 h h2 h3 b1 h4 b2 r2 h5 ih =>
    rw [utf8Lossy.eq_def]
    simp only
    rw [if_neg h, if_neg h2, if_pos h3]
    simp only [h4, h5, if_true]
    have := Lossy.char (Char.ofNat ((b0.toNat - 0xE0) * 4096 + (b1.toNat - 0x80) * 64 + (b2.toNat - 0x80))) ih
    rwa [utf8Char_three h4 h5] at this
  | case7 b0 h h2 h3 b1 h4 b2 r2 h5 ih =>
    rw [utf8Lossy.eq_def]
    simp only
    rw [if_neg h, if_neg h2, if_pos h3]
    simp only [h4, if_true, if_neg h5]
    refine lossy_bad (p := [b0, b1]) (by simp) (no_char (.inr (.inl ⟨by omega, by simp⟩)))
      (.inr ⟨_, [0x80], (utf8Char_three h4 isCont_80).symm⟩) ?_ ih
    rintro x r' e hb
    simp only [List.cons.injEq] at e
    obtain ⟨rfl, _⟩ := e
    rcases begins_three hb with ⟨_, h⟩ | ⟨_, h⟩ <;> exact h5 h
  | case8 b0 h h2 h3 b1 h4 =>
    rw [utf8Lossy.eq_def]
    simp only
    rw [if_neg h, if_neg h2, if_pos h3]
    simp only [h4, if_true]
    exact lossy_bad (p := [b0, b1]) (by simp) (no_char (.inr (.inl ⟨by omega, by simp⟩)))
      (.inr ⟨_, [0x80], (utf8Char_three h4 isCont_80).symm⟩) (by intro x r' e; cases e) .nil
  | case9 b0 h h2 h3 b1 r1 h4 ih =>
    rw [utf8Lossy.eq_def]
    simp only
    rw [if_neg h, if_neg h2, if_pos h3]
    simp only [if_neg h4]
    refine lossy_bad (p := [b0]) (by simp) (no_char (.inl ⟨by omega, rfl⟩)) (.inl rfl) ?_ ih
    rintro x r' e hb
    simp only [List.cons.injEq] at e
    obtain ⟨rfl, _⟩ := e
    rcases begins_two hb with ⟨h, _⟩ | ⟨_, h⟩ | ⟨h, _⟩
    · omega
    · exact h4 h
    · omega
  | case10 b0 h h2 h3 =>
    rw [utf8Lossy.eq_def]
    simp only
    rw [if_neg h, if_neg h2, if_pos h3]
    exact lossy_bad (p := [b0]) (by simp) (no_char (.inl ⟨by omega, rfl⟩)) (.inl rfl) (by intro x r' e; cases e) .nil
  | case11 b0 h h2 h3 h4 b1 h5 b2 h6 b3 r3 h7 ih =>
    rw [utf8Lossy.eq_def]
    simp only
    rw [if_neg h, if_neg h2, if_neg h3, if_pos h4]
    simp only [h5, h6, h7, if_true]
    have := Lossy.char (Char.ofNat ((b0.toNat - 0xF0) * 262144 + (b1.toNat - 0x80) * 4096
                    + (b2.toNat - 0x80) * 64 + (b3.toNat - 0x80))) ih
    rwa [utf8Char_four h5 h6 h7] at this
  | case12 b0 h h2 h3 h4 b1 h5 b2 h6 b3 r3 h7 ih =>
    rw [utf8Lossy.eq_def]
    simp only
    rw [if_neg h, if_neg h2, if_neg h3, if_pos h4]
    simp only [h5, h6, if_true, if_neg h7]
    refine lossy_bad (p := [b0, b1, b2]) (by simp) (no_char (.inr (.inr ⟨by omega, by simp⟩)))
      (.inr ⟨_, [0x80], (utf8Char_four h5 h6 isCont_80).symm⟩) ?_ ih
    rintro x r' e hb
    simp only [List.cons.injEq] at e
    obtain ⟨rfl, _⟩ := e
    exact h7 (begins_four hb)
  | case13 b0 h h2 h3 h4 b1 h5 b2 h6 =>
    rw [utf8Lossy.eq_def]
    simp only
    rw [if_neg h, if_neg h2, if_neg h3, if_pos h4]
    simp only [h5, h6, if_true]
    exact lossy_bad (p := [b0, b1, b2]) (by simp) (no_char (.inr (.inr ⟨by omega, by simp⟩)))
      (.inr ⟨_, [0x80], (utf8Char_four h5 h6 isCont_80).symm⟩) (by intro x r' e; cases e) .nil
  | case14 b0 h h2 h3 h4 b1 h5 b2 r2 h6 ih =>
    rw [utf8Lossy.eq_def]
    simp only
    rw [if_neg h, if_neg h2, if_neg h3, if_pos h4]
    simp only [h5, if_true, if_neg h6]
    refine lossy_bad (p := [b0, b1]) (by simp) (no_char (.inr (.inl ⟨by omega, by simp⟩)))
      (.inr ⟨_, [0x80, 0x80], (utf8Char_four h5 isCont_80 isCont_80).symm⟩) ?_ ih
    rintro x r' e hb
    simp only [List.cons.injEq] at e
    obtain ⟨rfl, _⟩ := e
    rcases begins_three hb with ⟨_, h⟩ | ⟨_, h⟩ <;> exact h6 h
  | case15 b0 h h2 h3 h4 b1 h5 =>
    rw [utf8Lossy.eq_def]
    simp only
    rw [if_neg h, if_neg h2, if_neg h3, if_pos h4]
    simp only [h5, if_true]
    exact lossy_bad (p := [b0, b1]) (by simp) (no_char (.inr (.inl ⟨by omega, by simp⟩)))
      (.inr ⟨_, [0x80, 0x80], (utf8Char_four h5 isCont_80 isCont_80).symm⟩) (by intro x r' e; cases e) .nil
  | case16 b0 h h2 h3 h4 b1 r1 h5 ih =>
    rw [utf8Lossy.eq_def]
    simp only
    rw [if_neg h, if_neg h2, if_neg h3, if_pos h4]
    simp only [if_neg h5]
    refine lossy_bad (p := [b0]) (by simp) (no_char (.inl ⟨by omega, rfl⟩)) (.inl rfl) ?_ ih
    rintro x r' e hb
    simp only [List.cons.injEq] at e
    obtain ⟨rfl, _⟩ := e
    rcases begins_two hb with ⟨h, _⟩ | ⟨h, _⟩ | ⟨_, h⟩
    · omega
    · omega
    · exact h5 h
  | case17 b0 h h2 h3 h4 =>
    rw [utf8Lossy.eq_def]
    simp only
    rw [if_neg h, if_neg h2, if_neg h3, if_pos h4]
    exact lossy_bad (p := [b0]) (by simp) (no_char (.inl ⟨by omega, rfl⟩)) (.inl rfl) (by intro x r' e; cases e) .nil
  | case18 b0 r h h2 h3 h4 ih =>
    rw [utf8Lossy.eq_def]
    simp only
    rw [if_neg h, if_neg h2, if_neg h3, if_neg h4]
    refine lossy_bad (p := [b0]) (by simp) (no_char (.inl ⟨by omega, rfl⟩)) (.inl rfl) ?_ ih
    rintro x r' e hb
    rcases begins_two hb with ⟨h, _⟩ | ⟨h, _⟩ | ⟨h, _⟩ <;> omega

/-- The relation determines the text. -/
theorem lossy_unique {bs : Bytes} {t t' : Str} (h : Lossy bs t) (h' : Lossy bs t') : t = t' := by
  induction h generalizing t' with
  | nil =>
    generalize hb : ([] : Bytes) = bs at h'
    cases h' with
    | nil => rfl
    | char c h =>
      have := utf8Char_shape c
      have he : utf8Char c = [] := by
        rw [eq_comm, List.append_eq_nil_iff] at hb; exact hb.1
      rw [he] at this
      simp at this
    | bad p r hp => rw [eq_comm, List.append_eq_nil_iff] at hb; exact absurd hb.1 hp
  | @char c r t h ih =>
    generalize hb : utf8Char c ++ r = bs at h'
    cases h' with
    | nil =>
      have := utf8Char_shape c
      rw [List.append_eq_nil_iff] at hb
      rw [hb.1] at this
      simp at this
    | @char c' r' t' h' =>
      have e := congrArg utf8Lossy hb
      rw [utf8Lossy_char, utf8Lossy_char, List.cons.injEq] at e
      obtain ⟨rfl, _⟩ := e
      have hr := List.append_cancel_left hb
      subst hr
      rw [ih h']
    | bad p r' hp hno => exact absurd ⟨r, hb⟩ (hno c)
  | @bad p r t hp hno hsub hmax h ih =>
    generalize hb : p ++ r = bs at h'
    cases h' with
    | nil => rw [List.append_eq_nil_iff] at hb; exact absurd hb.1 hp
    | @char c' r' t' h' => exact absurd ⟨r', hb.symm⟩ (hno c')
    | @bad p' r' t' hp' hno' hsub' hmax' h' =>
      have l0 : 0 < p.length := List.length_pos_iff.2 hp
      have l0' : 0 < p'.length := List.length_pos_iff.2 hp'
      have hlen : p.length = p'.length := by
        have h1 : Begins p → p.length ≤ p'.length := fun hB => hmax' p ⟨r, hb⟩ hB
        have h2 : Begins p' → p'.length ≤ p.length := fun hB => hmax p' ⟨r', hb.symm⟩ hB
        rcases hsub with hs | hs <;> rcases hsub' with hs' | hs'
        · omega
        · have := h2 hs'; omega
        · have := h1 hs; omega
        · have := h1 hs; have := h2 hs'; omega
      obtain ⟨rfl, rfl⟩ := List.append_inj hb hlen
      rw [ih h']

theorem lossy_iff {bs : Bytes} {t : Str} : Lossy bs t ↔ t = utf8Lossy bs :=
  ⟨fun h => lossy_unique h (lossy_utf8Lossy bs), fun h => h ▸ lossy_utf8Lossy bs⟩

end CSS
