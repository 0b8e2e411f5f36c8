import Verif.Lemmas.Percent
/- Percent-decoding changes a text exactly if the text contains a percent escape. -/
namespace CSS
open Spec

theorem utf8Char_length_pos (c : Char) : 0 < (utf8Char c).length := by
  unfold utf8Char
  simp only
  repeat' split
  all_goals simp

theorem percentDecode_cases (s : Str) :
    s = [] ∨ (∃ c r, s = c :: r ∧ percentDecode s = utf8Char c ++ percentDecode r ∧
      ¬ (c = '%' ∧ ∃ x y after, r = x :: y :: after ∧ hexVal? x ≠ none ∧ hexVal? y ≠ none)) ∨
      ∃ x y r b, s = '%' :: x :: y :: r ∧ hexVal? x ≠ none ∧ hexVal? y ≠ none ∧ percentDecode s = b :: percentDecode r := by
  match s with
  | [] => exact .inl rfl
  | c :: r =>
    right
    by_cases hc : c = '%'
    · subst hc
      by_cases hr : ∃ x y after, r = x :: y :: after ∧ hexVal? x ≠ none ∧ hexVal? y ≠ none
      · obtain ⟨x, y, after, rfl, hx, hy⟩ := hr
        obtain ⟨u, hu⟩ := Option.ne_none_iff_exists'.1 hx
        obtain ⟨v, hv⟩ := Option.ne_none_iff_exists'.1 hy
        exact .inr ⟨x, y, after, _, rfl, hx, hy, pd_hex hu hv after⟩
      · refine .inl ⟨_, _, rfl, ?_, fun h => hr h.2⟩
        rw [pd_raw]
        · rfl
        · intro a b r' e
          by_cases ha : hexVal? a = none
          · exact .inl ha
          · by_cases hb : hexVal? b = none
            · exact .inr hb
            · exact absurd ⟨a, b, r', e, ha, hb⟩ hr
    · exact .inl ⟨_, _, rfl, pd_plain hc r, fun h => hc h.1⟩

theorem hasEscape_cons {c : Char} {r : Str} :
    HasEscape (c :: r) ↔ (c = '%' ∧ ∃ x y after, r = x :: y :: after ∧ hexVal? x ≠ none ∧ hexVal? y ≠ none) ∨ HasEscape r := by
  constructor
  · rintro ⟨b, x, y, a, e, hx, hy⟩
    cases b with
    | nil =>
      simp only [List.nil_append, List.cons.injEq] at e
      exact .inl ⟨e.1, x, y, a, e.2, hx, hy⟩
    | cons d b =>
      simp only [List.cons_append, List.cons.injEq] at e
      exact .inr ⟨b, x, y, a, e.2, hx, hy⟩
  · rintro (⟨rfl, x, y, a, rfl, hx, hy⟩ | ⟨b, x, y, a, rfl, hx, hy⟩)
    · exact ⟨[], x, y, a, rfl, hx, hy⟩
    · exact ⟨c :: b, x, y, a, rfl, hx, hy⟩

theorem percentDecode_length_le (s : Str) : (percentDecode s).length ≤ (utf8 s).length := by
  rcases percentDecode_cases s with rfl | ⟨c, r, rfl, e, _⟩ | ⟨x, y, r, b, rfl, hx, hy, e⟩
  · simp [percentDecode, utf8]
  · rw [e, utf8_cons]
    have := percentDecode_length_le r
    simp only [List.length_append]; omega
  · rw [e]
    have := percentDecode_length_le r
    simp only [utf8_cons, List.length_append, List.length_cons]
    have := utf8Char_length_pos '%'
    omega
termination_by s.length

theorem percentDecode_length_lt {s : Str} (h : HasEscape s) : (percentDecode s).length < (utf8 s).length := by
  rcases percentDecode_cases s with rfl | ⟨c, r, rfl, e, hn⟩ | ⟨x, y, r, b, rfl, hx, hy, e⟩
  · obtain ⟨b, x, y, a, e, _⟩ := h
    cases b <;> cases e
  · rw [e, utf8_cons]
    have hr := (hasEscape_cons.1 h).resolve_left hn
    have := percentDecode_length_lt hr
    simp only [List.length_append]; omega
  · rw [e]
    have := percentDecode_length_le r
    have := utf8Char_length_pos '%'
    have := utf8Char_length_pos x
    have := utf8Char_length_pos y
    simp only [utf8_cons, List.length_append, List.length_cons]
    omega
termination_by s.length

theorem percentDecode_no_escape {s : Str} (h : ¬ HasEscape s) : percentDecode s = utf8 s := by
  rcases percentDecode_cases s with rfl | ⟨c, r, rfl, e, _⟩ | ⟨x, y, r, b, rfl, hx, hy, e⟩
  · rfl
  · rw [e, utf8_cons, percentDecode_no_escape (fun h' => h (hasEscape_cons.2 (.inr h')))]
  · exact absurd ⟨[], x, y, r, rfl, hx, hy⟩ h
termination_by s.length

/-- Percent-decoding changes a text exactly if it contains an escape. -/
theorem percentDecode_eq_iff {s : Str} : percentDecode s = utf8 s ↔ ¬ HasEscape s :=
  ⟨fun e h => by have := percentDecode_length_lt h; rw [e] at this; omega, percentDecode_no_escape⟩

theorem hasEscape_mem {s : Str} (h : HasEscape s) : '%' ∈ s := by
  obtain ⟨b, x, y, a, rfl, _⟩ := h
  simp

end CSS
