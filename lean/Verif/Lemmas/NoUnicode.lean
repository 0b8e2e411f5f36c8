import Verif.Lemmas.Struct
import Verif.Spec.PolicyRead
/- Texts without `\u` escapes: what is skipped is JSON. -/
namespace CSS
open Spec

theorem noU_right {a b : Str} (h : NoUnicodeEscape (a ++ b)) : NoUnicodeEscape b :=
  fun h' => h (h'.trans (List.suffix_append a b).isInfix)
theorem noU_left {a b : Str} (h : NoUnicodeEscape (a ++ b)) : NoUnicodeEscape a :=
  fun h' => h (h'.trans (List.prefix_append a b).isInfix)
theorem noU_tail {c : Char} {b : Str} (h : NoUnicodeEscape (c :: b)) : NoUnicodeEscape b :=
  noU_right (a := [c]) h

theorem LooseStr.strict {t : Str} (h : LooseStr t) : NoUnicodeEscape t → ∃ v, JStr t v := by
  induction h with
  | nil => exact fun _ => ⟨[], .nil⟩
  | char h1 h2 h3 _ ih => exact fun hn => (ih (noU_tail hn)).elim fun v hv => ⟨_, .char h1 h2 h3 hv⟩
  | esc he _ ih => exact fun hn => (ih (noU_tail (noU_tail hn))).elim fun v hv => ⟨_, .esc he hv⟩
  | unicode _ _ _ => exact fun hn => absurd ⟨[], _, rfl⟩ hn

theorem skipped_strict {t : Str} (h : Skipped t) : NoUnicodeEscape t → ∃ j, JVal j t := by
  refine Skipped.rec (motive_1 := fun t _ => NoUnicodeEscape t → ∃ j, JVal j t)
    (motive_2 := fun t _ => NoUnicodeEscape t → ∃ xs, JElems xs t)
    (motive_3 := fun t _ => NoUnicodeEscape t → ∃ ms, JMembers ms t) ?_ ?_ ?_ ?_ ?_ ?_ ?_ ?_ ?_ ?_ ?_ ?_ ?_ h
  · intro _
    exact ⟨.null, by rw [JVal]⟩
  · intro _
    exact ⟨.bool true, by rw [JVal]⟩
  · intro _
    exact ⟨.bool false, by rw [JVal]⟩
  · intro _ hl _
    exact ⟨.num _, by rw [JVal]; exact ⟨rfl, hl⟩⟩
  · intro _ hb
    intro hn
    obtain ⟨v, hv⟩ := LooseStr.strict hb (noU_left (noU_tail hn))
    exact ⟨.str v, by rw [JVal]; exact ⟨_, hv, rfl⟩⟩
  · intro _ hw _
    exact ⟨.arr [], by rw [JVal]; exact ⟨_, hw, rfl⟩⟩
  · intro _ _ _ _ hw _ hw' _ ih1 ih2
    intro hn
    have h1 := noU_left (noU_tail hn)
    obtain ⟨j, hj⟩ := ih1 (noU_right (noU_left (noU_left h1)))
    obtain ⟨xs, hxs⟩ := ih2 (noU_right h1)
    exact ⟨.arr (j :: xs), by rw [JVal]; exact ⟨_, _, _, _, hw, hj, hw', hxs, rfl⟩⟩
  · intro _ hw _
    exact ⟨.obj [], by rw [JVal]; exact ⟨_, hw, rfl⟩⟩
  · intro w b w1 w2 t w' r hw hb hw1 hw2 _ hw' _ ih1 ih2
    intro hn
    have h1 := noU_left (noU_tail hn)
    obtain ⟨j, hj⟩ := ih1 (noU_right (noU_left (noU_left h1)))
    obtain ⟨ms, hms⟩ := ih2 (noU_right h1)
    have h2 := noU_left (noU_left (noU_left (noU_left (noU_left (noU_left h1)))))
    obtain ⟨v, hv⟩ := LooseStr.strict hb (noU_left (noU_tail (noU_right h2)))
    exact ⟨.obj ((v, j) :: ms), by rw [JVal]; exact ⟨_, _, _, _, _, _, _, hw, ⟨_, hv, rfl⟩, hw1, hw2, hj, hw', hms, rfl⟩⟩
  · intro _
    exact ⟨[], by rw [JElems]⟩
  · intro _ _ _ _ hw _ hw' _ ih1 ih2
    intro hn
    have h1 := noU_tail hn
    obtain ⟨j, hj⟩ := ih1 (noU_right (noU_left (noU_left h1)))
    obtain ⟨xs, hxs⟩ := ih2 (noU_right h1)
    exact ⟨j :: xs, by rw [JElems]; exact ⟨_, _, _, _, hw, hj, hw', hxs, rfl⟩⟩
  · intro _
    exact ⟨[], by rw [JMembers]⟩
  · intro w b w1 w2 t w' r hw hb hw1 hw2 _ hw' _ ih1 ih2
    intro hn
    have h1 := noU_tail hn
    obtain ⟨j, hj⟩ := ih1 (noU_right (noU_left (noU_left h1)))
    obtain ⟨ms, hms⟩ := ih2 (noU_right h1)
    have h2 := noU_left (noU_left (noU_left (noU_left (noU_left (noU_left h1)))))
    obtain ⟨v, hv⟩ := LooseStr.strict hb (noU_left (noU_tail (noU_right h2)))
    exact ⟨(v, j) :: ms, by rw [JMembers]; exact ⟨_, _, _, _, _, _, _, hw, ⟨_, hv, rfl⟩, hw1, hw2, hj, hw', hms, rfl⟩⟩

theorem skipValue_json {s r : Str} (hn : NoUnicodeEscape s) (h : skipValue s = some r) :
    ∃ w j t, Ws w ∧ JVal j t ∧ s = w ++ t ++ r := by
  obtain ⟨w, t, hw, ht, rfl⟩ := skipValue_sound h
  obtain ⟨j, hj⟩ := skipped_strict ht (noU_right (noU_left hn))
  exact ⟨w, j, t, hw, hj, rfl⟩

end CSS
