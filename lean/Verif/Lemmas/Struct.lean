import Verif.Spec.Documents
import Verif.Lemmas.JsonValue
import Verif.Model.Serde
/- Structs read from JSON text: what the reader does on a JSON document, and what it accepts. -/
set_option linter.unusedSimpArgs false
namespace CSS
open Spec

/-! ### skipping a value -/

theorem skipStrBody_complete {t : Str} (h : LooseStr t) (r : Str) : skipStrBody (t ++ '"' :: r) = some r := by
  induction h with
  | nil => simp [skipStrBody]
  | @char c t h1 h2 h3 _ ih =>
    rw [List.cons_append, skipStrBody.eq_def]
    split
    · rename_i h; cases h
    · rename_i h; injection h with h _; exact absurd h h1
    · rename_i h; injection h with h _; exact absurd h h2
    · rename_i h; injection h with h _; exact absurd h h2
    · rename_i h
      injection h with ha hb
      subst ha; subst hb
      rw [if_neg (by simp [h2]; omega), ih]
  | esc he _ ih =>
    simp only [escapes, List.mem_cons, List.not_mem_nil, or_false, Prod.mk.injEq] at he
    rcases he with ⟨rfl, rfl⟩ | ⟨rfl, rfl⟩ | ⟨rfl, rfl⟩ | ⟨rfl, rfl⟩ | ⟨rfl, rfl⟩ | ⟨rfl, rfl⟩ | ⟨rfl, rfl⟩ | ⟨rfl, rfl⟩ <;>
      simp [skipStrBody, ih]
  | @unicode a b c d n t hq _ ih =>
    simp only [List.cons_append]
    rw [skipStrBody, hex4_eq, hq]
    exact ih

theorem JStr.loose {t v : Str} (h : JStr t v) : LooseStr t := by
  induction h with
  | nil => exact .nil
  | char h1 h2 h3 _ ih => exact .char h1 h2 h3 ih
  | esc he _ ih => exact .esc he ih
  | unicode hq _ _ ih => exact .unicode hq ih
  | pair h1 h2 _ _ _ _ _ ih => exact .unicode h1 (.unicode h2 ih)

theorem JNum_split {l : Str} (h : JNum l) :
    (∃ ip fr ex, l = ip ++ fr ++ ex ∧ IsIntPart ip ∧ IsFrac fr ∧ IsExp ex) ∨
    ∃ ip fr ex, l = '-' :: (ip ++ fr ++ ex) ∧ IsIntPart ip ∧ IsFrac fr ∧ IsExp ex := by
  obtain ⟨sg, ip, fr, ex, rfl, hs, hi, hf, hx⟩ := h
  rcases hs with rfl | rfl
  · exact .inl ⟨ip, fr, ex, by simp, hi, hf, hx⟩
  · exact .inr ⟨ip, fr, ex, by simp, hi, hf, hx⟩

theorem intPart_head {ip : Str} (h : IsIntPart ip) : ∃ c t, ip = c :: t ∧ c ∈ s% "0123456789" := by
  cases ip with
  | nil => exact absurd rfl h.1.1
  | cons c t => exact ⟨c, t, rfl, h.1.2 c (by simp)⟩

theorem Skipped_head {t : Str} (h : Skipped t) : ∃ c r, t = c :: r ∧ c ∈ s% "ntf\"[{-0123456789" := by
  cases h with
  | null => exact ⟨_, _, rfl, by decide⟩
  | true => exact ⟨_, _, rfl, by decide⟩
  | false => exact ⟨_, _, rfl, by decide⟩
  | num hj =>
    rcases JNum_split hj with ⟨ip, fr, ex, rfl, hi, _, _⟩ | ⟨ip, fr, ex, rfl, _, _, _⟩
    · obtain ⟨c, t, rfl, hc⟩ := intPart_head hi
      exact ⟨c, _, by simp only [List.cons_append]; rfl,
        (by decide : ∀ c ∈ s% "0123456789", c ∈ s% "ntf\"[{-0123456789") c hc⟩
    · exact ⟨_, _, rfl, by decide⟩
  | str _ => exact ⟨_, _, rfl, by decide⟩
  | emptyArr _ => exact ⟨_, _, rfl, by decide⟩
  | arr _ _ _ _ => exact ⟨_, _, rfl, by decide⟩
  | emptyObj _ => exact ⟨_, _, rfl, by decide⟩
  | obj _ _ _ _ _ _ _ => exact ⟨_, _, rfl, by decide⟩

theorem Skipped_noWs {t : Str} (h : Skipped t) (r : Str) : NoWs (t ++ r) := by
  obtain ⟨c, t', rfl, hc⟩ := Skipped_head h
  apply noWs_of_head
  have : ∀ c ∈ s% "ntf\"[{-0123456789", c ∉ s% " \t\n\r" := by decide
  exact this c hc

theorem Skipped_length {t : Str} (h : Skipped t) : 0 < t.length := by
  obtain ⟨c, r, rfl, _⟩ := Skipped_head h; simp

theorem stop_skippedElems {r : Str} (h : SkippedElems r) {s : Str} (hs : Stop s) : Stop (r ++ s) := by
  cases h with
  | nil => exact hs
  | cons _ _ _ _ => exact stop_cons (by decide) _

theorem stop_skippedMembers {r : Str} (h : SkippedMembers r) {s : Str} (hs : Stop s) : Stop (r ++ s) := by
  cases h with
  | nil => exact hs
  | cons _ _ _ _ _ _ _ => exact stop_cons (by decide) _

mutual
theorem skipTokens_complete {t : Str} (h : Skipped t) (f : Nat) (stack : List Bool) (w r : Str) (hw : Ws w)
    (hr : Stop r) (hf : t.length ≤ f) :
    ∃ f', f ≤ f' + t.length ∧ skipTokens f stack (w ++ t ++ r) = skipTokens.closeTokens f' stack r := by
  have hsk : skipWs (w ++ t ++ r) = t ++ r := by
    rw [List.append_assoc]; exact skipWs_append hw (Skipped_noWs h r)
  have hl := Skipped_length h
  obtain ⟨f, rfl⟩ : ∃ f', f = f' + 1 := ⟨f - 1, by omega⟩
  match h with
  | .null => refine ⟨f, by simp, ?_⟩; rw [skipTokens, hsk]; simp
  | .true => refine ⟨f, by simp, ?_⟩; rw [skipTokens, hsk]; simp
  | .false => refine ⟨f, by simp, ?_⟩; rw [skipTokens, hsk]; simp
  | .str (b := b) hb =>
    refine ⟨f, by simp, ?_⟩
    rw [skipTokens, hsk]
    have e : '"' :: b ++ ['"'] ++ r = '"' :: (b ++ '"' :: r) := by simp
    rw [e]
    simp [skipStrBody_complete hb]
  | .num hj =>
    refine ⟨f, by omega, ?_⟩
    rw [skipTokens, hsk]
    rcases JNum_split hj with ⟨ip, fr, ex, rfl, hi, hfr, hex⟩ | ⟨ip, fr, ex, rfl, hi, hfr, hex⟩
    · have hp := parseNumBody_complete hi hfr hex hr
      obtain ⟨c, t, rfl, hc⟩ := intPart_head hi
      simp only [List.cons_append] at hp ⊢
      split
      all_goals first
        | (rename_i heq; exfalso; injection heq with h1 _; rw [h1] at hc; revert hc; decide)
        | skip
      rw [hp]
    · have hp := parseNumBody_complete hi hfr hex hr
      simp only [List.cons_append]
      rw [hp]
  | .emptyArr (w := w1) hw1 =>
    refine ⟨f, by simp, ?_⟩
    rw [skipTokens, hsk]
    have e : '[' :: (w1 ++ [']']) ++ r = '[' :: (w1 ++ (']' :: r)) := by simp
    rw [e]
    simp only
    rw [skipWs_append hw1 (noWs_of_head (by decide))]
    rfl
  | .arr (w := w1) (t := tx) (w' := w2) (r := rs) hw1 hx hw2 hxs =>
    simp only [List.length_cons, List.length_append, List.length_nil] at hf
    have hstop : Stop (w2 ++ (rs ++ (']' :: r))) := stop_ws hw2 (stop_skippedElems hxs (stop_cons (by decide) _))
    obtain ⟨f1, hf1, h1⟩ := skipTokens_complete hx f (false :: stack) [] (w2 ++ (rs ++ (']' :: r))) (by simp [Ws]) hstop (by omega)
    obtain ⟨f2, hf2, h2⟩ := closeElems_complete hxs f1 stack w2 r hw2 (by omega)
    refine ⟨f2, by simp; omega, ?_⟩
    rw [skipTokens, hsk]
    have e : '[' :: (w1 ++ tx ++ w2 ++ rs ++ [']']) ++ r = '[' :: (w1 ++ (tx ++ (w2 ++ (rs ++ (']' :: r))))) := by simp
    rw [e]
    simp only
    rw [skipWs_append hw1 (Skipped_noWs hx _)]
    rw [List.nil_append] at h1
    split
    · rename_i r' heq
      exfalso
      obtain ⟨c, t', rfl, hc⟩ := Skipped_head hx
      rw [List.cons_append] at heq
      injection heq with h1 _; rw [h1] at hc; revert hc; decide
    · rw [h1, h2]
  | .emptyObj (w := w1) hw1 =>
    refine ⟨f, by simp, ?_⟩
    rw [skipTokens, hsk]
    have e : '{' :: (w1 ++ ['}']) ++ r = '{' :: (w1 ++ ('}' :: r)) := by simp
    rw [e]
    simp only
    rw [skipWs_append hw1 (noWs_of_head (by decide))]
    rfl
  | .obj (w := w1) (b := b) (w1 := u1) (w2 := u2) (t := tx) (w' := w2) (r := rs) hw1 hb hu1 hu2 hx hw2 hms =>
    simp only [List.length_cons, List.length_append, List.length_nil] at hf
    have hstop : Stop (w2 ++ (rs ++ ('}' :: r))) := stop_ws hw2 (stop_skippedMembers hms (stop_cons (by decide) _))
    obtain ⟨f, rfl⟩ : ∃ f', f = f' + 1 := ⟨f - 1, by omega⟩
    obtain ⟨f1, hf1, h1⟩ := skipTokens_complete hx f (true :: stack) u2 (w2 ++ (rs ++ ('}' :: r))) hu2 hstop (by omega)
    obtain ⟨f2, hf2, h2⟩ := closeMembers_complete hms f1 stack w2 r hw2 (by omega)
    refine ⟨f2, by simp; omega, ?_⟩
    rw [skipTokens, hsk]
    have e : '{' :: (w1 ++ ('"' :: b ++ ['"']) ++ u1 ++ [':'] ++ u2 ++ tx ++ w2 ++ rs ++ ['}']) ++ r =
        '{' :: (w1 ++ ('"' :: (b ++ '"' :: (u1 ++ (':' :: (u2 ++ tx ++ (w2 ++ (rs ++ ('}' :: r))))))))) := by simp
    rw [e]
    simp only
    rw [skipWs_append hw1 (noWs_of_head (by decide))]
    show skipTokens.skipKey (f + 1) (true :: stack) _ = _
    rw [skipTokens.skipKey, skipWs_noWs (noWs_of_head (by decide))]
    simp only
    rw [skipStrBody_complete hb]
    simp only
    rw [skipWs_append hu1 (noWs_of_head (by decide))]
    simp only
    rw [h1, h2]

theorem closeElems_complete {s : Str} (h : SkippedElems s) (f : Nat) (stack : List Bool) (w r : Str)
    (hw : Ws w) (hf : s.length + 1 ≤ f) :
    ∃ f', f ≤ f' + s.length + 1 ∧
      skipTokens.closeTokens f (false :: stack) (w ++ (s ++ (']' :: r))) = skipTokens.closeTokens f' stack r := by
  obtain ⟨f, rfl⟩ : ∃ f', f = f' + 1 := ⟨f - 1, by omega⟩
  match h with
  | .nil =>
    refine ⟨f, by simp, ?_⟩
    rw [skipTokens.closeTokens, List.nil_append, skipWs_append hw (noWs_of_head (by decide))]
    rfl
  | .cons (w := w1) (t := t) (w' := w2) (r := rs) hw1 hx hw2 hxs =>
    simp only [List.length_cons, List.length_append] at hf
    have hstop : Stop (w2 ++ (rs ++ (']' :: r))) := stop_ws hw2 (stop_skippedElems hxs (stop_cons (by decide) _))
    obtain ⟨f1, hf1, h1⟩ := skipTokens_complete hx f (false :: stack) w1 (w2 ++ (rs ++ (']' :: r))) hw1 hstop (by omega)
    obtain ⟨f2, hf2, h2⟩ := closeElems_complete hxs f1 stack w2 r hw2 (by omega)
    refine ⟨f2, by simp; omega, ?_⟩
    have e : ',' :: (w1 ++ t ++ w2 ++ rs) ++ (']' :: r) = ',' :: (w1 ++ t ++ (w2 ++ (rs ++ (']' :: r)))) := by simp
    rw [skipTokens.closeTokens, e, skipWs_append hw (noWs_of_head (by decide))]
    simp only [Bool.false_eq_true, if_false]
    rw [h1, h2]

theorem closeMembers_complete {s : Str} (h : SkippedMembers s) (f : Nat) (stack : List Bool)
    (w r : Str) (hw : Ws w) (hf : s.length + 1 ≤ f) :
    ∃ f', f ≤ f' + s.length + 1 ∧
      skipTokens.closeTokens f (true :: stack) (w ++ (s ++ ('}' :: r))) = skipTokens.closeTokens f' stack r := by
  obtain ⟨f, rfl⟩ : ∃ f', f = f' + 1 := ⟨f - 1, by omega⟩
  match h with
  | .nil =>
    refine ⟨f, by simp, ?_⟩
    rw [skipTokens.closeTokens, List.nil_append, skipWs_append hw (noWs_of_head (by decide))]
    rfl
  | .cons (w := w1) (b := b) (w1 := u1) (w2 := u2) (t := t) (w' := w2) (r := rs) hw1 hb hu1 hu2 hx hw2 hms =>
    simp only [List.length_cons, List.length_append, List.length_nil] at hf
    have hstop : Stop (w2 ++ (rs ++ ('}' :: r))) := stop_ws hw2 (stop_skippedMembers hms (stop_cons (by decide) _))
    obtain ⟨f, rfl⟩ : ∃ f', f = f' + 1 := ⟨f - 1, by omega⟩
    obtain ⟨f1, hf1, h1⟩ := skipTokens_complete hx f (true :: stack) u2 (w2 ++ (rs ++ ('}' :: r))) hu2 hstop (by omega)
    obtain ⟨f2, hf2, h2⟩ := closeMembers_complete hms f1 stack w2 r hw2 (by omega)
    refine ⟨f2, by simp; omega, ?_⟩
    have e : ',' :: (w1 ++ ('"' :: b ++ ['"']) ++ u1 ++ [':'] ++ u2 ++ t ++ w2 ++ rs) ++ ('}' :: r) =
        ',' :: (w1 ++ ('"' :: (b ++ '"' :: (u1 ++ (':' :: (u2 ++ t ++ (w2 ++ (rs ++ ('}' :: r))))))))) := by simp
    rw [skipTokens.closeTokens, e, skipWs_append hw (noWs_of_head (by decide))]
    simp only [if_true]
    rw [skipTokens.skipKey, skipWs_append hw1 (noWs_of_head (by decide))]
    simp only
    rw [skipStrBody_complete hb]
    simp only
    rw [skipWs_append hu1 (noWs_of_head (by decide))]
    simp only
    rw [h1, h2]
end

theorem skipSkipped_complete {t : Str} (h : Skipped t) {w r : Str} (hw : Ws w) (hr : Stop r) :
    skipValue (w ++ t ++ r) = some r := by
  unfold skipValue
  obtain ⟨f, _, hf⟩ := skipTokens_complete h (2 * (w ++ t ++ r).length + 2) [] w r hw hr (by simp; omega)
  rw [hf, skipTokens.closeTokens]

mutual
theorem JVal_skipped (j : Json) (t : Str) (h : JVal j t) : Skipped t := by
  match j, h with
  | .null, h => simp only [JVal] at h; subst h; exact .null
  | .bool true, h => simp only [JVal] at h; subst h; exact .true
  | .bool false, h => simp only [JVal] at h; subst h; exact .false
  | .num l, h => simp only [JVal] at h; obtain ⟨rfl, hj⟩ := h; exact .num hj
  | .str v, h => simp only [JVal] at h; obtain ⟨b, hb, rfl⟩ := h; exact .str (JStr.loose hb)
  | .arr [], h => simp only [JVal] at h; obtain ⟨w, hw, rfl⟩ := h; exact .emptyArr hw
  | .arr (x :: xs), h =>
    simp only [JVal] at h
    obtain ⟨w1, tx, w2, rs, hw1, hx, hw2, hxs, rfl⟩ := h
    exact .arr hw1 (JVal_skipped x tx hx) hw2 (JElems_skipped xs rs hxs)
  | .obj [], h => simp only [JVal] at h; obtain ⟨w, hw, rfl⟩ := h; exact .emptyObj hw
  | .obj ((k, x) :: ms), h =>
    simp only [JVal] at h
    obtain ⟨w1, q, u1, u2, tx, w2, rs, hw1, ⟨b, hb, rfl⟩, hu1, hu2, hx, hw2, hms, rfl⟩ := h
    exact .obj hw1 (JStr.loose hb) hu1 hu2 (JVal_skipped x tx hx) hw2 (JMembers_skipped ms rs hms)
theorem JElems_skipped (xs : List Json) (s : Str) (h : JElems xs s) : SkippedElems s := by
  match xs, h with
  | [], h => simp only [JElems] at h; subst h; exact .nil
  | x :: xs, h =>
    simp only [JElems] at h
    obtain ⟨w1, t, w2, rs, hw1, hx, hw2, hxs, rfl⟩ := h
    exact .cons hw1 (JVal_skipped x t hx) hw2 (JElems_skipped xs rs hxs)
theorem JMembers_skipped (ms : List (Str × Json)) (s : Str) (h : JMembers ms s) : SkippedMembers s := by
  match ms, h with
  | [], h => simp only [JMembers] at h; subst h; exact .nil
  | (k, x) :: ms, h =>
    simp only [JMembers] at h
    obtain ⟨w1, q, u1, u2, t, w2, rs, hw1, ⟨b, hb, rfl⟩, hu1, hu2, hx, hw2, hms, rfl⟩ := h
    exact .cons hw1 (JStr.loose hb) hu1 hu2 (JVal_skipped x t hx) hw2 (JMembers_skipped ms rs hms)
end

theorem skipValue_complete {j : Json} {t : Str} (h : JVal j t) {w r : Str} (hw : Ws w) (hr : Stop r) :
    skipValue (w ++ t ++ r) = some r := skipSkipped_complete (JVal_skipped j t h) hw hr

/-! ### fields -/

/-- The Rust value of a JSON value read as a field of the given type. -/
def kindOf : Kind → Json → Option FieldVal
  | .string, .str v => some (.s v)
  | .u64, .num lit =>
    if lit.all isDigit && decide (decVal lit ≤ 18446744073709551615) then some (.n (decVal lit)) else none
  | _, _ => none

theorem head_not_quote {j : Json} {t : Str} (h : JVal j t) (hj : ∀ v, j ≠ .str v) (r : Str) :
    ∃ c t', t ++ r = c :: t' ∧ c ≠ '"' := by
  match j, h with
  | .null, h => simp only [JVal] at h; subst h; exact ⟨'n', _, rfl, by decide⟩
  | .bool true, h => simp only [JVal] at h; subst h; exact ⟨'t', _, rfl, by decide⟩
  | .bool false, h => simp only [JVal] at h; subst h; exact ⟨'f', _, rfl, by decide⟩
  | .str v, _ => exact absurd rfl (hj v)
  | .num l, h =>
    simp only [JVal] at h
    obtain ⟨rfl, hj⟩ := h
    rcases JNum_split hj with ⟨ip, fr, ex, rfl, hi, _, _⟩ | ⟨ip, fr, ex, rfl, _, _, _⟩
    · obtain ⟨c, t, rfl, hc⟩ := intPart_head hi
      exact ⟨c, _, by simp only [List.cons_append]; rfl, by rintro rfl; revert hc; decide⟩
    · exact ⟨'-', _, by simp only [List.cons_append]; rfl, by decide⟩
  | .arr [], h => simp only [JVal] at h; obtain ⟨w, _, rfl⟩ := h; exact ⟨'[', _, rfl, by decide⟩
  | .arr (x :: xs), h =>
    simp only [JVal] at h
    obtain ⟨_, _, _, _, _, _, _, _, rfl⟩ := h
    exact ⟨'[', _, rfl, by decide⟩
  | .obj [], h => simp only [JVal] at h; obtain ⟨w, _, rfl⟩ := h; exact ⟨'{', _, rfl, by decide⟩
  | .obj ((k, x) :: ms), h =>
    simp only [JVal] at h
    obtain ⟨_, _, _, _, _, _, _, _, _, _, _, _, _, _, rfl⟩ := h
    exact ⟨'{', _, rfl, by decide⟩

theorem head_not_digit {j : Json} {t : Str} (h : JVal j t) (hj : ∀ l, j ≠ .num l) (r : Str) :
    ∃ c t', t ++ r = c :: t' ∧ isDigit c = false := by
  match j, h with
  | .null, h => simp only [JVal] at h; subst h; exact ⟨'n', _, rfl, by decide⟩
  | .bool true, h => simp only [JVal] at h; subst h; exact ⟨'t', _, rfl, by decide⟩
  | .bool false, h => simp only [JVal] at h; subst h; exact ⟨'f', _, rfl, by decide⟩
  | .num v, _ => exact absurd rfl (hj v)
  | .str l, h => simp only [JVal] at h; obtain ⟨w, _, rfl⟩ := h; exact ⟨'"', _, rfl, by decide⟩
  | .arr [], h => simp only [JVal] at h; obtain ⟨w, _, rfl⟩ := h; exact ⟨'[', _, rfl, by decide⟩
  | .arr (x :: xs), h =>
    simp only [JVal] at h
    obtain ⟨_, _, _, _, _, _, _, _, rfl⟩ := h
    exact ⟨'[', _, rfl, by decide⟩
  | .obj [], h => simp only [JVal] at h; obtain ⟨w, _, rfl⟩ := h; exact ⟨'{', _, rfl, by decide⟩
  | .obj ((k, x) :: ms), h =>
    simp only [JVal] at h
    obtain ⟨_, _, _, _, _, _, _, _, _, _, _, _, _, _, rfl⟩ := h
    exact ⟨'{', _, rfl, by decide⟩

theorem parseNumBody_noDigit {c : Char} {t : Str} (h : isDigit c = false) : parseNumBody (c :: t) = none := by
  rw [parseNumBody_eq]
  simp [h]

theorem exp_nonDigit {ex : Str} (h : IsExp ex) (hne : ex ≠ []) : ex.all isDigit = false := by
  rcases h with rfl | ⟨e, sg, ds, he, _, _, rfl⟩
  · exact absurd rfl hne
  · rcases he with rfl | rfl <;> (rw [List.all_cons]; rfl)

theorem frac_nonDigit {fr : Str} (h : IsFrac fr) (hne : fr ≠ []) : fr.all isDigit = false := by
  rcases h with rfl | ⟨ds, _, rfl⟩
  · exact absurd rfl hne
  · rw [List.all_cons]; rfl

theorem parseKind_complete {j : Json} {t : Str} (h : JVal j t) (kind : Kind) {w r : Str} (hw : Ws w) (hr : Stop r) :
    parseKind kind (w ++ t ++ r) = (kindOf kind j).map fun v => (v, r) := by
  have hsk : skipWs (w ++ t ++ r) = t ++ r := by
    rw [List.append_assoc]; exact skipWs_append hw (JVal_noWs h r)
  cases kind with
  | string =>
    unfold parseKind
    simp only
    rw [hsk]
    by_cases hj : ∃ v, j = .str v
    · obtain ⟨v, rfl⟩ := hj
      simp only [JVal] at h
      obtain ⟨b, hb, rfl⟩ := h
      have e : '"' :: b ++ ['"'] ++ r = '"' :: (b ++ '"' :: r) := by simp
      rw [e]
      simp only
      rw [parseStrBody_complete hb]
      rfl
    · have hj' : ∀ v, j ≠ .str v := fun v e => hj ⟨v, e⟩
      obtain ⟨c, t', e, hc⟩ := head_not_quote h hj' r
      rw [e]
      have hk : kindOf .string j = none := by cases j <;> first | rfl | exact absurd rfl (hj' _)
      rw [hk]
      split
      · rename_i heq; injection heq with h1 _; exact absurd h1 hc
      · rfl
  | u64 =>
    unfold parseKind
    simp only
    rw [hsk]
    by_cases hj : ∃ v, j = .num v
    · obtain ⟨l, rfl⟩ := hj
      simp only [JVal] at h
      obtain ⟨rfl, hn⟩ := h
      rcases JNum_split hn with ⟨ip, fr, ex, rfl, hi, hf, hx⟩ | ⟨ip, fr, ex, rfl, hi, hf, hx⟩
      · rw [parseNumBody_complete hi hf hx hr]
        have hip : ip.all isDigit = true := List.all_eq_true.2 (digits_all hi.1)
        by_cases hz : fr = [] ∧ ex = []
        · obtain ⟨rfl, rfl⟩ := hz
          simp only [List.append_nil, decide_true, Bool.and_self, kindOf, hip, Bool.true_and, decide_eq_true_eq]
          split <;> simp
        · have hna : (ip ++ fr ++ ex).all isDigit = false := by
            rw [List.all_append, List.all_append]
            by_cases hfr : fr = []
            · rw [exp_nonDigit hx (fun e => hz ⟨hfr, e⟩)]; simp
            · rw [frac_nonDigit hf hfr]; simp
          have hb : (decide (fr = []) && decide (ex = [])) = false := by
            simp; exact fun a b => hz ⟨a, b⟩
          rw [hb]
          simp only [kindOf, hna, Bool.false_and]
          rfl
      · have hna : ('-' :: (ip ++ fr ++ ex)).all isDigit = false := by rw [List.all_cons]; rfl
        rw [List.cons_append, parseNumBody_noDigit (by decide)]
        simp only [kindOf, hna, Bool.false_and]
        rfl
    · have hj' : ∀ v, j ≠ .num v := fun v e => hj ⟨v, e⟩
      obtain ⟨c, t', e, hc⟩ := head_not_digit h hj' r
      rw [e, parseNumBody_noDigit hc]
      have hk : kindOf .u64 j = none := by cases j <;> first | rfl | exact absurd rfl (hj' _)
      rw [hk]; rfl

/-- The members of an object, read as a struct. -/
def evalMembers (fields : List (Str × Kind)) : List (Str × FieldVal) → List (Str × Json) → Option (List (Str × FieldVal))
  | acc, [] => some acc
  | acc, (k, x) :: ms =>
    match fields.lookup k with
    | none => evalMembers fields acc ms
    | some kind =>
      if (acc.lookup k).isSome then none
      else match kindOf kind x with
        | none => none
        | some v => evalMembers fields ((k, v) :: acc) ms

theorem structMembers_complete (fields : List (Str × Kind)) (ms : List (Str × Json)) :
    ∀ (k : Str) (x : Json) (b u1 u2 t w rs r : Str) (acc : List (Str × FieldVal)) (n : Nat),
      JStr b k → Ws u1 → Ws u2 → JVal x t → Ws w → JMembers ms rs → rs.length + 1 ≤ n →
      structMembers fields n acc (b ++ '"' :: (u1 ++ (':' :: (u2 ++ t ++ (w ++ (rs ++ ('}' :: r))))))) =
        (evalMembers fields acc ((k, x) :: ms)).map fun a => (a, r) := by
  induction ms with
  | nil =>
    intro k x b u1 u2 t w rs r acc n hb hu1 hu2 hx hw hms hn
    simp only [JMembers] at hms
    subst hms
    obtain ⟨n, rfl⟩ : ∃ n', n = n' + 1 := ⟨n - 1, by omega⟩
    have hstop : Stop (w ++ ([] ++ ('}' :: r))) := stop_ws hw (stop_cons (by decide) _)
    have hend : skipWs (w ++ ([] ++ ('}' :: r))) = '}' :: r := skipWs_append hw (noWs_of_head (by decide))
    rw [structMembers, parseStrBody_complete hb]
    simp only
    rw [skipWs_append hu1 (noWs_of_head (by decide))]
    simp only [evalMembers]
    cases hl : fields.lookup k with
    | none => simp only [skipValue_complete hx hu2 hstop, Option.map_some, hend]
    | some kind =>
      simp only
      by_cases ha : (acc.lookup k).isSome = true
      · simp only [if_pos ha]; rfl
      · simp only [if_neg ha, parseKind_complete hx kind hu2 hstop]
        cases kindOf kind x with
        | none => rfl
        | some v => simp only [Option.map_some, hend]
  | cons m ms ih =>
    obtain ⟨k', x'⟩ := m
    intro k x b u1 u2 t w rs r acc n hb hu1 hu2 hx hw hms hn
    have hstop : Stop (w ++ (rs ++ ('}' :: r))) := stop_ws hw (stop_members hms (stop_cons (by decide) _))
    simp only [JMembers] at hms
    obtain ⟨w1, q, u1', u2', t', w2, rs', hw1, ⟨b', hb', rfl⟩, hu1', hu2', hx', hw2, hms', rfl⟩ := hms
    simp only [List.length_cons, List.length_append, List.length_nil] at hn
    obtain ⟨n, rfl⟩ : ∃ n', n = n' + 1 := ⟨n - 1, by omega⟩
    have e : ',' :: (w1 ++ ('"' :: b' ++ ['"']) ++ u1' ++ [':'] ++ u2' ++ t' ++ w2 ++ rs') ++ ('}' :: r) =
        ',' :: (w1 ++ ('"' :: (b' ++ '"' :: (u1' ++ (':' :: (u2' ++ t' ++ (w2 ++ (rs' ++ ('}' :: r))))))))) := by simp
    rw [e] at hstop ⊢
    have hend := skipWs_append hw (s := ',' :: (w1 ++ ('"' :: (b' ++ '"' :: (u1' ++ (':' :: (u2' ++ t' ++ (w2 ++ (rs' ++ ('}' :: r)))))))))) (noWs_of_head (by decide))
    have hend2 := skipWs_append hw1 (s := ('"' :: (b' ++ '"' :: (u1' ++ (':' :: (u2' ++ t' ++ (w2 ++ (rs' ++ ('}' :: r))))))))) (noWs_of_head (by decide))
    have hrec : ∀ acc, structMembers fields n acc (b' ++ '"' :: (u1' ++ (':' :: (u2' ++ t' ++ (w2 ++ (rs' ++ ('}' :: r))))))) = _ :=
      fun acc => ih k' x' b' u1' u2' t' w2 rs' r acc n hb' hu1' hu2' hx' hw2 hms' (by omega)
    rw [structMembers, parseStrBody_complete hb]
    simp only
    rw [skipWs_append hu1 (noWs_of_head (by decide))]
    rw [evalMembers]
    simp only
    cases hl : fields.lookup k with
    | none => simp only [skipValue_complete hx hu2 hstop, Option.map_some, hend, hend2, hrec]
    | some kind =>
      simp only
      by_cases ha : (acc.lookup k).isSome = true
      · simp only [if_pos ha]; rfl
      · simp only [if_neg ha, parseKind_complete hx kind hu2 hstop]
        cases kindOf kind x with
        | none => rfl
        | some v => simp only [Option.map_some, hend, hend2, hrec]

/-- The elements of an array, read as a struct. -/
def evalSeq : List (Str × Kind) → List Json → Option (List FieldVal)
  | [], [] => some []
  | (_, kind) :: fs, x :: xs =>
    match kindOf kind x with
    | none => none
    | some v => (evalSeq fs xs).map fun vs => v :: vs
  | _, _ => none

theorem structSeq_complete (xs : List Json) : ∀ (fields : List (Str × Kind)) (w rs r : Str), Ws w → JElems xs rs →
    structSeq fields false (w ++ (rs ++ (']' :: r))) = (evalSeq fields xs).map fun a => (a, r) := by
  induction xs with
  | nil =>
    intro fields w rs r hw hxs
    simp only [JElems] at hxs
    subst hxs
    have hend : skipWs (w ++ ([] ++ (']' :: r))) = ']' :: r := skipWs_append hw (noWs_of_head (by decide))
    cases fields with
    | nil => rw [structSeq, hend]; rfl
    | cons f fs => obtain ⟨k, kind⟩ := f; rw [structSeq]; simp only [Bool.false_eq_true, if_false, hend]; rfl
  | cons x xs ih =>
    intro fields w rs r hw hxs
    have hst := stop_elems hxs (stop_cons (c := ']') (by decide) r)
    simp only [JElems] at hxs
    obtain ⟨w1, t, w2, rs', hw1, hx, hw2, hxs', rfl⟩ := hxs
    have e : ',' :: (w1 ++ t ++ w2 ++ rs') ++ (']' :: r) = ',' :: (w1 ++ t ++ (w2 ++ (rs' ++ (']' :: r)))) := by simp
    have hstop : Stop (w2 ++ (rs' ++ (']' :: r))) := stop_ws hw2 (stop_elems hxs' (stop_cons (by decide) _))
    rw [e]
    have hend := skipWs_append hw (s := ',' :: (w1 ++ t ++ (w2 ++ (rs' ++ (']' :: r))))) (noWs_of_head (by decide))
    cases fields with
    | nil => rw [structSeq, hend]; rfl
    | cons f fs =>
      obtain ⟨k, kind⟩ := f
      rw [structSeq]
      simp only [Bool.false_eq_true, if_false, hend, parseKind_complete hx kind hw1 hstop, evalSeq]
      cases kindOf kind x with
      | none => rfl
      | some v => simp only [Option.map_some, ih fs w2 rs' r hw2 hxs', Option.map_map]; rfl

/-- A JSON value read as a struct. -/
def evalStruct (fields : List (Str × Kind)) : Json → Option (List FieldVal)
  | .obj ms => (evalMembers fields [] ms).bind fun acc => fields.mapM fun f => acc.lookup f.1
  | .arr xs => evalSeq fields xs
  | _ => none

theorem skipWs_ws {w : Str} (h : Ws w) : skipWs w = [] := by
  have := skipWs_append h (s := []) (by intro c hc; cases hc)
  simpa using this

theorem stop_of_ws {w : Str} (h : Ws w) : Stop w := by
  have := stop_ws h (r := []) (by intro c hc; cases hc)
  simpa using this

theorem parseStruct_complete {j : Json} {s : Str} (h : JsonText j s) (fields : List (Str × Kind)) (hf : fields ≠ []) :
    parseStruct fields s = evalStruct fields j := by
  obtain ⟨w, t, w', hw, hj, hw', rfl⟩ := h
  have hsk : skipWs (w ++ t ++ w') = t ++ w' := by
    rw [List.append_assoc]; exact skipWs_append hw (JVal_noWs hj w')
  unfold parseStruct
  rw [hsk]
  match j, hj with
  | .null, h => simp only [JVal] at h; subst h; rfl
  | .bool true, h => simp only [JVal] at h; subst h; rfl
  | .bool false, h => simp only [JVal] at h; subst h; rfl
  | .str v, h => simp only [JVal] at h; obtain ⟨b, hb, rfl⟩ := h; rfl
  | .num l, h =>
    simp only [JVal] at h
    obtain ⟨rfl, hj⟩ := h
    have : ∃ c t', t ++ w' = c :: t' ∧ c ≠ '{' ∧ c ≠ '[' := by
      rcases JNum_split hj with ⟨ip, fr, ex, rfl, hi, _, _⟩ | ⟨ip, fr, ex, rfl, _, _, _⟩
      · obtain ⟨c, t, rfl, hc⟩ := intPart_head hi
        exact ⟨c, _, by simp only [List.cons_append]; rfl, by rintro rfl; revert hc; decide, by rintro rfl; revert hc; decide⟩
      · exact ⟨'-', _, by simp only [List.cons_append]; rfl, by decide, by decide⟩
    obtain ⟨c, t', e, h1, h2⟩ := this
    rw [e]
    split
    · rename_i heq; injection heq with a _; exact absurd a h1
    · rename_i heq; injection heq with a _; exact absurd a h2
    · rfl
  | .arr [], h =>
    simp only [JVal] at h
    obtain ⟨w1, hw1, rfl⟩ := h
    have e : '[' :: (w1 ++ [']']) ++ w' = '[' :: (w1 ++ (']' :: w')) := by simp
    rw [e]
    simp only [evalStruct]
    cases fields with
    | nil => exact absurd rfl hf
    | cons f fs =>
      obtain ⟨k, kind⟩ := f
      rw [structSeq]
      have hsk1 : skipWs (w1 ++ (']' :: w')) = ']' :: w' := skipWs_append hw1 (noWs_of_head (by decide))
      have : parseKind kind (w1 ++ (']' :: w')) = none := by
        unfold parseKind
        rw [hsk1]
        cases kind with
        | string => rfl
        | u64 => simp only; rw [parseNumBody_noDigit (by decide)]
      simp only [if_true, this, evalSeq]
  | .arr (x :: xs), h =>
    simp only [JVal] at h
    obtain ⟨w1, tx, w2, rs, hw1, hx, hw2, hxs, rfl⟩ := h
    have hstop : Stop (w2 ++ (rs ++ (']' :: w'))) := stop_ws hw2 (stop_elems hxs (stop_cons (by decide) _))
    have e : '[' :: (w1 ++ tx ++ w2 ++ rs ++ [']']) ++ w' = '[' :: (w1 ++ tx ++ (w2 ++ (rs ++ (']' :: w')))) := by simp
    rw [e]
    simp only [evalStruct]
    cases fields with
    | nil => exact absurd rfl hf
    | cons f fs =>
      obtain ⟨k, kind⟩ := f
      rw [structSeq]
      simp only [if_true, parseKind_complete hx kind hw1 hstop, evalSeq]
      cases kindOf kind x with
      | none => rfl
      | some v =>
        simp only [Option.map_some, structSeq_complete xs fs w2 rs w' hw2 hxs, Option.map_map]
        cases evalSeq fs xs with
        | none => rfl
        | some vs => simp [skipWs_ws hw']
  | .obj [], h =>
    simp only [JVal] at h
    obtain ⟨w1, hw1, rfl⟩ := h
    have e : '{' :: (w1 ++ ['}']) ++ w' = '{' :: (w1 ++ ('}' :: w')) := by simp
    rw [e]
    simp only
    rw [skipWs_append hw1 (noWs_of_head (by decide))]
    simp only [evalStruct, evalMembers, Option.bind_some]
    cases fields with
    | nil => exact absurd rfl hf
    | cons f fs => simp [List.mapM_cons]
  | .obj ((k, x) :: ms), h =>
    simp only [JVal] at h
    obtain ⟨w1, q, u1, u2, tx, w2, rs, hw1, ⟨b, hb, rfl⟩, hu1, hu2, hx, hw2, hms, rfl⟩ := h
    have e : '{' :: (w1 ++ ('"' :: b ++ ['"']) ++ u1 ++ [':'] ++ u2 ++ tx ++ w2 ++ rs ++ ['}']) ++ w' =
        '{' :: (w1 ++ ('"' :: (b ++ '"' :: (u1 ++ (':' :: (u2 ++ tx ++ (w2 ++ (rs ++ ('}' :: w'))))))))) := by simp
    rw [e]
    simp only
    rw [skipWs_append hw1 (noWs_of_head (by decide))]
    simp only
    rw [structMembers_complete fields ms k x b u1 u2 tx w2 rs w' [] _ hb hu1 hu2 hx hw2 hms (by simp; omega)]
    simp only [evalStruct]
    cases evalMembers fields [] ((k, x) :: ms) with
    | none => rfl
    | some acc => simp [skipWs_ws hw']

theorem filter_cons_ne {α : Type} {k k0 : Str} {x0 : α} (ms : List (Str × α)) (h : k ≠ k0) :
    ((k0, x0) :: ms).filter (fun m => decide (m.1 = k)) = ms.filter (fun m => decide (m.1 = k)) := by
  rw [List.filter_cons_of_neg]
  simp; exact fun e => h e.symm

theorem lookup_cons_ne {α : Type} {k k0 : Str} {v : α} (l : List (Str × α)) (h : k ≠ k0) :
    ((k0, v) :: l).lookup k = l.lookup k := by
  rw [List.lookup_cons]
  have : (k == k0) = false := by simpa using h
  simp [this]

theorem lookup_cons_self' {α : Type} {k : Str} {v : α} (l : List (Str × α)) :
    ((k, v) :: l).lookup k = some v := by
  rw [List.lookup_cons]; simp

theorem evalMembers_iff (fields : List (Str × Kind)) (val : Str → FieldVal) (ms : List (Str × Json)) :
    ∀ acc, (∃ acc', evalMembers fields acc ms = some acc' ∧
        ∀ k kind, fields.lookup k = some kind → acc'.lookup k = some (val k)) ↔
      ∀ k kind, fields.lookup k = some kind →
        (acc.lookup k = some (val k) ∧ ms.filter (fun m => m.1 = k) = []) ∨
        (acc.lookup k = none ∧ ∃ x, OnlyMember ms k x ∧ kindOf kind x = some (val k)) := by
  induction ms with
  | nil =>
    intro acc
    simp only [evalMembers, OnlyMember]
    constructor
    · rintro ⟨_, h, h2⟩ k kind hk
      cases h
      exact .inl ⟨h2 k kind hk, rfl⟩
    · intro h
      refine ⟨acc, rfl, fun k kind hk => ?_⟩
      rcases h k kind hk with ⟨h, _⟩ | ⟨_, x, hx, _⟩
      · exact h
      · cases hx
  | cons m ms ih =>
    obtain ⟨k0, x0⟩ := m
    intro acc
    rw [evalMembers]
    cases hl : fields.lookup k0 with
    | none =>
      simp only
      rw [ih acc]
      have hne : ∀ k kind, fields.lookup k = some kind → k ≠ k0 := by
        rintro k kind hk rfl; rw [hl] at hk; cases hk
      constructor <;> intro h k kind hk <;> have := h k kind hk
      · simpa only [OnlyMember, filter_cons_ne ms (hne k kind hk)] using this
      · simpa only [OnlyMember, filter_cons_ne ms (hne k kind hk)] using this
    | some kind0 =>
      simp only
      have hself : ((k0, x0) :: ms).filter (fun m => decide (m.1 = k0)) = (k0, x0) :: ms.filter (fun m => decide (m.1 = k0)) := by
        rw [List.filter_cons_of_pos]; simp
      by_cases ha : (acc.lookup k0).isSome = true
      · rw [if_pos ha]
        constructor
        · rintro ⟨_, h, _⟩; cases h
        · intro h
          exfalso
          rcases h k0 kind0 hl with ⟨_, h⟩ | ⟨h, _⟩
          · rw [hself] at h; cases h
          · rw [h] at ha; cases ha
      · rw [if_neg ha]
        have ha' : acc.lookup k0 = none := by
          cases h : acc.lookup k0 with
          | none => rfl
          | some _ => rw [h] at ha; exact absurd rfl ha
        cases hk0 : kindOf kind0 x0 with
        | none =>
          simp only
          constructor
          · rintro ⟨_, h, _⟩; cases h
          · intro h
            exfalso
            rcases h k0 kind0 hl with ⟨h, _⟩ | ⟨_, x, hx, hk⟩
            · rw [ha'] at h; cases h
            · simp only [OnlyMember, hself, List.map_cons, List.cons.injEq] at hx
              rw [← hx.1, hk0] at hk; cases hk
        | some v0 =>
          simp only
          rw [ih]
          constructor <;> intro h k kind hk <;> have hh := h k kind hk <;> by_cases hkk : k = k0
          · subst hkk
            rw [hl] at hk; cases hk
            rw [lookup_cons_self'] at hh
            rcases hh with ⟨h1, h2⟩ | ⟨h1, _⟩
            · refine .inr ⟨ha', x0, ?_, by rw [hk0]; exact h1⟩
              simp only [OnlyMember, hself, List.map_cons, h2, List.map_nil]
            · cases h1
          · simpa only [OnlyMember, filter_cons_ne ms hkk, lookup_cons_ne acc hkk] using hh
          · subst hkk
            rw [hl] at hk; cases hk
            rw [lookup_cons_self']
            rcases hh with ⟨h1, _⟩ | ⟨_, x, hx, hv⟩
            · rw [ha'] at h1; cases h1
            · simp only [OnlyMember, hself, List.map_cons, List.cons.injEq, List.map_eq_nil_iff] at hx
              refine .inl ⟨?_, hx.2⟩
              rw [← hx.1, hk0] at hv; exact hv
          · simpa only [OnlyMember, filter_cons_ne ms hkk, lookup_cons_ne acc hkk] using hh

theorem kindOf_string {j : Json} {v : FieldVal} : kindOf .string j = some v ↔ ∃ s, j = .str s ∧ v = .s s := by
  cases j <;> simp [kindOf, eq_comm]

theorem kindOf_u64 {j : Json} {v : FieldVal} :
    kindOf .u64 j = some v ↔ ∃ lit, j = .num lit ∧ lit.all isDigit = true ∧ decVal lit ≤ 18446744073709551615 ∧ v = .n (decVal lit) := by
  cases j with
  | num lit =>
    simp only [kindOf, Json.num.injEq, exists_eq_left']
    split
    · rename_i h
      simp only [Bool.and_eq_true, decide_eq_true_eq] at h
      simp only [Option.some.injEq, h.1, h.2, true_and]
      exact eq_comm
    · rename_i h
      simp only [Bool.and_eq_true, decide_eq_true_eq, not_and] at h
      constructor
      · intro h; cases h
      · rintro ⟨h1, h2, _⟩; exact absurd h2 (h h1)
  | _ => simp [kindOf]

/-! ### soundness: what is skipped is loosely JSON -/

theorem skipStrBody_sound (s : Str) : ∀ {r : Str}, skipStrBody s = some r → ∃ t, LooseStr t ∧ s = t ++ '"' :: r := by
  intro r h
  rw [skipStrBody.eq_def] at h
  split at h
  · cases h
  · cases h; exact ⟨[], .nil, rfl⟩
  · rename_i a b c d r0
    split at h
    · rename_i hq
      obtain ⟨n, hn⟩ := Option.isSome_iff_exists.1 hq
      obtain ⟨t, ht, e⟩ := skipStrBody_sound r0 h
      exact ⟨_, .unicode (hex4_eq a b c d ▸ hn) ht, by rw [e]; rfl⟩
    · cases h
  · rename_i e0 r0 _
    split at h
    · rename_i he
      obtain ⟨t, ht, e⟩ := skipStrBody_sound r0 h
      have : ∃ c, (e0, c) ∈ escapes := by
        rcases he with rfl | rfl | rfl | rfl | rfl | rfl | rfl | rfl
        · exact ⟨'"', by decide⟩
        · exact ⟨'\\', by decide⟩
        · exact ⟨'/', by decide⟩
        · exact ⟨Char.ofNat 8, by decide⟩
        · exact ⟨Char.ofNat 12, by decide⟩
        · exact ⟨'\n', by decide⟩
        · exact ⟨'\r', by decide⟩
        · exact ⟨'\t', by decide⟩
      obtain ⟨c, hc⟩ := this
      exact ⟨_, LooseStr.esc hc ht, by rw [e]; rfl⟩
    · cases h
  · rename_i c r0 hq _ _
    split at h
    · cases h
    · rename_i hc
      simp only [not_or] at hc
      obtain ⟨t, ht, e⟩ := skipStrBody_sound r0 h
      refine ⟨_, LooseStr.char (fun e => ?_) hc.2 (by omega) ht, by rw [e]; rfl⟩
      subst e; exact hq rfl
termination_by s.length

theorem JNum_pos {ip fr ex : Str} (hi : IsIntPart ip) (hf : IsFrac fr) (hx : IsExp ex) : JNum (ip ++ fr ++ ex) :=
  ⟨[], ip, fr, ex, by simp, .inl rfl, hi, hf, hx⟩
theorem JNum_neg {ip fr ex : Str} (hi : IsIntPart ip) (hf : IsFrac fr) (hx : IsExp ex) : JNum ('-' :: (ip ++ fr ++ ex)) :=
  ⟨['-'], ip, fr, ex, by simp, .inr rfl, hi, hf, hx⟩

/-- The three soundness statements for fuel `f`. -/
def SkipSound (f : Nat) : Prop :=
  (∀ stack s r, skipTokens f stack s = some r →
    ∃ w t r1 f1, Ws w ∧ Skipped t ∧ s = w ++ t ++ r1 ∧ f1 < f ∧ skipTokens.closeTokens f1 stack r1 = some r) ∧
  (∀ stack s r, skipTokens.closeTokens f (false :: stack) s = some r →
    ∃ w t r1 f1, Ws w ∧ SkippedElems t ∧ s = w ++ (t ++ (']' :: r1)) ∧ f1 < f ∧
      skipTokens.closeTokens f1 stack r1 = some r) ∧
  (∀ stack s r, skipTokens.closeTokens f (true :: stack) s = some r →
    ∃ w t r1 f1, Ws w ∧ SkippedMembers t ∧ s = w ++ (t ++ ('}' :: r1)) ∧ f1 < f ∧
      skipTokens.closeTokens f1 stack r1 = some r)

theorem skipKey_sound {f : Nat} (ih : ∀ g, g < f → SkipSound g) {stack : List Bool} {s r : Str}
    (h : skipTokens.skipKey f (true :: stack) s = some r) :
    ∃ w b u1 u2 t w2 t2 r1 f1, Ws w ∧ LooseStr b ∧ Ws u1 ∧ Ws u2 ∧ Skipped t ∧ Ws w2 ∧ SkippedMembers t2 ∧
      s = w ++ ('"' :: (b ++ '"' :: (u1 ++ (':' :: (u2 ++ t ++ (w2 ++ (t2 ++ ('}' :: r1)))))))) ∧ f1 < f ∧
      skipTokens.closeTokens f1 stack r1 = some r := by
  cases f with
  | zero => rw [skipTokens.skipKey] at h; cases h
  | succ f =>
    rw [skipTokens.skipKey] at h
    obtain ⟨w, hw, hs⟩ := skipWs_spec s
    split at h
    · rename_i r0 heq
      rw [heq] at hs
      cases hq : skipStrBody r0 with
      | none => rw [hq] at h; cases h
      | some r1 =>
        rw [hq] at h
        simp only at h
        subst hs
        obtain ⟨b, hb, rfl⟩ := skipStrBody_sound r0 hq
        obtain ⟨u1, hu1, hs1⟩ := skipWs_spec r1
        split at h
        · rename_i r2 heq2
          rw [heq2] at hs1
          subst hs1
          obtain ⟨u2, t, r3, f1, hu2, hx, rfl, hf1, hc⟩ := (ih f (by omega)).1 _ _ _ h
          obtain ⟨w2, t2, r4, f2, hw2, hms, rfl, hf2, hc2⟩ := (ih f1 (by omega)).2.2 _ _ _ hc
          exact ⟨w, b, u1, u2, t, w2, t2, r4, f2, hw, hb, hu1, hu2, hx, hw2, hms, rfl, by omega, hc2⟩
        · cases h
    · cases h

theorem skip_sound (f : Nat) : SkipSound f := by
  induction f using Nat.strongRecOn with
  | _ f ih =>
    cases f with
    | zero =>
      refine ⟨fun _ _ _ h => ?_, fun _ _ _ h => ?_, fun _ _ _ h => ?_⟩
      · rw [skipTokens] at h; cases h
      · rw [skipTokens.closeTokens] at h; cases h
      · rw [skipTokens.closeTokens] at h; cases h
    | succ f =>
      refine ⟨fun stack s r h => ?_, fun stack s r h => ?_, fun stack s r h => ?_⟩
      · rw [skipTokens] at h
        obtain ⟨w, hw, hs⟩ := skipWs_spec s
        simp only at h
        split at h
        · rename_i r0 heq
          exact ⟨w, s% "null", r0, f, hw, .null, by rw [hs, heq]; simp, by omega, h⟩
        · rename_i r0 heq
          exact ⟨w, s% "true", r0, f, hw, .true, by rw [hs, heq]; simp, by omega, h⟩
        · rename_i r0 heq
          exact ⟨w, s% "false", r0, f, hw, .false, by rw [hs, heq]; simp, by omega, h⟩
        · rename_i r0 heq
          rw [heq] at hs
          split at h
          · cases h
          · rename_i r1 hq
            obtain ⟨t, ht, rfl⟩ := skipStrBody_sound r0 hq
            exact ⟨w, '"' :: t ++ ['"'], r1, f, hw, .str ht, by rw [hs]; simp, by omega, h⟩
        · rename_i r0 heq
          rw [heq] at hs
          obtain ⟨w1, hw1, hs1⟩ := skipWs_spec r0
          split at h
          · rename_i r1 heq1
            rw [heq1] at hs1
            exact ⟨w, '[' :: (w1 ++ [']']), r1, f, hw, .emptyArr hw1, by rw [hs, hs1]; simp, by omega, h⟩
          · obtain ⟨w2, t, r3, f1, hw2, hx, e3, hf1, hc⟩ := (ih f (by omega)).1 _ _ _ h
            obtain ⟨w3, t2, r4, f2, hw3, hxs, e4, hf2, hc2⟩ := (ih f1 (by omega)).2.1 _ _ _ hc
            have hw12 : Ws (w1 ++ w2) := by
              intro c hc; rcases List.mem_append.1 hc with h | h
              · exact hw1 c h
              · exact hw2 c h
            refine ⟨w, '[' :: ((w1 ++ w2) ++ t ++ w3 ++ t2 ++ [']']), r4, f2, hw, ?_, ?_, by omega, hc2⟩
            · exact .arr hw12 hx hw3 hxs
            · rw [hs, hs1, e3, e4]; simp
        · rename_i r0 heq
          rw [heq] at hs
          obtain ⟨w1, hw1, hs1⟩ := skipWs_spec r0
          split at h
          · rename_i r1 heq1
            rw [heq1] at hs1
            exact ⟨w, '{' :: (w1 ++ ['}']), r1, f, hw, .emptyObj hw1, by rw [hs, hs1]; simp, by omega, h⟩
          · obtain ⟨w2, b, u1, u2, t, w3, t2, r4, f2, hw2, hb, hu1, hu2, hx, hw3, hms, e3, hf2, hc2⟩ :=
              skipKey_sound (fun g hg => ih g (by omega)) h
            have hw12 : Ws (w1 ++ w2) := by
              intro c hc; rcases List.mem_append.1 hc with h | h
              · exact hw1 c h
              · exact hw2 c h
            refine ⟨w, '{' :: ((w1 ++ w2) ++ ('"' :: b ++ ['"']) ++ u1 ++ [':'] ++ u2 ++ t ++ w3 ++ t2 ++ ['}']), r4, f2, hw, ?_, ?_, by omega, hc2⟩
            · exact .obj hw12 hb hu1 hu2 hx hw3 hms
            · rw [hs, hs1, e3]; simp
        · rename_i r0 heq
          rw [heq] at hs
          split at h
          · cases h
          · rename_i bb l r1 hq
            obtain ⟨ip, fr, ex, hi, hf, hx, rfl, rfl, _⟩ := parseNumBody_sound hq
            exact ⟨w, '-' :: (ip ++ fr ++ ex), r1, f, hw, .num (JNum_neg hi hf hx),
              by rw [hs]; simp, by omega, h⟩
        · split at h
          · cases h
          · rename_i bb l r1 hq
            obtain ⟨ip, fr, ex, hi, hf, hx, rfl, e, _⟩ := parseNumBody_sound hq
            exact ⟨w, ip ++ fr ++ ex, r1, f, hw, .num (JNum_pos hi hf hx),
              by rw [hs, e]; simp, by omega, h⟩
      · rw [skipTokens.closeTokens] at h
        obtain ⟨w, hw, hs⟩ := skipWs_spec s
        split at h
        · rename_i r0 heq
          rw [heq] at hs
          simp only [Bool.false_eq_true, if_false] at h
          obtain ⟨w2, t, r3, f1, hw2, hx, e3, hf1, hc⟩ := (ih f (by omega)).1 _ _ _ h
          obtain ⟨w3, t2, r4, f2, hw3, hxs, e4, hf2, hc2⟩ := (ih f1 (by omega)).2.1 _ _ _ hc
          refine ⟨w, ',' :: (w2 ++ t ++ w3 ++ t2), r4, f2, hw, ?_, ?_, by omega, hc2⟩
          · exact .cons hw2 hx hw3 hxs
          · rw [hs, e3, e4]; simp
        · rename_i r0 heq
          rw [heq] at hs
          simp only [Bool.false_eq_true, if_false] at h
          exact ⟨w, [], r0, f, hw, .nil, by rw [hs]; simp, by omega, h⟩
        · simp at h
        · cases h
      · rw [skipTokens.closeTokens] at h
        obtain ⟨w, hw, hs⟩ := skipWs_spec s
        split at h
        · rename_i r0 heq
          rw [heq] at hs
          simp only [if_true] at h
          obtain ⟨w2, b, u1, u2, t, w3, t2, r4, f2, hw2, hb, hu1, hu2, hx, hw3, hms, e3, hf2, hc2⟩ :=
            skipKey_sound (fun g hg => ih g (by omega)) h
          refine ⟨w, ',' :: (w2 ++ ('"' :: b ++ ['"']) ++ u1 ++ [':'] ++ u2 ++ t ++ w3 ++ t2), r4, f2, hw, ?_, ?_, by omega, hc2⟩
          · exact .cons hw2 hb hu1 hu2 hx hw3 hms
          · rw [hs, e3]; simp
        · simp at h
        · rename_i r0 heq
          rw [heq] at hs
          simp only [if_true] at h
          exact ⟨w, [], r0, f, hw, .nil, by rw [hs]; simp, by omega, h⟩
        · cases h

theorem skipValue_sound {s r : Str} (h : skipValue s = some r) :
    ∃ w t, Ws w ∧ Skipped t ∧ s = w ++ t ++ r := by
  obtain ⟨w, t, r1, f1, hw, hj, e, _, hc⟩ := (skip_sound _).1 _ _ _ h
  rw [skipTokens.closeTokens] at hc
  cases hc
  exact ⟨w, t, hw, hj, e⟩
theorem ws_of_skipWs {w : Str} (h : skipWs w = []) : Ws w := by
  obtain ⟨w', hw', e⟩ := skipWs_spec w
  rw [h, List.append_nil] at e
  rw [e]; exact hw'

end CSS
