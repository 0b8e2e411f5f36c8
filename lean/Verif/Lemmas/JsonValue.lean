import Verif.Lemmas.Json
/- Values: completeness and soundness of the reader, unambiguity of the grammar, writer. -/
set_option linter.unusedSimpArgs false
namespace CSS
open Spec

theorem intPart_noMinus {ip : Str} (h : IsIntPart ip) (r : Str) : ∀ t, ip ++ r ≠ '-' :: t := by
  intro t e
  cases ip with
  | nil => exact h.1.1 rfl
  | cons c ip =>
    rw [List.cons_append] at e
    injection e with e _
    subst e
    have := digits_all h.1 '-' (by simp)
    revert this; decide

theorem digits_append {a b : Str} (ha : Digits a) : Digits (a ++ b) ↔ ∀ c ∈ b, c ∈ s% "0123456789" := by
  constructor
  · intro h c hc; exact h.2 c (by simp [hc])
  · intro h
    refine ⟨by intro e; exact ha.1 (List.append_eq_nil_iff.1 e).1, ?_⟩
    intro c hc
    rcases List.mem_append.1 hc with hc | hc
    · exact ha.2 c hc
    · exact h c hc

theorem frac_exp_nil {ip fr ex : Str} (hi : IsIntPart ip) (hf : IsFrac fr) (hx : IsExp ex) :
    Digits (ip ++ fr ++ ex) ↔ (fr = [] ∧ ex = []) := by
  constructor
  · intro h
    have h' := h.2
    refine ⟨?_, ?_⟩
    · rcases hf with hf | ⟨ds, _, rfl⟩
      · exact hf
      · exact absurd (h' '.' (by simp)) (by decide)
    · rcases hx with hx | ⟨e, sg, ds, he, _, _, rfl⟩
      · exact hx
      · have := h' e (by simp)
        rcases he with rfl | rfl <;> exact absurd this (by decide)
  · rintro ⟨rfl, rfl⟩; simpa using hi.1

theorem parseNum_complete (numOk : Str → Bool) {l r : Str} (h : JNum l) (hn : NumAccepted numOk l) (hr : Stop r) :
    parseNum numOk (l ++ r) = some (.num l, r) := by
  obtain ⟨sg, ip, fr, ex, rfl, hs, hi, hf, hx⟩ := h
  have hi : IsIntPart ip := hi
  have hf : IsFrac fr := hf
  have hx : IsExp ex := hx
  have hp := parseNumBody_complete hi hf hx hr
  rcases hs with rfl | rfl
  · simp only [List.nil_append] at hn ⊢
    unfold parseNum
    split
    · rename_i t e
      exfalso
      rw [List.append_assoc, List.append_assoc] at e
      exact intPart_noMinus hi _ _ e
    · rw [hp]
      simp only
      rw [if_pos]
      rcases hn with (⟨ds, e, _⟩ | ⟨hd, hv⟩) | hn
      · exfalso; rw [List.append_assoc] at e; exact intPart_noMinus hi _ _ e
      · obtain ⟨rfl, rfl⟩ := (frac_exp_nil hi hf hx).1 hd
        simp at hv ⊢; exact .inl hv
      · rw [hn, Bool.or_true]
  · simp only [List.cons_append, List.nil_append] at hn ⊢
    unfold parseNum
    simp only
    rw [hp]
    simp only
    rw [if_pos]
    rcases hn with (⟨ds, e, hd, hv⟩ | ⟨hd, hv⟩) | hn
    · injection e with _ e
      rw [← e] at hd hv
      obtain ⟨rfl, rfl⟩ := (frac_exp_nil hi hf hx).1 hd
      simp at hv ⊢; exact .inl hv
    · exact absurd (hd.2 '-' (by simp)) (by decide)
    · rw [hn, Bool.or_true]

theorem parseNum_sound (numOk : Str → Bool) {s r : Str} {j : Json} (h : parseNum numOk s = some (j, r)) :
    ∃ l, j = .num l ∧ JNum l ∧ NumAccepted numOk l ∧ s = l ++ r := by
  unfold parseNum at h
  split at h
  · rename_i t
    split at h
    · cases h
    · rename_i isInt lit r' hp
      split at h
      · rename_i hc
        cases h
        obtain ⟨ip, fr, ex, hi, hf, hx, rfl, rfl, hb⟩ := parseNumBody_sound hp
        refine ⟨_, rfl, ⟨['-'], ip, fr, ex, by simp, .inr rfl, hi, hf, hx⟩, ?_, rfl⟩
        rw [Bool.or_eq_true, Bool.and_eq_true] at hc
        rcases hc with ⟨h1, h2⟩ | hc
        · left; left
          subst hb
          simp only [Bool.and_eq_true, decide_eq_true_eq] at h1 h2
          exact ⟨_, rfl, (frac_exp_nil hi hf hx).2 h1, h2⟩
        · exact .inr hc
      · cases h
  · split at h
    · cases h
    · rename_i isInt lit r' hp
      split at h
      · rename_i hc
        cases h
        obtain ⟨ip, fr, ex, hi, hf, hx, rfl, rfl, hb⟩ := parseNumBody_sound hp
        refine ⟨_, rfl, ⟨[], ip, fr, ex, by simp, .inl rfl, hi, hf, hx⟩, ?_, rfl⟩
        rw [Bool.or_eq_true, Bool.and_eq_true] at hc
        rcases hc with ⟨h1, h2⟩ | hc
        · left; right
          subst hb
          simp only [Bool.and_eq_true, decide_eq_true_eq] at h1 h2
          exact ⟨(frac_exp_nil hi hf hx).2 h1, h2⟩
        · exact .inr hc
      · cases h

/-- The first character of a value. -/
theorem JVal_head {j : Json} {t : Str} (h : JVal j t) : ∃ c r, t = c :: r ∧ c ∈ s% "ntf\"[{-0123456789" := by
  match j, h with
  | .null, h => subst h; exact ⟨_, _, rfl, by decide⟩
  | .bool true, h => subst h; exact ⟨_, _, rfl, by decide⟩
  | .bool false, h => subst h; exact ⟨_, _, rfl, by decide⟩
  | .num l, h =>
    obtain ⟨rfl, sg, ip, fr, ex, rfl, hs, hi, _⟩ := h
    rcases hs with rfl | rfl
    · cases ip with
      | nil => exact absurd rfl hi.1.1
      | cons c ip =>
        have hc := hi.1.2 c (by simp)
        refine ⟨c, _, rfl, ?_⟩
        have : ∀ c ∈ s% "0123456789", c ∈ s% "ntf\"[{-0123456789" := by decide
        exact this c hc
    · exact ⟨'-', _, rfl, by decide⟩
  | .str v, h => obtain ⟨t, _, rfl⟩ := h; exact ⟨_, _, rfl, by decide⟩
  | .arr [], h => obtain ⟨w, _, rfl⟩ := h; exact ⟨_, _, rfl, by decide⟩
  | .arr (x :: xs), h => obtain ⟨w, t, w', r, _, _, _, _, rfl⟩ := h; exact ⟨_, _, rfl, by decide⟩
  | .obj [], h => obtain ⟨w, _, rfl⟩ := h; exact ⟨_, _, rfl, by decide⟩
  | .obj ((k, x) :: ms), h =>
    obtain ⟨w, q, w1, w2, t, w', r, _, _, _, _, _, _, _, rfl⟩ := h; exact ⟨_, _, rfl, by decide⟩

theorem noWs_of_head {c : Char} {r : Str} (h : c ∉ s% " \t\n\r") : NoWs (c :: r) := by
  intro d hd; cases hd; exact h

theorem JVal_noWs {j : Json} {t : Str} (h : JVal j t) (r : Str) : NoWs (t ++ r) := by
  obtain ⟨c, t', rfl, hc⟩ := JVal_head h
  apply noWs_of_head
  have : ∀ c ∈ s% "ntf\"[{-0123456789", c ∉ s% " \t\n\r" := by decide
  exact this c hc

theorem stop_ws {w r : Str} (hw : Ws w) (hr : Stop r) : Stop (w ++ r) := by
  intro c hc
  cases w with
  | nil => exact hr c hc
  | cons d w =>
    simp only [List.cons_append, List.head?_cons, Option.some.injEq] at hc
    subst hc
    have := hw d (by simp)
    have key : ∀ c ∈ s% " \t\n\r", c ∈ s% " \t\n\r,]}" := by decide
    exact key d this

theorem stop_cons {c : Char} (h : c ∈ s% " \t\n\r,]}") (r : Str) : Stop (c :: r) := by
  intro d hd; cases hd; exact h

theorem stop_elems {xs : List Json} {r : Str} (h : JElems xs r) {s : Str} (hs : Stop s) : Stop (r ++ s) := by
  cases xs with
  | nil => simp only [JElems] at h; subst h; exact hs
  | cons x xs => simp only [JElems] at h; obtain ⟨w, t, w', r', _, _, _, _, rfl⟩ := h; exact stop_cons (by decide) _

theorem stop_members {ms : List (Str × Json)} {r : Str} (h : JMembers ms r) {s : Str} (hs : Stop s) : Stop (r ++ s) := by
  match ms with
  | [] => simp only [JMembers] at h; subst h; exact hs
  | (k, x) :: ms =>
    simp only [JMembers] at h
    obtain ⟨w, q, w1, w2, t, w', r', _, _, _, _, _, _, _, rfl⟩ := h; exact stop_cons (by decide) _

theorem noWs_elems {xs : List Json} {r : Str} (h : JElems xs r) {s : Str} (hs : NoWs s) : NoWs (r ++ s) := by
  cases xs with
  | nil => simp only [JElems] at h; subst h; exact hs
  | cons x xs => simp only [JElems] at h; obtain ⟨w, t, w', r', _, _, _, _, rfl⟩ := h; exact noWs_of_head (by decide)

theorem noWs_members {ms : List (Str × Json)} {r : Str} (h : JMembers ms r) {s : Str} (hs : NoWs s) : NoWs (r ++ s) := by
  match ms with
  | [] => simp only [JMembers] at h; subst h; exact hs
  | (k, x) :: ms =>
    simp only [JMembers] at h
    obtain ⟨w, q, w1, w2, t, w', r', _, _, _, _, _, _, _, rfl⟩ := h; exact noWs_of_head (by decide)

theorem parseMember_complete {pv : Str → Option (Json × Str)} {k : Str} {x : Json} {q t w1 w2 r : Str}
    (hq : JQuoted q k) (h1 : Ws w1)
    (hpv : pv (w2 ++ t ++ r) = some (x, r)) :
    ∃ q', q = '"' :: q' ∧ parseMember pv (q' ++ w1 ++ [':'] ++ w2 ++ t ++ r) = some ((k, x), r) := by
  obtain ⟨b, hb, rfl⟩ := hq
  refine ⟨b ++ ['"'], by simp, ?_⟩
  have e : b ++ ['"'] ++ w1 ++ [':'] ++ w2 ++ t ++ r = b ++ '"' :: (w1 ++ ':' :: (w2 ++ t ++ r)) := by simp
  rw [e]
  unfold parseMember
  rw [parseStrBody_complete hb]
  simp only
  rw [skipWs_append h1 (noWs_of_head (by decide))]
  simp only
  rw [hpv]; rfl

mutual
theorem parseValue_complete (numOk : Str → Bool) (j : Json) (t : Str) (h : JVal j t) (d : Nat) (hd : depth j ≤ d)
    (hn : AllNums (NumAccepted numOk) j) (w r : Str) (hw : Ws w) (hr : Stop r) :
    parseValue numOk d (w ++ t ++ r) = some (j, r) := by
  have hsk : skipWs (w ++ t ++ r) = t ++ r := by
    rw [List.append_assoc]; exact skipWs_append hw (JVal_noWs h r)
  match j, h with
  | .null, h => simp only [JVal] at h; subst h; unfold parseValue; rw [hsk]; simp
  | .bool true, h => simp only [JVal] at h; subst h; unfold parseValue; rw [hsk]; simp
  | .bool false, h => simp only [JVal] at h; subst h; unfold parseValue; rw [hsk]; simp
  | .str v, h =>
    simp only [JVal] at h
    obtain ⟨b, hb, rfl⟩ := h
    unfold parseValue; rw [hsk]
    have e : '"' :: b ++ ['"'] ++ r = '"' :: (b ++ '"' :: r) := by simp
    rw [e]
    simp [parseStrBody_complete hb]
  | .num l, h =>
    obtain ⟨c, t', e, _⟩ := JVal_head h
    simp only [JVal] at h
    obtain ⟨rfl, hj⟩ := h
    simp only [AllNums] at hn
    have hc : c ∈ s% "-0123456789" := by
      obtain ⟨sg, ip, fr, ex, e2, hs, hi, _⟩ := hj
      rcases hs with rfl | rfl
      · cases ip with
        | nil => exact absurd rfl hi.1.1
        | cons d ip =>
          rw [e] at e2
          simp only [List.nil_append, List.cons_append] at e2
          injection e2 with e2 _
          subst e2
          have : ∀ c ∈ s% "0123456789", c ∈ s% "-0123456789" := by decide
          exact this c (hi.1.2 c (by simp))
      · rw [e] at e2
        simp only [List.nil_append, List.cons_append] at e2
        injection e2 with e2 _
        subst e2; decide
    have hp := parseNum_complete numOk hj hn hr
    unfold parseValue; rw [hsk]
    rw [e] at hp ⊢
    split
    all_goals first
      | (rename_i heq; exfalso; injection heq with h1 _; rw [h1] at hc; revert hc; decide)
      | skip
    exact hp
  | .arr [], h =>
    simp only [JVal] at h
    obtain ⟨w1, hw1, rfl⟩ := h
    simp only [depth] at hd
    obtain ⟨d, rfl⟩ : ∃ d', d = d' + 1 := ⟨d - 1, by omega⟩
    unfold parseValue; rw [hsk]
    have e : '[' :: (w1 ++ [']']) ++ r = '[' :: (w1 ++ (']' :: r)) := by simp
    rw [e]
    simp only
    rw [skipWs_append hw1 (noWs_of_head (by decide))]
    rfl
  | .arr (x :: xs), h =>
    simp only [JVal] at h
    obtain ⟨w1, tx, w2, rs, hw1, hx, hw2, hxs, rfl⟩ := h
    simp only [depth, depthElems] at hd
    simp only [AllNums, AllNumsElems] at hn
    obtain ⟨d, rfl⟩ : ∃ d', d = d' + 1 := ⟨d - 1, by omega⟩
    unfold parseValue; rw [hsk]
    have e : '[' :: (w1 ++ tx ++ w2 ++ rs ++ [']']) ++ r = '[' :: (w1 ++ (tx ++ (w2 ++ (rs ++ (']' :: r))))) := by simp
    rw [e]
    simp only
    rw [skipWs_append hw1 (JVal_noWs hx _)]
    have hstop : Stop (w2 ++ (rs ++ (']' :: r))) := stop_ws hw2 (stop_elems hxs (stop_cons (by decide) _))
    have h1 := parseValue_complete numOk x tx hx d (by omega) hn.1 [] (w2 ++ (rs ++ (']' :: r))) (by simp [Ws]) hstop
    rw [List.nil_append] at h1
    have h2 := parseElems_complete numOk xs rs hxs d (by omega) hn.2 w2 r hw2
      ((w2 ++ (rs ++ (']' :: r))).length + 1) (by simp; omega)
    split
    · rename_i r' heq
      exfalso
      obtain ⟨c, t', rfl, hc⟩ := JVal_head hx
      rw [List.cons_append] at heq
      injection heq with h1 _; rw [h1] at hc; revert hc; decide
    · rw [h1]
      simp only
      rw [h2]; rfl
  | .obj [], h =>
    simp only [JVal] at h
    obtain ⟨w1, hw1, rfl⟩ := h
    simp only [depth] at hd
    obtain ⟨d, rfl⟩ : ∃ d', d = d' + 1 := ⟨d - 1, by omega⟩
    unfold parseValue; rw [hsk]
    have e : '{' :: (w1 ++ ['}']) ++ r = '{' :: (w1 ++ ('}' :: r)) := by simp
    rw [e]
    simp only
    rw [skipWs_append hw1 (noWs_of_head (by decide))]
    rfl
  | .obj ((k, x) :: ms), h =>
    simp only [JVal] at h
    obtain ⟨w1, q, u1, u2, tx, w2, rs, hw1, hq, hu1, hu2, hx, hw2, hms, rfl⟩ := h
    simp only [depth, depthMembers] at hd
    simp only [AllNums, AllNumsMembers] at hn
    obtain ⟨d, rfl⟩ : ∃ d', d = d' + 1 := ⟨d - 1, by omega⟩
    unfold parseValue; rw [hsk]
    have hstop : Stop (w2 ++ (rs ++ ('}' :: r))) := stop_ws hw2 (stop_members hms (stop_cons (by decide) _))
    have h1 := parseValue_complete numOk x tx hx d (by omega) hn.1 u2 (w2 ++ (rs ++ ('}' :: r))) hu2 hstop
    have h2 := parseMembers_complete numOk ms rs hms d (by omega) hn.2 w2 r hw2
      ((w2 ++ (rs ++ ('}' :: r))).length + 1) (by simp; omega)
    obtain ⟨q', rfl, hm⟩ := parseMember_complete hq hu1 h1
    have e : '{' :: (w1 ++ ('"' :: q') ++ u1 ++ [':'] ++ u2 ++ tx ++ w2 ++ rs ++ ['}']) ++ r =
        '{' :: (w1 ++ ('"' :: (q' ++ u1 ++ [':'] ++ u2 ++ tx ++ (w2 ++ (rs ++ ('}' :: r)))))) := by simp
    rw [e]
    simp only
    rw [skipWs_append hw1 (noWs_of_head (by decide))]
    simp only
    rw [hm]
    simp only
    rw [h2]; rfl

theorem parseElems_complete (numOk : Str → Bool) (xs : List Json) (s : Str) (h : JElems xs s) (d : Nat)
    (hd : depthElems xs ≤ d) (hn : AllNumsElems (NumAccepted numOk) xs) (w r : Str) (hw : Ws w)
    (n : Nat) (hf : s.length < n) :
    parseElems (parseValue numOk d) n (w ++ (s ++ (']' :: r))) = some (xs, r) := by
  match xs, h with
  | [], h =>
    simp only [JElems] at h; subst h
    obtain ⟨n, rfl⟩ : ∃ n', n = n' + 1 := ⟨n - 1, by omega⟩
    unfold parseElems
    rw [List.nil_append, skipWs_append hw (noWs_of_head (by decide))]
    rfl
  | x :: xs, h =>
    simp only [JElems] at h
    obtain ⟨w1, t, w2, rs, hw1, hx, hw2, hxs, rfl⟩ := h
    simp only [depthElems] at hd
    simp only [AllNumsElems] at hn
    obtain ⟨n, rfl⟩ : ∃ n', n = n' + 1 := ⟨n - 1, by omega⟩
    have hstop : Stop (w2 ++ (rs ++ (']' :: r))) := stop_ws hw2 (stop_elems hxs (stop_cons (by decide) _))
    have h1 := parseValue_complete numOk x t hx d (by omega) hn.1 w1 (w2 ++ (rs ++ (']' :: r))) hw1 hstop
    have h2 := parseElems_complete numOk xs rs hxs d (by omega) hn.2 w2 r hw2 n (by simp at hf; omega)
    unfold parseElems
    have e : ',' :: (w1 ++ t ++ w2 ++ rs) ++ (']' :: r) = ',' :: (w1 ++ t ++ (w2 ++ (rs ++ (']' :: r)))) := by simp
    rw [e, skipWs_append hw (noWs_of_head (by decide))]
    simp only
    rw [h1]
    simp only
    rw [h2]; rfl

theorem parseMembers_complete (numOk : Str → Bool) (ms : List (Str × Json)) (s : Str) (h : JMembers ms s) (d : Nat)
    (hd : depthMembers ms ≤ d) (hn : AllNumsMembers (NumAccepted numOk) ms) (w r : Str) (hw : Ws w)
    (n : Nat) (hf : s.length < n) :
    parseMembers (parseValue numOk d) n (w ++ (s ++ ('}' :: r))) = some (ms, r) := by
  match ms, h with
  | [], h =>
    simp only [JMembers] at h; subst h
    obtain ⟨n, rfl⟩ : ∃ n', n = n' + 1 := ⟨n - 1, by omega⟩
    unfold parseMembers
    rw [List.nil_append, skipWs_append hw (noWs_of_head (by decide))]
    rfl
  | (k, x) :: ms, h =>
    simp only [JMembers] at h
    obtain ⟨w1, q, u1, u2, t, w2, rs, hw1, hq, hu1, hu2, hx, hw2, hms, rfl⟩ := h
    simp only [depthMembers] at hd
    simp only [AllNumsMembers] at hn
    obtain ⟨n, rfl⟩ : ∃ n', n = n' + 1 := ⟨n - 1, by omega⟩
    have hstop : Stop (w2 ++ (rs ++ ('}' :: r))) := stop_ws hw2 (stop_members hms (stop_cons (by decide) _))
    have h1 := parseValue_complete numOk x t hx d (by omega) hn.1 u2 (w2 ++ (rs ++ ('}' :: r))) hu2 hstop
    have h2 := parseMembers_complete numOk ms rs hms d (by omega) hn.2 w2 r hw2 n (by simp at hf; omega)
    obtain ⟨q', rfl, hm⟩ := parseMember_complete hq hu1 h1
    unfold parseMembers
    have e : ',' :: (w1 ++ ('"' :: q') ++ u1 ++ [':'] ++ u2 ++ t ++ w2 ++ rs) ++ ('}' :: r) =
        ',' :: (w1 ++ ('"' :: (q' ++ u1 ++ [':'] ++ u2 ++ t ++ (w2 ++ (rs ++ ('}' :: r)))))) := by simp
    rw [e, skipWs_append hw (noWs_of_head (by decide))]
    simp only
    rw [skipWs_append hw1 (noWs_of_head (by decide))]
    simp only
    rw [hm]
    simp only
    rw [h2]; rfl
end

/-! ### soundness -/

theorem Ws.nil : Ws [] := by simp [Ws]

/-- What soundness of the value reader means for one nesting level. -/
def SoundAt (numOk : Str → Bool) (d : Nat) (pv : Str → Option (Json × Str)) : Prop :=
  ∀ s j r, pv s = some (j, r) →
    ∃ w t, Ws w ∧ JVal j t ∧ s = w ++ t ++ r ∧ depth j ≤ d ∧ AllNums (NumAccepted numOk) j

theorem parseElems_sound {numOk : Str → Bool} {d : Nat} {pv : Str → Option (Json × Str)} (hpv : SoundAt numOk d pv)
    (n : Nat) : ∀ s xs r, parseElems pv n s = some (xs, r) →
      ∃ w t, Ws w ∧ JElems xs t ∧ s = w ++ t ++ ']' :: r ∧ depthElems xs ≤ d ∧
        AllNumsElems (NumAccepted numOk) xs := by
  induction n with
  | zero => intro s xs r h; simp [parseElems] at h
  | succ n ih =>
    intro s xs r h
    obtain ⟨w, hw, hs⟩ := skipWs_spec s
    unfold parseElems at h
    split at h
    · rename_i r0 heq
      cases h
      refine ⟨w, [], hw, by simp [JElems], by rw [hs, heq]; simp, by simp [depthElems], by simp [AllNumsElems]⟩
    · rename_i r0 heq
      split at h
      · cases h
      · rename_i v r1 hp
        rw [Option.map_eq_some_iff] at h
        obtain ⟨⟨ys, r2⟩, hp2, he⟩ := h
        cases he
        obtain ⟨w1, t1, hw1, hv, e1, hd1, hn1⟩ := hpv _ _ _ hp
        obtain ⟨w2, t2, hw2, hys, e2, hd2, hn2⟩ := ih _ _ _ hp2
        refine ⟨w, ',' :: (w1 ++ t1 ++ w2 ++ t2), hw, ?_, ?_, ?_, ?_⟩
        · simp only [JElems]; exact ⟨w1, t1, w2, t2, hw1, hv, hw2, hys, rfl⟩
        · rw [hs, heq, e1, e2]; simp
        · simp only [depthElems]; omega
        · simp only [AllNumsElems]; exact ⟨hn1, hn2⟩
    · cases h

theorem parseMember_sound {numOk : Str → Bool} {d : Nat} {pv : Str → Option (Json × Str)} (hpv : SoundAt numOk d pv)
    {s r : Str} {m : Str × Json} (h : parseMember pv s = some (m, r)) :
    ∃ q w1 w2 t, JQuoted ('"' :: q) m.1 ∧ Ws w1 ∧ Ws w2 ∧ JVal m.2 t ∧ s = q ++ w1 ++ [':'] ++ w2 ++ t ++ r ∧
      depth m.2 ≤ d ∧ AllNums (NumAccepted numOk) m.2 := by
  unfold parseMember at h
  split at h
  · cases h
  · rename_i k r1 hk
    obtain ⟨b, hb, e⟩ := parseStrBody_sound _ hk
    obtain ⟨w1, hw1, hs1⟩ := skipWs_spec r1
    split at h
    · rename_i r2 heq
      rw [Option.map_eq_some_iff] at h
      obtain ⟨⟨v, r3⟩, hp, he⟩ := h
      cases he
      obtain ⟨w2, t, hw2, hv, e2, hd, hn⟩ := hpv _ _ _ hp
      refine ⟨b ++ ['"'], w1, w2, t, ⟨b, hb, by simp⟩, hw1, hw2, hv, ?_, hd, hn⟩
      rw [e, hs1, heq, e2]; simp
    · cases h

theorem parseMembers_sound {numOk : Str → Bool} {d : Nat} {pv : Str → Option (Json × Str)} (hpv : SoundAt numOk d pv)
    (n : Nat) : ∀ s ms r, parseMembers pv n s = some (ms, r) →
      ∃ w t, Ws w ∧ JMembers ms t ∧ s = w ++ t ++ '}' :: r ∧ depthMembers ms ≤ d ∧
        AllNumsMembers (NumAccepted numOk) ms := by
  induction n with
  | zero => intro s xs r h; simp [parseMembers] at h
  | succ n ih =>
    intro s xs r h
    obtain ⟨w, hw, hs⟩ := skipWs_spec s
    unfold parseMembers at h
    split at h
    · rename_i r0 heq
      cases h
      refine ⟨w, [], hw, by simp [JMembers], by rw [hs, heq]; simp, by simp [depthMembers], by simp [AllNumsMembers]⟩
    · rename_i r0 heq
      obtain ⟨w0, hw0, hs0⟩ := skipWs_spec r0
      split at h
      · rename_i r1 heq1
        split at h
        · cases h
        · rename_i m r2 hm
          rw [Option.map_eq_some_iff] at h
          obtain ⟨⟨ys, r3⟩, hp2, he⟩ := h
          cases he
          obtain ⟨q, w1, w2, t, hq, hw1, hw2, hv, e1, hd1, hn1⟩ := parseMember_sound hpv hm
          obtain ⟨w3, t2, hw3, hys, e2, hd2, hn2⟩ := ih _ _ _ hp2
          obtain ⟨k, x⟩ := m
          refine ⟨w, ',' :: (w0 ++ ('"' :: q) ++ w1 ++ [':'] ++ w2 ++ t ++ w3 ++ t2), hw, ?_, ?_, ?_, ?_⟩
          · simp only [JMembers]; exact ⟨w0, _, w1, w2, t, w3, t2, hw0, hq, hw1, hw2, hv, hw3, hys, rfl⟩
          · rw [hs, heq, hs0, heq1, e1, e2]; simp
          · simp only [depthMembers]; simp only at hd1; omega
          · simp only [AllNumsMembers]; exact ⟨hn1, hn2⟩
      · cases h
    · cases h

theorem parseValue_sound (numOk : Str → Bool) (d : Nat) : SoundAt numOk d (parseValue numOk d) := by
  induction d with
  | zero =>
    intro s j r h
    obtain ⟨w, hw, hs⟩ := skipWs_spec s
    unfold parseValue at h
    split at h
    · rename_i r0 heq; cases h
      exact ⟨w, s% "null", hw, by simp [JVal], by rw [hs, heq]; simp, by simp [depth], by simp [AllNums]⟩
    · rename_i r0 heq; cases h
      exact ⟨w, s% "true", hw, by simp [JVal], by rw [hs, heq]; simp, by simp [depth], by simp [AllNums]⟩
    · rename_i r0 heq; cases h
      exact ⟨w, s% "false", hw, by simp [JVal], by rw [hs, heq]; simp, by simp [depth], by simp [AllNums]⟩
    · rename_i r0 heq
      rw [Option.map_eq_some_iff] at h
      obtain ⟨⟨v, r2⟩, hp, he⟩ := h
      cases he
      obtain ⟨t, ht, e⟩ := parseStrBody_sound _ hp
      refine ⟨w, '"' :: t ++ ['"'], hw, by simp only [JVal]; exact ⟨t, ht, rfl⟩, ?_, by simp [depth], by simp [AllNums]⟩
      rw [hs, heq, e]; simp
    · cases h
    · cases h
    · obtain ⟨l, rfl, hj, hn, e⟩ := parseNum_sound numOk h
      refine ⟨w, l, hw, by simp only [JVal]; exact ⟨trivial, hj⟩, ?_, by simp [depth], by simpa only [AllNums] using hn⟩
      rw [hs, e]; simp
  | succ d ih =>
    intro s j r h
    obtain ⟨w, hw, hs⟩ := skipWs_spec s
    unfold parseValue at h
    split at h
    · rename_i r0 heq; cases h
      exact ⟨w, s% "null", hw, by simp [JVal], by rw [hs, heq]; simp, by simp [depth], by simp [AllNums]⟩
    · rename_i r0 heq; cases h
      exact ⟨w, s% "true", hw, by simp [JVal], by rw [hs, heq]; simp, by simp [depth], by simp [AllNums]⟩
    · rename_i r0 heq; cases h
      exact ⟨w, s% "false", hw, by simp [JVal], by rw [hs, heq]; simp, by simp [depth], by simp [AllNums]⟩
    · rename_i r0 heq
      rw [Option.map_eq_some_iff] at h
      obtain ⟨⟨v, r2⟩, hp, he⟩ := h
      cases he
      obtain ⟨t, ht, e⟩ := parseStrBody_sound _ hp
      refine ⟨w, '"' :: t ++ ['"'], hw, by simp only [JVal]; exact ⟨t, ht, rfl⟩, ?_, by simp [depth], by simp [AllNums]⟩
      rw [hs, heq, e]; simp
    · rename_i r0 heq
      obtain ⟨w0, hw0, hs0⟩ := skipWs_spec r0
      simp only at h
      split at h
      · rename_i r1 heq1
        cases h
        refine ⟨w, '[' :: (w0 ++ [']']), hw, by simp only [JVal]; exact ⟨w0, hw0, rfl⟩, ?_, by simp [depth, depthElems], by simp [AllNums, AllNumsElems]⟩
        rw [hs, heq, hs0, heq1]; simp
      · split at h
        · cases h
        · rename_i v r2 hp
          rw [Option.map_eq_some_iff] at h
          obtain ⟨⟨ys, r3⟩, hp2, he⟩ := h
          cases he
          obtain ⟨w1, t1, hw1, hv, e1, hd1, hn1⟩ := ih _ _ _ hp
          obtain ⟨w2, t2, hw2, hys, e2, hd2, hn2⟩ := parseElems_sound ih _ _ _ _ hp2
          refine ⟨w, '[' :: ((w0 ++ w1) ++ t1 ++ w2 ++ t2 ++ [']']), hw, ?_, ?_, ?_, ?_⟩
          · simp only [JVal]
            refine ⟨w0 ++ w1, t1, w2, t2, ?_, hv, hw2, hys, rfl⟩
            intro c hc
            rcases List.mem_append.1 hc with hc | hc
            · exact hw0 c hc
            · exact hw1 c hc
          · rw [hs, heq, hs0, e1, e2]; simp
          · simp only [depth, depthElems]; omega
          · simp only [AllNums, AllNumsElems]; exact ⟨hn1, hn2⟩
    · rename_i r0 heq
      obtain ⟨w0, hw0, hs0⟩ := skipWs_spec r0
      simp only at h
      split at h
      · rename_i r1 heq1
        cases h
        refine ⟨w, '{' :: (w0 ++ ['}']), hw, by simp only [JVal]; exact ⟨w0, hw0, rfl⟩, ?_, by simp [depth, depthMembers], by simp [AllNums, AllNumsMembers]⟩
        rw [hs, heq, hs0, heq1]; simp
      · rename_i r1 heq1
        split at h
        · cases h
        · rename_i m r2 hm
          rw [Option.map_eq_some_iff] at h
          obtain ⟨⟨ys, r3⟩, hp2, he⟩ := h
          cases he
          obtain ⟨q, w1, w2, t, hq, hw1, hw2, hv, e1, hd1, hn1⟩ := parseMember_sound ih hm
          obtain ⟨w3, t2, hw3, hys, e2, hd2, hn2⟩ := parseMembers_sound ih _ _ _ _ hp2
          obtain ⟨k, x⟩ := m
          refine ⟨w, '{' :: (w0 ++ ('"' :: q) ++ w1 ++ [':'] ++ w2 ++ t ++ w3 ++ t2 ++ ['}']), hw, ?_, ?_, ?_, ?_⟩
          · simp only [JVal]
            exact ⟨w0, _, w1, w2, t, w3, t2, hw0, hq, hw1, hw2, hv, hw3, hys, rfl⟩
          · rw [hs, heq, hs0, heq1, e1, e2]; simp
          · simp only [depth, depthMembers]; simp only at hd1; omega
          · simp only [AllNums, AllNumsMembers]; exact ⟨hn1, hn2⟩
      · cases h
    · obtain ⟨l, rfl, hj, hn, e⟩ := parseNum_sound numOk h
      refine ⟨w, l, hw, by simp only [JVal]; exact ⟨trivial, hj⟩, ?_, by simp [depth], by simpa only [AllNums] using hn⟩
      rw [hs, e]; simp

/-! ### documents -/

theorem skipWs_all {w : Str} (h : Ws w) : skipWs w = [] := by
  have := skipWs_append h (s := []) (by simp [NoWs])
  simpa using this

/-- The reader accepts exactly the documents of the grammar, up to its limits. -/
theorem parseJson_iff (numOk : Str → Bool) (s : Str) (j : Json) :
    parseJson numOk s = some j ↔ JsonText j s ∧ depth j ≤ 127 ∧ AllNums (NumAccepted numOk) j := by
  constructor
  · intro h
    unfold parseJson at h
    split at h
    · rename_i v r hp
      split at h
      · rename_i hr
        cases h
        obtain ⟨w, t, hw, hj, e, hd, hn⟩ := parseValue_sound numOk 127 _ _ _ hp
        obtain ⟨w', hw', e'⟩ := skipWs_spec r
        rw [hr, List.append_nil] at e'
        subst e'
        exact ⟨⟨w, t, r, hw, hj, hw', e⟩, hd, hn⟩
      · cases h
    · cases h
  · rintro ⟨⟨w, t, w', hw, hj, hw', rfl⟩, hd, hn⟩
    unfold parseJson
    rw [parseValue_complete numOk j t hj 127 hd hn w w' hw (by
      have := stop_ws hw' (r := []) (by simp [Stop]); simpa using this)]
    simp only
    rw [if_pos (skipWs_all hw')]

mutual
theorem allNums_mono {p q : Str → Prop} (h : ∀ l, p l → q l) (j : Json) (hj : AllNums p j) : AllNums q j := by
  match j with
  | .null | .bool _ | .str _ => simp [AllNums]
  | .num l => simp only [AllNums] at hj ⊢; exact h l hj
  | .arr xs => simp only [AllNums] at hj ⊢; exact allNumsElems_mono h xs hj
  | .obj ms => simp only [AllNums] at hj ⊢; exact allNumsMembers_mono h ms hj
theorem allNumsElems_mono {p q : Str → Prop} (h : ∀ l, p l → q l) (xs : List Json) (hj : AllNumsElems p xs) :
    AllNumsElems q xs := by
  match xs with
  | [] => simp [AllNumsElems]
  | x :: xs => simp only [AllNumsElems] at hj ⊢; exact ⟨allNums_mono h x hj.1, allNumsElems_mono h xs hj.2⟩
theorem allNumsMembers_mono {p q : Str → Prop} (h : ∀ l, p l → q l) (ms : List (Str × Json)) (hj : AllNumsMembers p ms) :
    AllNumsMembers q ms := by
  match ms with
  | [] => simp [AllNumsMembers]
  | (k, x) :: ms => simp only [AllNumsMembers] at hj ⊢; exact ⟨allNums_mono h x hj.1, allNumsMembers_mono h ms hj.2⟩
end

mutual
theorem allNums_true (j : Json) : AllNums (fun _ => True) j := by
  match j with
  | .null | .bool _ | .str _ | .num _ => simp [AllNums]
  | .arr xs => simp only [AllNums]; exact allNumsElems_true xs
  | .obj ms => simp only [AllNums]; exact allNumsMembers_true ms
theorem allNumsElems_true (xs : List Json) : AllNumsElems (fun _ => True) xs := by
  match xs with
  | [] => simp [AllNumsElems]
  | x :: xs => simp only [AllNumsElems]; exact ⟨allNums_true x, allNumsElems_true xs⟩
theorem allNumsMembers_true (ms : List (Str × Json)) : AllNumsMembers (fun _ => True) ms := by
  match ms with
  | [] => simp [AllNumsMembers]
  | (k, x) :: ms => simp only [AllNumsMembers]; exact ⟨allNums_true x, allNumsMembers_true ms⟩
end

/-- The grammar is unambiguous: a text is a document of at most one value. -/
theorem jsonText_unique {s : Str} {j j' : Json} (h : JsonText j s) (h' : JsonText j' s) : j = j' := by
  have acc : ∀ j, AllNums (NumAccepted fun _ => true) j := fun j =>
    allNums_mono (fun l _ => .inr rfl) j (allNums_true j)
  have key : ∀ j, JsonText j s → ∀ d, depth j ≤ d → ∃ r, parseValue (fun _ => true) d s = some (j, r) := by
    rintro j ⟨w, t, w', hw, hj, hw', rfl⟩ d hd
    exact ⟨w', parseValue_complete _ j t hj d hd (acc j) w w' hw (by
      have := stop_ws hw' (r := []) (by simp [Stop]); simpa using this)⟩
  obtain ⟨r, hr⟩ := key j h (max (depth j) (depth j')) (by omega)
  obtain ⟨r', hr'⟩ := key j' h' (max (depth j) (depth j')) (by omega)
  rw [hr] at hr'
  cases hr'; rfl

/-! ### writer -/

theorem jsonEscape_jstr (v : Str) : JStr (v.flatMap jsonEscapeChar) v := by
  induction v with
  | nil => exact .nil
  | cons c v ih =>
    rw [List.flatMap_cons]
    by_cases hs : c.toNat < 32
    · have key : ∀ n : Fin 32, (∃ e ∈ s% "\"\\/bfnrt", jsonEscapeChar (Char.ofNat n.val) = ['\\', e] ∧ (e, Char.ofNat n.val) ∈ escapes) ∨
          (∃ a ∈ s% "01", ∃ b ∈ s% "0123456789abcdef", jsonEscapeChar (Char.ofNat n.val) = ['\\', 'u', '0', '0', a, b] ∧
            hexQuad '0' '0' a b = some n.val) := by decide +kernel
      have k := key ⟨c.toNat, hs⟩
      simp only [Char.ofNat_toNat] at k
      rcases k with ⟨e, _, he, hm⟩ | ⟨a, _, b, _, he, hq⟩
      · rw [he]; exact JStr.esc hm ih
      · rw [he]
        have := JStr.unicode hq (by omega) ih
        rw [Char.ofNat_toNat] at this
        exact this
    · unfold jsonEscapeChar
      simp only
      by_cases h34 : c.toNat = 34
      · rw [if_pos h34]
        have : c = '"' := by rw [← Char.ofNat_toNat c, h34]
        subst this
        exact JStr.esc (by decide) ih
      · rw [if_neg h34]
        by_cases h92 : c.toNat = 92
        · rw [if_pos h92]
          have : c = '\\' := by rw [← Char.ofNat_toNat c, h92]
          subst this
          exact JStr.esc (by decide) ih
        · rw [if_neg h92, if_neg (by omega), if_neg (by omega), if_neg (by omega), if_neg (by omega), if_neg (by omega), if_neg (by omega)]
          refine JStr.char ?_ ?_ (by omega) ih
          · rintro rfl; exact h34 rfl
          · rintro rfl; exact h92 rfl

theorem jsonStr_quoted (v : Str) : JQuoted (jsonStr v) v := ⟨_, jsonEscape_jstr v, by simp [jsonStr]⟩

mutual
theorem render_JVal (j : Json) (h : AllNums JNum j) : JVal j j.render := by
  match j, h with
  | .null, _ => simp [JVal, Json.render]
  | .bool true, _ => simp [JVal, Json.render]
  | .bool false, _ => simp [JVal, Json.render]
  | .num l, h => simp only [AllNums] at h; simp only [JVal, Json.render]; exact ⟨trivial, h⟩
  | .str v, _ => simp only [JVal, Json.render]; exact jsonStr_quoted v
  | .arr [], _ => simp only [JVal, Json.render]; exact ⟨[], Ws.nil, rfl⟩
  | .arr (x :: xs), h =>
    simp only [AllNums, AllNumsElems] at h
    simp only [JVal, Json.render]
    exact ⟨[], x.render, [], Json.renderElems xs, Ws.nil, render_JVal x h.1, Ws.nil, renderElems_JElems xs h.2, by simp⟩
  | .obj [], _ => simp only [JVal, Json.render]; exact ⟨[], Ws.nil, rfl⟩
  | .obj ((k, x) :: ms), h =>
    simp only [AllNums, AllNumsMembers] at h
    simp only [JVal, Json.render]
    exact ⟨[], jsonStr k, [], [], x.render, [], Json.renderMembers ms, Ws.nil, jsonStr_quoted k, Ws.nil, Ws.nil,
      render_JVal x h.1, Ws.nil, renderMembers_JMembers ms h.2, by simp⟩
theorem renderElems_JElems (xs : List Json) (h : AllNumsElems JNum xs) : JElems xs (Json.renderElems xs) := by
  match xs, h with
  | [], _ => simp [JElems, Json.renderElems]
  | x :: xs, h =>
    simp only [AllNumsElems] at h
    simp only [JElems, Json.renderElems]
    exact ⟨[], x.render, [], Json.renderElems xs, Ws.nil, render_JVal x h.1, Ws.nil, renderElems_JElems xs h.2, by simp⟩
theorem renderMembers_JMembers (ms : List (Str × Json)) (h : AllNumsMembers JNum ms) :
    JMembers ms (Json.renderMembers ms) := by
  match ms, h with
  | [], _ => simp [JMembers, Json.renderMembers]
  | (k, x) :: ms, h =>
    simp only [AllNumsMembers] at h
    simp only [JMembers, Json.renderMembers]
    exact ⟨[], jsonStr k, [], [], x.render, [], Json.renderMembers ms, Ws.nil, jsonStr_quoted k, Ws.nil, Ws.nil,
      render_JVal x h.1, Ws.nil, renderMembers_JMembers ms h.2, by simp⟩
end

theorem render_text (j : Json) (h : AllNums JNum j) : JsonText j j.render :=
  ⟨[], j.render, [], Ws.nil, render_JVal j h, Ws.nil, by simp⟩

theorem natDec_Digits (n : Nat) : Digits (natDec n) := by
  exact ⟨natDec_ne_nil n, fun c hc => (isDigit_iff c).1 (natDec_digits n c hc)⟩

theorem natDec_JNum (n : Nat) : JNum (natDec n) := by
  refine ⟨[], natDec n, [], [], by simp, .inl rfl, ⟨natDec_Digits n, ?_⟩, .inl rfl, .inl rfl⟩
  intro h
  by_cases hn : n = 0
  · subst hn; decide
  · exact absurd h (natDec_head_ne_zero hn)

end CSS
