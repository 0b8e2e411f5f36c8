import Verif.Model.PolicyRead
import Verif.Spec.PolicyRead
import Verif.Lemmas.Struct
import Verif.Lemmas.Rfc3339
import Verif.Lemmas.Form
namespace CSS
open Spec

/-! ### fields -/

theorem stripPrefix_some {p s r : Str} (h : stripPrefix p s = some r) : s = p ++ r := by
  induction p generalizing s with
  | nil => simp [stripPrefix] at h; simp [h]
  | cons c p ih =>
    cases s with
    | nil => simp [stripPrefix] at h
    | cons d s =>
      simp only [stripPrefix] at h
      split at h
      · rename_i e; rw [e, ih h]; rfl
      · cases h

theorem ite_some {α : Type} {p : Prop} [Decidable p] {a x : α} {b : Option α}
    (h : (if p then some a else b) = some x) : (p ∧ a = x) ∨ b = some x := by
  by_cases hp : p
  · rw [if_pos hp] at h; exact .inl ⟨hp, by simpa using h⟩
  · rw [if_neg hp] at h; exact .inr h

theorem fieldNew_sound {s : Str} {f : Field} (h : Field.new s = some f) : f.toStr = s ∧ s ≠ s% "x-goog-meta-" := by
  unfold Field.new at h
  iterate 18
    replace h := ite_some h
    rcases h with ⟨rfl, rfl⟩ | h
    · exact ⟨rfl, by decide⟩
  split at h
  · cases h
  · rename_i m e
    have := stripPrefix_some e
    split at h
    · cases h
    · rename_i hm
      simp only [Option.some.injEq] at h
      subst h
      refine ⟨this.symm, ?_⟩
      intro e2
      rw [this] at e2
      exact hm (List.append_cancel_left (as := s% "x-goog-meta-") (by simpa using e2))

theorem fieldNew_complete {f : Field} (h : f.toStr ≠ s% "x-goog-meta-") : Field.new f.toStr = some f := by
  cases f with
  | xGoogMeta m =>
    have hm : m ≠ [] := by rintro rfl; exact h rfl
    unfold Field.new Field.toStr
    iterate 18 rw [if_neg (by simp)]
    rw [stripPrefix_append]
    simp only
    rw [if_neg hm]
  | _ => rfl

theorem readField_iff {name : Str} {f : Field} : readField name = some f ↔ Names name f := by
  unfold readField Names
  constructor
  · intro h
    split at h
    · cases h
    · rename_i g e
      obtain ⟨h1, h2⟩ := fieldNew_sound e
      split at h
      · cases h
      · rename_i hne
        simp only [Option.some.injEq] at h
        subst h
        refine ⟨h1.symm, h2, ?_⟩
        intro e2
        rw [e2] at e
        have : g = .contentLength := by
          have e3 : Field.new (s% "Content-Length") = some .contentLength := rfl
          rw [e3] at e; simpa using e.symm
        exact hne this
  · rintro ⟨rfl, h2, h3⟩
    rw [fieldNew_complete h2]
    simp only
    rw [if_neg (by rintro rfl; exact h3 rfl)]

/-! ### tokens -/

theorem skip_quoted {q v w : Str} (hq : JQuoted q v) (hw : Ws w) (r : Str) : ∃ b, JStr b v ∧ q = '"' :: b ++ ['"'] ∧
    skipWs (w ++ q ++ r) = '"' :: (b ++ '"' :: r) := by
  obtain ⟨b, hb, rfl⟩ := hq
  refine ⟨b, hb, rfl, ?_⟩
  have e : w ++ ('"' :: b ++ ['"']) ++ r = w ++ ('"' :: (b ++ '"' :: r)) := by simp
  rw [e]; exact skipWs_append hw (noWs_of_head (by decide))

theorem readString_complete {q v w : Str} (hq : JQuoted q v) (hw : Ws w) (r : Str) :
    readString (w ++ q ++ r) = some (v, r) := by
  obtain ⟨b, hb, _, e⟩ := skip_quoted hq hw r
  unfold readString parseKind
  simp only [e, parseStrBody_complete hb, Option.map_some]

theorem readString_sound {s v r : Str} (h : readString s = some (v, r)) :
    ∃ w q, Ws w ∧ JQuoted q v ∧ s = w ++ q ++ r := by
  unfold readString parseKind at h
  obtain ⟨w, hw, hs⟩ := skipWs_spec s
  simp only at h
  split at h
  · rename_i v' r' heq
    simp only [Option.some.injEq, Prod.mk.injEq] at h
    obtain ⟨rfl, rfl⟩ := h
    split at heq
    · rename_i r0 e0
      rw [e0] at hs
      rw [Option.map_eq_some_iff] at heq
      obtain ⟨⟨v1, r1⟩, hp, he⟩ := heq
      cases he
      obtain ⟨b, hb, rfl⟩ := parseStrBody_sound r0 hp
      exact ⟨w, _, hw, ⟨b, hb, rfl⟩, by rw [hs]; simp⟩
    · cases heq
  · cases h

theorem readBorrowed_complete {v w : Str} (hq : JStr v v) (hw : Ws w) (r : Str) :
    readBorrowed (w ++ ('"' :: (v ++ '"' :: r))) = some (v, r) := by
  unfold readBorrowed
  rw [skipWs_append hw (noWs_of_head (by decide))]
  simp only [parseStrBody_complete hq, if_true]

theorem readBorrowed_sound {s v r : Str} (h : readBorrowed s = some (v, r)) :
    ∃ w, Ws w ∧ JQuoted ('"' :: v ++ ['"']) v ∧ s = w ++ ('"' :: v ++ ['"']) ++ r := by
  unfold readBorrowed at h
  obtain ⟨w, hw, hs⟩ := skipWs_spec s
  split at h
  · rename_i r0 e0
    rw [e0] at hs
    split at h
    · cases h
    · rename_i v1 r1 e1
      split at h
      · rename_i e2
        simp only [Option.some.injEq, Prod.mk.injEq] at h
        obtain ⟨rfl, rfl⟩ := h
        obtain ⟨b, hb, e3⟩ := parseStrBody_sound r0 e1
        rw [e2] at e3
        have e4 : b = v1 := (List.append_cancel_right e3).symm
        subst e4
        exact ⟨w, hw, ⟨b, hb, rfl⟩, by rw [hs, e2]; simp⟩
      · cases h
  · cases h

theorem readComma_complete {w : Str} (hw : Ws w) (r : Str) : readComma (w ++ ',' :: r) = some r := by
  unfold readComma; rw [skipWs_append hw (noWs_of_head (by decide))]; rfl

theorem readComma_sound {s r : Str} (h : readComma s = some r) : ∃ w, Ws w ∧ s = w ++ ',' :: r := by
  unfold readComma at h
  obtain ⟨w, hw, hs⟩ := skipWs_spec s
  split at h
  · rename_i e; rw [e] at hs; cases h; exact ⟨w, hw, hs⟩
  · cases h

theorem readTok_complete {c : Char} (hc : c ∉ s% " \t\n\r") {w : Str} (hw : Ws w) (r : Str) :
    readTok c (w ++ c :: r) = some r := by
  unfold readTok; rw [skipWs_append hw (noWs_of_head hc)]; simp

theorem readTok_sound {c : Char} {s r : Str} (h : readTok c s = some r) : ∃ w, Ws w ∧ s = w ++ c :: r := by
  unfold readTok at h
  obtain ⟨w, hw, hs⟩ := skipWs_spec s
  split at h
  · cases h
  · rename_i d t e
    rw [e] at hs
    split at h
    · rename_i e2; subst e2; cases h; exact ⟨w, hw, hs⟩
    · cases h

theorem readU64_complete {x w r : Str} {n : Nat} (hj : JVal (.num x) x) (hx : UnsignedLit x n) (hw : Ws w) (hr : Stop r) :
    readU64 (w ++ x ++ r) = some (n, r) := by
  unfold readU64
  rw [parseKind_complete hj .u64 hw hr]
  have : kindOf .u64 (.num x) = some (.n n) :=
    kindOf_u64.2 ⟨x, rfl, List.all_eq_true.2 (digits_all hx.1), by rw [hx.2.1]; exact hx.2.2, by rw [hx.2.1]⟩
  rw [this]; rfl

theorem readU64_sound {s r : Str} {n : Nat} (h : readU64 s = some (n, r)) :
    ∃ w x, Ws w ∧ JVal (.num x) x ∧ UnsignedLit x n ∧ s = w ++ x ++ r := by
  unfold readU64 parseKind at h
  obtain ⟨w, hw, hs⟩ := skipWs_spec s
  simp only at h
  split at h
  · rename_i v' r' heq
    simp only [Option.some.injEq, Prod.mk.injEq] at h
    obtain ⟨rfl, rfl⟩ := h
    split at heq
    · rename_i lit r0 hq
      split at heq
      · rename_i hle
        cases heq
        obtain ⟨ip, fr, ex, hi, hf, hx, rfl, e, hb⟩ := parseNumBody_sound hq
        have hb' : fr = [] ∧ ex = [] := by simpa using hb.symm
        obtain ⟨rfl, rfl⟩ := hb'
        refine ⟨w, ip ++ [] ++ [], hw, by rw [JVal]; exact ⟨rfl, JNum_pos hi hf hx⟩, ⟨?_, rfl, hle⟩, by rw [hs, e]; simp⟩
        simp only [List.append_nil]; exact hi.1
      · cases heq
    · cases heq
  · cases h

/-! ### conditions -/

/-- The names of the three array forms. -/
def tags : List Str := [s% "eq", s% "starts-with", s% "content-length-range"]

/-- In the text `t` of `j`, a tag at the start of the array is written without escapes. -/
def TagPlain (j : Json) (t : Str) : Prop :=
  ∀ tag xs, j = .arr (.str tag :: xs) → tag ∈ tags → ∃ w w' r, Ws w ∧ Ws w' ∧ JElems xs r ∧
    t = '[' :: (w ++ ('"' :: (tag ++ '"' :: (w' ++ (r ++ [']'])))))

theorem JStr_tag {tag : Str} (h : tag ∈ tags) : JStr tag tag := by
  have key : ∀ l : Str, (∀ c ∈ l, c ≠ '"' ∧ c ≠ '\\' ∧ 32 ≤ c.toNat) → JStr l l := by
    intro l
    induction l with
    | nil => intro _; exact .nil
    | cons c l ih =>
      intro h
      obtain ⟨h1, h2, h3⟩ := h c (by simp)
      exact .char h1 h2 h3 (ih fun d hd => h d (by simp [hd]))
  apply key
  revert tag
  decide

theorem elems_pair {x y : Json} {r : Str} (h : JElems [x, y] r) : ∃ w1 t w2 w3 u w4, Ws w1 ∧ JVal x t ∧ Ws w2 ∧ Ws w3 ∧
    JVal y u ∧ Ws w4 ∧ r = ',' :: (w1 ++ t ++ (w2 ++ ',' :: (w3 ++ u ++ w4))) := by
  simp only [JElems] at h
  obtain ⟨w1, t, w2, r1, hw1, ht, hw2, ⟨w3, u, w4, r2, hw3, hu, hw4, rfl, rfl⟩, rfl⟩ := h
  exact ⟨w1, t, w2, w3, u, w4, hw1, ht, hw2, hw3, hu, hw4, by simp⟩

theorem elems_of_pair {x y : Json} {w1 t w2 w3 u w4 : Str} (hw1 : Ws w1) (ht : JVal x t) (hw2 : Ws w2) (hw3 : Ws w3)
    (hu : JVal y u) (hw4 : Ws w4) : JElems [x, y] (',' :: (w1 ++ t ++ (w2 ++ ',' :: (w3 ++ u ++ w4)))) := by
  simp only [JElems]
  exact ⟨w1, t, w2, _, hw1, ht, hw2, ⟨w3, u, w4, [], hw3, hu, hw4, rfl, rfl⟩, by simp⟩

theorem readCondition_complete {j : Json} {t : Str} {c : Condition} (hj : JVal j t) (hc : CondOf j c) (hp : TagPlain j t)
    {w : Str} (hw : Ws w) (r : Str) : readCondition (w ++ t ++ r) = some (c, r) := by
  have hsk : skipWs (w ++ t ++ r) = t ++ r := by
    rw [List.append_assoc]; exact skipWs_append hw (JVal_noWs hj r)
  unfold readCondition
  rw [hsk]
  have seq : ∀ tag name f v, Names name f → (tag = s% "eq" ∨ tag = s% "starts-with") →
      j = .arr [.str tag, .str ('$' :: name), .str v] →
      ∃ s, t ++ r = '[' :: s ∧
        readCondSeq s = some (if tag = s% "eq" then .exactMatching f v else .startsWith f v, r) := by
    intro tag name f v hn ht hj'
    have htag : tag ∈ tags := by rcases ht with rfl | rfl <;> decide
    obtain ⟨u, u', rr, hu, hu', hr, rfl⟩ := hp _ _ hj' htag
    obtain ⟨w1, t1, w2, w3, t2, w4, hw1, ht1, hw2, hw3, ht2, hw4, rfl⟩ := elems_pair hr
    simp only [JVal] at ht1 ht2
    refine ⟨_, by simp only [List.cons_append]; rfl, ?_⟩
    unfold readCondSeq
    simp only [List.append_assoc, List.cons_append, Option.bind_eq_bind]
    rw [readBorrowed_complete (JStr_tag htag) hu]
    simp only [Option.bind_some, if_pos ht]
    rw [readComma_complete hu']
    simp only [Option.bind_some]
    rw [← List.append_assoc w1 t1, readString_complete ht1 hw1]
    simp only [Option.bind_some]
    have : stripPrefix (s% "$") ('$' :: name) = some name := stripPrefix_append (s% "$") name
    rw [this]
    simp only [Option.bind_some]
    rw [readField_iff.2 hn]
    simp only [Option.bind_some]
    rw [readComma_complete hw2]
    simp only [Option.bind_some]
    rw [← List.append_assoc w3 t2, readString_complete ht2 hw3]
    simp only [Option.bind_some, List.nil_append]
    rw [readTok_complete (by decide) hw4]
    rfl
  cases c with
  | exactMatching f v =>
    obtain ⟨name, hn, rfl | rfl⟩ := hc
    · obtain ⟨s, e, h⟩ := seq _ name f v hn (.inl rfl) rfl
      rw [e]; simp only [h]; rfl
    · simp only [JVal, JMembers] at hj
      obtain ⟨w1, q, u1, u2, t1, w2, r2, hw1, hq, hu1, hu2, ht1, hw2, rfl, rfl⟩ := hj
      simp only [List.append_assoc, List.cons_append, List.nil_append]
      unfold readCondMap
      rw [← List.append_assoc w1 q, readString_complete hq hw1]
      simp only [Option.bind_eq_bind, Option.bind_some]
      rw [readTok_complete (by decide) hu1]
      simp only [Option.bind_some]
      rw [← List.append_assoc u2 t1, readString_complete ht1 hu2]
      simp only [Option.bind_some]
      rw [readField_iff.2 hn]
      simp only [Option.bind_some]
      rw [readTok_complete (by decide) hw2]
      rfl
  | startsWith f v =>
    obtain ⟨name, hn, rfl⟩ := hc
    obtain ⟨s, e, h⟩ := seq _ name f v hn (.inr rfl) rfl
    rw [e]; simp only [h]; rfl
  | contentLengthRange a b =>
    obtain ⟨x, y, hx, hy, hj'⟩ := hc
    obtain ⟨tag, etag⟩ : ∃ tag, tag = s% "content-length-range" := ⟨_, rfl⟩
    have htag : tag ∈ tags := by rw [etag]; decide
    rw [← etag] at hj'
    obtain ⟨u, u', rr, hu, hu', hr, rfl⟩ := hp _ _ hj' htag
    obtain ⟨w1, t1, w2, w3, t2, w4, hw1, ht1, hw2, hw3, ht2, hw4, rfl⟩ := elems_pair hr
    have e1 : t1 = x := by simp only [JVal] at ht1; exact ht1.1
    have e2 : t2 = y := by simp only [JVal] at ht2; exact ht2.1
    subst e1; subst e2
    simp only [List.cons_append]
    unfold readCondSeq
    simp only [List.append_assoc, List.cons_append, Option.bind_eq_bind]
    rw [readBorrowed_complete (JStr_tag htag) hu]
    simp only [Option.bind_some]
    rw [if_neg (by rw [etag]; decide), if_pos etag, readComma_complete hu']
    simp only [Option.bind_some]
    rw [← List.append_assoc w1 t1, readU64_complete ht1 hx hw1 (stop_ws hw2 (stop_cons (by decide) _))]
    simp only [Option.bind_some]
    rw [readComma_complete hw2]
    simp only [Option.bind_some]
    rw [← List.append_assoc w3 t2, readU64_complete ht2 hy hw3 (stop_ws hw4 (stop_cons (by decide) _))]
    simp only [Option.bind_some, List.nil_append]
    rw [readTok_complete (by decide) hw4]
    rfl

theorem readCondition_sound {s r : Str} {c : Condition} (h : readCondition s = some (c, r)) :
    ∃ w j t, Ws w ∧ JVal j t ∧ CondOf j c ∧ s = w ++ t ++ r := by
  obtain ⟨w, hw, hs⟩ := skipWs_spec s
  unfold readCondition at h
  split at h
  · rename_i r0 e0
    rw [e0] at hs
    unfold readCondSeq at h
    simp only [Option.bind_eq_bind, Option.bind_eq_some_iff] at h
    obtain ⟨⟨tag, s1⟩, h1, h⟩ := h
    obtain ⟨w1, hw1, hq, e1⟩ := readBorrowed_sound h1
    simp only at h
    split at h
    · rename_i htag
      simp only [Option.bind_eq_some_iff] at h
      obtain ⟨s2, h2, ⟨dl, s3⟩, h3, name, h4, f, h5, s6, h6, ⟨v, s7⟩, h7, s8, h8, h⟩ := h
      obtain ⟨w2, hw2, e2⟩ := readComma_sound h2
      obtain ⟨w3, q3, hw3, hq3, e3⟩ := readString_sound h3
      have e4 := stripPrefix_some h4
      have hn := readField_iff.1 h5
      obtain ⟨w6, hw6, e6⟩ := readComma_sound h6
      obtain ⟨w7, q7, hw7, hq7, e7⟩ := readString_sound h7
      obtain ⟨w8, hw8, e8⟩ := readTok_sound h8
      simp only [Option.some.injEq, Prod.mk.injEq] at h
      obtain ⟨hc, rfl⟩ := h
      simp only at e2 e3 e4 e6 e7 e8 hq3
      refine ⟨w, .arr [.str tag, .str dl, .str v],
        '[' :: (w1 ++ ('"' :: tag ++ ['"']) ++ w2 ++ (',' :: (w3 ++ q3 ++ (w6 ++ ',' :: (w7 ++ q7 ++ w8)))) ++ [']']), hw, ?_, ?_, ?_⟩
      · rw [JVal]
        exact ⟨w1, _, w2, _, hw1, by rw [JVal]; exact hq, hw2,
          elems_of_pair hw3 (by rw [JVal]; exact hq3) hw6 hw7 (by rw [JVal]; exact hq7) hw8, rfl⟩
      · rw [e4]
        rcases htag with rfl | rfl
        · rw [if_pos rfl] at hc
          subst hc
          exact ⟨name, hn, .inl rfl⟩
        · rw [if_neg (by decide)] at hc
          subst hc
          exact ⟨name, hn, rfl⟩
      · rw [hs, e1, e2, e3, e6, e7, e8]; simp
    · split at h
      · rename_i htag
        subst htag
        simp only [Option.bind_eq_some_iff] at h
        obtain ⟨s2, h2, ⟨a, s3⟩, h3, s6, h6, ⟨b, s7⟩, h7, s8, h8, h⟩ := h
        obtain ⟨w2, hw2, e2⟩ := readComma_sound h2
        obtain ⟨w3, q3, hw3, hj3, hq3, e3⟩ := readU64_sound h3
        obtain ⟨w6, hw6, e6⟩ := readComma_sound h6
        obtain ⟨w7, q7, hw7, hj7, hq7, e7⟩ := readU64_sound h7
        obtain ⟨w8, hw8, e8⟩ := readTok_sound h8
        simp only [Option.some.injEq, Prod.mk.injEq] at h
        obtain ⟨rfl, rfl⟩ := h
        simp only at e2 e3 e6 e7 e8
        refine ⟨w, .arr [.str (s% "content-length-range"), .num q3, .num q7],
          '[' :: (w1 ++ ('"' :: (s% "content-length-range") ++ ['"']) ++ w2 ++ (',' :: (w3 ++ q3 ++ (w6 ++ ',' :: (w7 ++ q7 ++ w8)))) ++ [']']),
          hw, ?_, ⟨q3, q7, hq3, hq7, rfl⟩, ?_⟩
        · rw [JVal]
          exact ⟨w1, _, w2, _, hw1, by rw [JVal]; exact hq, hw2, elems_of_pair hw3 hj3 hw6 hw7 hj7 hw8, rfl⟩
        · rw [hs, e1, e2, e3, e6, e7, e8]; simp
      · cases h
  · rename_i r0 e0
    rw [e0] at hs
    unfold readCondMap at h
    simp only [Option.bind_eq_bind, Option.bind_eq_some_iff, Option.some.injEq, Prod.mk.injEq] at h
    obtain ⟨⟨k, s1⟩, h1, s2, h2, ⟨v, s3⟩, h3, f, h5, s6, h6, rfl, rfl⟩ := h
    obtain ⟨w1, q1, hw1, hq1, e1⟩ := readString_sound h1
    obtain ⟨w2, hw2, e2⟩ := readTok_sound h2
    obtain ⟨w3, q3, hw3, hq3, e3⟩ := readString_sound h3
    have hn := readField_iff.1 h5
    obtain ⟨w6, hw6, e6⟩ := readTok_sound h6
    simp only at e2 e3 e6 hn
    refine ⟨w, .obj [(k, .str v)], '{' :: (w1 ++ q1 ++ w2 ++ [':'] ++ w3 ++ q3 ++ w6 ++ [] ++ ['}']), hw, ?_, ⟨k, hn, .inr rfl⟩, ?_⟩
    · rw [JVal]
      exact ⟨w1, q1, w2, w3, q3, w6, [], hw1, hq1, hw2, hw3, by rw [JVal]; exact hq3, hw6, by rw [JMembers], rfl⟩
    · rw [hs, e1, e2, e3, e6]; simp
  · cases h

/-! ### arrays of conditions -/

/-- `JElems`, with plain tags. -/
def CondElems : List Json → Str → Prop
  | [], s => s = []
  | x :: xs, s => ∃ w t w' r, Ws w ∧ JVal x t ∧ TagPlain x t ∧ Ws w' ∧ CondElems xs r ∧ s = ',' :: (w ++ t ++ w' ++ r)
/-- `JVal (.arr _)`, with plain tags. -/
def CondArr : List Json → Str → Prop
  | [], s => ∃ w, Ws w ∧ s = '[' :: (w ++ [']'])
  | x :: xs, s => ∃ w t w' r, Ws w ∧ JVal x t ∧ TagPlain x t ∧ Ws w' ∧ CondElems xs r ∧
      s = '[' :: (w ++ t ++ w' ++ r ++ [']'])

/-- The conditions of an array, one by one. -/
inductive CondsRel : List Json → List Condition → Prop
  | nil : CondsRel [] []
  | cons {x c xs cs} : CondOf x c → CondsRel xs cs → CondsRel (x :: xs) (c :: cs)

theorem condsRel_iff (xs : List Json) (cs : List Condition) :
    CondsRel xs cs ↔ xs.length = cs.length ∧ ∀ p ∈ xs.zip cs, CondOf p.1 p.2 := by
  induction xs generalizing cs with
  | nil =>
    cases cs with
    | nil => simp; exact .nil
    | cons c cs => simp; intro h; cases h
  | cons x xs ih =>
    cases cs with
    | nil => simp; intro h; cases h
    | cons c cs =>
      simp only [List.length_cons, Nat.add_right_cancel_iff, List.zip_cons_cons, List.mem_cons, forall_eq_or_imp]
      constructor
      · intro h; cases h with
        | cons h1 h2 => exact ⟨((ih cs).1 h2).1, h1, ((ih cs).1 h2).2⟩
      · rintro ⟨h1, h2, h3⟩; exact .cons h2 ((ih cs).2 ⟨h1, h3⟩)

theorem condsOf_iff {j : Json} {cs : List Condition} : CondsOf j cs ↔ ∃ xs, j = .arr xs ∧ CondsRel xs cs := by
  unfold CondsOf
  constructor
  · rintro ⟨xs, h1, h2⟩; exact ⟨xs, h1, (condsRel_iff xs cs).2 h2⟩
  · rintro ⟨xs, h1, h2⟩; exact ⟨xs, h1, (condsRel_iff xs cs).1 h2⟩

theorem readConditionsMore_complete {xs : List Json} {cs : List Condition} (h : CondsRel xs cs) :
    ∀ {rs w : Str} {n : Nat} (r : Str), CondElems xs rs → Ws w → rs.length + 1 ≤ n →
      readConditionsMore n (w ++ (rs ++ ']' :: r)) = some (cs, r) := by
  induction h with
  | nil =>
    intro rs w n r hrs hw hn
    simp only [CondElems] at hrs
    subst hrs
    obtain ⟨n, rfl⟩ : ∃ n', n = n' + 1 := ⟨n - 1, by omega⟩
    rw [readConditionsMore, List.nil_append, skipWs_append hw (noWs_of_head (by decide))]
    rfl
  | @cons x c xs cs hx hxs ih =>
    intro rs w n r hrs hw hn
    simp only [CondElems] at hrs
    obtain ⟨w1, t, w2, rs', hw1, ht, hp, hw2, hrs', rfl⟩ := hrs
    simp only [List.length_cons, List.length_append] at hn
    obtain ⟨n, rfl⟩ : ∃ n', n = n' + 1 := ⟨n - 1, by omega⟩
    have e : w ++ (',' :: (w1 ++ t ++ w2 ++ rs') ++ ']' :: r) = w ++ ',' :: (w1 ++ t ++ (w2 ++ (rs' ++ ']' :: r))) := by simp
    rw [readConditionsMore, e, skipWs_append hw (noWs_of_head (by decide))]
    simp only
    rw [readCondition_complete ht hx hp hw1]
    simp only
    rw [ih r hrs' hw2 (by omega)]
    rfl

theorem readConditions_complete {j : Json} {cs : List Condition} {t w : Str} (hc : CondsOf j cs)
    (ht : ∀ xs, j = .arr xs → CondArr xs t) (hw : Ws w) (r : Str) : readConditions (w ++ t ++ r) = some (cs, r) := by
  obtain ⟨xs, rfl, h⟩ := condsOf_iff.1 hc
  have ht := ht xs rfl
  cases h with
  | nil =>
    simp only [CondArr] at ht
    obtain ⟨w1, hw1, rfl⟩ := ht
    have e : w ++ '[' :: (w1 ++ [']']) ++ r = w ++ '[' :: (w1 ++ ']' :: r) := by simp
    unfold readConditions
    rw [e, skipWs_append hw (noWs_of_head (by decide))]
    simp only
    rw [skipWs_append hw1 (noWs_of_head (by decide))]
    rfl
  | @cons x c xs cs hx hxs =>
    simp only [CondArr] at ht
    obtain ⟨w1, tx, w2, rs, hw1, htx, hp, hw2, hrs, rfl⟩ := ht
    have e : w ++ '[' :: (w1 ++ tx ++ w2 ++ rs ++ [']']) ++ r = w ++ '[' :: (w1 ++ tx ++ (w2 ++ (rs ++ ']' :: r))) := by simp
    unfold readConditions
    rw [e, skipWs_append hw (noWs_of_head (by decide))]
    simp only
    have hsk : skipWs (w1 ++ tx ++ (w2 ++ (rs ++ ']' :: r))) = tx ++ (w2 ++ (rs ++ ']' :: r)) := by
      rw [List.append_assoc]; exact skipWs_append hw1 (JVal_noWs htx _)
    obtain ⟨ch, tr, etx, hch⟩ := JVal_head htx
    rw [readCondition_complete htx hx hp hw1, hsk, etx]
    simp only
    split
    · rename_i heq
      simp only [List.cons_append, List.cons.injEq] at heq
      rw [heq.1] at hch
      exact absurd hch (by decide)
    · rw [readConditionsMore_complete hxs r hrs hw2 (by simp; omega)]
      rfl

theorem readConditionsMore_sound (n : Nat) : ∀ {s r : Str} {cs : List Condition},
    readConditionsMore n s = some (cs, r) → ∃ w xs rs, Ws w ∧ JElems xs rs ∧ CondsRel xs cs ∧ s = w ++ (rs ++ ']' :: r) := by
  induction n with
  | zero => intro s r cs h; rw [readConditionsMore] at h; cases h
  | succ n ih =>
    intro s r cs h
    rw [readConditionsMore] at h
    obtain ⟨w, hw, hs⟩ := skipWs_spec s
    split at h
    · rename_i r0 e0
      rw [e0] at hs
      cases h
      exact ⟨w, [], [], hw, by rw [JElems], .nil, by rw [hs]; rfl⟩
    · rename_i r0 e0
      rw [e0] at hs
      split at h
      · cases h
      · rename_i c r1 h1
        obtain ⟨w1, x, t, hw1, ht, hx, e1⟩ := readCondition_sound h1
        rw [Option.map_eq_some_iff] at h
        obtain ⟨⟨cs', r'⟩, h2, h3⟩ := h
        cases h3
        obtain ⟨w2, xs, rs, hw2, hxs, hcs, e2⟩ := ih h2
        refine ⟨w, x :: xs, ',' :: (w1 ++ t ++ w2 ++ rs), hw, ?_, .cons hx hcs, by rw [hs, e1, e2]; simp⟩
        rw [JElems]
        exact ⟨w1, t, w2, rs, hw1, ht, hw2, hxs, rfl⟩
    · cases h

theorem readConditions_sound {s r : Str} {cs : List Condition} (h : readConditions s = some (cs, r)) :
    ∃ w j t, Ws w ∧ JVal j t ∧ CondsOf j cs ∧ s = w ++ t ++ r := by
  obtain ⟨w, hw, hs⟩ := skipWs_spec s
  unfold readConditions at h
  split at h
  · rename_i r0 e0
    rw [e0] at hs
    obtain ⟨w1, hw1, hs1⟩ := skipWs_spec r0
    split at h
    · rename_i r1 e1
      rw [e1] at hs1
      cases h
      exact ⟨w, .arr [], '[' :: (w1 ++ [']']), hw, by rw [JVal]; exact ⟨w1, hw1, rfl⟩, condsOf_iff.2 ⟨[], rfl, .nil⟩,
        by rw [hs, hs1]; simp⟩
    · split at h
      · cases h
      · rename_i c r1 h1
        obtain ⟨w1, x, t, hw1, ht, hx, e1⟩ := readCondition_sound h1
        rw [Option.map_eq_some_iff] at h
        obtain ⟨⟨cs', r'⟩, h2, h3⟩ := h
        cases h3
        obtain ⟨w2, xs, rs, hw2, hxs, hcs, e2⟩ := readConditionsMore_sound _ h2
        refine ⟨w, .arr (x :: xs), '[' :: (w1 ++ t ++ w2 ++ rs ++ [']']), hw, ?_, condsOf_iff.2 ⟨_, rfl, .cons hx hcs⟩,
          by rw [hs, e1, e2]; simp⟩
        rw [JVal]
        exact ⟨w1, t, w2, rs, hw1, ht, hw2, hxs, rfl⟩
  · cases h

/-! ### expiration -/

theorem fromStr_ok {v : Str} {e : PolicyExpiration} : PolicyExpiration.fromStr v = .ok e ↔ ExpirationOf (.str v) e := by
  unfold PolicyExpiration.fromStr ExpirationOf
  have : (∃ v', Json.str v = .str v' ∧ ReadsAs v' e.ts.val ∧ -62167219200 ≤ e.ts.val ∧ e.ts.val ≤ 253402300799) ↔
      ReadsAs v e.ts.val ∧ e.ts.InRange := by
    constructor
    · rintro ⟨v', h, h2⟩; cases h; exact h2
    · intro h; exact ⟨v, rfl, h⟩
  rw [this, ← fromRfc3339_ok]
  cases h : UnixTimestamp.fromRfc3339 v with
  | ok t =>
    show (Res.ok _ = Res.ok _) ↔ _
    constructor
    · intro h; cases h; rfl
    · intro h; cases h; rfl
  | err x => exact ⟨fun h => (by cases h), fun h => (by cases h)⟩
  | panic x => exact ⟨fun h => (by cases h), fun h => (by cases h)⟩

theorem readExpiration_complete {j : Json} {e : PolicyExpiration} {t w : Str} (he : ExpirationOf j e) (ht : JVal j t)
    (hw : Ws w) (r : Str) : readExpiration (w ++ t ++ r) = some (e, r) := by
  obtain ⟨v, rfl, h⟩ := he
  rw [JVal] at ht
  unfold readExpiration
  rw [readString_complete ht hw]
  simp only [fromStr_ok.2 ⟨v, rfl, h⟩]

theorem readExpiration_sound {s r : Str} {e : PolicyExpiration} (h : readExpiration s = some (e, r)) :
    ∃ w j t, Ws w ∧ JVal j t ∧ ExpirationOf j e ∧ s = w ++ t ++ r := by
  unfold readExpiration at h
  split at h
  · cases h
  · rename_i v r1 h1
    obtain ⟨w, q, hw, hq, e1⟩ := readString_sound h1
    split at h
    · rename_i e' h2
      cases h
      exact ⟨w, .str v, q, hw, by rw [JVal]; exact hq, fromStr_ok.1 h2, e1⟩
    · cases h

end CSS
