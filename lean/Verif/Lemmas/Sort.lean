import Verif.Lemmas.Percent
import Verif.Model.Canonical
/- Byte order, sorting, sets, join/split. -/
set_option linter.unusedSimpArgs false
namespace CSS
open Spec

theorem bytesLe_total (a b : Bytes) : bytesLe a b = true ∨ bytesLe b a = true := by
  induction a generalizing b with
  | nil => simp [bytesLe]
  | cons x a ih => cases b with
    | nil => simp [bytesLe]
    | cons y b =>
      simp only [bytesLe]
      rcases Nat.lt_trichotomy x.toNat y.toNat with h | h | h
      · simp [h]
      · simp [h]; exact ih b
      · simp [h]

theorem bytesLe_antisymm {a b : Bytes} (h1 : bytesLe a b = true) (h2 : bytesLe b a = true) : a = b := by
  induction a generalizing b with
  | nil => cases b with
    | nil => rfl
    | cons y b => simp [bytesLe] at h2
  | cons x a ih => cases b with
    | nil => simp [bytesLe] at h1
    | cons y b =>
      simp only [bytesLe] at h1 h2
      rcases Nat.lt_trichotomy x.toNat y.toNat with h | h | h
      · rw [if_neg (by omega), if_pos h] at h2; cases h2
      · rw [if_neg (by omega), if_neg (by omega)] at h1 h2
        rw [UInt8.toNat_inj.1 h, ih h1 h2]
      · rw [if_neg (by omega), if_pos h] at h1; cases h1

theorem bytesLe_trans {a b c : Bytes} (h1 : bytesLe a b = true) (h2 : bytesLe b c = true) : bytesLe a c = true := by
  induction a generalizing b c with
  | nil => simp [bytesLe]
  | cons x a ih => cases b with
    | nil => simp [bytesLe] at h1
    | cons y b => cases c with
      | nil => simp [bytesLe] at h2
      | cons z c =>
        simp only [bytesLe] at h1 h2 ⊢
        split at h1
        · split at h2
          · rw [if_pos (by omega)]
          · split at h2
            · cases h2
            · rw [if_pos (by omega)]
        · split at h1
          · cases h1
          · split at h2
            · rw [if_pos (by omega)]
            · split at h2
              · cases h2
              · rw [if_neg (by omega), if_neg (by omega)]; exact ih h1 h2

theorem bytesLe_refl (a : Bytes) : bytesLe a a = true := by
  induction a with
  | nil => rfl
  | cons x a ih => simp [bytesLe, ih]

theorem strLe_total (a b : Str) : strLe a b = true ∨ strLe b a = true := bytesLe_total _ _
theorem strLe_antisymm {a b : Str} (h1 : strLe a b = true) (h2 : strLe b a = true) : a = b :=
  utf8_inj (bytesLe_antisymm h1 h2)
theorem strLe_trans {a b c : Str} (h1 : strLe a b = true) (h2 : strLe b c = true) : strLe a c = true :=
  bytesLe_trans h1 h2
theorem strLe_refl (a : Str) : strLe a a = true := bytesLe_refl _

/-! ### sort -/

theorem insertStr_perm (x : Str) (l : List Str) : List.Perm (insertStr x l) (x :: l) := by
  induction l with
  | nil => simp [insertStr]
  | cons y l ih =>
    simp only [insertStr]
    split
    · exact .refl _
    · exact (List.Perm.cons y ih).trans (List.Perm.swap x y l)

theorem sortStr_perm (l : List Str) : List.Perm (sortStr l) l := by
  induction l with
  | nil => exact .refl _
  | cons x l ih => exact (insertStr_perm x _).trans (List.Perm.cons x ih)

def Sorted (l : List Str) : Prop := l.Pairwise (fun a b => strLe a b = true)

theorem insertStr_sorted {x : Str} {l : List Str} (h : Sorted l) : Sorted (insertStr x l) := by
  induction l with
  | nil => simp [insertStr, Sorted]
  | cons y l ih =>
    unfold Sorted at *
    rw [List.pairwise_cons] at h
    simp only [insertStr]
    split
    · rename_i hxy
      rw [List.pairwise_cons, List.pairwise_cons]
      refine ⟨?_, h⟩
      intro z hz
      rcases List.mem_cons.1 hz with rfl | hz
      · exact hxy
      · exact strLe_trans hxy (h.1 z hz)
    · rename_i hxy
      have hyx : strLe y x = true := (strLe_total x y).resolve_left hxy
      rw [List.pairwise_cons]
      refine ⟨?_, ih h.2⟩
      intro z hz
      rcases List.mem_cons.1 ((insertStr_perm x l).mem_iff.1 hz) with rfl | hz
      · exact hyx
      · exact h.1 z hz

theorem sortStr_sorted (l : List Str) : Sorted (sortStr l) := by
  induction l with
  | nil => simp [sortStr, Sorted]
  | cons x l ih => exact insertStr_sorted ih

theorem sorted_perm_unique {l l' : List Str} (h : Sorted l) (h' : Sorted l') (hp : List.Perm l l') : l = l' := by
  induction l generalizing l' with
  | nil => exact (List.nil_perm.1 hp).symm
  | cons x l ih =>
    cases l' with
    | nil => simp at hp
    | cons y l' =>
      have hxy : x = y := by
        have hx : x ∈ y :: l' := hp.mem_iff.1 (by simp)
        have hy : y ∈ x :: l := hp.mem_iff.2 (by simp)
        unfold Sorted at h h'
        rw [List.pairwise_cons] at h h'
        rcases List.mem_cons.1 hx with rfl | hx
        · rfl
        · rcases List.mem_cons.1 hy with rfl | hy
          · rfl
          · exact strLe_antisymm (h.1 y hy) (h'.1 x hx)
      subst hxy
      rw [ih (List.Pairwise.of_cons h) (List.Pairwise.of_cons h') ((List.perm_cons x).1 hp)]

theorem sortStr_perm_eq {l l' : List Str} (h : List.Perm l l') : sortStr l = sortStr l' :=
  sorted_perm_unique (sortStr_sorted l) (sortStr_sorted l')
    ((sortStr_perm l).trans (h.trans (sortStr_perm l').symm))

/-! ### join and split -/

theorem splitOn_append {sep : Char} {a : Str} (h : sep ∉ a) (b : Str) :
    splitOn sep (a ++ sep :: b) = a :: splitOn sep b := by
  induction a with
  | nil => simp [splitOn]
  | cons c a ih =>
    simp only [List.mem_cons, not_or] at h
    simp only [List.cons_append, splitOn]
    rw [if_neg (fun e => h.1 e.symm), ih h.2]

theorem splitOn_none {sep : Char} {a : Str} (h : sep ∉ a) : splitOn sep a = [a] := by
  induction a with
  | nil => rfl
  | cons c a ih =>
    simp only [List.mem_cons, not_or] at h
    simp only [splitOn]
    rw [if_neg (fun e => h.1 e.symm), ih h.2]

/-- Splitting a joined list at a separator that occurs in no item returns the items. -/
theorem splitOn_join {sep : Char} {l : List Str} (hne : l ≠ []) (h : ∀ x ∈ l, sep ∉ x) :
    splitOn sep (join [sep] l) = l := by
  match l with
  | [] => exact absurd rfl hne
  | [x] => exact splitOn_none (h x (by simp))
  | x :: y :: r =>
    have : join [sep] (x :: y :: r) = x ++ sep :: join [sep] (y :: r) := by simp [join]
    rw [this, splitOn_append (h x (by simp)), splitOn_join (by simp) (fun z hz => h z (by simp [hz]))]

theorem join_append (sep : Str) {a b : List Str} (ha : a ≠ []) (hb : b ≠ []) :
    join sep (a ++ b) = join sep a ++ sep ++ join sep b := by
  match a, b with
  | [], _ => exact absurd rfl ha
  | [x], y :: b => simp [join]
  | x :: x' :: a, b =>
    have ih := join_append sep (a := x' :: a) (b := b) (by simp) hb
    simp only [List.cons_append, join] at ih ⊢
    rw [ih]; simp

theorem mem_join {sep : Str} {l : List Str} {c : Char} (h : c ∈ join sep l) : c ∈ sep ∨ ∃ x ∈ l, c ∈ x := by
  match l with
  | [] => simp [join] at h
  | [x] => exact .inr ⟨x, by simp, h⟩
  | x :: y :: r =>
    simp only [join, List.mem_append] at h
    rcases h with (h | h) | h
    · exact .inr ⟨x, by simp, h⟩
    · exact .inl h
    · rcases mem_join h with h | ⟨z, hz, hc⟩
      · exact .inl h
      · exact .inr ⟨z, by simp [hz], hc⟩

theorem cutAt_append {sep : Char} {a : Str} (h : sep ∉ a) (b : Str) : cutAt sep (a ++ sep :: b) = (a, b) := by
  induction a with
  | nil => simp [cutAt]
  | cons c a ih =>
    simp only [List.mem_cons, not_or] at h
    simp only [List.cons_append, cutAt]
    rw [if_neg (fun e => h.1 e.symm), ih h.2]

theorem cutAt_none {sep : Char} {a : Str} (h : sep ∉ a) : cutAt sep a = (a, []) := by
  induction a with
  | nil => rfl
  | cons c a ih =>
    simp only [List.mem_cons, not_or] at h
    simp only [cutAt]
    rw [if_neg (fun e => h.1 e.symm), ih h.2]

theorem splitFirst_append {sep : Char} {a : Str} (h : sep ∉ a) (b : Str) :
    splitFirst sep (a ++ sep :: b) = (a, some b) := by
  induction a with
  | nil => simp [splitFirst]
  | cons c a ih =>
    simp only [List.mem_cons, not_or] at h
    simp only [List.cons_append, splitFirst]
    rw [if_neg (fun e => h.1 e.symm), ih h.2]

theorem splitFirst_none {sep : Char} {a : Str} (h : sep ∉ a) : splitFirst sep a = (a, none) := by
  induction a with
  | nil => rfl
  | cons c a ih =>
    simp only [List.mem_cons, not_or] at h
    simp only [splitFirst]
    rw [if_neg (fun e => h.1 e.symm), ih h.2]

/-! ### canonical query -/

/-- One `name=value` item of the canonical query. -/
def canonicalItem (p : Str × Str) : Str := percentEncode p.1 ++ s% "=" ++ percentEncode p.2

theorem canonicalQueryString_eq (u : Uri) :
    canonicalQueryString u = join (s% "&") (sortStr ((formParse (utf8 (u.query.getD []))).map canonicalItem)) := rfl

theorem percentEncode_no {c : Char} (hc : c ∈ reserved) (s : Str) : c ∉ percentEncode s :=
  fun h => percentEncode_not_reserved s c h hc

theorem canonicalItem_no_amp (p : Str × Str) : '&' ∉ canonicalItem p := by
  unfold canonicalItem
  simp only [List.mem_append, not_or]
  exact ⟨⟨percentEncode_no (by decide) _, by decide⟩, percentEncode_no (by decide) _⟩

/-- What a server reads from one item. -/
theorem canonicalItem_decode (p : Str × Str) :
    (percentDecode (cutAt '=' (canonicalItem p)).1, percentDecode (cutAt '=' (canonicalItem p)).2) =
      (percentDecode p.1, percentDecode p.2) := by
  unfold canonicalItem
  rw [List.append_assoc, List.singleton_append, cutAt_append (percentEncode_no (by decide) _)]
  simp [percentDecode_encode]

theorem queryParams_join {l : List Str} (hne : l ≠ []) (h : ∀ x ∈ l, '&' ∉ x) :
    queryParams (join (s% "&") l) =
      l.map fun item => (percentDecode (cutAt '=' item).1, percentDecode (cutAt '=' item).2) := by
  unfold queryParams
  rw [splitOn_join hne h]

/-- The multiset of parameters read from a canonical query string. -/
theorem queryParams_canonical (ps : List (Str × Str)) (hne : ps ≠ []) :
    List.Perm (queryParams (join (s% "&") (sortStr (ps.map canonicalItem))))
      (ps.map fun p => (percentDecode p.1, percentDecode p.2)) := by
  have hs : sortStr (ps.map canonicalItem) ≠ [] := by
    intro h
    have := (sortStr_perm (ps.map canonicalItem)).length_eq
    rw [h] at this
    cases ps with
    | nil => exact hne rfl
    | cons _ _ => simp at this
  rw [queryParams_join hs]
  · refine ((sortStr_perm _).map _).trans ?_
    rw [List.map_map]
    have : (fun item => (percentDecode (cutAt '=' item).1, percentDecode (cutAt '=' item).2)) ∘ canonicalItem =
        fun p : Str × Str => (percentDecode p.1, percentDecode p.2) := by
      funext p; exact canonicalItem_decode p
    rw [this]
  · intro x hx
    rw [(sortStr_perm _).mem_iff, List.mem_map] at hx
    obtain ⟨p, _, rfl⟩ := hx
    exact canonicalItem_no_amp p

/-! ### sets -/

def StrictSorted (l : List Str) : Prop := l.Pairwise (fun a b => strLe a b = true ∧ a ≠ b)

theorem mem_setInsert (x y : Str) (l : List Str) : y ∈ setInsert x l ↔ y = x ∨ y ∈ l := by
  induction l with
  | nil => simp [setInsert]
  | cons z l ih =>
    simp only [setInsert]
    split
    · rename_i h; subst h; simp
    · split
      · simp
      · simp [ih]; constructor <;> rintro (h | h | h) <;> simp [h]

theorem setInsert_sorted {x : Str} {l : List Str} (h : StrictSorted l) : StrictSorted (setInsert x l) := by
  induction l with
  | nil => simp [setInsert, StrictSorted]
  | cons y l ih =>
    unfold StrictSorted at *
    rw [List.pairwise_cons] at h
    simp only [setInsert]
    split
    · rw [List.pairwise_cons]; exact h
    · rename_i hne
      split
      · rename_i hxy
        rw [List.pairwise_cons, List.pairwise_cons]
        refine ⟨?_, h⟩
        intro z hz
        rcases List.mem_cons.1 hz with rfl | hz
        · exact ⟨hxy, hne⟩
        · refine ⟨strLe_trans hxy (h.1 z hz).1, ?_⟩
          rintro rfl
          exact hne (strLe_antisymm hxy (h.1 x hz).1)
      · rename_i hxy
        have hyx : strLe y x = true := (strLe_total x y).resolve_left hxy
        rw [List.pairwise_cons]
        refine ⟨?_, ih h.2⟩
        intro z hz
        rcases (mem_setInsert x z l).1 hz with rfl | hz
        · exact ⟨hyx, fun e => hne e.symm⟩
        · exact h.1 z hz

theorem toSet_foldl_sorted (xs : List Str) {acc : List Str} (h : StrictSorted acc) :
    StrictSorted (xs.foldl (fun acc x => setInsert x acc) acc) := by
  induction xs generalizing acc with
  | nil => exact h
  | cons x xs ih => exact ih (setInsert_sorted h)

theorem mem_toSet_foldl (xs : List Str) (acc : List Str) (y : Str) :
    y ∈ xs.foldl (fun acc x => setInsert x acc) acc ↔ y ∈ xs ∨ y ∈ acc := by
  induction xs generalizing acc with
  | nil => simp
  | cons x xs ih =>
    simp only [List.foldl_cons, ih, mem_setInsert, List.mem_cons]
    constructor
    · rintro (h | h | h) <;> simp [h]
    · rintro ((h | h) | h) <;> simp [h]

theorem toSet_sorted (xs : List Str) : StrictSorted (toSet xs) :=
  toSet_foldl_sorted xs (by simp [StrictSorted])
theorem mem_toSet (xs : List Str) (y : Str) : y ∈ toSet xs ↔ y ∈ xs := by
  simp [toSet, mem_toSet_foldl]

theorem strictSorted_ext {l l' : List Str} (h : StrictSorted l) (h' : StrictSorted l')
    (he : ∀ x, x ∈ l ↔ x ∈ l') : l = l' := by
  have hs : Sorted l := h.imp (fun h => h.1)
  have hs' : Sorted l' := h'.imp (fun h => h.1)
  have hn : l.Nodup := h.imp (fun h => h.2)
  have hn' : l'.Nodup := h'.imp (fun h => h.2)
  exact sorted_perm_unique hs hs' ((List.perm_ext_iff_of_nodup hn hn').2 he)

theorem toSet_ext {xs ys : List Str} (h : ∀ x, x ∈ xs ↔ x ∈ ys) : toSet xs = toSet ys :=
  strictSorted_ext (toSet_sorted xs) (toSet_sorted ys) (fun x => by rw [mem_toSet, mem_toSet, h])

end CSS
