import Verif.Lemmas.Lossy
import Verif.Lemmas.UrlStandard
/- Reading a form-encoded query. -/
set_option linter.unusedSimpArgs false
namespace CSS
open Spec

theorem byte_eq {a b : UInt8} : a = b ↔ a.toNat = b.toNat := ⟨fun h => h ▸ rfl, UInt8.toNat_inj.1⟩

theorem splitAll_utf8 {sep : UInt8} {c : Char} (hs : sep = UInt8.ofNat c.toNat) (hc : c.toNat < 128) (s : Str)
    (h : ∀ x ∈ s, x.toNat < 128) : splitAll sep (utf8 s) = (splitOn c s).map utf8 := by
  induction s with
  | nil => rfl
  | cons x s ih =>
    have hx := h x (by simp)
    rw [utf8_cons, utf8Char_ascii hx]
    simp only [List.cons_append, List.nil_append, splitAll, splitOn, ih (fun y hy => h y (by simp [hy]))]
    have e : UInt8.ofNat x.toNat = sep ↔ x = c := by
      rw [hs, byte_eq, toNat_ofNat8 (by omega), toNat_ofNat8 (by omega)]
      exact ⟨fun h => Char.toNat_inj.1 h, fun h => h ▸ rfl⟩
    by_cases hxc : x = c
    · rw [if_pos (e.2 hxc), if_pos hxc]; rfl
    · rw [if_neg (fun h => hxc (e.1 h)), if_neg hxc]
      cases splitOn c s with
      | nil => simp [utf8, utf8Char_ascii hx]
      | cons a l => simp [utf8_cons, utf8Char_ascii hx]

theorem splitFirstB_utf8 {sep : UInt8} {c : Char} (hs : sep = UInt8.ofNat c.toNat) (hc : c.toNat < 128) (s : Str)
    (h : ∀ x ∈ s, x.toNat < 128) : splitFirstB sep (utf8 s) = (utf8 (cutAt c s).1, utf8 (cutAt c s).2) := by
  induction s with
  | nil => rfl
  | cons x s ih =>
    have hx := h x (by simp)
    rw [utf8_cons, utf8Char_ascii hx]
    simp only [List.cons_append, List.nil_append, splitFirstB, cutAt, ih (fun y hy => h y (by simp [hy]))]
    have e : UInt8.ofNat x.toNat = sep ↔ x = c := by
      rw [hs, byte_eq, toNat_ofNat8 (by omega), toNat_ofNat8 (by omega)]
      exact ⟨fun h => Char.toNat_inj.1 h, fun h => h ▸ rfl⟩
    by_cases hxc : x = c
    · rw [if_pos (e.2 hxc), if_pos hxc]; rfl
    · rw [if_neg (fun h => hxc (e.1 h)), if_neg hxc]
      simp [utf8_cons, utf8Char_ascii hx]

theorem hexVal_char {c : Char} (h : c.toNat < 128) : hexVal (UInt8.ofNat c.toNat) = hexVal? c :=
  forall_ascii (P := fun c => hexVal (UInt8.ofNat c.toNat) = hexVal? c) (by decide +kernel) c h

theorem pctDecode_utf8 : ∀ (s : Str), (∀ x ∈ s, x.toNat < 128) → pctDecode (utf8 s) = percentDecode s
  | [], _ => rfl
  | [a], h => by
    have ha := h a (by simp)
    simp only [utf8_cons, utf8_nil, utf8Char_ascii ha, List.append_nil, pctDecode, percentDecode]
    split <;> rfl
  | [a, b], h => by
    have ha := h a (by simp)
    have hb := h b (by simp)
    simp only [utf8_cons, utf8_nil, utf8Char_ascii ha, utf8Char_ascii hb, List.append_nil, pctDecode, percentDecode,
      List.cons_append, List.nil_append]
    split <;> split <;> rfl
  | a :: b :: c :: s, h => by
    have ha := h a (by simp)
    have hb := h b (by simp)
    have hc := h c (by simp)
    have ih1 := pctDecode_utf8 s (fun x hx => h x (by simp [hx]))
    have ih2 := pctDecode_utf8 (b :: c :: s) (fun x hx => h x (List.mem_cons_of_mem _ hx))
    rw [utf8_cons, utf8_cons, utf8Char_ascii hb, utf8Char_ascii hc] at ih2
    rw [utf8_cons, utf8_cons, utf8_cons, utf8Char_ascii ha, utf8Char_ascii hb, utf8Char_ascii hc]
    simp only [List.cons_append, List.nil_append] at ih2 ⊢
    rw [percentDecode, pctDecode]
    rw [toNat_ofNat8 (by omega), hexVal_char hb, hexVal_char hc, ih1, ih2, utf8Char_ascii ha]
    have e : a = '%' ↔ a.toNat = 37 := ⟨fun h => h ▸ rfl, fun h => Char.toNat_inj.1 h⟩
    by_cases hp : a = '%'
    · rw [if_pos hp, if_pos (e.1 hp)]
      cases hexVal? b <;> cases hexVal? c <;> rfl
    · rw [if_neg hp, if_neg (fun h => hp (e.2 h))]; rfl

theorem formReads_formDecode {s : Str} (h : ∀ x ∈ s, x.toNat < 128) : FormReads s (formDecode (utf8 s)) := by
  unfold FormReads formDecode
  have e : (utf8 s).map (fun b => if b.toNat = 43 then 32 else b) = utf8 (s.map fun c => if c = '+' then ' ' else c) := by
    rw [utf8_ascii h, utf8_ascii, List.map_map, List.map_map]
    · apply List.map_congr_left
      intro c hc
      have := h c hc
      simp only [Function.comp]
      rw [toNat_ofNat8 (by omega)]
      have e : c = '+' ↔ c.toNat = 43 := ⟨fun h => h ▸ rfl, fun h => Char.toNat_inj.1 h⟩
      by_cases hp : c = '+'
      · rw [if_pos hp, if_pos (e.1 hp)]; rfl
      · rw [if_neg hp, if_neg (fun h => hp (e.2 h))]
    · intro c hc
      rw [List.mem_map] at hc
      obtain ⟨d, hd, rfl⟩ := hc
      split
      · decide
      · exact h d hd
  rw [e, pctDecode_utf8]
  · exact lossy_utf8Lossy _
  · intro c hc
    rw [List.mem_map] at hc
    obtain ⟨d, hd, rfl⟩ := hc
    split
    · decide
    · exact h d hd

theorem cutAt_sub {c : Char} {s : Str} : (∀ x ∈ (cutAt c s).1, x ∈ s) ∧ ∀ x ∈ (cutAt c s).2, x ∈ s := by
  induction s with
  | nil => simp [cutAt]
  | cons y s ih =>
    unfold cutAt
    split
    · exact ⟨by simp, fun x hx => List.mem_cons_of_mem _ hx⟩
    · refine ⟨fun x hx => ?_, fun x hx => List.mem_cons_of_mem _ (ih.2 x hx)⟩
      simp only [List.mem_cons] at hx ⊢
      exact hx.imp id (ih.1 x)

theorem formParams_map : ∀ (l : List Str), (∀ s ∈ l, ∀ x ∈ s, x.toNat < 128) →
    FormParams l (l.map fun p => (formDecode (utf8 (cutAt '=' p).1), formDecode (utf8 (cutAt '=' p).2)))
  | [], _ => .nil
  | s :: l, h => .cons (formReads_formDecode fun x hx => h s (by simp) x (cutAt_sub.1 x hx))
      (formReads_formDecode fun x hx => h s (by simp) x (cutAt_sub.2 x hx))
      (formParams_map l fun s hs => h s (by simp [hs]))

theorem utf8_eq_nil {s : Str} : utf8 s = [] ↔ s = [] := by
  constructor
  · intro h; exact utf8_inj h
  · rintro rfl; rfl

theorem formParse_ascii {q : Str} (h : ∀ x ∈ q, x.toNat < 128) : FormParams (queryItems q) (formParse (utf8 q)) := by
  unfold formParse queryItems
  rw [splitAll_utf8 (c := '&') (by decide) (by decide) q h, List.filter_map, List.map_map]
  have hf : (splitOn '&' q).filter ((fun p => !p.isEmpty) ∘ utf8) = (splitOn '&' q).filter fun item => item ≠ [] := by
    apply List.filter_congr
    intro x _
    simp only [Function.comp]
    by_cases hx : x = []
    · subst hx; rfl
    · have : utf8 x ≠ [] := fun h => hx (utf8_eq_nil.1 h)
      simp [hx, this]
  rw [hf]
  have hall : ∀ s ∈ (splitOn '&' q).filter (fun item => item ≠ []), ∀ x ∈ s, x.toNat < 128 := by
    intro s hs x hx
    exact h x (splitOn_sub (List.mem_filter.1 hs).1 hx)
  have := formParams_map _ hall
  have e : ((splitOn '&' q).filter (fun item => item ≠ [])).map
      ((fun p => (formDecode (splitFirstB 61 p).1, formDecode (splitFirstB 61 p).2)) ∘ utf8) =
      ((splitOn '&' q).filter (fun item => item ≠ [])).map
        fun p => (formDecode (utf8 (cutAt '=' p).1), formDecode (utf8 (cutAt '=' p).2)) := by
    apply List.map_congr_left
    intro s hs
    simp only [Function.comp]
    rw [splitFirstB_utf8 (c := '=') (by decide) (by decide) s (hall s hs)]
  rw [e]
  exact this

theorem nameParams_formParse (env : Env) (o : UrlOptions) :
    NameParams env o ((formParse (utf8 ((objectUrl env o).query.getD []))).map decoded) := by
  refine ⟨_, ?_, rfl⟩
  rw [← (objectParts_eq env o).2.1]
  exact formParse_ascii fun x hx => ((objectUrl_normal env o).2 x hx).1

/-- The parameters are determined. -/
theorem formParams_unique {l : List Str} {ps ps' : List (Str × Str)} (h : FormParams l ps) (h' : FormParams l ps') : ps = ps' := by
  induction h generalizing ps' with
  | nil => cases h'; rfl
  | cons h1 h2 _ ih =>
    cases h' with
    | cons h1' h2' h3' => rw [lossy_unique h1 h1', lossy_unique h2 h2', ih h3']

theorem canonicalText_eq (s : Str) : canonicalText s = percentEncode s := by
  unfold canonicalText percentEncode
  congr 1
  funext c
  by_cases h : c ∈ reserved
  · have : c ∈ s% "!\"#$&'()*+,:;=?@[]" := h
    rw [if_pos this]
    exact (by decide +kernel : ∀ c ∈ reserved, percentBytes (utf8Char c) = percentEncodeChar c) c h
  · have : c ∉ s% "!\"#$&'()*+,:;=?@[]" := h
    rw [if_neg this, percentEncodeChar_not h]

end CSS
