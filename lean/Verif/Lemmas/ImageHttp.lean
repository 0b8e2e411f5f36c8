import Verif.Spec.ImageHttp
import Verif.Lemmas.StructText
import Verif.Lemmas.FormRead
import Verif.Lemmas.Digits
/- Reading the requests and the answers of the example server. -/
namespace CSS
open Spec ImageUploader

/-! ### percent-decoding -/

theorem pctDecode_byte {b : UInt8} (h : b.toNat ≠ 37) (r : Bytes) : pctDecode (b :: r) = b :: pctDecode r := by
  match r with
  | [] => rfl
  | [_] => rfl
  | _ :: _ :: _ => rw [pctDecode, if_neg h]

theorem pctDecode_plains {bs : Bytes} (h : ∀ b ∈ bs, b.toNat ≠ 37) (r : Bytes) : pctDecode (bs ++ r) = bs ++ pctDecode r := by
  induction bs with
  | nil => rfl
  | cons b bs ih =>
    rw [List.cons_append, pctDecode_byte (h b (by simp)), ih fun x hx => h x (by simp [hx])]
    rfl

theorem hexVal_ascii {b : UInt8} {n : Nat} (h : hexVal b = some n) : b.toNat < 128 := by
  unfold hexVal at h
  simp only at h
  split at h
  · omega
  · split at h
    · omega
    · split at h
      · omega
      · cases h

theorem hexVal?_ascii {c : Char} {n : Nat} (h : hexVal? c = some n) : c.toNat < 128 := by
  have key : ∀ l : Str, l.idxOf? c = some n → c ∈ l := by
    intro l hl
    rw [List.idxOf?_eq_some_iff] at hl
    obtain ⟨h1, h2, _⟩ := hl
    exact h2 ▸ List.getElem_mem h1
  have all : ∀ d ∈ s% "0123456789ABCDEFabcdef", d.toNat < 128 := by decide
  have up : ∀ d ∈ s% "0123456789ABCDEF", d ∈ s% "0123456789ABCDEFabcdef" := by decide
  have lo : ∀ d ∈ s% "0123456789abcdef", d ∈ s% "0123456789ABCDEFabcdef" := by decide
  unfold hexVal? at h
  split at h
  · rename_i m hm
    cases h
    exact all c (up c (key _ hm))
  · exact all c (lo c (key _ h))

theorem pctDecode_noEscape {t : Bytes} (h : ∀ x y r, t = x :: y :: r → hexVal x = none ∨ hexVal y = none) :
    pctDecode (37 :: t) = 37 :: pctDecode t := by
  match t with
  | [] => rfl
  | [_] => rfl
  | x :: y :: r =>
    rw [pctDecode]
    rcases h x y r rfl with h | h
    · rw [h]; simp
    · rw [h]; cases hexVal x <;> simp

theorem utf8_head_ascii {c : Char} {u v : Bytes} {x : UInt8} (h : utf8Char c ++ u = x :: v) (hx : x.toNat < 128) :
    c.toNat < 128 ∧ x = UInt8.ofNat c.toNat ∧ u = v := by
  by_cases hc : c.toNat < 128
  · rw [utf8Char_ascii hc] at h
    simp only [List.cons_append, List.nil_append, List.cons.injEq] at h
    exact ⟨hc, h.1.symm, h.2⟩
  · have hn := utf8Char_ne_nil c
    have ha := utf8Char_nonascii (c := c) (by omega)
    cases e : utf8Char c with
    | nil => exact absurd e hn
    | cons y l =>
      rw [e] at h ha
      simp only [List.cons_append, List.cons.injEq] at h
      have := ha y (by simp)
      rw [h.1] at this
      omega

theorem pctDecode_text : ∀ (s : Str), pctDecode (utf8 s) = percentDecode s
  | [] => rfl
  | c :: r => by
    have ih := pctDecode_text r
    by_cases hc : c = '%'
    · subst hc
      have e : utf8Char '%' = [37] := by decide
      rw [utf8_cons, e, List.singleton_append]
      match r, ih with
      | [], _ => rw [percentDecode, if_pos rfl]; rfl
      | [a], ih =>
        rw [percentDecode, if_pos rfl]
        rw [← ih, e, pctDecode_noEscape, List.singleton_append]
        intro x y r' h
        refine .inl ?_
        cases hx : hexVal x with
        | none => rfl
        | some n =>
          rw [utf8_cons] at h
          have := (utf8_head_ascii h (hexVal_ascii hx)).2.2
          rw [utf8_nil] at this
          cases this
      | a :: b :: r', ih =>
        have ih' := pctDecode_text r'
        rw [percentDecode, if_pos rfl]
        split
        · rename_i x y hx hy
          have ha := hexVal?_ascii hx
          have hb := hexVal?_ascii hy
          rw [utf8_cons, utf8_cons, utf8Char_ascii ha, utf8Char_ascii hb, ← ih']
          simp only [List.cons_append, List.nil_append]
          rw [pctDecode, if_pos (by decide), hexVal_char ha, hexVal_char hb, hx, hy]
        · rename_i hno
          rw [← ih, e, pctDecode_noEscape, List.singleton_append]
          intro x y r'' h
          cases hx : hexVal x with
          | none => exact .inl rfl
          | some n =>
            refine .inr ?_
            cases hy : hexVal y with
            | none => rfl
            | some m =>
              rw [utf8_cons] at h
              obtain ⟨ha, ex, h'⟩ := utf8_head_ascii h (hexVal_ascii hx)
              rw [utf8_cons] at h'
              obtain ⟨hb, ey, _⟩ := utf8_head_ascii h' (hexVal_ascii hy)
              rw [ex, hexVal_char ha] at hx
              rw [ey, hexVal_char hb] at hy
              exact absurd hy (hno n m hx)
    · rw [percentDecode.eq_def]
      simp only [if_neg hc]
      rw [utf8_cons, pctDecode_plains _ _, ih]
      intro b hb
      by_cases hn : c.toNat < 128
      · rw [utf8Char_ascii hn, List.mem_singleton] at hb
        rw [hb, toNat_ofNat8 (by omega)]
        intro h
        exact hc (Char.toNat_inj.1 h)
      · have := utf8Char_nonascii (c := c) (by omega) b hb
        omega

/-! ### structs -/

theorem readStruct_iff {k0 : Str} {kind0 : Kind} {fs : List (Str × Kind)} {s : Str} {vs : List FieldVal} :
    readStruct ((k0, kind0) :: fs) s = some vs ↔
      ∃ text rest, s = text ++ rest ∧ parseStruct ((k0, kind0) :: fs) text = some vs := by
  constructor
  · intro h
    simp only [parseStruct_iff]
    generalize hfields : (k0, kind0) :: fs = fields at h ⊢
    unfold readStruct at h
    obtain ⟨w, hw, hs⟩ := skipWs_spec s
    split at h
    · rename_i r heq
      rw [heq] at hs
      obtain ⟨w1, hw1, hs1⟩ := skipWs_spec r
      split at h
      · rename_i r1 heq1
        rw [heq1] at hs1
        split at h
        · cases h
        · rename_i acc r2 hm
          obtain ⟨ms, body, hmt, hr, e⟩ := structMembers_reads _ _ _ _ _ _ hm
          refine ⟨w ++ '{' :: (w1 ++ body) ++ '}' :: [], r2, ?_, .inl ⟨ms, acc, ⟨w, w1 ++ body, [], hw,
            memberTexts_ws hmt hw1, Ws.nil, rfl⟩, hr, h⟩⟩
          rw [hs, hs1, e]; simp
      · cases h
    · rename_i r heq
      rw [heq] at hs
      split at h
      · cases h
      · rename_i vs' r2 hq
        cases h
        subst hfields
        rw [structSeq] at hq
        simp only [if_true] at hq
        split at hq
        · cases hq
        · rename_i v r1 hk
          obtain ⟨w1, t, hw1, ht, rfl⟩ := kindText_sound hk
          rw [Option.map_eq_some_iff] at hq
          obtain ⟨⟨vs', r'⟩, hp, he⟩ := hq
          cases he
          obtain ⟨body, hb, rfl⟩ := structSeq_reads hp
          exact ⟨w ++ '[' :: (w1 ++ t ++ (body ++ ']' :: [])), r', by rw [hs]; simp,
            .inr ⟨w, w1, t, v, body, vs', [], hw, hw1, ht, hb, Ws.nil, rfl, rfl⟩⟩
    · cases h
  · rintro ⟨text, rest, rfl, h⟩
    rw [parseStruct_iff] at h
    obtain ⟨ms, acc, ⟨w, body, w', hw, hmt, hw', rfl⟩, hr, hv⟩ | ⟨w, w1, t, v, r, vs', w', hw, hw1, ht, hb, hw', rfl, rfl⟩ := h
    · obtain ⟨w1, q, hw1, rfl, hrec⟩ := reads_structMembers hmt hr (w' ++ rest)
      have e : w ++ '{' :: (w1 ++ '"' :: q) ++ '}' :: w' ++ rest =
          w ++ ('{' :: (w1 ++ ('"' :: (q ++ '}' :: (w' ++ rest))))) := by simp
      unfold readStruct
      rw [e, skipWs_append hw (noWs_of_head (by decide))]
      simp only
      rw [skipWs_append hw1 (noWs_of_head (by decide))]
      simp only
      rw [hrec _ (by simp)]
      exact hv
    · have e : w ++ '[' :: (w1 ++ t ++ (r ++ ']' :: w')) ++ rest = w ++ '[' :: (w1 ++ t ++ (r ++ ']' :: (w' ++ rest))) := by
        simp
      unfold readStruct
      rw [e, skipWs_append hw (noWs_of_head (by decide))]
      simp only
      rw [structSeq]
      have hstop : Stop (r ++ ']' :: (w' ++ rest)) := stop_readsSeq hb (stop_cons (by decide) _)
      simp only [if_true, kindText_complete ht hw1 hstop, readsSeq_structSeq hb, Option.map_some]

def createFields : List (Str × Kind) := [(s% "content_length", .u64), (s% "content_type", .string)]

theorem createFields_lookup (P : Str → Kind → Prop) :
    (∀ k kind, createFields.lookup k = some kind → P k kind) ↔
      P (s% "content_length") .u64 ∧ P (s% "content_type") .string := by
  constructor
  · intro h; exact ⟨h _ _ (by decide), h _ _ (by decide)⟩
  · rintro ⟨h1, h2⟩ k kind hk
    by_cases e1 : k = s% "content_length"
    · subst e1
      rw [createFields, List.lookup_cons_self] at hk
      cases hk; exact h1
    · rw [createFields, lookup_cons_ne _ e1] at hk
      by_cases e2 : k = s% "content_type"
      · subst e2
        rw [List.lookup_cons_self] at hk
        cases hk; exact h2
      · rw [lookup_cons_ne _ e2] at hk
        cases hk

theorem createFields_none {k : Str} : createFields.lookup k = none ↔ k ∉ [s% "content_length", s% "content_type"] := by
  constructor
  · intro h hm
    simp only [List.mem_cons, List.not_mem_nil, or_false] at hm
    rcases hm with rfl | rfl <;> revert h <;> decide
  · intro h
    simp only [List.mem_cons, List.not_mem_nil, or_false, not_or] at h
    rw [createFields, lookup_cons_ne _ h.1, lookup_cons_ne _ h.2]
    rfl

theorem parseCreate_iff {s : Str} {n : Nat} {t : Str} :
    parseStruct createFields s = some [.n n, .s t] ↔ CreateText s n t := by
  let val : Str → FieldVal := fun k => if k = s% "content_length" then .n n else .s t
  have hv1 : val (s% "content_length") = .n n := by simp [val]
  have hv2 : val (s% "content_type") = .s t := by simp [val]
  have key := fun ms => fieldReads_iff createFields val ms []
  simp only [createFields_lookup (fun k kind => _), hv1, hv2, createFields_none] at key
  simp only [List.lookup_nil, true_and, reduceCtorEq, false_and, false_or] at key
  have hi := @parseStruct_iff (s% "content_length") .u64 [(s% "content_type", .string)] s [.n n, .s t]
  rw [← createFields] at hi
  rw [hi]
  constructor
  · rintro (⟨ms, acc, ho, hr, hv⟩ | ⟨w, w1, t, v, r, vs', w', hw, hw1, ht, hb, hw', e, rfl⟩)
    · obtain ⟨hs, ⟨t1, o1, k1⟩, ⟨t2, o2, k2⟩⟩ := (key ms).1 ⟨acc, hr, mapM_two.1 hv⟩
      exact ⟨t1, t2, k1, k2, .inl ⟨ms, ho, o1, o2, hs⟩⟩
    · cases e
      cases hb with
      | @cons _ _ _ w2 w3 t2 _ r2 _ hw2 hw3 ht2 hb =>
        cases hb with
        | nil hw4 =>
          exact ⟨t, t2, ht, ht2, .inr ⟨w, w1, w2, w3, _, w', hw, hw1, hw2, hw3, hw4, hw', by simp⟩⟩
  · rintro ⟨t1, t2, k1, k2, ⟨ms, ho, o1, o2, hs⟩ | ⟨w, w1, w2, w3, w4, w5, hw, hw1, hw2, hw3, hw4, hw5, rfl⟩⟩
    · obtain ⟨acc, hr, hv⟩ := (key ms).2 ⟨hs, ⟨t1, o1, k1⟩, ⟨t2, o2, k2⟩⟩
      exact .inl ⟨ms, acc, ho, hr, mapM_two.2 hv⟩
    · exact .inr ⟨w, w1, t1, .n n, _, [.s t], w5, hw, hw1, k1,
        .cons (v := .s t) hw2 hw3 k2 (.nil hw4), hw5, rfl, by simp⟩

theorem readCreateBody_iff {s : Str} {n : Nat} {t : Str} :
    readCreateBody s = some (n, t) ↔ ∃ text rest, s = text ++ rest ∧ CreateText text n t := by
  have hp : readCreateBody s = some (n, t) ↔ readStruct createFields s = some [.n n, .s t] := by
    unfold readCreateBody
    rw [← createFields]
    generalize readStruct createFields s = o
    constructor
    · intro h
      split at h
      · cases h; rfl
      · cases h
    · rintro rfl; rfl
  have hi := @readStruct_iff (s% "content_length") .u64 [(s% "content_type", .string)] s [.n n, .s t]
  rw [← createFields] at hi
  rw [hp, hi]
  simp only [parseCreate_iff]

/-! ### values -/

mutual
theorem JVal_depth (j : Json) (t : Str) (h : JVal j t) : depth j ≤ t.length := by
  match j, h with
  | .null, _ | .bool _, _ | .num _, _ | .str _, _ => simp [depth]
  | .arr [], h =>
    simp only [JVal] at h
    obtain ⟨w, _, rfl⟩ := h
    simp [depth, depthElems]
  | .arr (x :: xs), h =>
    simp only [JVal] at h
    obtain ⟨w, t, w', r, _, hx, _, hr, rfl⟩ := h
    have h1 := JVal_depth x t hx
    have h2 := JElems_depth xs r hr
    simp only [depth, depthElems, List.length_cons, List.length_append]
    omega
  | .obj [], h =>
    simp only [JVal] at h
    obtain ⟨w, _, rfl⟩ := h
    simp [depth, depthMembers]
  | .obj ((k, x) :: ms), h =>
    simp only [JVal] at h
    obtain ⟨w, q, w1, w2, t, w', r, _, _, _, _, hx, _, hr, rfl⟩ := h
    have h1 := JVal_depth x t hx
    have h2 := JMembers_depth ms r hr
    simp only [depth, depthMembers, List.length_cons, List.length_append]
    omega
theorem JElems_depth (xs : List Json) (t : Str) (h : JElems xs t) : depthElems xs ≤ t.length := by
  match xs, h with
  | [], _ => simp [depthElems]
  | x :: xs, h =>
    simp only [JElems] at h
    obtain ⟨w, t, w', r, _, hx, _, hr, rfl⟩ := h
    have h1 := JVal_depth x t hx
    have h2 := JElems_depth xs r hr
    simp only [depthElems, List.length_cons, List.length_append]
    omega
theorem JMembers_depth (ms : List (Str × Json)) (t : Str) (h : JMembers ms t) : depthMembers ms ≤ t.length := by
  match ms, h with
  | [], _ => simp [depthMembers]
  | (k, x) :: ms, h =>
    simp only [JMembers] at h
    obtain ⟨w, q, w1, w2, t, w', r, _, _, _, _, hx, _, hr, rfl⟩ := h
    have h1 := JVal_depth x t hx
    have h2 := JMembers_depth ms r hr
    simp only [depthMembers, List.length_cons, List.length_append]
    omega
end

/-- `JSON.parse` reads exactly the JSON documents. -/
theorem jsonParse_iff {s : Str} {j : Json} : jsonParse s = some j ↔ JsonText j s := by
  constructor
  · intro h
    unfold jsonParse at h
    split at h
    · rename_i v r hp
      split at h
      · rename_i hr
        cases h
        obtain ⟨w, t, hw, hj, e, _, _⟩ := parseValue_sound _ _ _ _ _ hp
        obtain ⟨w', hw', e'⟩ := skipWs_spec r
        rw [hr, List.append_nil] at e'
        subst e'
        exact ⟨w, t, r, hw, hj, hw', e⟩
      · cases h
    · cases h
  · rintro ⟨w, t, w', hw, hj, hw', rfl⟩
    have hd : depth j ≤ (w ++ t ++ w').length := by
      have := JVal_depth j t hj
      simp only [List.length_append]
      omega
    unfold jsonParse
    rw [parseValue_complete _ j t hj _ hd (allNums_mono (fun l _ => .inr rfl) j (allNums_true j)) w w' hw (by
      have := stop_ws hw' (r := []) (by simp [Stop]); simpa using this)]
    simp only [skipWs_all hw', if_true]

theorem formJson_nums (fields : List (Str × Str)) (method url : Str) : AllNums JNum (formJson fields method url) := by
  have key : AllNumsElems JNum (fields.map fun f => Json.arr [.str f.1, .str f.2]) := by
    induction fields with
    | nil => simp [AllNumsElems]
    | cons f fs ih => simp only [List.map_cons, AllNumsElems, AllNums]; exact ⟨⟨trivial, trivial, trivial⟩, ih⟩
  simp only [formJson, AllNums, AllNumsMembers]
  exact ⟨key, trivial, trivial, trivial⟩

theorem urlsJson_nums (urls : List Str) : AllNums JNum (urlsJson urls) := by
  simp only [urlsJson, AllNums]
  induction urls with
  | nil => simp [AllNumsElems]
  | cons u us ih => simp only [List.map_cons, AllNumsElems, AllNums]; exact ⟨trivial, ih⟩

theorem readPairs_map (fields : List (Str × Str)) :
    readPairs (fields.map fun f => Json.arr [.str f.1, .str f.2]) = some fields := by
  induction fields with
  | nil => rfl
  | cons f fs ih => rw [List.map_cons, readPairs, ih]; rfl

theorem readStrings_map (urls : List Str) : readStrings (urls.map Json.str) = some urls := by
  induction urls with
  | nil => rfl
  | cons f fs ih => rw [List.map_cons, readStrings, ih]; rfl

theorem readForm_formJson (fields : List (Str × Str)) (method url : Str) :
    readForm (formJson fields method url) = some (fields, method, url) := by
  simp only [formJson, readForm]
  have h1 : ∀ a b c : Json, objGet [(s% "form_data", a), (s% "method", b), (s% "url", c)] (s% "form_data") = some a := fun _ _ _ => rfl
  have h2 : ∀ a b c : Json, objGet [(s% "form_data", a), (s% "method", b), (s% "url", c)] (s% "method") = some b := fun _ _ _ => rfl
  have h3 : ∀ a b c : Json, objGet [(s% "form_data", a), (s% "method", b), (s% "url", c)] (s% "url") = some c := fun _ _ _ => rfl
  rw [h1, h2, h3]
  simp only [readPairs_map, Option.map_some]

end CSS
