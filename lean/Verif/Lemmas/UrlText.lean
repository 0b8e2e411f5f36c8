import Verif.Lemmas.Sort
import Verif.Lemmas.Json
/- Normal form of URLs: what `Url.parse` produces, and that it is stable under re-parsing. -/
set_option linter.unusedSimpArgs false
namespace CSS
open Spec

/-! ### percent-encode sets -/

/-- A percent-encode set that contains all non-ASCII bytes and DEL but neither `%` nor the hex digits. -/
structure EncSet (set : Nat → Bool) : Prop where
  high : ∀ n, 127 ≤ n → set n = true
  pct : set 37 = false
  dec : ∀ n, 48 ≤ n → n ≤ 57 → set n = false
  hex : ∀ n, 65 ≤ n → n ≤ 70 → set n = false

theorem pathEncSet_enc (c : Bool) : EncSet (pathEncSet c) := by
  refine ⟨?_, by cases c <;> decide, ?_, ?_⟩
  · intro n h; simp [pathEncSet, encControls, h]
  · intro n h1 h2
    simp [pathEncSet, encControls]; omega
  · intro n h1 h2
    simp [pathEncSet, encControls]; omega
theorem queryEncSet_enc : EncSet queryEncSet := by
  refine ⟨?_, by decide, ?_, ?_⟩
  · intro n h; simp [queryEncSet, encControls, h]
  · intro n h1 h2
    simp [queryEncSet, encControls]; omega
  · intro n h1 h2
    simp [queryEncSet, encControls]; omega
theorem fragmentEncSet_enc : EncSet fragmentEncSet := by
  refine ⟨?_, by decide, ?_, ?_⟩
  · intro n h; simp [fragmentEncSet, encControls, h]
  · intro n h1 h2
    simp [fragmentEncSet, encControls]; omega
  · intro n h1 h2
    simp [fragmentEncSet, encControls]; omega

/-- A character that a percent-encode set leaves alone. -/
def Kept (set : Nat → Bool) (c : Char) : Prop := c.toNat < 128 ∧ set c.toNat = false

theorem hexUpper_facts {n : Nat} (h : n < 16) :
    (hexUpper n).toNat < 128 ∧ ((48 ≤ (hexUpper n).toNat ∧ (hexUpper n).toNat ≤ 57) ∨
      (65 ≤ (hexUpper n).toNat ∧ (hexUpper n).toNat ≤ 70)) ∧ hexUpper n ∈ s% "%0123456789ABCDEF" := by
  have : ∀ n : Fin 16, (hexUpper n.val).toNat < 128 ∧ ((48 ≤ (hexUpper n.val).toNat ∧ (hexUpper n.val).toNat ≤ 57) ∨
      (65 ≤ (hexUpper n.val).toNat ∧ (hexUpper n.val).toNat ≤ 70)) ∧ hexUpper n.val ∈ s% "%0123456789ABCDEF" := by
    decide +kernel
  exact this ⟨n, h⟩

theorem pctByte_mem {b : UInt8} {c : Char} (hc : c ∈ pctByte b) :
    c.toNat < 128 ∧ (c = '%' ∨ (48 ≤ c.toNat ∧ c.toNat ≤ 57) ∨ (65 ≤ c.toNat ∧ c.toNat ≤ 70)) ∧
      c ∈ s% "%0123456789ABCDEF" := by
  have hb := byte_lt b
  simp only [pctByte, List.mem_cons, List.not_mem_nil, or_false] at hc
  rcases hc with rfl | rfl | rfl
  · exact ⟨by decide, .inl rfl, by decide⟩
  · have := hexUpper_facts (n := b.toNat / 16) (by omega)
    exact ⟨this.1, .inr this.2.1, this.2.2⟩
  · have := hexUpper_facts (n := b.toNat % 16) (by omega)
    exact ⟨this.1, .inr this.2.1, this.2.2⟩

theorem encode_kept {set : Nat → Bool} (h : EncSet set) (s : Str) : ∀ c ∈ utf8PercentEncode set s, Kept set c := by
  intro c hc
  unfold utf8PercentEncode at hc
  rw [List.mem_flatMap] at hc
  obtain ⟨b, _, hc⟩ := hc
  split at hc
  · obtain ⟨h1, h2, _⟩ := pctByte_mem hc
    refine ⟨h1, ?_⟩
    rcases h2 with rfl | h2 | h2
    · exact h.pct
    · exact h.dec _ h2.1 h2.2
    · exact h.hex _ h2.1 h2.2
  · rename_i hs
    have hlt : b.toNat < 127 := by
      rcases Nat.lt_or_ge b.toNat 127 with h' | h'
      · exact h'
      · exact absurd (h.high _ h') hs
    simp only [List.mem_cons, List.not_mem_nil, or_false] at hc
    subst hc
    rw [Kept, toNat_ofNat_small (by omega)]
    exact ⟨by omega, by simpa using hs⟩

theorem encode_mem {set : Nat → Bool} (h : EncSet set) {s : Str} {c : Char} (hc : c ∈ utf8PercentEncode set s) :
    c ∈ s ∨ c ∈ s% "%0123456789ABCDEF" := by
  unfold utf8PercentEncode at hc
  rw [List.mem_flatMap] at hc
  obtain ⟨b, hb, hc⟩ := hc
  split at hc
  · exact .inr (pctByte_mem hc).2.2
  · rename_i hs
    have hlt : b.toNat < 127 := by
      rcases Nat.lt_or_ge b.toNat 127 with h' | h'
      · exact h'
      · exact absurd (h.high _ h') hs
    simp only [List.mem_cons, List.not_mem_nil, or_false] at hc
    obtain ⟨d, hd, hdb⟩ := mem_utf8_ascii hb (by omega)
    left
    rw [hc, ← hdb]
    simpa using hd

theorem encode_id {set : Nat → Bool} {s : Str} (h : ∀ c ∈ s, Kept set c) : utf8PercentEncode set s = s := by
  unfold utf8PercentEncode
  induction s with
  | nil => rfl
  | cons c s ih =>
    have hc := h c (by simp)
    rw [utf8_cons, utf8Char_ascii hc.1, List.flatMap_append, ih (fun d hd => h d (by simp [hd]))]
    have e : (UInt8.ofNat c.toNat).toNat = c.toNat := toNat_ofNat8 (by have := hc.1; omega)
    have hk := hc.2
    simp [e, hk]

theorem encode_append (set : Nat → Bool) (a b : Str) :
    utf8PercentEncode set (a ++ b) = utf8PercentEncode set a ++ utf8PercentEncode set b := by
  simp [utf8PercentEncode, utf8_append]

/-! ### paths -/

def isSlash (c : Char) : Bool := c = '/' || c = '\\'

theorem splitSlash_ne_nil (s : Str) : splitSlash s ≠ [] := by
  cases s with
  | nil => simp [splitSlash]
  | cons c s =>
    simp only [splitSlash]
    split
    · simp
    · split <;> simp

theorem splitSlash_no_slash (s : Str) : ∀ seg ∈ splitSlash s, ∀ c ∈ seg, c ≠ '/' ∧ c ≠ '\\' := by
  induction s with
  | nil => simp [splitSlash]
  | cons c s ih =>
    simp only [splitSlash]
    split
    · rename_i h
      intro seg hs
      rcases List.mem_cons.1 hs with rfl | hs
      · simp
      · exact ih seg hs
    · rename_i h
      split
      · rename_i hn; exact absurd hn (splitSlash_ne_nil s)
      · rename_i hd tl he
        rw [he] at ih
        intro seg hs
        rcases List.mem_cons.1 hs with rfl | hs
        · intro d hd'
          rcases List.mem_cons.1 hd' with rfl | hd'
          · exact ⟨fun e => h (.inl e), fun e => h (.inr e)⟩
          · exact ih _ (by simp) d hd'
        · exact ih seg (by simp [hs])

theorem splitSlash_plain {a : Str} (h : ∀ c ∈ a, c ≠ '/' ∧ c ≠ '\\') : splitSlash a = [a] := by
  induction a with
  | nil => rfl
  | cons c a ih =>
    have hc := h c (by simp)
    simp only [splitSlash]
    rw [if_neg (by simp [hc.1, hc.2]), ih (fun d hd => h d (by simp [hd]))]

theorem splitSlash_append {a : Str} (h : ∀ c ∈ a, c ≠ '/' ∧ c ≠ '\\') (b : Str) :
    splitSlash (a ++ '/' :: b) = a :: splitSlash b := by
  induction a with
  | nil => simp [splitSlash]
  | cons c a ih =>
    have hc := h c (by simp)
    simp only [splitSlash, List.cons_append]
    rw [if_neg (by simp [hc.1, hc.2]), ih (fun d hd => h d (by simp [hd]))]

theorem splitSlash_dirs {segs : List Str} (h : ∀ s ∈ segs, ∀ c ∈ s, c ≠ '/' ∧ c ≠ '\\') {last : Str}
    (hl : ∀ c ∈ last, c ≠ '/' ∧ c ≠ '\\') :
    splitSlash (segs.flatMap (fun s => s ++ ['/']) ++ last) = segs ++ [last] := by
  induction segs with
  | nil => simpa using splitSlash_plain hl
  | cons s segs ih =>
    have : (s :: segs).flatMap (fun s => s ++ ['/']) ++ last = s ++ '/' :: (segs.flatMap (fun s => s ++ ['/']) ++ last) := by
      simp
    rw [this, splitSlash_append (h s (by simp)), ih (fun x hx => h x (by simp [hx]))]
    rfl

/-- A path segment that the URL parser leaves alone. -/
structure NormalSeg (caret : Bool) (s : Str) : Prop where
  kept : ∀ c ∈ s, Kept (pathEncSet caret) c
  slash : ∀ c ∈ s, c ≠ '/' ∧ c ≠ '\\'
  dd : isDoubleDot s = false
  d : isSingleDot s = false

theorem normalSeg_nil (caret : Bool) : NormalSeg caret [] := ⟨by simp, by simp, by decide, by decide⟩

/-- A path in normal form: segments joined by slashes. -/
def NormalPath (caret : Bool) (p : Str) : Prop :=
  ∃ stack last, (∀ s ∈ stack, NormalSeg caret s) ∧ NormalSeg caret last ∧ p = renderDirs stack ++ last

theorem mem_popSegment {k : Bool} {s : Str} {stack : List Str} (h : s ∈ popSegment k stack) : s ∈ stack := by
  cases stack with
  | nil => simp [popSegment] at h
  | cons x r =>
    simp only [popSegment] at h
    split at h
    · exact h
    · simp [h]

theorem encode_slash {caret : Bool} {s : Str} (h : ∀ c ∈ s, c ≠ '/' ∧ c ≠ '\\') :
    ∀ c ∈ utf8PercentEncode (pathEncSet caret) s, c ≠ '/' ∧ c ≠ '\\' := by
  intro c hc
  rcases encode_mem (pathEncSet_enc caret) hc with hc | hc
  · exact h c hc
  · have : ∀ c ∈ s% "%0123456789ABCDEF", c ≠ '/' ∧ c ≠ '\\' := by decide
    exact this c hc

theorem pathLoop_normal (caret keep : Bool) (segs : List Str) (h : ∀ s ∈ segs, ∀ c ∈ s, c ≠ '/' ∧ c ≠ '\\')
    (stack : List Str) (hs : ∀ s ∈ stack, NormalSeg caret s) : NormalPath caret (pathLoop caret keep stack segs) := by
  induction segs generalizing stack with
  | nil =>
    simp only [pathLoop]
    exact ⟨stack, [], hs, normalSeg_nil _, by simp⟩
  | cons seg more ih =>
    have hseg := h seg (by simp)
    have hk := encode_kept (pathEncSet_enc caret) seg
    have hsl := encode_slash (caret := caret) hseg
    cases more with
    | nil =>
      simp only [pathLoop]
      split
      · exact ⟨popSegment keep stack, [], fun s hs' => hs s (mem_popSegment hs'), normalSeg_nil _, by simp⟩
      · rename_i h1
        split
        · exact ⟨stack, [], hs, normalSeg_nil _, by simp⟩
        · rename_i h2
          exact ⟨stack, _, hs, ⟨hk, hsl, by simpa using h1, by simpa using h2⟩, rfl⟩
    | cons s2 more =>
      have hmore : ∀ s ∈ s2 :: more, ∀ c ∈ s, c ≠ '/' ∧ c ≠ '\\' := fun s hs' => h s (by simp at hs'; simp [hs'])
      simp only [pathLoop]
      split
      · exact ih hmore _ (fun s hs' => hs s (mem_popSegment hs'))
      · rename_i h1
        split
        · exact ih hmore _ hs
        · rename_i h2
          refine ih hmore _ (fun s hs' => ?_)
          rcases List.mem_cons.1 hs' with rfl | hs'
          · exact ⟨hk, hsl, by simpa using h1, by simpa using h2⟩
          · exact hs s hs'

theorem pathLoop_id (caret keep : Bool) (segs : List Str) (last : Str) (h : ∀ s ∈ segs, NormalSeg caret s)
    (hl : NormalSeg caret last) (stack : List Str) :
    pathLoop caret keep stack (segs ++ [last]) = renderDirs (segs.reverse ++ stack) ++ last := by
  induction segs generalizing stack with
  | nil =>
    simp only [List.nil_append, pathLoop, encode_id hl.kept, hl.dd, hl.d]
    simp
  | cons s segs ih =>
    have hn := h s (by simp)
    have hne : segs ++ [last] ≠ [] := by simp
    have e : pathLoop caret keep stack (s :: (segs ++ [last])) = pathLoop caret keep (s :: stack) (segs ++ [last]) := by
      cases hm : segs ++ [last] with
      | nil => exact absurd hm hne
      | cons x xs =>
        simp only [pathLoop, encode_id hn.kept, hn.dd, hn.d]
        simp
    rw [List.cons_append, e, ih (fun x hx => h x (by simp [hx]))]
    simp

theorem renderDirs_cons (stack : List Str) :
    renderDirs stack = '/' :: stack.reverse.flatMap (fun s => s ++ ['/']) := rfl

theorem parsePath_normal (caret keep : Bool) (p : Str) : NormalPath caret (parsePath caret keep p) :=
  pathLoop_normal caret keep _ (splitSlash_no_slash _) [] (by simp)

theorem parsePath_id {caret keep : Bool} {p : Str} (h : NormalPath caret p) : parsePath caret keep p = p := by
  obtain ⟨stack, last, hs, hl, rfl⟩ := h
  unfold parsePath
  have : (renderDirs stack ++ last).drop 1 = stack.reverse.flatMap (fun s => s ++ ['/']) ++ last := by
    simp [renderDirs]
  rw [this, splitSlash_dirs (fun s hs' => (hs s (by simpa using hs')).slash) hl.slash,
    pathLoop_id _ _ _ _ (fun s hs' => hs s (by simpa using hs')) hl]
  simp

theorem normalPath_chars {caret : Bool} {p : Str} (h : NormalPath caret p) : ∀ c ∈ p, Kept (pathEncSet caret) c := by
  obtain ⟨stack, last, hs, hl, rfl⟩ := h
  have hsl : Kept (pathEncSet caret) '/' := ⟨by decide, by cases caret <;> decide⟩
  intro c hc
  rw [renderDirs_cons] at hc
  simp only [List.cons_append, List.mem_cons, List.mem_append, List.mem_flatMap] at hc
  rcases hc with rfl | ⟨s, hs', hc⟩ | hc
  · exact hsl
  · rcases hc with hc | hc
    · exact (hs s (by simpa using hs')).kept c hc
    · simp at hc; rw [hc]; exact hsl
  · exact hl.kept c hc

theorem normalPath_head {caret : Bool} {p : Str} (h : NormalPath caret p) : ∃ r, p = '/' :: r := by
  obtain ⟨stack, last, hs, hl, rfl⟩ := h
  exact ⟨_, rfl⟩

/-! ### whole URLs -/

theorem kept_path {caret : Bool} {c : Char} (h : Kept (pathEncSet caret) c) :
    32 < c.toNat ∧ c.toNat < 127 ∧ c ≠ '?' ∧ c ≠ '#' ∧ uriPathOk c = true := by
  have key : ∀ caret : Bool, ∀ c : Char, c.toNat < 128 → pathEncSet caret c.toNat = false →
      32 < c.toNat ∧ c.toNat < 127 ∧ c ≠ '?' ∧ c ≠ '#' ∧ uriPathOk c = true := by
    intro caret
    cases caret
    · exact forall_ascii (P := fun c => pathEncSet false c.toNat = false → 32 < c.toNat ∧ c.toNat < 127 ∧ c ≠ '?' ∧ c ≠ '#' ∧ uriPathOk c = true)
        (by decide +kernel)
    · exact forall_ascii (P := fun c => pathEncSet true c.toNat = false → 32 < c.toNat ∧ c.toNat < 127 ∧ c ≠ '?' ∧ c ≠ '#' ∧ uriPathOk c = true)
        (by decide +kernel)
  exact key caret c h.1 h.2

theorem kept_query {c : Char} (h : Kept queryEncSet c) :
    32 < c.toNat ∧ c.toNat < 127 ∧ c ≠ '#' ∧ uriQueryOk c = true :=
  forall_ascii (P := fun c => queryEncSet c.toNat = false → 32 < c.toNat ∧ c.toNat < 127 ∧ c ≠ '#' ∧ uriQueryOk c = true)
    (by decide +kernel) c h.1 h.2

theorem trimEndC0_id {s : Str} (h : ∀ c ∈ s, 32 < c.toNat) : trimEndC0 s = s := by
  unfold trimEndC0
  have : ∀ l : Str, (∀ c ∈ l, 32 < c.toNat) → l.dropWhile (fun c => decide (c.toNat ≤ 32)) = l := by
    intro l hl
    cases l with
    | nil => rfl
    | cons c l =>
      have := hl c (by simp)
      rw [List.dropWhile_cons_of_neg]
      simp; omega
  rw [this _ (fun c hc => h c (by simpa using hc)), List.reverse_reverse]

theorem filter_tabNl_id {s : Str} (h : ∀ c ∈ s, 32 < c.toNat) : s.filter (fun c => !isTabNl c) = s := by
  rw [List.filter_eq_self]
  intro c hc
  have := h c hc
  simp [isTabNl]; omega

/-- The text of a normal URL splits into its parts. -/
theorem splitParts_query {caret : Bool} {p q : Str} (hp : NormalPath caret p) (hq : ∀ c ∈ q, Kept queryEncSet c) (frag : Option Str) :
    Url.splitParts (p ++ '?' :: q ++ (match frag with | none => [] | some f => '#' :: f)) = (p, some q, frag) := by
  have hp1 : '?' ∉ p := fun h => (kept_path (normalPath_chars hp _ h)).2.2.1 rfl
  have hp2 : '#' ∉ p := fun h => (kept_path (normalPath_chars hp _ h)).2.2.2.1 rfl
  have hq1 : '#' ∉ q := fun h => (kept_query (hq _ h)).2.2.1 rfl
  have hpq : '#' ∉ p ++ '?' :: q := by simp [hp2, hq1]
  unfold Url.splitParts
  cases frag with
  | none =>
    simp only [List.append_nil]
    rw [splitFirst_none hpq]
    simp only
    rw [splitFirst_append hp1]
  | some f =>
    simp only
    rw [splitFirst_append hpq]
    simp only
    rw [splitFirst_append hp1]

/-- Parsing a normal URL changes nothing. -/
theorem parse_normal {env : Env} {p q : Str} (hp : NormalPath env.encodeCaret p) (hq : ∀ c ∈ q, Kept queryEncSet c) :
    Url.parse env (p ++ '?' :: q) = ⟨p, some q, none⟩ := by
  have hall : ∀ c ∈ p ++ '?' :: q, 32 < c.toNat := by
    intro c hc
    simp only [List.mem_append, List.mem_cons] at hc
    rcases hc with hc | rfl | hc
    · exact (kept_path (normalPath_chars hp _ hc)).1
    · decide
    · exact (kept_query (hq _ hc)).1
  unfold Url.parse
  simp only
  rw [trimEndC0_id hall, filter_tabNl_id hall]
  have := splitParts_query hp hq none
  simp only [List.append_nil] at this
  rw [this]
  simp only [Option.map_some, Option.map_none]
  rw [parsePath_id hp, encode_id hq]

/-- Whatever is parsed, the result is normal. -/
theorem parse_isNormal (env : Env) (rest : Str) :
    NormalPath env.encodeCaret (Url.parse env rest).path ∧
    (∀ c ∈ (Url.parse env rest).query.getD [], Kept queryEncSet c) := by
  unfold Url.parse
  simp only
  refine ⟨parsePath_normal _ _ _, ?_⟩
  intro c hc
  cases hq : (Url.splitParts ((trimEndC0 rest).filter fun c => !isTabNl c)).2.1 with
  | none => rw [hq] at hc; simp at hc
  | some q => rw [hq] at hc; exact encode_kept queryEncSet_enc q c (by simpa using hc)

theorem formEncode_kept (s : Str) : ∀ c ∈ formEncode s, Kept queryEncSet c := by
  intro c hc
  have h := formEncode_chars hc
  refine ⟨h.1, ?_⟩
  exact forall_ascii (P := fun c => (c.toNat = 42 ∨ c.toNat = 45 ∨ c.toNat = 46 ∨ c.toNat = 95 ∨
      c.toNat = 43 ∨ c.toNat = 37 ∨ (48 ≤ c.toNat ∧ c.toNat ≤ 57) ∨ (65 ≤ c.toNat ∧ c.toNat ≤ 90) ∨
      (97 ≤ c.toNat ∧ c.toNat ≤ 122)) → queryEncSet c.toNat = false) (by decide +kernel) c h.1 h.2

theorem extendPairs_kept {q : Str} (hq : ∀ c ∈ q, Kept queryEncSet c) (ps : List (Str × Str)) :
    ∀ c ∈ extendPairs q ps, Kept queryEncSet c := by
  induction ps generalizing q with
  | nil => exact hq
  | cons p ps ih =>
    show ∀ c ∈ extendPairs (appendPair q p.1 p.2) ps, _
    refine ih ?_
    intro c hc
    unfold appendPair at hc
    simp only [List.mem_append, List.mem_cons, List.not_mem_nil, or_false] at hc
    have he : Kept queryEncSet '=' := by unfold Kept; decide
    have ha : Kept queryEncSet '&' := by unfold Kept; decide
    rcases hc with ((hc | hc) | rfl) | hc
    · split at hc
      · simp at hc
      · simp only [List.mem_append, List.mem_cons, List.not_mem_nil, or_false] at hc
        rcases hc with hc | rfl
        · exact hq c hc
        · exact ha
    · exact formEncode_kept _ c hc
    · exact he
    · exact formEncode_kept _ c hc

/-- `http::Uri` accepts a normal URL exactly up to its length limit. -/
theorem uriParse_normal {caret : Bool} {p q : Str} (hp : NormalPath caret p) (hq : ∀ c ∈ q, Kept queryEncSet c) (frag : Option Str) :
    Uri.parse (p ++ '?' :: q ++ (match frag with | none => [] | some f => '#' :: f)) =
      if 65534 < (utf8 (hostname ++ (p ++ '?' :: q ++ (match frag with | none => [] | some f => '#' :: f)))).length then none
      else some ⟨p, some q⟩ := by
  have h1 : p.all uriPathOk = true := by
    rw [List.all_eq_true]; intro c hc; exact (kept_path (normalPath_chars hp _ hc)).2.2.2.2
  have h2 : q.all uriQueryOk = true := by
    rw [List.all_eq_true]; intro c hc; exact (kept_query (hq _ hc)).2.2.2
  unfold Uri.parse
  rw [splitParts_query hp hq frag]
  simp [h1, h2]

end CSS
