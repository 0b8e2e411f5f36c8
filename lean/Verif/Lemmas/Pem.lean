import Verif.Model.Pem
import Verif.Spec.Pem
import Verif.Lemmas.Calls
import Verif.Lemmas.Unique
/- The reader of PEM texts. -/
namespace CSS
open Spec

/-- What the loop of `pemScan` keeps true. -/
def PemInv (m : Str) (f : Nat) (before : Str) : Prop := f < m.length ∧ f ≤ before.length ∧ before.take f = (m.take f).reverse

theorem pemInv_hit {m before : Str} {f : Nat} {c : Char} (h : PemInv m f before) (hc : m[f]? = some c) :
    f + 1 ≤ (c :: before).length ∧ (c :: before).take (f + 1) = (m.take (f + 1)).reverse := by
  obtain ⟨h1, h2, h3⟩ := h
  refine ⟨by simpa using h2, ?_⟩
  rw [List.take_succ_cons, h3, List.take_add_one, hc]
  simp

theorem pemScan_cons (m : Str) (f : Nat) (before : Str) (c : Char) (rest : Str) (h : PemInv m f before) :
    (f + 1 = m.length ∧ m[f]? = some c ∧
      pemScan m f before (c :: rest) = some (((c :: before).drop m.length).reverse, rest)) ∨
    ∃ f', PemInv m f' (c :: before) ∧ (m[f]? = some c → f' = f + 1) ∧
      pemScan m f before (c :: rest) = pemScan m f' (c :: before) rest := by
  by_cases hc : m[f]? = some c
  · obtain ⟨h1, h2⟩ := pemInv_hit h hc
    by_cases hl : f + 1 = m.length
    · left
      refine ⟨hl, hc, ?_⟩
      rw [pemScan, if_pos hc]
      rw [if_pos hl, hl]
    · right
      refine ⟨f + 1, ⟨by have := h.1; omega, h1, h2⟩, fun _ => rfl, ?_⟩
      rw [pemScan, if_pos hc]
      rw [if_neg hl]
  · right
    have h0 : 0 < m.length := by have := h.1; omega
    refine ⟨0, ⟨h0, by simp, by simp⟩, fun h => absurd h hc, ?_⟩
    rw [pemScan, if_neg hc]
    rw [if_neg (by omega)]

theorem pemScan_sound {m : Str} : ∀ (input : Str) (f : Nat) (before : Str) {a b : Str}, PemInv m f before →
    pemScan m f before input = some (a, b) → before.reverse ++ input = a ++ m ++ b
  | [], f, before, a, b, _, h => by simp [pemScan] at h
  | c :: rest, f, before, a, b, hi, h => by
    rcases pemScan_cons m f before c rest hi with ⟨hl, hc, he⟩ | ⟨f', hi', _, he⟩
    · rw [he] at h
      simp only [Option.some.injEq, Prod.mk.injEq] at h
      obtain ⟨rfl, rfl⟩ := h
      obtain ⟨h1, h2⟩ := pemInv_hit hi hc
      have h3 : (c :: before) = m.reverse ++ (c :: before).drop m.length := by
        conv => lhs; rw [← List.take_append_drop m.length (c :: before)]
        rw [← hl, h2, hl, List.take_length]
      have h4 : (c :: before).reverse = ((c :: before).drop m.length).reverse ++ m := by
        conv => lhs; rw [h3]
        rw [List.reverse_append, List.reverse_reverse]
      rw [← h4]
      simp
    · rw [he] at h
      have := pemScan_sound rest f' (c :: before) hi' h
      simpa using this

theorem pemReadUntil_sound {m input a b : Str} (hm : m ≠ []) (h : pemReadUntil m input = some (a, b)) : input = a ++ m ++ b := by
  have := pemScan_sound input 0 [] ⟨by cases m; contradiction; simp, by simp, by simp⟩ h
  simpa using this

theorem pemScan_append {m : Str} : ∀ (pre : Str) (f : Nat) (before rest : Str), PemInv m f before → ¬ m <:+: before.reverse ++ pre →
    ∃ f', PemInv m f' (pre.reverse ++ before) ∧ pemScan m f before (pre ++ rest) = pemScan m f' (pre.reverse ++ before) rest
  | [], f, before, rest, hi, _ => ⟨f, by simpa using hi, by simp⟩
  | c :: pre, f, before, rest, hi, hn => by
    rcases pemScan_cons m f before c (pre ++ rest) hi with ⟨hl, hc, he⟩ | ⟨f', hi', _, he⟩
    · exfalso
      apply hn
      obtain ⟨h1, h2⟩ := pemInv_hit hi hc
      rw [hl, List.take_length] at h2
      refine ⟨((c :: before).drop m.length).reverse, pre, ?_⟩
      have h4 : ((c :: before).drop m.length).reverse ++ m = (c :: before).reverse := by
        conv => rhs; rw [← List.take_append_drop m.length (c :: before), h2, List.reverse_append, List.reverse_reverse]
      rw [h4]; simp
    · obtain ⟨f'', h1, h2⟩ := pemScan_append pre f' (c :: before) rest hi' (by simpa using hn)
      refine ⟨f'', by simpa using h1, ?_⟩
      rw [List.cons_append, he, h2]
      simp

theorem pemScan_marker {m : Str} : ∀ (k f : Nat) (before rest : Str), m.length - f = k → PemInv m f before →
    pemScan m f before (m.drop f ++ rest) = some ((before.drop f).reverse, rest)
  | k, f, before, rest, hk, hi => by
    have hf := hi.1
    have hd : m.drop f = m[f] :: m.drop (f + 1) := List.drop_eq_getElem_cons hf
    have hg : m[f]? = some m[f] := List.getElem?_eq_getElem hf
    rw [hd, List.cons_append]
    rcases pemScan_cons m f before m[f] (m.drop (f + 1) ++ rest) hi with ⟨hl, _, he⟩ | ⟨f', hi', hf', he⟩
    · rw [he, List.drop_of_length_le (by omega : m.length ≤ f + 1), ← hl]
      simp
    · obtain rfl := hf' hg
      have h1 := hi'.1
      rw [he, pemScan_marker (k - 1) (f + 1) _ rest (by omega) hi']
      simp
  termination_by k => k

theorem pemReadUntil_marker {m pre rest : Str} (hm : m ≠ []) (hp : pre = [] ∨ ∃ c, pre.getLast? = some c ∧ c ∉ m)
    (hn : ¬ m <:+: pre) : pemReadUntil m (pre ++ (m ++ rest)) = some (pre, rest) := by
  have h0 : PemInv m 0 [] := ⟨by cases m; contradiction; simp, by simp, by simp⟩
  obtain ⟨f, hi, he⟩ := pemScan_append pre 0 [] (m ++ rest) h0 (by simpa using hn)
  unfold pemReadUntil
  rw [he]
  have hf : f = 0 := by
    rcases hp with rfl | ⟨c, hc, hcm⟩
    · have := hi.2.1
      simpa using this
    · cases f with
      | zero => rfl
      | succ k =>
        exfalso
        have h3 := hi.2.2
        obtain ⟨q, hq⟩ := List.getLast?_eq_some_iff.1 hc
        rw [hq] at h3
        simp only [List.append_nil, List.reverse_append, List.reverse_cons, List.reverse_nil, List.nil_append, List.cons_append,
          List.take_succ_cons] at h3
        have : c ∈ (m.take (k + 1)).reverse := by rw [← h3]; simp
        rw [List.mem_reverse] at this
        exact hcm (List.mem_of_mem_take this)
  subst hf
  have := pemScan_marker m.length 0 (pre.reverse ++ []) rest (by simp) hi
  rw [List.drop_zero] at this
  rw [this]
  simp

theorem pemReadUntil_none {m input : Str} (hm : m ≠ []) (hn : ¬ m <:+: input) : pemReadUntil m input = none := by
  cases h : pemReadUntil m input with
  | none => rfl
  | some r =>
    obtain ⟨a, b⟩ := r
    exact absurd ⟨a, b, (pemReadUntil_sound hm h).symm⟩ hn

theorem not_infix_of_head {m : Str} {c : Char} {s : Str} (hc : c ∈ m) (hs : c ∉ s) : ¬ m <:+: s := fun ⟨a, b, h⟩ =>
  hs (by rw [← h]; simp [hc])

/-! ### Lines -/

theorem splitLines_eq (s : Str) : splitLines s = splitOn '\n' s := by
  induction s with
  | nil => rfl
  | cons c r ih => rw [splitLines, splitOn, ih]; rfl

theorem trimEnd_nil : trimEnd [] = [] := rfl

theorem strLines_trim (s : Str) : ((strLines s).map trimEnd).flatten = ((splitLines s).map trimEnd).flatten := by
  unfold strLines
  simp only
  split
  · rename_i h
    obtain ⟨l, hl⟩ := List.getLast?_eq_some_iff.1 h
    rw [hl]
    simp [trimEnd_nil]
  · rfl

theorem mem_strLines {s line : Str} (h : line ∈ splitOn '\n' s) (hne : line ≠ []) : line ∈ strLines s := by
  unfold strLines
  simp only
  rw [splitLines_eq]
  split
  · rename_i hl
    obtain ⟨l, hl⟩ := List.getLast?_eq_some_iff.1 hl
    rw [hl] at h ⊢
    simp [hne] at h
    simpa using h
  · exact h

theorem isWhiteSpace_iff (c : Char) : isWhiteSpace c = true ↔ IsSpace c := by
  unfold isWhiteSpace IsSpace
  generalize c.toNat = n
  simp only [Bool.or_eq_true, Bool.and_eq_true, decide_eq_true_eq, List.mem_cons, List.not_mem_nil, or_false]
  omega

theorem trimEnd_filter (s : Str) : (trimEnd s).filter (fun c => ¬ IsSpace c) = s.filter fun c => ¬ IsSpace c := by
  unfold trimEnd
  have key : ∀ l : Str, (l.dropWhile isWhiteSpace).filter (fun c => ¬ IsSpace c) = l.filter fun c => ¬ IsSpace c := by
    intro l
    induction l with
    | nil => rfl
    | cons c r ih =>
      rw [List.dropWhile_cons]
      split
      · rename_i h
        rw [ih, List.filter_cons, if_neg]
        simpa using (isWhiteSpace_iff c).1 h
      · rfl
  rw [List.filter_reverse, key, ← List.filter_reverse, List.reverse_reverse]

theorem splitOn_filter (s : Str) : ((splitOn '\n' s).map trimEnd).flatten.filter (fun c => ¬ IsSpace c) =
    s.filter fun c => ¬ IsSpace c := by
  have key : ((splitOn '\n' s).map fun l => l.filter fun c => ¬ IsSpace c).flatten = s.filter fun c => ¬ IsSpace c := by
    induction s with
    | nil => rfl
    | cons c r ih =>
      rw [splitOn]
      split
      · rename_i h
        subst h
        rw [List.map_cons, List.flatten_cons, ih, List.filter_cons, if_neg (by decide)]
        rfl
      · cases h : splitOn '\n' r with
        | nil => exact absurd h (by cases r <;> simp [splitOn]; split; simp; split <;> simp)
        | cons x y =>
          rw [h] at ih
          simp only [List.map_cons, List.flatten_cons] at ih ⊢
          rw [List.filter_cons, List.filter_cons, ← ih]
          split <;> rfl
  rw [List.filter_flatten, List.map_map, ← key]
  congr 1
  apply List.map_congr_left
  intro l _
  exact trimEnd_filter l

theorem b64_chars {s : Str} {key : Bytes} (h : base64Decode s = some key) {c : Char} (hc : c ∈ s) : c ∈ b64Alphabet ∨ c = '=' := by
  rw [base64Decode_some h] at hc
  exact b64Encode_chars key c hc

theorem b64_plain {c : Char} (h : c ∈ b64Alphabet ∨ c = '=') :
    ¬ IsSpace c ∧ c ≠ '\n' ∧ c ≠ '\r' ∧ c ≠ '-' ∧ c ≠ ' ' ∧ c ≠ '\t' := by
  have : ∀ c ∈ b64Alphabet ++ ['='], ¬ IsSpace c ∧ c ≠ '\n' ∧ c ≠ '\r' ∧ c ≠ '-' ∧ c ≠ ' ' ∧ c ≠ '\t' := by decide +kernel
  exact this c (by simpa using h)

theorem data_filter {data : Str} {key : Bytes} (h : b64Decode ((strLines data).map trimEnd).flatten = some key) :
    base64Decode (data.filter fun c => ¬ IsSpace c) = some key := by
  rw [strLines_trim, splitLines_eq, b64Decode_eq] at h
  rw [← splitOn_filter, List.filter_eq_self.2]
  · exact h
  · intro c hc
    simpa using (b64_plain (b64_chars h hc)).1

/-! ### What is read from the lines of a key -/

theorem trimEnd_line {data blanks : Str} (hd : ∀ c ∈ data, ¬ IsSpace c) (hb : ∀ c ∈ blanks, IsSpace c) :
    trimEnd (data ++ blanks) = data := by
  unfold trimEnd
  rw [List.reverse_append, List.dropWhile_append_of_pos]
  · cases h : data.reverse with
    | nil => simpa using h.symm
    | cons c r =>
      rw [List.dropWhile_cons, if_neg]
      · rw [← h, List.reverse_reverse]
      · rw [isWhiteSpace_iff]
        exact hd c (by rw [← List.mem_reverse, h]; simp)
  · intro c hc
    rw [isWhiteSpace_iff]
    exact hb c (by simpa using hc)

theorem line_text (l : PemLine) : l.text = l.data ++ (l.blanks ++ (if l.windows then ['\r'] else [])) ++ '\n' :: [] := by
  unfold PemLine.text
  split <;> simp <;> decide

theorem lines_read : ∀ {lines : List PemLine}, (∀ l ∈ lines, l.Fine) → (∀ c ∈ (lines.map PemLine.data).flatten, c ∈ b64Alphabet ∨ c = '=') →
    ((splitOn '\n' (lines.map PemLine.text).flatten).map trimEnd).flatten = (lines.map PemLine.data).flatten
  | [], _, _ => rfl
  | l :: lines, hf, hc => by
    have ih := lines_read (fun l' h => hf l' (.tail _ h)) (lines := lines) (fun c h => hc c (by simp at h ⊢; exact .inr h))
    have hd : ∀ c ∈ l.data, c ∈ b64Alphabet ∨ c = '=' := fun c h => hc c (by simp [h])
    have hl := hf l (.head _)
    have hb : ∀ c ∈ l.blanks ++ (if l.windows then ['\r'] else []), IsSpace c ∧ c ≠ '\n' := by
      intro c h
      rw [List.mem_append] at h
      rcases h with h | h
      · rcases hl.2 c h with rfl | rfl <;> decide
      · split at h
        · simp at h; subst h; decide
        · simp at h
    rw [List.map_cons, List.flatten_cons, line_text, List.append_assoc, List.cons_append, List.nil_append, splitOn_append,
      List.map_cons, List.flatten_cons, ih, trimEnd_line (fun c h => (b64_plain (hd c h)).1) (fun c h => (hb c h).1)]
    · simp
    · intro h
      rw [List.mem_append] at h
      rcases h with h | h
      · exact (b64_plain (hd _ h)).2.1 rfl
      · exact (hb _ h).2 rfl

/-- No line end is followed by an empty line. -/
def noBlank : Str → Bool
  | [] => true
  | c :: r => (c ≠ '\n' || (r.head? ≠ some '\n' && r.head? ≠ some '\r')) && noBlank r

theorem noBlank_suffix {a b : Str} (h : noBlank (a ++ b) = true) : noBlank b = true := by
  induction a with
  | nil => exact h
  | cons c r ih =>
    rw [List.cons_append, noBlank, Bool.and_eq_true] at h
    exact ih h.2

theorem noBlank_nn {s : Str} (h : noBlank s = true) : ¬ s% "\n\n" <:+: s := by
  rintro ⟨a, b, rfl⟩
  rw [List.append_assoc] at h
  have := noBlank_suffix h
  simp [noBlank] at this

theorem noBlank_crlf {s : Str} (h : noBlank s = true) : ¬ s% "\r\n\r\n" <:+: s := by
  rintro ⟨a, b, rfl⟩
  rw [List.append_assoc] at h
  have := noBlank_suffix h
  simp [noBlank] at this

theorem noBlank_line {x r : Str} (hx : '\n' ∉ x) (hr : noBlank r = true) (hh : ∀ c, r.head? = some c → c ≠ '\n' ∧ c ≠ '\r') :
    noBlank (x ++ '\n' :: r) = true := by
  induction x with
  | nil =>
    rw [List.nil_append, noBlank, hr, Bool.and_true]
    cases r with
    | nil => simp
    | cons d t => have := hh d rfl; simp [this.1, this.2]
  | cons c t ih =>
    rw [List.mem_cons, not_or] at hx
    rw [List.cons_append, noBlank, ih hx.2, Bool.and_true]
    simp [Ne.symm hx.1]

theorem head_lines {lines : List PemLine} (hf : ∀ l ∈ lines, l.Fine)
    (hc : ∀ c ∈ (lines.map PemLine.data).flatten, c ∈ b64Alphabet ∨ c = '=') {c : Char}
    (h : (lines.map PemLine.text).flatten.head? = some c) : c ∈ b64Alphabet ∨ c = '=' := by
  cases lines with
  | nil => simp at h
  | cons l ls =>
    have hl := hf l (.head _)
    cases hd : l.data with
    | nil => exact absurd hd hl.1
    | cons d t =>
      rw [List.map_cons, List.flatten_cons, line_text, hd] at h
      simp at h
      subst h
      exact hc d (by simp [hd])

theorem noBlank_lines : ∀ {lines : List PemLine}, (∀ l ∈ lines, l.Fine) → (∀ c ∈ (lines.map PemLine.data).flatten, c ∈ b64Alphabet ∨ c = '=') →
    noBlank (lines.map PemLine.text).flatten = true
  | [], _, _ => rfl
  | l :: lines, hf, hc => by
    have hf' : ∀ l' ∈ lines, l'.Fine := fun l' h => hf l' (.tail _ h)
    have hc' : ∀ c ∈ (lines.map PemLine.data).flatten, c ∈ b64Alphabet ∨ c = '=' := fun c h => hc c (by simp at h ⊢; exact .inr h)
    have ih := noBlank_lines hf' hc'
    have hd : ∀ c ∈ l.data, c ∈ b64Alphabet ∨ c = '=' := fun c h => hc c (by simp [h])
    have hl := hf l (.head _)
    rw [List.map_cons, List.flatten_cons, line_text, List.append_assoc, List.cons_append, List.nil_append]
    refine noBlank_line ?_ ih ?_
    · intro h
      rw [List.mem_append, List.mem_append] at h
      rcases h with h | h | h
      · exact (b64_plain (hd _ h)).2.1 rfl
      · rcases hl.2 _ h with h | h <;> exact absurd h (by decide)
      · split at h <;> simp at h
    · intro c h
      have := b64_plain (head_lines hf' hc' h)
      exact ⟨this.2.1, this.2.2.1⟩

end CSS
