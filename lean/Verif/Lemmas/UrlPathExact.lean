import Verif.Lemmas.UrlPath
import Verif.Lemmas.Escape
/- The exact condition under which the path of a signed URL decodes to the names it was made from: everything else
the URL parser does makes the path shorter. -/
set_option linter.unusedSimpArgs false
namespace CSS
open Spec

theorem utf8_length_append (a b : Str) : (utf8 (a ++ b)).length = (utf8 a).length + (utf8 b).length := by
  rw [utf8_append, List.length_append]

theorem utf8_length_cons (c : Char) (b : Str) : (utf8 (c :: b)).length = (utf8Char c).length + (utf8 b).length := by
  rw [utf8_cons, List.length_append]

theorem utf8_length_zero {s : Str} (h : (utf8 s).length = 0) : s = [] := by
  cases s with
  | nil => rfl
  | cons c s =>
    rw [utf8_length_cons] at h
    have := utf8Char_length_pos c
    omega

/-! ### percent-decoding a concatenation -/

theorem percentDecode_append_le (a b : Str) :
    (percentDecode (a ++ b)).length ≤ (percentDecode a).length + (percentDecode b).length := by
  rcases percentDecode_cases a with rfl | ⟨c, r, rfl, e, hn⟩ | ⟨x, y, r, v, rfl, hx, hy, e⟩
  · simp [percentDecode]
  · have ih := percentDecode_append_le r b
    rcases percentDecode_cases (c :: r ++ b) with h | ⟨c', r', h, e', _⟩ | ⟨x, y, r', v, h, hx, hy, e'⟩
    · cases h
    · simp only [List.cons_append, List.cons.injEq] at h
      obtain ⟨rfl, rfl⟩ := h
      rw [e', e, List.length_append, List.length_append]
      omega
    · simp only [List.cons_append, List.cons.injEq] at h
      obtain ⟨rfl, h⟩ := h
      rw [e', e, List.length_append, List.length_cons]
      have h1 := utf8Char_length_pos '%'
      have notpct : ∀ {z : Char}, hexVal? z ≠ none → z ≠ '%' := by
        rintro z hz rfl
        exact hz hexVal?_percent
      have plain : ∀ {z : Char} (t : Str), hexVal? z ≠ none → (percentDecode t).length ≤ (percentDecode (z :: t)).length := by
        intro z t hz
        rw [pd_plain (notpct hz), List.length_append]; omega
      match r, h with
      | [], h =>
        simp only [List.nil_append] at h
        subst h
        have := plain (y :: r') hx
        have := plain r' hy
        simp only [percentDecode, List.length_nil]; omega
      | [z], h =>
        simp only [List.cons_append, List.nil_append, List.cons.injEq] at h
        obtain ⟨rfl, rfl⟩ := h
        have := plain r' hy
        omega
      | z :: z' :: r, h =>
        simp only [List.cons_append, List.cons.injEq] at h
        obtain ⟨rfl, rfl, rfl⟩ := h
        exact absurd ⟨rfl, z, z', r, rfl, hx, hy⟩ hn
  · have ih := percentDecode_append_le r b
    obtain ⟨u, hu⟩ := Option.ne_none_iff_exists'.1 hx
    obtain ⟨v', hv⟩ := Option.ne_none_iff_exists'.1 hy
    simp only [List.cons_append]
    rw [pd_hex hu hv, pd_hex hu hv, List.length_cons, List.length_cons]
    omega
termination_by a.length

/-! ### the length of a path -/

/-- Decoded length of the directories. -/
def dirsLen (stack : List Str) : Nat := 1 + (stack.map fun s => (percentDecode s).length + 1).sum

theorem sum_reverse (l : List Nat) : l.reverse.sum = l.sum := by
  induction l with
  | nil => rfl
  | cons x l ih => rw [List.reverse_cons, List.sum_append, ih]; simp; omega

theorem renderDirs_len (stack : List Str) : (percentDecode (renderDirs stack)).length ≤ dirsLen stack := by
  have key : ∀ l : List Str, (percentDecode (l.flatMap fun s => s ++ ['/'])).length ≤
      (l.map fun s => (percentDecode s).length + 1).sum := by
    intro l
    induction l with
    | nil => simp [percentDecode]
    | cons x l ih =>
      rw [List.flatMap_cons, List.map_cons, List.sum_cons]
      have h1 := percentDecode_append_le (x ++ ['/']) (l.flatMap fun s => s ++ ['/'])
      have h2 := percentDecode_append_le x ['/']
      have h3 : (percentDecode ['/']).length = 1 := by decide
      omega
  unfold renderDirs dirsLen
  have h1 := percentDecode_append_le ['/'] (stack.reverse.flatMap fun s => s ++ ['/'])
  have h2 := key stack.reverse
  have h3 : (percentDecode ['/']).length = 1 := by decide
  rw [List.map_reverse, sum_reverse] at h2
  refine Nat.le_trans h1 ?_
  rw [h3]
  exact Nat.add_le_add_left h2 1

theorem dirsLen_pop (k : Bool) (stack : List Str) : dirsLen (popSegment k stack) ≤ dirsLen stack := by
  cases stack with
  | nil => simp [popSegment]
  | cons s r =>
    simp only [popSegment]
    split
    · exact Nat.le_refl _
    · simp only [dirsLen, List.map_cons, List.sum_cons]; omega

theorem isDoubleDot_nil : isDoubleDot [] = false := by decide
theorem isSingleDot_nil : isSingleDot [] = false := by decide

theorem dot_pos {caret : Bool} {s : Str}
    (h : isDoubleDot (utf8PercentEncode (pathEncSet caret) s) = true ∨ isSingleDot (utf8PercentEncode (pathEncSet caret) s) = true) :
    0 < (utf8 s).length := by
  cases s with
  | nil => rcases h with h | h <;> cases h
  | cons c s => rw [utf8_length_cons]; have := utf8Char_length_pos c; omega

/-- The number of bytes of the segments joined by slashes. -/
def segsLen (segs : List Str) : Nat := (segs.map fun s => (utf8 s).length + 1).sum

theorem pathLoop_len (caret keep : Bool) (segs : List Str) (hne : segs ≠ []) (stack : List Str) :
    (percentDecode (pathLoop caret keep stack segs)).length + 1 ≤ dirsLen stack + segsLen segs ∧
    ((percentDecode (pathLoop caret keep stack segs)).length + 1 = dirsLen stack + segsLen segs →
      ∀ s ∈ segs, isDoubleDot (utf8PercentEncode (pathEncSet caret) s) = false ∧
        isSingleDot (utf8PercentEncode (pathEncSet caret) s) = false) := by
  induction segs generalizing stack with
  | nil => exact absurd rfl hne
  | cons seg more ih =>
    have hdec : (percentDecode (utf8PercentEncode (pathEncSet caret) seg)).length ≤ (utf8 seg).length := by
      rw [percentDecode_pathEncode]; exact percentDecode_length_le seg
    have hpop := dirsLen_pop keep stack
    have hseg : segsLen (seg :: more) = (utf8 seg).length + 1 + segsLen more := by
      simp only [segsLen, List.map_cons, List.sum_cons]
    rw [hseg]
    cases more with
    | nil =>
      have h0 : segsLen [] = 0 := rfl
      simp only [pathLoop]
      by_cases hdd : isDoubleDot (utf8PercentEncode (pathEncSet caret) seg) = true
      · have hp := dot_pos (.inl hdd)
        rw [if_pos hdd]
        have := renderDirs_len (popSegment keep stack)
        exact ⟨by omega, fun h => by omega⟩
      · rw [if_neg hdd]
        by_cases hsd : isSingleDot (utf8PercentEncode (pathEncSet caret) seg) = true
        · have hp := dot_pos (.inr hsd)
          rw [if_pos hsd]
          have := renderDirs_len stack
          exact ⟨by omega, fun h => by omega⟩
        · rw [if_neg hsd]
          have h1 := percentDecode_append_le (renderDirs stack) (utf8PercentEncode (pathEncSet caret) seg)
          have h2 := renderDirs_len stack
          refine ⟨by omega, fun _ s hs => ?_⟩
          rw [List.mem_singleton.1 hs]
          exact ⟨by simpa using hdd, by simpa using hsd⟩
    | cons s2 more =>
      have ih := ih (by simp)
      simp only [pathLoop]
      by_cases hdd : isDoubleDot (utf8PercentEncode (pathEncSet caret) seg) = true
      · have hp := dot_pos (.inl hdd)
        rw [if_pos hdd]
        have := (ih (popSegment keep stack)).1
        exact ⟨by omega, fun h => by omega⟩
      · rw [if_neg hdd]
        by_cases hsd : isSingleDot (utf8PercentEncode (pathEncSet caret) seg) = true
        · have hp := dot_pos (.inr hsd)
          rw [if_pos hsd]
          have := (ih stack).1
          exact ⟨by omega, fun h => by omega⟩
        · rw [if_neg hsd]
          have h1 := ih (utf8PercentEncode (pathEncSet caret) seg :: stack)
          have h2 : dirsLen (utf8PercentEncode (pathEncSet caret) seg :: stack) =
              dirsLen stack + (percentDecode (utf8PercentEncode (pathEncSet caret) seg)).length + 1 := by
            simp only [dirsLen, List.map_cons, List.sum_cons]; omega
          refine ⟨by omega, fun h s hs => ?_⟩
          rcases List.mem_cons.1 hs with rfl | hs
          · exact ⟨by simpa using hdd, by simpa using hsd⟩
          · exact h1.2 (by omega) s hs

/-- Backslashes as slashes. -/
def slashed (s : Str) : Str := s.map fun c => if c = '\\' then '/' else c

theorem splitSlash_slashed (s : Str) : splitSlash s = splitOn '/' (slashed s) := by
  induction s with
  | nil => rfl
  | cons c s ih =>
    simp only [splitSlash, slashed, List.map_cons, splitOn]
    rw [← slashed, ← ih]
    by_cases hb : c = '\\'
    · simp [hb]
    · by_cases hs : c = '/'
      · simp [hs]
      · rw [if_neg (by simp [hb, hs]), if_neg hb, if_neg hs]
        cases splitSlash s <;> rfl

theorem slashed_len (s : Str) : (utf8 (slashed s)).length = (utf8 s).length := by
  induction s with
  | nil => rfl
  | cons c s ih =>
    simp only [slashed, List.map_cons, utf8_length_cons] at *
    rw [ih]
    by_cases hb : c = '\\'
    · subst hb; rfl
    · rw [if_neg hb]

theorem slashed_eq {s : Str} (h : slashed s = s) : '\\' ∉ s := by
  induction s with
  | nil => simp
  | cons c s ih =>
    simp only [slashed, List.map_cons, List.cons.injEq] at h
    simp only [List.mem_cons, not_or]
    refine ⟨fun e => ?_, ih h.2⟩
    subst e
    exact absurd h.1 (by decide)

theorem join_len {l : List Str} (hne : l ≠ []) : (utf8 (join (s% "/") l)).length + 1 = segsLen l := by
  match l with
  | [] => exact absurd rfl hne
  | [x] => simp [join, segsLen]
  | x :: y :: r =>
    have ih := join_len (l := y :: r) (by simp)
    have h1 : (utf8 (s% "/")).length = 1 := by decide
    simp only [join, utf8_length_append, h1]
    simp only [segsLen, List.map_cons, List.sum_cons] at ih ⊢
    omega

theorem splitSlash_len (s : Str) : segsLen (splitSlash s) = (utf8 s).length + 1 := by
  rw [splitSlash_slashed, ← join_len (splitOn_ne_nil _ _), join_splitOn, slashed_len]

/-- The path of a URL whose path text is `'/' :: r`: it decodes to at most as many bytes as the text, and if to the
text itself, then there are no dot segments, backslashes or escapes in it. -/
theorem parsePath_exact (caret keep : Bool) (r : Str) :
    (percentDecode (parsePath caret keep ('/' :: r))).length ≤ (utf8 ('/' :: r)).length ∧
    (percentDecode (parsePath caret keep ('/' :: r)) = utf8 ('/' :: r) →
      (∀ s ∈ splitOn '/' r, s ≠ s% "." ∧ s ≠ s% "..") ∧ '\\' ∉ r ∧ ¬ HasEscape r) := by
  have hlen := pathLoop_len caret keep (splitSlash r) (splitSlash_ne_nil r) []
  have hd : dirsLen [] = 1 := rfl
  have hone : (utf8 ('/' :: r)).length = 1 + (utf8 r).length := by rw [utf8_length_cons]; rfl
  rw [splitSlash_len] at hlen
  have hp : parsePath caret keep ('/' :: r) = pathLoop caret keep [] (splitSlash r) := rfl
  rw [hp]
  refine ⟨by omega, fun h => ?_⟩
  have hdots := hlen.2 (by rw [h]; omega)
  have e := pathLoop_encode caret keep (splitSlash r) (splitSlash_ne_nil r) hdots []
  rw [e, ← encode_join, splitSlash_slashed, join_splitOn] at h
  have hr : renderDirs [] = s% "/" := rfl
  have hs : utf8PercentEncode (pathEncSet caret) (s% "/") = s% "/" :=
    encode_id (by intro c hc; simp only [List.mem_singleton] at hc; subst hc; cases caret <;> (unfold Kept; decide))
  have e2 : renderDirs [] ++ utf8PercentEncode (pathEncSet caret) (slashed r) =
      utf8PercentEncode (pathEncSet caret) (s% "/" ++ slashed r) := by rw [encode_append, hs, hr]
  rw [e2, percentDecode_pathEncode, List.singleton_append] at h
  have hne : ¬ HasEscape ('/' :: slashed r) := by
    intro he
    have := percentDecode_length_lt he
    rw [h, utf8_length_cons, utf8_length_cons, slashed_len] at this
    omega
  rw [percentDecode_no_escape hne] at h
  have hsl : slashed r = r := (List.cons.inj (utf8_inj h)).2
  rw [hsl] at hne
  refine ⟨?_, slashed_eq hsl, fun he => hne (hasEscape_cons.2 (.inr he))⟩
  intro s hs
  rw [splitSlash_slashed, hsl] at hdots
  have hds := hdots s hs
  refine ⟨fun e => ?_, fun e => ?_⟩
  · rw [e] at hds
    have : isSingleDot (utf8PercentEncode (pathEncSet caret) (s% ".")) = true := by cases caret <;> decide
    rw [this] at hds; cases hds.2
  · rw [e] at hds
    have : isDoubleDot (utf8PercentEncode (pathEncSet caret) (s% "..")) = true := by cases caret <;> decide
    rw [this] at hds; cases hds.1

/-- A piece of a split text occurs in it. -/
theorem splitOn_infix {c : Char} {s t : Str} (h : t ∈ splitOn c s) : ∃ u v, s = u ++ t ++ v := by
  have e := join_splitOn c s
  have key : ∀ l : List Str, t ∈ l → ∃ u v, join [c] l = u ++ t ++ v := by
    intro l hl
    induction l with
    | nil => cases hl
    | cons x l ih =>
      cases l with
      | nil => rw [List.mem_singleton.1 hl]; exact ⟨[], [], by simp [join]⟩
      | cons y l =>
        rcases List.mem_cons.1 hl with rfl | hl
        · exact ⟨[], [c] ++ join [c] (y :: l), by simp [join]⟩
        · obtain ⟨u, v, e⟩ := ih hl
          exact ⟨x ++ [c] ++ u, v, by simp only [join]; rw [e]; simp⟩
  obtain ⟨u, v, e'⟩ := key _ h
  exact ⟨u, v, by rw [← e, e']⟩

/-! ### what comes before -/

theorem filter_len (p : Char → Bool) (s : Str) :
    (utf8 (s.filter p)).length ≤ (utf8 s).length ∧ ((utf8 (s.filter p)).length = (utf8 s).length → ∀ c ∈ s, p c = true) := by
  induction s with
  | nil => simp [utf8]
  | cons c s ih =>
    have := utf8Char_length_pos c
    by_cases h : p c = true
    · rw [List.filter_cons_of_pos h, utf8_length_cons, utf8_length_cons]
      refine ⟨by omega, fun e d hd => ?_⟩
      rcases List.mem_cons.1 hd with rfl | hd
      · exact h
      · exact ih.2 (by omega) d hd
    · rw [List.filter_cons_of_neg h, utf8_length_cons]
      exact ⟨by omega, fun e => by omega⟩

theorem splitFirst_len (c : Char) (s : Str) :
    (utf8 (splitFirst c s).1).length ≤ (utf8 s).length ∧
    ((utf8 (splitFirst c s).1).length = (utf8 s).length → (splitFirst c s).1 = s ∧ c ∉ s) := by
  induction s with
  | nil => simp [splitFirst, utf8]
  | cons x s ih =>
    have := utf8Char_length_pos x
    simp only [splitFirst]
    by_cases h : x = c
    · rw [if_pos h, utf8_length_cons]
      exact ⟨by simp [utf8], fun e => by simp [utf8] at e; omega⟩
    · rw [if_neg h, utf8_length_cons, utf8_length_cons]
      refine ⟨by omega, fun e => ?_⟩
      obtain ⟨h1, h2⟩ := ih.2 (by omega)
      refine ⟨by rw [h1], ?_⟩
      simp only [List.mem_cons, not_or]
      exact ⟨Ne.symm h, h2⟩

theorem trimEndC0_split (s : Str) : ∃ t, s = trimEndC0 s ++ t ∧ (∀ c ∈ t, c.toNat ≤ 32) ∧
    ∀ c, (trimEndC0 s).getLast? = some c → 32 < c.toNat := by
  unfold trimEndC0
  refine ⟨(s.reverse.takeWhile fun c => decide (c.toNat ≤ 32)).reverse, ?_, ?_, ?_⟩
  · rw [← List.reverse_append, List.takeWhile_append_dropWhile, List.reverse_reverse]
  · intro c hc
    rw [List.mem_reverse] at hc
    exact of_decide_eq_true (List.all_eq_true.1 List.all_takeWhile c hc)
  · intro c hc
    rw [List.getLast?_reverse] at hc
    have := List.head?_dropWhile_not (fun c : Char => decide (c.toNat ≤ 32)) s.reverse
    rw [hc] at this
    simpa using this

theorem url_path_exact {env : Env} {b o : Str}
    (h : percentDecode (Url.parse env (s% "/" ++ b ++ s% "/" ++ o)).path = utf8 (s% "/" ++ b ++ s% "/" ++ o)) :
    (∀ c ∈ b ++ o, c ∉ s% "?#\\\t\n\r") ∧ (∀ c, o.getLast? = some c → 32 < c.toNat) ∧
      (∀ s ∈ splitOn '/' (b ++ s% "/" ++ o), s ≠ s% "." ∧ s ≠ s% "..") ∧ ¬ HasEscape (b ++ s% "/" ++ o) := by
  have hN : s% "/" ++ b ++ s% "/" ++ o = '/' :: (b ++ s% "/" ++ o) := by simp
  rw [hN] at h
  generalize hr : b ++ s% "/" ++ o = r at h
  obtain ⟨t, ht, htc, hlast⟩ := trimEndC0_split ('/' :: r)
  unfold Url.parse at h
  simp only [Url.splitParts] at h
  generalize hu : trimEndC0 ('/' :: r) = u at h ht hlast
  have hu1 : ∃ u', u = '/' :: u' := by
    cases u with
    | nil =>
      rw [List.nil_append] at ht
      have := htc '/' (by rw [← ht]; simp)
      exact absurd this (by decide)
    | cons c u' => rw [List.cons_append] at ht; exact ⟨u', by rw [(List.cons.inj ht).1]⟩
  obtain ⟨u', rfl⟩ := hu1
  have hfil : ('/' :: u').filter (fun c => !isTabNl c) = '/' :: u'.filter (fun c => !isTabNl c) :=
    List.filter_cons_of_pos (by decide)
  have hf := filter_len (fun c => !isTabNl c) ('/' :: u')
  rw [hfil] at h hf
  have h1 := splitFirst_len '#' ('/' :: u'.filter (fun c => !isTabNl c))
  have e1 : (splitFirst '#' ('/' :: u'.filter (fun c => !isTabNl c))).1 = '/' :: (splitFirst '#' (u'.filter (fun c => !isTabNl c))).1 := by
    simp [splitFirst]
  rw [e1] at h h1
  generalize (splitFirst '#' (u'.filter (fun c => !isTabNl c))).1 = v at h h1
  have h2 := splitFirst_len '?' ('/' :: v)
  have e2 : (splitFirst '?' ('/' :: v)).1 = '/' :: (splitFirst '?' v).1 := by simp [splitFirst]
  rw [e2] at h h2
  generalize (splitFirst '?' v).1 = x at h h2
  obtain ⟨h3, h4⟩ := parsePath_exact env.encodeCaret env.keepDriveLetter x
  have hlen := congrArg List.length h
  have hut : (utf8 ('/' :: r)).length = (utf8 ('/' :: u')).length + (utf8 t).length := by
    rw [ht, utf8_length_append]
  have h2' := h2.2 (by omega)
  have h1' := h1.2 (by omega)
  have hf' := hf.2 (by omega)
  have ht0 : t = [] := utf8_length_zero (by omega)
  subst ht0
  rw [List.append_nil] at ht
  have hur : u' = r := (List.cons.inj ht).2.symm
  subst hur
  have hfu : u'.filter (fun c => !isTabNl c) = u' :=
    List.filter_eq_self.2 fun c hc => hf' c (List.mem_cons_of_mem _ hc)
  rw [hfu] at h1'
  have hv : v = u' := (List.cons.inj h1'.1).2
  subst hv
  have hx : x = v := (List.cons.inj h2'.1).2
  subst hx
  obtain ⟨hdots, hbs, hesc⟩ := h4 h
  have hsub : ∀ c, c ∈ b ++ o → c ∈ x := by
    intro c hc
    rw [← hr]
    simp only [List.mem_append] at hc ⊢
    rcases hc with hc | hc
    · exact .inl (.inl hc)
    · exact .inr hc
  refine ⟨?_, ?_, hdots, hesc⟩
  · intro c hc hm
    have hcx := hsub c hc
    have htab := hf' c (List.mem_cons_of_mem _ hcx)
    simp only [List.mem_cons, List.not_mem_nil, or_false] at hm
    rcases hm with rfl | rfl | rfl | rfl | rfl | rfl
    · exact h2'.2 (List.mem_cons_of_mem _ hcx)
    · exact h1'.2 (List.mem_cons_of_mem _ hcx)
    · exact hbs hcx
    all_goals exact absurd htab (by decide)
  · intro c hc
    apply hlast c
    rw [← hr]
    have : '/' :: (b ++ s% "/" ++ o) = ('/' :: (b ++ s% "/")) ++ o := by simp
    rw [this, List.getLast?_append, hc]
    rfl

end CSS
