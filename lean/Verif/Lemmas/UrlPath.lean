import Verif.Lemmas.UrlQuery
/- The path of a signed URL as a server reads it. -/
set_option linter.unusedSimpArgs false
namespace CSS
open Spec

/-! ### percent-encoding of a path -/

theorem encode_cons_kept {set : Nat → Bool} {c : Char} (h : Kept set c) (r : Str) :
    utf8PercentEncode set (c :: r) = c :: utf8PercentEncode set r := by
  have : c :: r = [c] ++ r := rfl
  rw [this, encode_append, encode_id (s := [c]) (by simpa using h)]; rfl

theorem encode_cons_not {set : Nat → Bool} (hs : EncSet set) {c : Char} (h : ¬ Kept set c) (r : Str) :
    utf8PercentEncode set (c :: r) = (utf8Char c).flatMap pctByte ++ utf8PercentEncode set r := by
  unfold utf8PercentEncode
  rw [utf8_cons, List.flatMap_append]
  congr 1
  have hall : ∀ b ∈ utf8Char c, set b.toNat = true := by
    intro b hb
    by_cases hc : c.toNat < 128
    · rw [utf8Char_ascii hc] at hb
      simp only [List.mem_singleton] at hb
      subst hb
      rw [toNat_ofNat8 (by omega)]
      cases hk : set c.toNat with
      | true => rfl
      | false => exact absurd ⟨hc, hk⟩ h
    · have := utf8Char_nonascii (c := c) (by omega) b hb
      exact hs.high _ (by omega)
  generalize utf8Char c = l at hall
  induction l with
  | nil => rfl
  | cons b l ih =>
    rw [List.flatMap_cons, List.flatMap_cons, if_pos (hall b (by simp)), ih (fun x hx => hall x (by simp [hx]))]

theorem hexVal?_hexUpper {n : Nat} (h : n < 16) : hexVal? (hexUpper n) = some n := by
  have : ∀ n : Fin 16, hexVal? (hexUpper n.val) = some n.val := by decide +kernel
  exact this ⟨n, h⟩

theorem percentDecode_pctByte (b : UInt8) (t : Str) : percentDecode (pctByte b ++ t) = b :: percentDecode t := by
  have hb := byte_lt b
  show percentDecode ('%' :: hexUpper (b.toNat / 16) :: hexUpper (b.toNat % 16) :: t) = _
  rw [pd_hex (hexVal?_hexUpper (by omega)) (hexVal?_hexUpper (by omega))]
  congr 1
  apply UInt8.toNat_inj.1
  rw [toNat_ofNat8 (by omega)]; omega

theorem percentDecode_pctBytes (bs : Bytes) (t : Str) : percentDecode (bs.flatMap pctByte ++ t) = bs ++ percentDecode t := by
  induction bs with
  | nil => rfl
  | cons b bs ih => rw [List.flatMap_cons, List.append_assoc, percentDecode_pctByte, ih]; rfl

theorem pctBytes_head (c : Char) : ∃ t, (utf8Char c).flatMap pctByte = '%' :: t := by
  cases h : utf8Char c with
  | nil => exact absurd h (utf8Char_ne_nil c)
  | cons b l => exact ⟨hexUpper (b.toNat / 16) :: hexUpper (b.toNat % 16) :: l.flatMap pctByte, rfl⟩

theorem hex_kept {caret : Bool} {c : Char} {x : Nat} (h : hexVal? c = some x) : Kept (pathEncSet caret) c := by
  have k1 : ∀ c ∈ s% "0123456789ABCDEF", c.toNat < 128 ∧ pathEncSet caret c.toNat = false := by cases caret <;> decide
  have k2 : ∀ c ∈ s% "0123456789abcdef", c.toNat < 128 ∧ pathEncSet caret c.toNat = false := by cases caret <;> decide
  unfold hexVal? at h
  by_cases h1 : c ∈ s% "0123456789ABCDEF"
  · exact k1 c h1
  · by_cases h2 : c ∈ s% "0123456789abcdef"
    · exact k2 c h2
    · rw [List.idxOf?_eq_none_iff.2 h1, List.idxOf?_eq_none_iff.2 h2] at h
      cases h

theorem encode_head (caret : Bool) (c : Char) (r : Str) :
    (Kept (pathEncSet caret) c ∧ utf8PercentEncode (pathEncSet caret) (c :: r) = c :: utf8PercentEncode (pathEncSet caret) r) ∨
    (¬ Kept (pathEncSet caret) c ∧ hexVal? c = none ∧ ∃ t, utf8PercentEncode (pathEncSet caret) (c :: r) = '%' :: t) := by
  by_cases h : Kept (pathEncSet caret) c
  · exact .inl ⟨h, encode_cons_kept h r⟩
  · right
    refine ⟨h, ?_, ?_⟩
    · cases hx : hexVal? c with
      | none => rfl
      | some x => exact absurd (hex_kept hx) h
    · obtain ⟨t, ht⟩ := pctBytes_head c
      exact ⟨t ++ utf8PercentEncode (pathEncSet caret) r, by rw [encode_cons_not (pathEncSet_enc caret) h, ht]; rfl⟩

theorem percent_kept (caret : Bool) : Kept (pathEncSet caret) '%' := by cases caret <;> (unfold Kept; decide)

/-- Encoding a path does not change what it percent-decodes to. -/
theorem percentDecode_pathEncode (caret : Bool) (s : Str) :
    percentDecode (utf8PercentEncode (pathEncSet caret) s) = percentDecode s := by
  match s with
  | [] => rfl
  | c :: r =>
    by_cases hk : Kept (pathEncSet caret) c
    · rw [encode_cons_kept hk]
      by_cases hp : c = '%'
      · subst hp
        match r with
        | [] => rfl
        | [a] =>
          have ih := percentDecode_pathEncode caret [a]
          rw [pd_raw, pd_raw, ih]
          · intro a' b' r' h; simp at h
          · intro a' b' r' h
            rcases encode_head caret a [] with ⟨_, e⟩ | ⟨_, _, t, e⟩
            · rw [e] at h; simp [utf8PercentEncode, utf8] at h
            · rw [e] at h; cases h; exact .inl hexVal?_percent
        | a :: b :: r' =>
          cases ha : hexVal? a with
          | none =>
            have ih := percentDecode_pathEncode caret (a :: b :: r')
            rw [pd_raw, pd_raw, ih]
            · intro a' b' r'' h; cases h; exact .inl ha
            · intro a' b' r'' h
              rcases encode_head caret a (b :: r') with ⟨_, e⟩ | ⟨_, _, t, e⟩
              · rw [e] at h; rw [← (List.cons.inj h).1]; exact .inl ha
              · rw [e] at h; cases h; exact .inl hexVal?_percent
          | some x =>
            rw [encode_cons_kept (hex_kept ha)]
            cases hb : hexVal? b with
            | none =>
              have ih := percentDecode_pathEncode caret (a :: b :: r')
              rw [encode_cons_kept (hex_kept ha)] at ih
              rw [pd_raw, pd_raw, ih]
              · intro a' b' r'' h; cases h; exact .inr hb
              · intro a' b' r'' h
                rcases encode_head caret b r' with ⟨_, e⟩ | ⟨_, _, t, e⟩
                · rw [e] at h; cases h; exact .inr hb
                · rw [e] at h; cases h; exact .inr hexVal?_percent
            | some y =>
              rw [encode_cons_kept (hex_kept hb), pd_hex ha hb, pd_hex ha hb, percentDecode_pathEncode caret r']
      · rw [pd_plain hp, pd_plain hp, percentDecode_pathEncode caret r]
    · rw [encode_cons_not (pathEncSet_enc caret) hk, percentDecode_pctBytes, percentDecode_pathEncode caret r, pd_plain]
      rintro rfl
      exact hk (percent_kept caret)
  termination_by s.length

/-! ### the segments of a path -/

theorem splitSlash_eq {s : Str} (h : '\\' ∉ s) : splitSlash s = splitOn '/' s := by
  induction s with
  | nil => rfl
  | cons c s ih =>
    simp only [List.mem_cons, not_or] at h
    simp only [splitSlash, splitOn, ih h.2]
    by_cases hc : c = '/'
    · simp [hc]
    · rw [if_neg (by simp [hc, Ne.symm h.1]), if_neg hc]
      cases splitOn '/' s <;> rfl

theorem splitOn_ne_nil (sep : Char) (s : Str) : splitOn sep s ≠ [] := by
  cases s with
  | nil => simp [splitOn]
  | cons c s =>
    simp only [splitOn]
    split
    · simp
    · split <;> simp

theorem join_splitOn (sep : Char) (s : Str) : join [sep] (splitOn sep s) = s := by
  induction s with
  | nil => rfl
  | cons c s ih =>
    simp only [splitOn]
    cases h : splitOn sep s with
    | nil => exact absurd h (splitOn_ne_nil _ _)
    | cons a l =>
      rw [h] at ih
      by_cases hc : c = sep
      · rw [if_pos hc]
        simp only [join, List.nil_append, hc]
        rw [← ih]; rfl
      · rw [if_neg hc]
        simp only
        cases l with
        | nil => simp only [join] at ih ⊢; rw [ih]
        | cons b l => simp only [join, List.cons_append] at ih ⊢; rw [← ih]

theorem mem_join_of {sep : Str} {l : List Str} {x : Str} (h : x ∈ l) {c : Char} (hc : c ∈ x) : c ∈ join sep l := by
  match l with
  | [] => simp at h
  | [y] => simp only [List.mem_singleton] at h; subst h; exact hc
  | y :: z :: r =>
    have ih := fun h' : x ∈ z :: r => mem_join_of (sep := sep) h' hc
    simp only [join, List.mem_append]
    rcases List.mem_cons.1 h with rfl | h
    · exact .inl (.inl hc)
    · exact .inr (ih h)

/-- The segments of an encoded path are the encoded segments. -/
theorem encode_join (caret : Bool) (l : List Str) :
    utf8PercentEncode (pathEncSet caret) (join (s% "/") l) = join (s% "/") (l.map (utf8PercentEncode (pathEncSet caret))) := by
  match l with
  | [] => rfl
  | [x] => rfl
  | x :: y :: l =>
    have ih := encode_join caret (y :: l)
    have hs : utf8PercentEncode (pathEncSet caret) (s% "/") = s% "/" :=
      encode_id (by intro c hc; simp only [List.mem_singleton] at hc; subst hc; cases caret <;> (unfold Kept; decide))
    simp only [join, encode_append, hs, List.map_cons] at ih ⊢
    rw [ih]

/-- A path without dot segments is only encoded. -/
theorem pathLoop_encode (caret keep : Bool) (segs : List Str) (hne : segs ≠ [])
    (h : ∀ s ∈ segs, isDoubleDot (utf8PercentEncode (pathEncSet caret) s) = false ∧
      isSingleDot (utf8PercentEncode (pathEncSet caret) s) = false) (stack : List Str) :
    pathLoop caret keep stack segs = renderDirs stack ++ join (s% "/") (segs.map (utf8PercentEncode (pathEncSet caret))) := by
  induction segs generalizing stack with
  | nil => exact absurd rfl hne
  | cons s segs ih =>
    have hs := h s (by simp)
    cases segs with
    | nil => simp [pathLoop, hs.1, hs.2, join]
    | cons s2 segs =>
      simp only [pathLoop, hs.1, hs.2]
      rw [if_neg (by simp), if_neg (by simp), ih (by simp) (fun x hx => h x (by simp at hx; simp [hx]))]
      have e : renderDirs (utf8PercentEncode (pathEncSet caret) s :: stack) =
          renderDirs stack ++ utf8PercentEncode (pathEncSet caret) s ++ ['/'] := by simp [renderDirs]
      rw [e]
      simp [join]

theorem parsePath_encode (caret keep : Bool) {r : Str} (hb : '\\' ∉ r)
    (h : ∀ s ∈ splitOn '/' r, isDoubleDot (utf8PercentEncode (pathEncSet caret) s) = false ∧
      isSingleDot (utf8PercentEncode (pathEncSet caret) s) = false) :
    parsePath caret keep ('/' :: r) = utf8PercentEncode (pathEncSet caret) ('/' :: r) := by
  unfold parsePath
  rw [List.drop_one, List.tail_cons, splitSlash_eq hb, pathLoop_encode _ _ _ (splitOn_ne_nil _ _) h, ← encode_join, join_splitOn]
  rw [encode_cons_kept (by cases caret <;> (unfold Kept; decide))]
  rfl

theorem splitOn_no {sep : Char} {s x : Str} (h : x ∈ splitOn sep s) : sep ∉ x := by
  induction s generalizing x with
  | nil => simp [splitOn] at h; subst h; simp
  | cons c s ih =>
    simp only [splitOn] at h
    by_cases hc : c = sep
    · rw [if_pos hc, List.mem_cons] at h
      rcases h with rfl | h
      · simp
      · exact ih h
    · rw [if_neg hc] at h
      cases hs : splitOn sep s with
      | nil => exact absurd hs (splitOn_ne_nil _ _)
      | cons a l =>
        rw [hs] at h ih
        simp only [List.mem_cons] at h
        rcases h with rfl | h
        · simp only [List.mem_cons, not_or]
          exact ⟨fun e => hc e.symm, ih (by simp)⟩
        · exact ih (by simp [h])

theorem splitOn_sub {sep : Char} {s x : Str} (h : x ∈ splitOn sep s) {c : Char} (hc : c ∈ x) : c ∈ s := by
  rw [← join_splitOn sep s]
  exact mem_join_of h hc

theorem percentEncode_join_slash (l : List Str) : percentEncode (join (s% "/") l) = join (s% "/") (l.map percentEncode) := by
  match l with
  | [] => rfl
  | [x] => rfl
  | x :: y :: l =>
    have ih := percentEncode_join_slash (y :: l)
    have hs : percentEncode (s% "/") = s% "/" := by decide
    simp only [join, percentEncode_append, hs, List.map_cons] at ih ⊢
    rw [ih]

/-! ### characters of the path -/

theorem splitSlash_sub {s x : Str} (h : x ∈ splitSlash s) {c : Char} (hc : c ∈ x) : c ∈ s := by
  induction s generalizing x with
  | nil => simp [splitSlash] at h; subst h; exact hc
  | cons d s ih =>
    simp only [splitSlash] at h
    split at h
    · rw [List.mem_cons] at h
      rcases h with rfl | h
      · simp at hc
      · exact List.mem_cons_of_mem _ (ih h hc)
    · cases hs : splitSlash s with
      | nil => exact absurd hs (splitSlash_ne_nil s)
      | cons a l =>
        rw [hs] at h ih
        simp only [List.mem_cons] at h
        rcases h with rfl | h
        · rw [List.mem_cons] at hc ⊢
          rcases hc with hc | hc
          · exact .inl hc
          · exact .inr (ih (by simp) hc)
        · exact List.mem_cons_of_mem _ (ih (by simp [h]) hc)

theorem mem_renderDirs {stack : List Str} {c : Char} (h : c ∈ renderDirs stack) : c = '/' ∨ ∃ s ∈ stack, c ∈ s := by
  simp only [renderDirs, List.mem_append, List.mem_singleton, List.mem_flatMap, List.mem_reverse] at h
  rcases h with h | ⟨s, hs, h | h⟩
  · exact .inl h
  · exact .inr ⟨s, hs, h⟩
  · exact .inl h

theorem pathLoop_sub {caret keep : Bool} {c : Char} (hc : c ∉ s% "/%0123456789ABCDEF") (segs : List Str)
    (h : ∀ s ∈ segs, c ∉ s) (stack : List Str) (hs : ∀ s ∈ stack, c ∉ s) : c ∉ pathLoop caret keep stack segs := by
  have hdirs : ∀ stack : List Str, (∀ s ∈ stack, c ∉ s) → c ∉ renderDirs stack := by
    intro stack hs hm
    rcases mem_renderDirs hm with rfl | ⟨s, hs', hm⟩
    · exact hc (by decide)
    · exact hs s hs' hm
  have henc : ∀ s, c ∉ s → c ∉ utf8PercentEncode (pathEncSet caret) s := by
    intro s hs hm
    rcases encode_mem (pathEncSet_enc _) hm with hm | hm
    · exact hs hm
    · exact hc (List.mem_cons_of_mem _ hm)
  induction segs generalizing stack with
  | nil => exact hdirs stack hs
  | cons seg more ih =>
    have h1 := henc seg (h seg (by simp))
    cases more with
    | nil =>
      simp only [pathLoop]
      split
      · exact hdirs _ (fun s hm => hs s (mem_popSegment hm))
      · split
        · exact hdirs _ hs
        · simp only [List.mem_append, not_or]
          exact ⟨hdirs _ hs, h1⟩
    | cons s2 more =>
      have ih := ih (fun s hm => h s (by simp at hm; simp [hm]))
      simp only [pathLoop]
      split
      · exact ih _ (fun s hm => hs s (mem_popSegment hm))
      · split
        · exact ih _ hs
        · refine ih _ (fun s hm => ?_)
          rcases List.mem_cons.1 hm with rfl | hm
          · exact h1
          · exact hs s hm

/-- A character of the path that is not made by encoding comes from the names. -/
theorem objectUrl_path_sub {env : Env} {o : UrlOptions} {c : Char} (hc : c ∉ s% "/%0123456789ABCDEF")
    (h : c ∉ o.bucketName ++ o.objectName) : c ∉ (objectUrl env o).path := by
  unfold objectUrl Url.parse Url.splitParts parsePath
  refine pathLoop_sub hc _ ?_ [] (by simp)
  intro s hs hm
  have h1 := List.mem_of_mem_drop (splitSlash_sub hs hm)
  have h2 := splitFirst_fst_sub (splitFirst_fst_sub h1)
  have h3 := trimEndC0_sub (List.mem_filter.1 h2).1
  simp only [List.mem_append, List.mem_singleton] at h3
  simp only [List.mem_append, not_or] at h
  have hsl : c ≠ '/' := fun e => hc (by rw [e]; decide)
  rcases h3 with ((h3 | h3) | h3) | h3
  · exact hsl h3
  · exact h.1 h3
  · exact hsl h3
  · exact h.2 h3

theorem normalPath_no_backslash {caret : Bool} {p : Str} (h : NormalPath caret p) : '\\' ∉ p := by
  obtain ⟨stack, last, hs, hl, rfl⟩ := h
  simp only [List.mem_append, not_or]
  constructor
  · intro hm
    rcases mem_renderDirs hm with hm | ⟨s, hs', hm⟩
    · exact absurd hm (by decide)
    · exact ((hs s hs').slash _ hm).2 rfl
  · exact fun hm => (hl.slash _ hm).2 rfl

/-! ### dot segments -/

theorem asciiLowerChar_eq {c d : Char} (hd : d.toNat < 97 ∨ 122 < d.toNat) (h : asciiLowerChar c = d) : c = d := by
  unfold asciiLowerChar at h
  by_cases hc : 65 ≤ c.toNat ∧ c.toNat ≤ 90
  · rw [if_pos hc] at h
    have := congrArg Char.toNat h
    rw [toNat_ofNat_small (by omega)] at this
    omega
  · rwa [if_neg hc] at h

theorem asciiLowerChar_e {c : Char} (h : asciiLowerChar c = 'e') : c = 'e' ∨ c = 'E' := by
  unfold asciiLowerChar at h
  by_cases hc : 65 ≤ c.toNat ∧ c.toNat ≤ 90
  · rw [if_pos hc] at h
    have := congrArg Char.toNat h
    rw [toNat_ofNat_small (by omega)] at this
    right
    apply Char.toNat_inj.1
    have e : ('e' : Char).toNat = 101 := rfl
    have e' : ('E' : Char).toNat = 69 := rfl
    omega
  · rw [if_neg hc] at h; exact .inl h

theorem map_eq_cons {f : Char → Char} {s : Str} {d : Char} {t : Str} (h : s.map f = d :: t) :
    ∃ c r, s = c :: r ∧ f c = d ∧ r.map f = t := by
  cases s with
  | nil => simp at h
  | cons c r => simp only [List.map_cons, List.cons.injEq] at h; exact ⟨c, r, rfl, h.1, h.2⟩

theorem map_eq_nil {f : Char → Char} {s : Str} (h : s.map f = []) : s = [] := by simpa using h

theorem lower_pct2e {s t : Str} (h : asciiLower s = s% "%2e" ++ t) :
    ∃ r, (s = s% "%2e" ++ r ∨ s = s% "%2E" ++ r) ∧ asciiLower r = t := by
  obtain ⟨c1, r1, rfl, h1, h⟩ := map_eq_cons h
  obtain ⟨c2, r2, rfl, h2, h⟩ := map_eq_cons h
  obtain ⟨c3, r3, rfl, h3, h⟩ := map_eq_cons h
  rw [asciiLowerChar_eq (by decide) h1, asciiLowerChar_eq (by decide) h2]
  refine ⟨r3, ?_, h⟩
  rcases asciiLowerChar_e h3 with rfl | rfl
  · exact .inl rfl
  · exact .inr rfl

theorem lower_dot {s t : Str} (h : asciiLower s = s% "." ++ t) : ∃ r, s = s% "." ++ r ∧ asciiLower r = t := by
  obtain ⟨c1, r1, rfl, h1, h⟩ := map_eq_cons h
  rw [asciiLowerChar_eq (by decide) h1]
  exact ⟨r1, rfl, h⟩

theorem pd_pct2e (r : Str) : percentDecode (s% "%2e" ++ r) = 46 :: percentDecode r ∧
    percentDecode (s% "%2E" ++ r) = 46 :: percentDecode r := by
  have h2 : hexVal? '2' = some 2 := by decide +kernel
  have he : hexVal? 'e' = some 14 := by decide +kernel
  have hE : hexVal? 'E' = some 14 := by decide +kernel
  exact ⟨pd_hex h2 he r, pd_hex h2 hE r⟩

theorem pd_dot (r : Str) : percentDecode (s% "." ++ r) = 46 :: percentDecode r := by
  show percentDecode ('.' :: r) = _
  rw [pd_plain (by decide), utf8Char_ascii (by decide)]; rfl

/-- A dot segment decodes to one or two dots. -/
theorem doubleDot_decode {s : Str} (h : isDoubleDot s = true) : percentDecode s = [46, 46] := by
  simp only [isDoubleDot, Bool.or_eq_true, decide_eq_true_eq] at h
  have nil : ∀ {r}, asciiLower r = [] → percentDecode r = [] := fun h => by rw [map_eq_nil h]; rfl
  rcases h with ((h | h) | h) | h
  · obtain ⟨r, rfl, h1⟩ := lower_dot (t := s% ".") h
    obtain ⟨r, rfl, h2⟩ := lower_dot (t := []) h1
    rw [pd_dot, pd_dot, nil h2]
  · obtain ⟨r, rfl, h1⟩ := lower_dot (t := s% "%2e") h
    obtain ⟨r, h', h2⟩ := lower_pct2e (t := []) h1
    rw [pd_dot]
    rcases h' with rfl | rfl
    · rw [(pd_pct2e r).1, nil h2]
    · rw [(pd_pct2e r).2, nil h2]
  · obtain ⟨r, h', h1⟩ := lower_pct2e (t := s% ".") h
    obtain ⟨r, rfl, h2⟩ := lower_dot (t := []) h1
    rcases h' with rfl | rfl
    · rw [(pd_pct2e _).1, pd_dot, nil h2]
    · rw [(pd_pct2e _).2, pd_dot, nil h2]
  · obtain ⟨r, h', h1⟩ := lower_pct2e (t := s% "%2e") h
    obtain ⟨r', h'', h2⟩ := lower_pct2e (t := []) h1
    have hr : percentDecode r = [46] := by
      rcases h'' with rfl | rfl
      · rw [(pd_pct2e _).1, nil h2]
      · rw [(pd_pct2e _).2, nil h2]
    rcases h' with rfl | rfl
    · rw [(pd_pct2e _).1, hr]
    · rw [(pd_pct2e _).2, hr]

theorem singleDot_decode {s : Str} (h : isSingleDot s = true) : percentDecode s = [46] := by
  simp only [isSingleDot, Bool.or_eq_true, decide_eq_true_eq] at h
  have nil : ∀ {r}, asciiLower r = [] → percentDecode r = [] := fun h => by rw [map_eq_nil h]; rfl
  rcases h with h | h
  · obtain ⟨r, rfl, h2⟩ := lower_dot (t := []) h
    rw [pd_dot, nil h2]
  · obtain ⟨r, h', h2⟩ := lower_pct2e (t := []) h
    rcases h' with rfl | rfl
    · rw [(pd_pct2e r).1, nil h2]
    · rw [(pd_pct2e r).2, nil h2]

/-! ### the object's path -/

theorem trimEndC0_last {s : Str} {c : Char} (h : 32 < c.toNat) : trimEndC0 (s ++ [c]) = s ++ [c] := by
  unfold trimEndC0
  rw [List.reverse_append]
  simp only [List.reverse_singleton, List.singleton_append]
  rw [List.dropWhile_cons_of_neg (by simp; omega)]
  simp

/-- The path of the object's URL when nothing in the names is special to the URL parser. -/
theorem objectUrl_path {env : Env} {o : UrlOptions}
    (hc : ∀ c ∈ o.bucketName ++ o.objectName, c ∉ s% "?#\\\t\n\r")
    (hl : ∀ c, o.objectName.getLast? = some c → 32 < c.toNat)
    (hd : ∀ s ∈ splitOn '/' (o.bucketName ++ s% "/" ++ o.objectName), percentDecode s ≠ utf8 (s% ".") ∧ percentDecode s ≠ utf8 (s% "..")) :
    (objectUrl env o).path = utf8PercentEncode (pathEncSet env.encodeCaret) (s% "/" ++ o.bucketName ++ s% "/" ++ o.objectName) := by
  have hrest : s% "/" ++ o.bucketName ++ s% "/" ++ o.objectName = '/' :: (o.bucketName ++ s% "/" ++ o.objectName) := by simp
  have hmem : ∀ x ∈ s% "?#\\\t\n\r", x ∉ '/' :: (o.bucketName ++ s% "/" ++ o.objectName) := by
    intro x hx hm
    simp only [List.mem_cons, List.mem_append, List.not_mem_nil, or_false] at hm
    have hx' : x ≠ '/' := (by decide : ∀ x ∈ s% "?#\\\t\n\r", x ≠ '/') x hx
    rcases hm with hm | (hm | hm) | hm
    · exact hx' hm
    · exact hc x (by simp [hm]) hx
    · exact hx' hm
    · exact hc x (by simp [hm]) hx
  have htrim : trimEndC0 (s% "/" ++ o.bucketName ++ s% "/" ++ o.objectName) = s% "/" ++ o.bucketName ++ s% "/" ++ o.objectName := by
    rcases List.eq_nil_or_concat o.objectName with h0 | ⟨l, c, h0⟩
    · rw [h0, List.append_nil]
      exact trimEndC0_last (by decide)
    · rw [h0]
      have : 32 < c.toNat := hl c (by rw [h0]; simp)
      rw [List.concat_eq_append, ← List.append_assoc]
      exact trimEndC0_last this
  unfold objectUrl Url.parse
  rw [htrim, hrest]
  have hfil : ('/' :: (o.bucketName ++ s% "/" ++ o.objectName)).filter (fun c => !isTabNl c) =
      '/' :: (o.bucketName ++ s% "/" ++ o.objectName) := by
    rw [List.filter_eq_self]
    intro c hcm
    have h1 := fun h : c = '\t' => hmem '\t' (by decide) (h ▸ hcm)
    have h2 := fun h : c = '\n' => hmem '\n' (by decide) (h ▸ hcm)
    have h3 := fun h : c = '\r' => hmem '\r' (by decide) (h ▸ hcm)
    have e : ∀ (d : Char), c.toNat = d.toNat → c = d := fun d h => Char.toNat_inj.1 h
    simp only [isTabNl, Bool.not_eq_true', Bool.or_eq_false_iff, decide_eq_false_iff_not]
    exact ⟨⟨fun h => h1 (e '\t' h), fun h => h2 (e '\n' h)⟩, fun h => h3 (e '\r' h)⟩
  rw [hfil]
  simp only [Url.splitParts]
  rw [splitFirst_none (hmem '#' (by decide))]
  simp only
  rw [splitFirst_none (hmem '?' (by decide))]
  simp only
  have hbs := hmem '\\' (by decide)
  simp only [List.mem_cons, not_or] at hbs
  refine parsePath_encode _ _ hbs.2 ?_
  intro s hs
  have hds := hd s hs
  rw [← percentDecode_pathEncode env.encodeCaret s] at hds
  constructor
  · cases h : isDoubleDot (utf8PercentEncode (pathEncSet env.encodeCaret) s) with
    | false => rfl
    | true => exact absurd (doubleDot_decode h) (by rw [show ([46, 46] : Bytes) = utf8 (s% "..") by decide]; exact hds.2)
  · cases h : isSingleDot (utf8PercentEncode (pathEncSet env.encodeCaret) s) with
    | false => rfl
    | true => exact absurd (singleDot_decode h) (by rw [show ([46] : Bytes) = utf8 (s% ".") by decide]; exact hds.1)

end CSS
