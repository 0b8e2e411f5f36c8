import Verif.Lemmas.UrlPathExact
import Verif.Lemmas.UrlHeaders
import Verif.Spec.UrlStandard
/- The model's URL parser is the URL Standard's. -/
set_option linter.unusedSimpArgs false
namespace CSS
open Spec

/-! ### escapes -/

theorem percentBytes_eq (bs : Bytes) : percentBytes bs = bs.flatMap pctByte := by
  unfold percentBytes
  congr 1
  funext b
  have key : ∀ n : Fin 16, (s% "0123456789ABCDEF").getD n.val '0' = hexUpper n.val := by decide +kernel
  have hb := byte_lt b
  have h1 := key ⟨b.toNat / 16, by omega⟩
  have h2 := key ⟨b.toNat % 16, by omega⟩
  simp only at h1 h2
  rw [h1, h2]; rfl

theorem escape_eq {set : Nat → Bool} (hs : EncSet set) {chars : Str}
    (h : ∀ c : Char, c.toNat < 128 → (set c.toNat = true ↔ c.toNat < 32 ∨ 127 ≤ c.toNat ∨ c ∈ chars)) (s : Str) :
    escape chars s = utf8PercentEncode set s := by
  induction s with
  | nil => rfl
  | cons c s ih =>
    unfold escape at ih ⊢
    rw [List.flatMap_cons, ih]
    by_cases hk : Kept set c
    · rw [encode_cons_kept hk]
      have : ¬ (c.toNat < 32 ∨ 127 ≤ c.toNat ∨ c ∈ chars) := by
        rw [← h c hk.1, hk.2]; simp
      rw [if_neg this]; rfl
    · rw [encode_cons_not hs hk, percentBytes_eq]
      have : c.toNat < 32 ∨ 127 ≤ c.toNat ∨ c ∈ chars := by
        by_cases hc : c.toNat < 128
        · apply (h c hc).1
          cases hq : set c.toNat with
          | true => rfl
          | false => exact absurd ⟨hc, hq⟩ hk
        · exact .inr (.inl (by omega))
      rw [if_pos this]

theorem escape_path (caret : Bool) (s : Str) : escape (pathEscapes caret) s = utf8PercentEncode (pathEncSet caret) s := by
  refine escape_eq (pathEncSet_enc caret) (fun c hc => ?_) s
  cases caret
  · exact forall_ascii (P := fun c => pathEncSet false c.toNat = true ↔ c.toNat < 32 ∨ 127 ≤ c.toNat ∨ c ∈ pathEscapes false)
      (by decide +kernel) c hc
  · exact forall_ascii (P := fun c => pathEncSet true c.toNat = true ↔ c.toNat < 32 ∨ 127 ≤ c.toNat ∨ c ∈ pathEscapes true)
      (by decide +kernel) c hc

theorem escape_query (s : Str) : escape queryEscapes s = utf8PercentEncode queryEncSet s :=
  escape_eq queryEncSet_enc (fun c hc => forall_ascii
    (P := fun c => queryEncSet c.toNat = true ↔ c.toNat < 32 ∨ 127 ≤ c.toNat ∨ c ∈ queryEscapes) (by decide +kernel) c hc) s

theorem escape_fragment (s : Str) : escape fragmentEscapes s = utf8PercentEncode fragmentEncSet s :=
  escape_eq fragmentEncSet_enc (fun c hc => forall_ascii
    (P := fun c => fragmentEncSet c.toNat = true ↔ c.toNat < 32 ∨ 127 ≤ c.toNat ∨ c ∈ fragmentEscapes) (by decide +kernel) c hc) s

theorem formText_eq (s : Str) : formText s = formEncode s := by
  induction s with
  | nil => rfl
  | cons c s ih =>
    unfold formText formEncode at *
    rw [List.flatMap_cons, ih, utf8_cons, List.flatMap_append]
    congr 1
    by_cases hc : c.toNat < 128
    · rw [utf8Char_ascii hc, percentBytes_eq]
      simp only [List.flatMap_cons, List.flatMap_nil, List.append_nil]
      exact forall_ascii (P := fun c => (if c ∈ formKeeps then [c] else if c = ' ' then ['+'] else pctByte (UInt8.ofNat c.toNat)) =
        formByte (UInt8.ofNat c.toNat)) (by decide +kernel) c hc
    · have h1 : c ∉ formKeeps := fun h => hc ((by decide +kernel : ∀ c ∈ formKeeps, c.toNat < 128) c h)
      have h2 : c ≠ ' ' := by rintro rfl; exact hc (by decide)
      rw [if_neg h1, if_neg h2, percentBytes_eq]
      have hall : ∀ b ∈ utf8Char c, 128 ≤ b.toNat := fun b hb => utf8Char_nonascii (by omega) b hb
      generalize utf8Char c = l at hall
      induction l with
      | nil => rfl
      | cons b l ihl =>
        rw [List.flatMap_cons, List.flatMap_cons, ihl (fun x hx => hall x (by simp [hx]))]
        congr 1
        have hb := hall b (by simp)
        unfold formByte formUnreserved
        have : ((b.toNat = 42 || b.toNat = 45 || b.toNat = 46 || b.toNat = 95 || (48 ≤ b.toNat && b.toNat ≤ 57) ||
          (65 ≤ b.toNat && b.toNat ≤ 90) || (97 ≤ b.toNat && b.toNat ≤ 122)) : Bool) = false := by
          simp; omega
        simp only [this]
        rw [if_neg (by simp), if_neg (by omega)]

theorem foldl_appendPair (ps : List (Str × Str)) (q : Str) (hq : q ≠ []) :
    ps.foldl (fun q p => appendPair q p.1 p.2) q = join (s% "&") (q :: ps.map formPair) := by
  induction ps generalizing q with
  | nil => rfl
  | cons p ps ih =>
    rw [List.foldl_cons, ih]
    · unfold appendPair
      rw [if_neg hq]
      have : q ++ ['&'] ++ formEncode p.1 ++ ['='] ++ formEncode p.2 = q ++ s% "&" ++ formPair p := by
        unfold formPair; rw [formText_eq, formText_eq]; simp [List.append_assoc]
      rw [this]
      cases ps with
      | nil => simp [join]
      | cons p' ps => simp [join, List.append_assoc]
    · unfold appendPair; simp

theorem withParams_eq (q : Str) (ps : List (Str × Str)) : withParams q ps = extendPairs q ps := by
  unfold withParams extendPairs
  by_cases hq : q = []
  · subst hq
    rw [if_pos rfl]
    cases ps with
    | nil => rfl
    | cons p ps =>
      rw [List.foldl_cons, foldl_appendPair _ _ (by unfold appendPair; simp)]
      have : appendPair [] p.1 p.2 = formPair p := by
        unfold formPair appendPair; rw [formText_eq, formText_eq]; simp [List.append_assoc]
      rw [this]; rfl
  · rw [if_neg hq, foldl_appendPair _ _ hq]; rfl

/-! ### the input -/

theorem trimEnd_eq (s : Str) : trimEnd s = trimEndC0 s := by
  induction s with
  | nil => rfl
  | cons c s ih =>
    unfold trimEnd
    rw [ih]
    unfold trimEndC0
    rw [List.reverse_cons, List.dropWhile_append]
    cases hd : s.reverse.dropWhile (fun c => decide (c.toNat ≤ 32)) with
    | nil =>
      simp only [List.reverse_nil, List.isEmpty_nil, if_true]
      by_cases hc : c.toNat ≤ 32
      · rw [if_pos hc]; simp [List.dropWhile, hc]
      · rw [if_neg hc]; simp [List.dropWhile, hc]
    | cons x l =>
      simp only [List.isEmpty_cons, Bool.false_eq_true, if_false]
      rw [List.reverse_append]
      simp only [List.reverse_cons, List.reverse_nil, List.nil_append, List.singleton_append]
      split
      · rename_i h; simp at h
      · rfl

theorem urlInput_eq (s : Str) : urlInput s = (trimEndC0 s).filter (fun c => !isTabNl c) := by
  unfold urlInput
  rw [trimEnd_eq]
  apply List.filter_congr
  intro c _
  have h : ∀ n, n.toNat = c.toNat → n = c := fun n h => Char.toNat_inj.1 h
  unfold isTabNl
  by_cases h1 : c.toNat = 9
  · have : c = '\t' := (h '\t' h1.symm).symm
    subst this; decide
  by_cases h2 : c.toNat = 10
  · have : c = '\n' := (h '\n' h2.symm).symm
    subst this; decide
  by_cases h3 : c.toNat = 13
  · have : c = '\r' := (h '\r' h3.symm).symm
    subst this; decide
  have e : c ∉ s% "\t\n\r" := by
    intro hm
    simp only [List.mem_cons, List.not_mem_nil, or_false] at hm
    rcases hm with rfl | rfl | rfl
    · exact h1 rfl
    · exact h2 rfl
    · exact h3 rfl
  simp [h1, h2, h3, e]

theorem urlInput_slash (s : Str) : urlInput ('/' :: s) = '/' :: urlInput s := by
  have h1 : trimEnd ('/' :: s) = '/' :: trimEnd s := by
    show (match trimEnd s with | [] => if ('/' : Char).toNat ≤ 32 then [] else ['/'] | t => '/' :: t) = _
    cases trimEnd s with
    | nil => rfl
    | cons a b => rfl
  unfold urlInput
  rw [h1]; rfl

theorem splitFirst_cutAt (c : Char) (s : Str) :
    splitFirst c s = ((cutAt c s).1, if c ∈ s then some (cutAt c s).2 else none) := by
  induction s with
  | nil => simp [splitFirst, cutAt]
  | cons x s ih =>
    unfold splitFirst cutAt
    by_cases h : x = c
    · subst h; simp
    · rw [if_neg h, if_neg h, ih]
      have : c ∈ x :: s ↔ c ∈ s := by simp [Ne.symm h]
      simp only [this]

theorem cutAt_not_mem {c : Char} {s : Str} (h : c ∉ s) : (cutAt c s).2 = [] := by
  rw [cutAt_none h]

/-! ### dot segments -/

theorem undot_pct (r : Str) : undot (s% "%2e" ++ r) = '.' :: undot r ∧ undot (s% "%2E" ++ r) = '.' :: undot r := by
  constructor <;> (rw [undot.eq_def]; rfl)

theorem undot_eq_nil {s : Str} : undot s = [] ↔ s = [] := by
  constructor
  · intro h
    cases s with
    | nil => rfl
    | cons c r =>
      rw [undot.eq_def] at h
      simp only at h
      split at h <;> simp at h
  · rintro rfl; rfl

theorem undot_dot {s t : Str} : undot s = '.' :: t ↔
    ∃ r, undot r = t ∧ (s = '.' :: r ∨ s = s% "%2e" ++ r ∨ s = s% "%2E" ++ r) := by
  constructor
  · intro h
    cases s with
    | nil => simp [undot] at h
    | cons c r =>
      rw [undot.eq_def] at h
      simp only at h
      split at h
      · simp only [List.cons.injEq, true_and] at h
        exact ⟨_, h, .inr (.inl rfl)⟩
      · simp only [List.cons.injEq, true_and] at h
        exact ⟨_, h, .inr (.inr rfl)⟩
      · simp only [List.cons.injEq] at h
        obtain ⟨rfl, h⟩ := h
        exact ⟨_, h, .inl rfl⟩
  · rintro ⟨r, rfl, rfl | rfl | rfl⟩
    · rw [undot.eq_def]; rfl
    · exact (undot_pct r).1
    · exact (undot_pct r).2

theorem isSingleDot_iff {s : Str} : isSingleDot s = true ↔ undot s = s% "." := by
  rw [undot_dot]
  simp only [undot_eq_nil]
  simp only [isSingleDot, Bool.or_eq_true, decide_eq_true_eq]
  constructor
  · rintro (h | h)
    · obtain ⟨r, rfl, h2⟩ := lower_dot (t := []) h
      exact ⟨r, map_eq_nil h2, .inl rfl⟩
    · obtain ⟨r, h', h2⟩ := lower_pct2e (t := []) h
      exact ⟨r, map_eq_nil h2, .inr h'⟩
  · rintro ⟨r, rfl, rfl | rfl | rfl⟩ <;> decide

theorem isDoubleDot_iff {s : Str} : isDoubleDot s = true ↔ undot s = s% ".." := by
  rw [undot_dot]
  simp only [undot_dot, undot_eq_nil]
  simp only [isDoubleDot, Bool.or_eq_true, decide_eq_true_eq]
  constructor
  · rintro (((h | h) | h) | h)
    · obtain ⟨r, rfl, h1⟩ := lower_dot (t := s% ".") h
      obtain ⟨r, rfl, h2⟩ := lower_dot (t := []) h1
      exact ⟨_, ⟨r, map_eq_nil h2, .inl rfl⟩, .inl rfl⟩
    · obtain ⟨r, rfl, h1⟩ := lower_dot (t := s% "%2e") h
      obtain ⟨r, h', h2⟩ := lower_pct2e (t := []) h1
      exact ⟨_, ⟨r, map_eq_nil h2, .inr h'⟩, .inl rfl⟩
    · obtain ⟨r, h', h1⟩ := lower_pct2e (t := s% ".") h
      obtain ⟨r', rfl, h2⟩ := lower_dot (t := []) h1
      exact ⟨_, ⟨r', map_eq_nil h2, .inl rfl⟩, .inr h'⟩
    · obtain ⟨r, h', h1⟩ := lower_pct2e (t := s% "%2e") h
      obtain ⟨r', h'', h2⟩ := lower_pct2e (t := []) h1
      exact ⟨_, ⟨r', map_eq_nil h2, .inr h''⟩, .inr h'⟩
  · rintro ⟨r, ⟨r', rfl, rfl | rfl | rfl⟩, rfl | rfl | rfl⟩ <;> decide

theorem isDriveLetter_iff {s : Str} : isDriveLetter s = true ↔ LooksLikeDrive s := by
  unfold isDriveLetter LooksLikeDrive
  constructor
  · intro h
    split at h
    · rename_i a b
      simp only [Bool.and_eq_true, Bool.or_eq_true, decide_eq_true_eq] at h
      refine ⟨a, ?_, ?_⟩
      · have ha : a.toNat < 128 := by omega
        exact forall_ascii (P := fun a => (65 ≤ a.toNat ∧ a.toNat ≤ 90 ∨ 97 ≤ a.toNat ∧ a.toNat ≤ 122) →
          a ∈ s% "ABCDEFGHIJKLMNOPQRSTUVWXYZabcdefghijklmnopqrstuvwxyz") (by decide +kernel) a ha h.1
      · rcases h.2 with rfl | rfl
        · exact .inl rfl
        · exact .inr rfl
    · simp at h
  · rintro ⟨c, hc, rfl | rfl⟩
    · have := (by decide +kernel : ∀ a ∈ s% "ABCDEFGHIJKLMNOPQRSTUVWXYZabcdefghijklmnopqrstuvwxyz",
        ((65 ≤ a.toNat && a.toNat ≤ 90) || (97 ≤ a.toNat && a.toNat ≤ 122)) = true) c hc
      simp [this]
    · have := (by decide +kernel : ∀ a ∈ s% "ABCDEFGHIJKLMNOPQRSTUVWXYZabcdefghijklmnopqrstuvwxyz",
        ((65 ≤ a.toNat && a.toNat ≤ 90) || (97 ≤ a.toNat && a.toNat ≤ 122)) = true) c hc
      simp [this]

theorem popSegment_eq (keep : Bool) (stack : List Str) : (popSegment keep stack).reverse = parent keep stack.reverse := by
  unfold parent popSegment
  cases stack with
  | nil => rfl
  | cons s r =>
    simp only [List.reverse_cons, List.getLast?_append, List.getLast?_singleton, Option.some_or, List.dropLast_concat]
    by_cases h : keep = true ∧ LooksLikeDrive s
    · have : (keep && isDriveLetter s) = true := by
        rw [Bool.and_eq_true]; exact ⟨h.1, isDriveLetter_iff.2 h.2⟩
      rw [if_pos h, if_pos this, List.reverse_cons]
    · have : ¬ (keep && isDriveLetter s) = true := by
        rw [Bool.and_eq_true]; exact fun ⟨a, b⟩ => h ⟨a, isDriveLetter_iff.1 b⟩
      rw [if_neg h, if_neg this]

/-! ### the path -/

/-- `walk` from given segments on. -/
def walkFrom (keep : Bool) (done segs : List Str) : List Str :=
  segs.foldl (fun done s => if undot s = s% ".." then parent keep done
    else if undot s = s% "." then done else done ++ [s]) done

theorem slash_shift (l : List Str) : '/' :: l.flatMap (fun s => s ++ ['/']) = l.flatMap (fun s => '/' :: s) ++ ['/'] := by
  induction l with
  | nil => rfl
  | cons a l ih =>
    rw [List.flatMap_cons, List.flatMap_cons, List.append_assoc, List.append_assoc, ← ih]
    rfl

theorem renderDirs_eq (stack : List Str) : renderDirs stack = stack.reverse.flatMap (fun s => '/' :: s) ++ ['/'] := by
  unfold renderDirs
  exact slash_shift _

theorem pathLoop_eq (caret keep : Bool) (segs : List Str) (hne : segs ≠ []) (stack : List Str) :
    pathLoop caret keep stack segs =
      (walkFrom keep stack.reverse (segs.map (escape (pathEscapes caret))) ++
        (if ∃ s ∈ (segs.map (escape (pathEscapes caret))).getLast?, undot s = s% "." ∨ undot s = s% ".." then [[]] else [])).flatMap
        fun seg => '/' :: seg := by
  induction segs generalizing stack with
  | nil => exact absurd rfl hne
  | cons seg more ih =>
    cases more with
    | nil =>
      unfold pathLoop
      simp only [List.map_cons, List.map_nil, List.getLast?_singleton, Option.mem_def, Option.some.injEq, exists_eq_left',
        walkFrom, List.foldl_cons, List.foldl_nil, ← escape_path]
      by_cases h2 : undot (escape (pathEscapes caret) seg) = s% ".."
      · have h1 : undot (escape (pathEscapes caret) seg) ≠ s% "." := by rw [h2]; decide
        rw [if_pos (isDoubleDot_iff.2 h2), if_pos h2, if_pos (.inr h2), renderDirs_eq, popSegment_eq, List.flatMap_append]
        rfl
      · have h2' : ¬ isDoubleDot (escape (pathEscapes caret) seg) = true := fun h => h2 (isDoubleDot_iff.1 h)
        rw [if_neg h2', if_neg h2]
        by_cases h1 : undot (escape (pathEscapes caret) seg) = s% "."
        · rw [if_pos (isSingleDot_iff.2 h1), if_pos h1, if_pos (.inl h1), renderDirs_eq, List.flatMap_append]
          rfl
        · have h1' : ¬ isSingleDot (escape (pathEscapes caret) seg) = true := fun h => h1 (isSingleDot_iff.1 h)
          rw [if_neg h1', if_neg h1, if_neg (fun h => h.elim h1 h2), renderDirs_eq, List.append_nil,
            List.flatMap_append]
          simp
    | cons s2 more =>
      have hlast : ((seg :: s2 :: more).map (escape (pathEscapes caret))).getLast? =
          ((s2 :: more).map (escape (pathEscapes caret))).getLast? := by
        simp [List.getLast?_cons_cons]
      rw [hlast]
      unfold pathLoop
      simp only [← escape_path]
      have ih' := fun st => ih (by simp) st
      rw [List.map_cons]
      simp only [walkFrom, List.foldl_cons]
      simp only [walkFrom] at ih'
      by_cases h2 : undot (escape (pathEscapes caret) seg) = s% ".."
      · rw [if_pos (isDoubleDot_iff.2 h2), if_pos h2, ih', popSegment_eq]
      · have h2' : ¬ isDoubleDot (escape (pathEscapes caret) seg) = true := fun h => h2 (isDoubleDot_iff.1 h)
        rw [if_neg h2', if_neg h2]
        by_cases h1 : undot (escape (pathEscapes caret) seg) = s% "."
        · rw [if_pos (isSingleDot_iff.2 h1), if_pos h1, ih']
        · have h1' : ¬ isSingleDot (escape (pathEscapes caret) seg) = true := fun h => h1 (isSingleDot_iff.1 h)
          rw [if_neg h1', if_neg h1, ih', List.reverse_cons]

theorem parsePath_eq (caret keep : Bool) (s : Str) : parsePath caret keep ('/' :: s) = standardPath caret keep s := by
  unfold parsePath standardPath removeDots walk
  rw [List.drop_succ_cons, List.drop_zero, pathLoop_eq _ _ _ (splitSlash_ne_nil s), splitSlash_slashed]
  rfl

/-- The model's parser on a text that starts with a slash. -/
theorem parse_eq (env : Env) (s : Str) :
    (Url.parse env ('/' :: s)).path = (standardUrl env.encodeCaret env.keepDriveLetter s).path ∧
    (Url.parse env ('/' :: s)).query.getD [] = (standardUrl env.encodeCaret env.keepDriveLetter s).query ∧
    (Url.parse env ('/' :: s)).fragment = (standardUrl env.encodeCaret env.keepDriveLetter s).fragment := by
  have hin : (trimEndC0 ('/' :: s)).filter (fun c => !isTabNl c) = '/' :: urlInput s := by
    rw [← urlInput_eq, urlInput_slash]
  unfold Url.parse Url.splitParts standardUrl
  simp only [hin, splitFirst_cutAt]
  generalize urlInput s = t
  have e1 : cutAt '#' ('/' :: t) = ('/' :: (cutAt '#' t).1, (cutAt '#' t).2) := by
    conv => lhs; unfold cutAt
    rw [if_neg (by decide)]
  have e2 : ∀ u, cutAt '?' ('/' :: u) = ('/' :: (cutAt '?' u).1, (cutAt '?' u).2) := by
    intro u
    conv => lhs; unfold cutAt
    rw [if_neg (by decide)]
  have m1 : '#' ∈ '/' :: t ↔ '#' ∈ t := by simp
  simp only [e1, e2, m1]
  refine ⟨?_, ?_, ?_⟩
  · rw [parsePath_eq]
  · rw [escape_query]
    by_cases hq : '?' ∈ '/' :: (cutAt '#' t).1
    · rw [if_pos hq]; rfl
    · rw [if_neg hq, cutAt_not_mem (by intro h; exact hq (by simp [h]))]; rfl
  · by_cases hf : '#' ∈ t
    · rw [if_pos hf, if_pos hf, escape_fragment]; rfl
    · rw [if_neg hf, if_neg hf]; rfl

/-! ### the URL of the options -/

theorem objectParts_eq (env : Env) (o : UrlOptions) :
    (objectUrl env o).path = (objectParts env o).path ∧
    (objectUrl env o).query.getD [] = (objectParts env o).query ∧
    (objectUrl env o).fragment = (objectParts env o).fragment := parse_eq env (o.bucketName ++ s% "/" ++ o.objectName)

theorem userUrl_eq (env : Env) (o : UrlOptions) : userUrl env o = hostname ++ (baseUrl env o).toRest := by
  obtain ⟨h1, h2, h3⟩ := objectParts_eq env o
  rw [baseUrl_eq]
  unfold userUrl
  rw [← h1, ← h2, ← h3, withParams_eq]
  simp only [Url.toRest, baseQuery, hostname, List.append_assoc]
  cases (objectUrl env o).fragment <;> rfl

theorem extendPairs_concat (q : Str) (a b : List (Str × Str)) : extendPairs q (a ++ b) = extendPairs (extendPairs q a) b := by
  unfold extendPairs; exact List.foldl_append

theorem lexLt_asymm {x y : Str} (h1 : LexLt x y) (h2 : LexLt y x) : False := by
  induction x generalizing y with
  | nil => cases y <;> simp [LexLt] at h1 h2
  | cons a x ih =>
    cases y with
    | nil => simp [LexLt] at h1
    | cons b y =>
      simp only [LexLt] at h1 h2
      rcases h1 with h1 | ⟨rfl, h1⟩
      · rcases h2 with h2 | ⟨rfl, _⟩ <;> omega
      · rcases h2 with h2 | ⟨_, h2⟩
        · omega
        · exact ih h1 h2

theorem pairwise_lexLt_ext {a b : List Str} (ha : a.Pairwise LexLt) (hb : b.Pairwise LexLt) (h : ∀ x, x ∈ a ↔ x ∈ b) : a = b := by
  have nd : ∀ {l : List Str}, l.Pairwise LexLt → l.Nodup := fun hl =>
    hl.imp fun h => by rintro rfl; exact absurd h (lexLt_irrefl _)
  have hp : List.Perm a b := (List.perm_ext_iff_of_nodup (nd ha) (nd hb)).2 h
  exact hp.eq_of_pairwise (fun x y _ _ h1 h2 => (lexLt_asymm h1 h2).elim) ha hb

theorem googParams_iff {o : UrlOptions} {t : Time} {email : Str} {ps : List (Str × Str)} (ht : 0 ≤ t ∧ t < endOf9999) :
    GoogParams o t email ps ↔ ps = required o t email := by
  obtain ⟨c, hc, hiso, hsec⟩ := iso_chars t ht
  have key : ∀ {date names}, BasicDenotes date (t / 1000000000) → names.Pairwise LexLt →
      (∀ name, name ∈ names ↔ ∃ h ∈ requestHeaders o, asciiLower h.1 = name) →
      date = UnixTimestamp.toIso8601 ⟨t / nsPerSec⟩ ∧ names = signedNames o.headers := by
    intro date names hd hn hm
    constructor
    · obtain ⟨c', hc', rfl, hs'⟩ := hd
      rw [hiso]
      rcases stamp_cases c c' hc hc' with ⟨h, _, _⟩ | ⟨h, _, _⟩ | h
      · rw [hsec, hs'] at h; exact absurd h (Int.lt_irrefl _)
      · rw [hsec, hs'] at h; exact absurd h (Int.lt_irrefl _)
      · rw [h]
    · exact pairwise_lexLt_ext hn (signedNames_lt _) fun x => (hm x).trans (mem_signedNames_iff o x).symm
  have halg : o.signingKey.xGoogAlgorithm.asStr =
      match o.signingKey with | .hmac _ _ => s% "GOOG4-HMAC-SHA256" | _ => s% "GOOG4-RSA-SHA256" := by
    cases o.signingKey <;> rfl
  have hreq : required o t email = [
      (s% "X-Goog-Algorithm", match o.signingKey with | .hmac _ _ => s% "GOOG4-HMAC-SHA256" | _ => s% "GOOG4-RSA-SHA256"),
      (s% "X-Goog-Credential", (email ++ s% "/" ++ (UnixTimestamp.toIso8601 ⟨t / nsPerSec⟩).take 8 ++ s% "/" ++ o.region.getD (s% "auto") ++
        s% "/storage/goog4_request").flatMap fun c => if c = '/' then s% "%2F" else [c]),
      (s% "X-Goog-Date", UnixTimestamp.toIso8601 ⟨t / nsPerSec⟩),
      (s% "X-Goog-Expires", natDec ((o.expires - t) / 1000000000).toNat),
      (s% "X-Goog-SignedHeaders", join (s% ";") (signedNames o.headers))] := by
    unfold required requiredParams
    rw [halg, scope_eq t ht, signedHeaders_url]
    simp only [replaceSlash, List.append_assoc]
    rfl
  constructor
  · rintro ⟨date, names, hd, hn, hm, rfl⟩
    obtain ⟨rfl, rfl⟩ := key hd hn hm
    exact hreq.symm
  · rintro rfl
    exact ⟨_, _, ⟨c, hc, hiso, hsec⟩, signedNames_lt _, mem_signedNames_iff o, hreq⟩

theorem tooLong_iff {env : Env} {o : UrlOptions} {t : Time} {email : Str} (ht : 0 ≤ t ∧ t < endOf9999) :
    TooLong env o t email ↔ 65534 < (utf8 (fullUrl env o (required o t email))).length := by
  obtain ⟨h1, h2, h3⟩ := objectParts_eq env o
  have : ∀ ps, s% "https://storage.googleapis.com" ++ (objectParts env o).path ++ s% "?" ++
      withParams (objectParts env o).query (o.queryParameters ++ ps) = fullUrl env o ps := by
    intro ps
    rw [← h1, ← h2, withParams_eq, extendPairs_concat]
    simp only [fullUrl, baseQuery, hostname, List.append_assoc]
    rfl
  unfold TooLong
  simp only [this, googParams_iff ht, exists_eq_left]

end CSS
