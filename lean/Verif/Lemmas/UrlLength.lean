import Verif.Lemmas.UrlQuery
import Verif.Lemmas.UrlSigned
import Verif.Lemmas.UrlStandard
/- Bounds on the length of URLs. -/
set_option linter.unusedSimpArgs false
namespace CSS
open Spec

/-- The length of a text in bytes. -/
def size (s : Str) : Nat := (utf8 s).length

@[simp] theorem size_nil : size [] = 0 := rfl
theorem size_append (a b : Str) : size (a ++ b) = size a + size b := by simp [size, utf8_append]
theorem size_cons (c : Char) (s : Str) : size (c :: s) = (utf8Char c).length + size s := by simp [size, utf8_cons]

theorem utf8Char_pos (c : Char) : 1 ≤ (utf8Char c).length := by
  have := utf8Char_ne_nil c
  cases h : utf8Char c with
  | nil => exact absurd h this
  | cons a l => simp

theorem length_le_size (s : Str) : s.length ≤ size s := by
  induction s with
  | nil => simp
  | cons c s ih => rw [size_cons]; have := utf8Char_pos c; simp; omega

theorem size_ascii {s : Str} (h : ∀ c ∈ s, c.toNat < 128) : size s = s.length := utf8_length_ascii h

theorem size_filter (p : Char → Bool) (s : Str) : size (s.filter p) ≤ size s := by
  induction s with
  | nil => simp
  | cons c s ih =>
    rw [List.filter_cons]
    split <;> simp only [size_cons] <;> omega

theorem size_dropWhile (p : Char → Bool) (s : Str) : size (s.dropWhile p) ≤ size s := by
  induction s with
  | nil => simp
  | cons c s ih =>
    rw [List.dropWhile_cons]
    split <;> simp only [size_cons] <;> omega

theorem size_reverse (s : Str) : size s.reverse = size s := by
  induction s with
  | nil => rfl
  | cons c s ih => rw [List.reverse_cons, size_append, size_cons, ih, size_cons]; simp; omega

theorem size_trimEndC0 (s : Str) : size (trimEndC0 s) ≤ size s := by
  unfold trimEndC0
  rw [size_reverse]
  have := size_dropWhile (fun c => decide (c.toNat ≤ 32)) s.reverse
  rw [size_reverse] at this
  exact this

theorem flatMap_length_le {α : Type} {f : α → Str} {k : Nat} (h : ∀ a, (f a).length ≤ k) (l : List α) :
    (l.flatMap f).length ≤ k * l.length := by
  induction l with
  | nil => simp
  | cons a l ih =>
    rw [List.flatMap_cons, List.length_append, List.length_cons, Nat.mul_succ]
    have := h a
    omega

theorem length_le_flatMap {α : Type} {f : α → Str} (h : ∀ a, 1 ≤ (f a).length) (l : List α) :
    l.length ≤ (l.flatMap f).length := by
  induction l with
  | nil => simp
  | cons a l ih =>
    rw [List.flatMap_cons, List.length_append, List.length_cons]
    have := h a
    omega

theorem formByte_length (b : UInt8) : 1 ≤ (formByte b).length ∧ (formByte b).length ≤ 3 := by
  unfold formByte
  split
  · simp
  · split
    · simp
    · simp [pctByte]

theorem formEncode_length (s : Str) : (formEncode s).length ≤ 3 * size s := flatMap_length_le (fun b => (formByte_length b).2) _
theorem length_formEncode (s : Str) : size s ≤ (formEncode s).length := length_le_flatMap (fun b => (formByte_length b).1) _

theorem percentEncode_length (set : Nat → Bool) (s : Str) : (utf8PercentEncode set s).length ≤ 3 * size s := by
  refine flatMap_length_le (fun b => ?_) _
  split <;> simp [pctByte]

/-! ### paths -/

/-- A bound for the normalised path made of these raw segments. -/
def weight (segs : List Str) : Nat := (segs.map fun s => 3 * size s + 1).sum

theorem weight_splitSlash (s : Str) : weight (splitSlash s) ≤ 3 * size s + 1 := by
  induction s with
  | nil => simp [splitSlash, weight]
  | cons c s ih =>
    have := utf8Char_pos c
    simp only [splitSlash]
    by_cases hc : c = '/' ∨ c = '\\'
    · rw [if_pos hc, size_cons]
      simp only [weight, List.map_cons, List.sum_cons, size_nil] at ih ⊢
      omega
    · rw [if_neg hc, size_cons]
      cases hs : splitSlash s with
      | nil => exact absurd hs (splitSlash_ne_nil s)
      | cons h t =>
        rw [hs] at ih
        simp only [weight, List.map_cons, List.sum_cons, size_cons] at ih ⊢
        omega

theorem renderDirs_length_cons (e : Str) (stack : List Str) :
    (renderDirs (e :: stack)).length = (renderDirs stack).length + e.length + 1 := by
  simp [renderDirs, Function.comp_def]
  omega

theorem renderDirs_pop (k : Bool) (stack : List Str) : (renderDirs (popSegment k stack)).length ≤ (renderDirs stack).length := by
  cases stack with
  | nil => simp [popSegment]
  | cons s r =>
    simp only [popSegment]
    split
    · simp
    · rw [renderDirs_length_cons]; omega

theorem pathLoop_length (caret keep : Bool) (segs stack : List Str) :
    (pathLoop caret keep stack segs).length ≤ (renderDirs stack).length + weight segs := by
  match segs with
  | [] => simp [pathLoop, weight]
  | [last] =>
    have h1 := percentEncode_length (pathEncSet caret) last
    have h2 := renderDirs_pop keep stack
    simp only [pathLoop, weight, List.map_cons, List.map_nil, List.sum_cons, List.sum_nil]
    split
    · omega
    · split
      · omega
      · rw [List.length_append]; omega
  | seg :: b :: more =>
    have h1 := percentEncode_length (pathEncSet caret) seg
    have h2 := renderDirs_pop keep stack
    have hw : weight (seg :: b :: more) = 3 * size seg + 1 + weight (b :: more) := by simp [weight]
    rw [hw]
    simp only [pathLoop]
    split
    · have := pathLoop_length caret keep (b :: more) (popSegment keep stack)
      omega
    · split
      · have := pathLoop_length caret keep (b :: more) stack
        omega
      · have := pathLoop_length caret keep (b :: more) (utf8PercentEncode (pathEncSet caret) seg :: stack)
        rw [renderDirs_length_cons] at this
        omega

theorem parsePath_length (caret keep : Bool) (p : Str) : (parsePath caret keep p).length ≤ 3 * size p + 2 := by
  unfold parsePath
  have h1 := pathLoop_length caret keep (splitSlash (p.drop 1)) []
  have h2 := weight_splitSlash (p.drop 1)
  have h3 : size (p.drop 1) ≤ size p := by
    cases p with
    | nil => simp
    | cons c p => simp [size_cons]
  have h4 : (renderDirs []).length = 1 := rfl
  omega

theorem size_splitFirst (c : Char) (s : Str) :
    size (splitFirst c s).1 + (match (splitFirst c s).2 with | none => 0 | some t => size t + 1) ≤ size s := by
  induction s with
  | nil => simp [splitFirst]
  | cons x s ih =>
    have := utf8Char_pos x
    simp only [splitFirst]
    split
    · simp only [size_nil, size_cons]; omega
    · simp only [size_cons]; omega

/-- The length of an optional part with its separator. -/
def optLength : Option Str → Nat
  | none => 0
  | some s => s.length + 1

theorem parse_length (env : Env) (rest : Str) :
    (Url.parse env rest).path.length + optLength (Url.parse env rest).query + optLength (Url.parse env rest).fragment ≤
      3 * size rest + 2 := by
  unfold Url.parse Url.splitParts
  have h0 : size ((trimEndC0 rest).filter (fun c => !isTabNl c)) ≤ size rest :=
    Nat.le_trans (size_filter _ _) (size_trimEndC0 rest)
  generalize (trimEndC0 rest).filter (fun c => !isTabNl c) = s at h0
  have h1 := size_splitFirst '#' s
  simp only
  generalize splitFirst '#' s = x at h1
  obtain ⟨b, f⟩ := x
  have h2 := size_splitFirst '?' b
  simp only at h1 ⊢
  generalize splitFirst '?' b = y at h2
  obtain ⟨p, q⟩ := y
  simp only at h2 ⊢
  have h3 := parsePath_length env.encodeCaret env.keepDriveLetter p
  have h4 : ∀ (set : Nat → Bool) (q : Option Str), optLength (q.map (utf8PercentEncode set)) ≤
      3 * (match q with | none => 0 | some t => size t + 1) := by
    intro set q
    cases q with
    | none => simp [optLength]
    | some t => have := percentEncode_length set t; simp only [optLength, Option.map_some]; omega
  have h5 := h4 queryEncSet q
  have h6 := h4 fragmentEncSet f
  cases f <;> cases q <;> simp only at h1 h2 h5 h6 <;> omega

theorem extendPairs_length (q : Str) (ps : List (Str × Str)) :
    (extendPairs q ps).length ≤ q.length + (ps.map fun p => 3 * size p.1 + 3 * size p.2 + 2).sum := by
  induction ps generalizing q with
  | nil => simp [extendPairs]
  | cons p ps ih =>
    have h1 := ih (appendPair q p.1 p.2)
    have h2 : (appendPair q p.1 p.2).length ≤ q.length + 3 * size p.1 + 3 * size p.2 + 2 := by
      have := formEncode_length p.1
      have := formEncode_length p.2
      unfold appendPair
      split <;> simp <;> omega
    show (extendPairs (appendPair q p.1 p.2) ps).length ≤ _
    simp only [List.map_cons, List.sum_cons]
    omega

theorem size_replaceSlash (s : Str) : size (replaceSlash s) ≤ 3 * size s := by
  induction s with
  | nil => simp [replaceSlash]
  | cons c s ih =>
    have h0 : replaceSlash (c :: s) = (if c = '/' then s% "%2F" else [c]) ++ replaceSlash s := rfl
    have := utf8Char_pos c
    rw [h0, size_append, size_cons]
    split
    · have : size (s% "%2F") = 3 := rfl
      omega
    · rw [size_cons]; simp; omega

theorem le_size_replaceSlash (s : Str) : size s ≤ size (replaceSlash s) := by
  induction s with
  | nil => simp [replaceSlash]
  | cons c s ih =>
    have h0 : replaceSlash (c :: s) = (if c = '/' then s% "%2F" else [c]) ++ replaceSlash s := rfl
    rw [h0, size_append, size_cons]
    split
    · rename_i h
      subst h
      have : size (s% "%2F") = 3 := rfl
      have : (utf8Char '/').length = 1 := rfl
      omega
    · rw [size_cons]; simp; omega

theorem natDecAux_length (f n k : Nat) (h : n < 10 ^ k) : (natDecAux f n).length ≤ max k 1 := by
  induction f generalizing n k with
  | zero => simp [natDecAux]
  | succ f ih =>
    simp only [natDecAux]
    split
    · simp; omega
    · rename_i hn
      match k with
      | 0 => simp at h; omega
      | 1 => simp at h; omega
      | k + 2 =>
        have := ih (n / 10) (k + 1) (by rw [Nat.div_lt_iff_lt_mul (by omega)]; rw [Nat.pow_succ] at h; omega)
        simp
        omega

theorem natDec_size {n k : Nat} (h : n < 10 ^ k) (hk : 1 ≤ k) : size (natDec n) ≤ k := by
  rw [size_ascii]
  · have := natDecAux_length (n + 1) n k h
    unfold natDec
    omega
  · intro c hc
    have := (natDec_decimal n).2.1 c hc
    exact (by decide : ∀ c ∈ s% "0123456789", c.toNat < 128) c this

theorem size_join (sep : Char) (hs : sep.toNat < 128) (l : List Str) : size (join [sep] l) ≤ (l.map fun x => size x + 1).sum := by
  have h1 : (utf8Char sep).length = 1 := by rw [utf8Char_ascii hs]; rfl
  match l with
  | [] => simp [join]
  | [x] => simp [join]
  | x :: y :: l =>
    have := size_join sep hs (y :: l)
    simp only [join, size_append, size_cons, List.map_cons, List.sum_cons, size_nil] at this ⊢
    omega

theorem sum_setInsert (f : Str → Nat) (x : Str) (l : List Str) : ((setInsert x l).map f).sum ≤ f x + (l.map f).sum := by
  induction l with
  | nil => simp [setInsert]
  | cons y l ih =>
    simp only [setInsert]
    split
    · simp
    · split
      · simp
      · simp only [List.map_cons, List.sum_cons]; omega

theorem sum_toSet (f : Str → Nat) (l : List Str) : ((toSet l).map f).sum ≤ (l.map f).sum := by
  unfold toSet
  have : ∀ acc : List Str, ((l.foldl (fun acc x => setInsert x acc) acc).map f).sum ≤ (acc.map f).sum + (l.map f).sum := by
    induction l with
    | nil => simp
    | cons x l ih =>
      intro acc
      rw [List.foldl_cons]
      have h1 := ih (setInsert x acc)
      have h2 := sum_setInsert f x acc
      simp only [List.map_cons, List.sum_cons]
      omega
  have := this []
  simpa using this

theorem size_asciiLower (s : Str) : size (asciiLower s) = size s := by
  induction s with
  | nil => rfl
  | cons c s ih =>
    have h0 : asciiLower (c :: s) = asciiLowerChar c :: asciiLower s := rfl
    rw [h0, size_cons, size_cons, ih]
    congr 1
    by_cases hc : c.toNat < 128
    · have h1 : (asciiLowerChar c).toNat < 128 :=
        forall_ascii (P := fun c => (asciiLowerChar c).toNat < 128) (by decide +kernel) c hc
      rw [utf8Char_ascii h1, utf8Char_ascii hc]; rfl
    · unfold asciiLowerChar
      rw [if_neg (by omega)]

theorem signedNames_size (hs : List (Str × Str)) :
    size (join (s% ";") (signedNames hs)) ≤ 5 + (hs.map fun h => size h.1 + 1).sum := by
  have h1 := size_join ';' (by decide) (signedNames hs)
  unfold signedNames at h1 ⊢
  have h2 := sum_toSet (fun x => size x + 1) ((allHeaders hs).map fun h => asciiLower h.1)
  have h3 : ((((allHeaders hs).map fun h => asciiLower h.1)).map fun x => size x + 1).sum =
      5 + (hs.map fun h => size h.1 + 1).sum := by
    rw [List.map_map]
    simp only [allHeaders, List.map_cons, List.sum_cons, Function.comp_def, size_asciiLower]
    rfl
  omega

theorem iso_size (t : Time) (ht : 0 ≤ t ∧ t < endOf9999) : size (UnixTimestamp.toIso8601 ⟨t / nsPerSec⟩) = 16 := by
  have hf : UnixTimestamp.fromSystemTime t = .ok ⟨t / nsPerSec⟩ :=
    fromSystemTime_ok.2 ⟨ht.1, by have := ht.2; unfold endOf9999 at this; unfold nsPerSec; omega, rfl⟩
  have hr := fromSystemTime_inRange hf
  rw [toIso8601_eq _ hr]
  rw [size_ascii]
  · simp [DateTime.basic, DateTime.yyyymmdd, d4, d2]
  · intro c hc
    by_cases hlt : c.toNat < 128
    · exact hlt
    · exfalso
      refine basic_no (c := c) (.inr (by omega)) ?_ ?_ _ hc
      · rintro rfl; exact hlt (by decide)
      · rintro rfl; exact hlt (by decide)

/-- The five required parameters, in terms of the sizes of what goes into them. -/
theorem required_length (o : UrlOptions) (t : Time) (email : Str) (ht : 0 ≤ t ∧ t < endOf9999)
    (he : (o.expires - t) / nsPerSec ≤ 604800) :
    ((required o t email).map fun p => 3 * size p.1 + 3 * size p.2 + 2).sum ≤
      900 + 9 * size email + 9 * size (o.region.getD (s% "auto")) + 3 * (o.headers.map fun h => size h.1 + 1).sum := by
  unfold required requiredParams
  simp only [List.map_cons, List.map_nil, List.sum_cons, List.sum_nil]
  have n1 : size (s% "X-Goog-Algorithm") = 16 := rfl
  have n2 : size (s% "X-Goog-Credential") = 17 := rfl
  have n3 : size (s% "X-Goog-Date") = 11 := rfl
  have n4 : size (s% "X-Goog-Expires") = 14 := rfl
  have n5 : size (s% "X-Goog-SignedHeaders") = 20 := rfl
  rw [n1, n2, n3, n4, n5]
  have h1 : size o.signingKey.xGoogAlgorithm.asStr ≤ 17 := by
    have : ∀ a : SigningAlgorithm, size a.asStr ≤ 17 := by intro a; cases a <;> decide
    exact this _
  have h3 := iso_size t ht
  have h2 : size (replaceSlash (email ++ s% "/" ++ (CredentialScope.mk (Date.fromUnixTimestamp ⟨t / nsPerSec⟩)
      ⟨o.region.getD (s% "auto")⟩ .storage .goog4Request).toStr)) ≤
      3 * (size email + 48 + size (o.region.getD (s% "auto"))) := by
    refine Nat.le_trans (size_replaceSlash _) ?_
    rw [scope_eq t ht]
    have ha : size ((UnixTimestamp.toIso8601 ⟨t / nsPerSec⟩).take 8) ≤ 16 := by
      have : size (UnixTimestamp.toIso8601 ⟨t / nsPerSec⟩) =
          size ((UnixTimestamp.toIso8601 ⟨t / nsPerSec⟩).take 8) + size ((UnixTimestamp.toIso8601 ⟨t / nsPerSec⟩).drop 8) := by
        rw [← size_append, List.take_append_drop]
      omega
    have hb : size (s% "/") = 1 := rfl
    have hc : size (s% "/storage/goog4_request") = 22 := rfl
    simp only [size_append, hb, hc]
    omega
  have h4 : size (Expiration.toStr ⟨(o.expires - t) / nsPerSec⟩) ≤ 6 :=
    natDec_size (by have : (10 : Nat) ^ 6 = 1000000 := rfl; simp only; omega) (by omega)
  have h5 := signedNames_size o.headers
  rw [signedHeaders_url]
  have h3' : size (ActiveDatetime.toStr ⟨⟨t / nsPerSec⟩⟩) = 16 := h3
  rw [h3']
  omega

/-- How long the URL with all parameters can be. -/
theorem fullUrl_length (env : Env) (o : UrlOptions) (t : Time) (email : Str) (ht : 0 ≤ t ∧ t < endOf9999)
    (he : (o.expires - t) / nsPerSec ≤ 604800) :
    (utf8 (fullUrl env o (required o t email))).length ≤ 1000 + 3 * (size o.bucketName + size o.objectName) +
      9 * (size email + size (o.region.getD (s% "auto"))) + 3 * (o.queryParameters.map fun p => size p.1 + size p.2 + 1).sum +
      3 * (o.headers.map fun h => size h.1 + 1).sum := by
  have hascii : ∀ c ∈ fullUrl env o (required o t email), c.toNat < 128 := by
    unfold fullUrl
    simp only [List.forall_mem_append, List.forall_mem_cons]
    refine ⟨by decide, fun c hc => (normalPath_chars (objectUrl_normal env o).1 c hc).1, by decide,
      fun c hc => (extendPairs_kept (baseQuery_kept env o) _ c hc).1⟩
  rw [utf8_length_ascii hascii]
  unfold fullUrl
  have h1 := parse_length env (s% "/" ++ o.bucketName ++ s% "/" ++ o.objectName)
  have h2 : size (s% "/" ++ o.bucketName ++ s% "/" ++ o.objectName) = 2 + size o.bucketName + size o.objectName := by
    have : size (s% "/") = 1 := rfl
    simp only [size_append, this]; omega
  have h3 := extendPairs_length (baseQuery env o) (required o t email)
  have h4 : (baseQuery env o).length ≤ _ := extendPairs_length ((objectUrl env o).query.getD []) o.queryParameters
  have h5 := required_length o t email ht he
  have h6 : (o.queryParameters.map fun p => 3 * size p.1 + 3 * size p.2 + 2).sum ≤
      3 * (o.queryParameters.map fun p => size p.1 + size p.2 + 1).sum := by
    generalize o.queryParameters = l
    induction l with
    | nil => simp
    | cons p l ih => simp only [List.map_cons, List.sum_cons]; omega
  have h7 : ((objectUrl env o).query.getD []).length ≤ optLength (objectUrl env o).query := by
    cases (objectUrl env o).query <;> simp [optLength]
  have h8 : hostname.length = 30 := rfl
  have h9 : (objectUrl env o).path.length + optLength (objectUrl env o).query + optLength (objectUrl env o).fragment ≤ _ := h1
  rw [h2] at h9
  simp only [List.length_append, List.length_cons, h8]
  omega

theorem extendPairs_mono (ps : List (Str × Str)) (q : Str) : q.length ≤ (extendPairs q ps).length := by
  induction ps generalizing q with
  | nil => simp [extendPairs]
  | cons p ps ih =>
    refine Nat.le_trans ?_ (ih (appendPair q p.1 p.2))
    unfold appendPair
    split
    · rename_i h; simp [h]
    · simp

theorem le_extendPairs (ps : List (Str × Str)) (q : Str) (p : Str × Str) (hp : p ∈ ps) : size p.2 ≤ (extendPairs q ps).length := by
  induction ps generalizing q with
  | nil => simp at hp
  | cons x ps ih =>
    rcases List.mem_cons.1 hp with rfl | hp
    · refine Nat.le_trans ?_ (extendPairs_mono ps (appendPair q p.1 p.2))
      have := length_formEncode p.2
      unfold appendPair
      simp
      omega
    · exact ih _ hp

/-- A lower bound. -/
theorem length_fullUrl (env : Env) (o : UrlOptions) (t : Time) (email : Str) (ht : 0 ≤ t ∧ t < endOf9999) :
    size email + size (o.region.getD (s% "auto")) ≤ (utf8 (fullUrl env o (required o t email))).length := by
  have hc := le_extendPairs (required o t email) (baseQuery env o) _
    (List.mem_cons_of_mem _ (List.mem_cons_self ..) : (s% "X-Goog-Credential", replaceSlash (email ++ s% "/" ++ _)) ∈ required o t email)
  have h2 := le_size_replaceSlash (email ++ s% "/" ++ (CredentialScope.mk (Date.fromUnixTimestamp ⟨t / nsPerSec⟩)
      ⟨o.region.getD (s% "auto")⟩ .storage .goog4Request).toStr)
  rw [scope_eq t ht] at h2 hc
  simp only [size_append] at h2 hc
  have h3 := length_le_size (fullUrl env o (required o t email))
  unfold size at h3
  refine Nat.le_trans ?_ h3
  unfold fullUrl
  simp only [List.length_append, List.length_cons]
  omega

/-- How long the URL with the user's parameters can be. -/
theorem userUrl_length (env : Env) (o : UrlOptions) : (utf8 (userUrl env o)).length ≤
    100 + 3 * (size o.bucketName + size o.objectName) + 3 * (o.queryParameters.map fun p => size p.1 + size p.2 + 1).sum := by
  have hu := userUrl_eq env o
  have hb : (baseUrl env o).toRest = (objectUrl env o).path ++ '?' :: baseQuery env o ++
      (match (objectUrl env o).fragment with | none => [] | some f => '#' :: f) := by
    rw [baseUrl_eq]; rfl
  have hf : ∀ f, (objectUrl env o).fragment = some f → ∀ c ∈ f, c.toNat < 128 := by
    intro f hf c hc
    unfold objectUrl Url.parse at hf
    simp only [Option.map_eq_some_iff] at hf
    obtain ⟨g, _, rfl⟩ := hf
    exact (encode_kept fragmentEncSet_enc g c hc).1
  have hascii : ∀ c ∈ userUrl env o, c.toNat < 128 := by
    rw [hu, hb]
    simp only [List.forall_mem_append, List.forall_mem_cons]
    refine ⟨by decide, ⟨fun c hc => (normalPath_chars (objectUrl_normal env o).1 c hc).1, by decide,
      fun c hc => (baseQuery_kept env o c hc).1⟩, ?_⟩
    cases hfr : (objectUrl env o).fragment with
    | none => simp
    | some f =>
      simp only [List.forall_mem_cons]
      exact ⟨by decide, hf f hfr⟩
  rw [utf8_length_ascii hascii, hu, hb]
  have h1 : (objectUrl env o).path.length + optLength (objectUrl env o).query + optLength (objectUrl env o).fragment ≤ _ :=
    parse_length env (s% "/" ++ o.bucketName ++ s% "/" ++ o.objectName)
  have h2 : size (s% "/" ++ o.bucketName ++ s% "/" ++ o.objectName) = 2 + size o.bucketName + size o.objectName := by
    have : size (s% "/") = 1 := rfl
    simp only [size_append, this]; omega
  have h4 : (baseQuery env o).length ≤ _ := extendPairs_length ((objectUrl env o).query.getD []) o.queryParameters
  have h6 : (o.queryParameters.map fun p => 3 * size p.1 + 3 * size p.2 + 2).sum ≤
      3 * (o.queryParameters.map fun p => size p.1 + size p.2 + 1).sum := by
    generalize o.queryParameters = l
    induction l with
    | nil => simp
    | cons p l ih => simp only [List.map_cons, List.sum_cons]; omega
  have h7 : ((objectUrl env o).query.getD []).length ≤ optLength (objectUrl env o).query := by
    cases (objectUrl env o).query <;> simp [optLength]
  have h8 : hostname.length = 30 := rfl
  rw [h2] at h1
  have h9 : (match (objectUrl env o).fragment with | none => [] | some f => '#' :: f : Str).length = optLength (objectUrl env o).fragment := by
    cases (objectUrl env o).fragment <;> simp [optLength]
  simp only [List.length_append, List.length_cons, h8, h9]
  omega

end CSS
