import Verif.Lemmas.Sort
import Verif.Model.SignedUrl
/- Header maps and the canonical headers, as functions of the list of (name, value) pairs. -/
set_option linter.unusedSimpArgs false
namespace CSS
open Spec

/-- The values given for exactly the name `k`, in order. -/
def valuesOf (es : List (Str × Str)) (k : Str) : List Str := (es.filter fun e => e.1 = k).map (·.2)

theorem valuesOf_cons (e : Str × Str) (es : List (Str × Str)) (k : Str) :
    valuesOf (e :: es) k = (if e.1 = k then [e.2] else []) ++ valuesOf es k := by
  unfold valuesOf
  by_cases h : e.1 = k <;> simp [h]

theorem valuesOf_append (a b : List (Str × Str)) (k : Str) : valuesOf (a ++ b) k = valuesOf a k ++ valuesOf b k := by
  simp [valuesOf]

theorem valuesOf_nil_of_not_mem {es : List (Str × Str)} {k : Str} (h : k ∉ es.map (·.1)) : valuesOf es k = [] := by
  unfold valuesOf
  rw [List.map_eq_nil_iff, List.filter_eq_nil_iff]
  intro e he
  simp only [decide_eq_true_eq]
  intro hk
  exact h (List.mem_map.2 ⟨e, he, hk⟩)

/-! ### HeaderMap -/

theorem names_append (m : HeaderMap) (k v x : Str) :
    x ∈ (m.append k v).map (·.1) ↔ x = k ∨ x ∈ m.map (·.1) := by
  induction m with
  | nil => simp [HeaderMap.append]
  | cons e m ih =>
    obtain ⟨k', vs⟩ := e
    simp only [HeaderMap.append]
    split
    · rename_i h; subst h; simp
    · simp only [List.map_cons, List.mem_cons, ih]
      constructor
      · rintro (h | h | h) <;> simp [h]
      · rintro (h | h | h) <;> simp [h]

theorem names_append_nodup {m : HeaderMap} (h : (m.map (·.1)).Nodup) (k v : Str) :
    ((m.append k v).map (·.1)).Nodup := by
  induction m with
  | nil => simp [HeaderMap.append]
  | cons e m ih =>
    obtain ⟨k', vs⟩ := e
    simp only [List.map_cons, List.nodup_cons] at h
    simp only [HeaderMap.append]
    split
    · simp only [List.map_cons, List.nodup_cons]; exact h
    · rename_i hk
      simp only [List.map_cons, List.nodup_cons]
      refine ⟨?_, ih h.2⟩
      rw [names_append]
      rintro (hx | hx)
      · exact hk hx
      · exact h.1 hx

theorem entries_cons (e : Str × List Str) (m : HeaderMap) :
    HeaderMap.entries (e :: m) = (e.2.map fun v => (e.1, v)) ++ HeaderMap.entries m := rfl

theorem valuesOf_entry (k' : Str) (vs : List Str) (k : Str) :
    valuesOf (vs.map fun v => (k', v)) k = if k' = k then vs else [] := by
  unfold valuesOf
  by_cases h : k' = k
  · rw [if_pos h, List.filter_eq_self.2 (by simp [h]), List.map_map]; exact List.map_id _
  · rw [if_neg h, List.filter_eq_nil_iff.2 (by simp [h])]; rfl

theorem mem_entries_names {m : HeaderMap} {k : Str} (h : k ∈ (HeaderMap.entries m).map (·.1)) : k ∈ m.map (·.1) := by
  simp only [HeaderMap.entries, List.mem_map, List.mem_flatMap] at h
  obtain ⟨e, ⟨a, ha, b, _, rfl⟩, rfl⟩ := h
  exact List.mem_map.2 ⟨a, ha, rfl⟩

theorem values_append {m : HeaderMap} (h : (m.map (·.1)).Nodup) (k v x : Str) :
    valuesOf (HeaderMap.entries (m.append k v)) x = valuesOf (HeaderMap.entries m) x ++ (if k = x then [v] else []) := by
  induction m with
  | nil =>
    simp only [HeaderMap.append]
    rw [entries_cons, valuesOf_append, valuesOf_entry]
    simp [HeaderMap.entries, valuesOf]
  | cons e m ih =>
    obtain ⟨k', vs⟩ := e
    simp only [List.map_cons, List.nodup_cons] at h
    simp only [HeaderMap.append]
    split
    · rename_i hk; subst hk
      rw [entries_cons, entries_cons, valuesOf_append, valuesOf_append, valuesOf_entry, valuesOf_entry]
      by_cases hx : k' = x
      · subst hx
        rw [valuesOf_nil_of_not_mem (fun hm => h.1 (mem_entries_names hm))]
        simp
      · simp [hx]
    · rw [entries_cons, entries_cons, valuesOf_append, valuesOf_append, ih h.2, List.append_assoc]

theorem extend_names (m : HeaderMap) (hs : List (Str × Str)) (x : Str) :
    x ∈ (m.extend hs).map (·.1) ↔ x ∈ m.map (·.1) ∨ x ∈ hs.map (·.1) := by
  induction hs generalizing m with
  | nil => simp [HeaderMap.extend]
  | cons e hs ih =>
    show x ∈ ((m.append e.1 e.2).extend hs).map (·.1) ↔ _
    rw [ih, names_append]
    simp only [List.map_cons, List.mem_cons]
    constructor
    · rintro ((h | h) | h) <;> simp [h]
    · rintro (h | h | h) <;> simp [h]

theorem extend_values {m : HeaderMap} (h : (m.map (·.1)).Nodup) (hs : List (Str × Str)) (x : Str) :
    valuesOf (HeaderMap.entries (m.extend hs)) x = valuesOf (HeaderMap.entries m) x ++ valuesOf hs x := by
  induction hs generalizing m with
  | nil => simp [HeaderMap.extend, valuesOf]
  | cons e hs ih =>
    show valuesOf (HeaderMap.entries ((m.append e.1 e.2).extend hs)) x = _
    rw [ih (names_append_nodup h _ _), values_append h, valuesOf_cons, List.append_assoc]

/-- Every value in the map was put there. -/
theorem extend_entries_mem {m : HeaderMap} {hs : List (Str × Str)} {e : Str × Str} (hd : (m.map (·.1)).Nodup) :
    e ∈ HeaderMap.entries (m.extend hs) ↔ e ∈ HeaderMap.entries m ∨ e ∈ hs := by
  have key : ∀ (l : List (Str × Str)), e ∈ l ↔ e.2 ∈ valuesOf l e.1 := by
    intro l
    unfold valuesOf
    simp only [List.mem_map, List.mem_filter, decide_eq_true_eq]
    constructor
    · intro h; exact ⟨e, ⟨h, rfl⟩, rfl⟩
    · rintro ⟨e', ⟨h, h1⟩, h2⟩
      have : e' = e := Prod.ext h1 h2
      rw [← this]; exact h
  rw [key, extend_values hd, List.mem_append, ← key, ← key]

/-! ### canonical headers -/

theorem asciiLowerChar_idem (c : Char) : asciiLowerChar (asciiLowerChar c) = asciiLowerChar c := by
  unfold asciiLowerChar
  split
  · rename_i h
    rw [if_neg]
    rw [toNat_ofNat_small (by omega)]; omega
  · rename_i h; simp [h]
theorem asciiLower_idem (s : Str) : asciiLower (asciiLower s) = asciiLower s := by
  simp [asciiLower, asciiLowerChar_idem]

def group (ks : List Str) (f : Str → List Str) : List (Str × List Str) := ks.map fun k => (k, f k)

theorem mapPush_group {ks : List Str} (hs : StrictSorted ks) (f : Str → List Str) (k v : Str) (hf : k ∉ ks → f k = []) :
    mapPush k v (group ks f) = group (setInsert k ks) (fun x => f x ++ if k = x then [v] else []) := by
  induction ks with
  | nil => simp [group, mapPush, setInsert, hf]
  | cons y ks ih =>
    have hy : ∀ z ∈ ks, strLe y z = true ∧ y ≠ z := (List.pairwise_cons.1 hs).1
    simp only [group, List.map_cons, mapPush, setInsert]
    by_cases hk : k = y
    · subst hk
      simp only [if_true, List.map_cons]
      congr 1
      apply List.map_congr_left
      intro z hz
      simp [(hy z hz).2]
    · rw [if_neg hk, if_neg hk]
      by_cases hle : strLe k y = true
      · have hnot : k ∉ y :: ks := by
          intro hm
          rcases List.mem_cons.1 hm with h | h
          · exact hk h
          · exact hk (strLe_antisymm hle (hy k h).1)
        rw [if_pos hle, if_pos hle]
        simp only [List.map_cons, hf hnot, if_true, List.nil_append, if_neg hk, List.append_nil]
        congr 2
        apply List.map_congr_left
        intro z hz
        have : k ≠ z := by rintro rfl; exact hnot (by simp [hz])
        simp [this]
      · rw [if_neg hle, if_neg hle]
        simp only [List.map_cons, if_neg hk, List.append_nil]
        congr 1
        exact ih (List.pairwise_cons.1 hs).2 (fun h => hf (by simp [hk, h]))

theorem canonicalHeaderMap_group (es : List (Str × Str)) {ks : List Str} (hs : StrictSorted ks) (f : Str → List Str)
    (hf : ∀ k, k ∉ ks → f k = []) :
    canonicalHeaderMap es (group ks f) =
      if ∀ e ∈ es, headerToStrOk e.2 = true then
        .ok (group ((es.map fun e => asciiLower e.1).foldl (fun acc x => setInsert x acc) ks)
          (fun x => f x ++ valuesOf (es.map fun e => (asciiLower e.1, e.2)) x))
      else .err .headerValueContainsInvalidCharacter := by
  induction es generalizing ks f with
  | nil => simp [canonicalHeaderMap, valuesOf]
  | cons e es ih =>
    obtain ⟨n, v⟩ := e
    simp only [canonicalHeaderMap]
    by_cases hv : headerToStrOk v = true
    · rw [if_pos hv, mapPush_group hs f _ _ (hf _), ih (setInsert_sorted hs)]
      · have : (∀ e ∈ (n, v) :: es, headerToStrOk e.2 = true) ↔ ∀ e ∈ es, headerToStrOk e.2 = true := by
          simp [hv]
        by_cases hall : ∀ e ∈ es, headerToStrOk e.2 = true
        · rw [if_pos hall, if_pos (this.2 hall)]
          simp only [List.map_cons, List.foldl_cons]
          congr 2
          funext x
          rw [valuesOf_cons]
          simp
        · rw [if_neg hall, if_neg (fun h => hall (this.1 h))]
      · intro k hk
        rw [mem_setInsert, not_or] at hk
        simp [hf k hk.2, Ne.symm hk.1]
    · rw [if_neg hv, if_neg]
      intro h
      exact hv (h (n, v) (by simp))

theorem canonicalHeaderMap_eq (es : List (Str × Str)) :
    canonicalHeaderMap es [] =
      if ∀ e ∈ es, headerToStrOk e.2 = true then
        .ok (group (toSet (es.map fun e => asciiLower e.1)) (valuesOf (es.map fun e => (asciiLower e.1, e.2))))
      else .err .headerValueContainsInvalidCharacter := by
  have := canonicalHeaderMap_group es (ks := []) (by simp [StrictSorted]) (fun _ => []) (by simp)
  simpa [group, toSet] using this

/-- The headers of the request: the fixed host header, then the user's. -/
def allHeaders (hs : List (Str × Str)) : List (Str × Str) := (s% "host", s% "storage.googleapis.com") :: hs

def lowered (hs : List (Str × Str)) : List (Str × Str) := hs.map fun h => (asciiLower h.1, h.2)

/-- The map that `build_signed_url` builds. -/
def urlHeaderMap (hs : List (Str × Str)) : HeaderMap :=
  HeaderMap.extend [(s% "host", [s% "storage.googleapis.com"])] (lowered hs)

/-- The lower-case names, strictly increasing. -/
def signedNames (hs : List (Str × Str)) : List Str := toSet ((allHeaders hs).map fun h => asciiLower h.1)

theorem lower_host : asciiLower (s% "host") = s% "host" := by decide

theorem hostMap_nodup : (([(s% "host", [s% "storage.googleapis.com"])] : HeaderMap).map (·.1)).Nodup := by simp

theorem urlHeaderMap_names (hs : List (Str × Str)) (x : Str) :
    x ∈ (urlHeaderMap hs).map (·.1) ↔ x ∈ (allHeaders hs).map fun h => asciiLower h.1 := by
  unfold urlHeaderMap
  rw [extend_names]
  simp [allHeaders, lowered, lower_host]

theorem urlHeaderMap_lower {hs : List (Str × Str)} {x : Str} (h : x ∈ (urlHeaderMap hs).map (·.1)) : asciiLower x = x := by
  rw [urlHeaderMap_names, List.mem_map] at h
  obtain ⟨a, _, rfl⟩ := h
  exact asciiLower_idem _

theorem signedHeaders_url (hs : List (Str × Str)) : signedHeaders (urlHeaderMap hs) = join (s% ";") (signedNames hs) := by
  unfold signedHeaders signedNames
  congr 1
  apply toSet_ext
  intro x
  rw [← urlHeaderMap_names]
  constructor
  · intro h
    rw [List.mem_map] at h
    obtain ⟨e, he, rfl⟩ := h
    rw [urlHeaderMap_lower (List.mem_map.2 ⟨e, he, rfl⟩)]
    exact List.mem_map.2 ⟨e, he, rfl⟩
  · intro h
    rw [List.mem_map] at h ⊢
    obtain ⟨e, he, rfl⟩ := h
    exact ⟨e, he, urlHeaderMap_lower (List.mem_map.2 ⟨e, he, rfl⟩)⟩

theorem urlHeaderMap_values (hs : List (Str × Str)) (x : Str) :
    valuesOf (HeaderMap.entries (urlHeaderMap hs)) x = valuesOf (lowered (allHeaders hs)) x := by
  unfold urlHeaderMap
  rw [extend_values hostMap_nodup]
  unfold lowered allHeaders
  rw [List.map_cons, valuesOf_cons, lower_host]
  congr 1
  simp [HeaderMap.entries, valuesOf_cons]
  simp [valuesOf]

theorem entries_lowered (hs : List (Str × Str)) :
    (HeaderMap.entries (urlHeaderMap hs)).map (fun e => (asciiLower e.1, e.2)) = HeaderMap.entries (urlHeaderMap hs) := by
  conv => rhs; rw [← List.map_id (HeaderMap.entries (urlHeaderMap hs))]
  apply List.map_congr_left
  intro e he
  have := urlHeaderMap_lower (hs := hs) (x := e.1) (mem_entries_names (List.mem_map.2 ⟨e, he, rfl⟩))
  simp [this]

theorem urlHeaderMap_entries_mem (hs : List (Str × Str)) (e : Str × Str) :
    e ∈ HeaderMap.entries (urlHeaderMap hs) ↔ e ∈ lowered (allHeaders hs) := by
  unfold urlHeaderMap
  rw [extend_entries_mem hostMap_nodup]
  simp [HeaderMap.entries, lowered, allHeaders, lower_host]

theorem host_value_ok : headerToStrOk (s% "storage.googleapis.com") = true := by decide +kernel

theorem canonicalHeaderMap_url (hs : List (Str × Str)) :
    canonicalHeaderMap (HeaderMap.entries (urlHeaderMap hs)) [] =
      if ∀ h ∈ hs, headerToStrOk h.2 = true then
        .ok (group (signedNames hs) (valuesOf (lowered (allHeaders hs))))
      else .err .headerValueContainsInvalidCharacter := by
  rw [canonicalHeaderMap_eq]
  have hiff : (∀ e ∈ HeaderMap.entries (urlHeaderMap hs), headerToStrOk e.2 = true) ↔ ∀ h ∈ hs, headerToStrOk h.2 = true := by
    simp only [urlHeaderMap_entries_mem, lowered, allHeaders, List.map_cons, List.mem_cons, List.mem_map]
    constructor
    · intro h x hx
      exact h (asciiLower x.1, x.2) (.inr ⟨x, hx, rfl⟩)
    · rintro h e (rfl | ⟨x, hx, rfl⟩)
      · exact host_value_ok
      · exact h x hx
  by_cases hall : ∀ h ∈ hs, headerToStrOk h.2 = true
  · rw [if_pos (hiff.2 hall), if_pos hall, entries_lowered]
    congr 1
    have e1 : toSet ((HeaderMap.entries (urlHeaderMap hs)).map fun e => asciiLower e.1) = signedNames hs := by
      unfold signedNames
      apply toSet_ext
      intro x
      simp only [List.mem_map]
      constructor
      · rintro ⟨e, he, rfl⟩
        rw [urlHeaderMap_entries_mem, lowered, List.mem_map] at he
        obtain ⟨a, ha, rfl⟩ := he
        exact ⟨a, ha, (asciiLower_idem _).symm⟩
      · rintro ⟨a, ha, rfl⟩
        refine ⟨(asciiLower a.1, a.2), ?_, asciiLower_idem _⟩
        rw [urlHeaderMap_entries_mem, lowered, List.mem_map]
        exact ⟨a, ha, rfl⟩
    rw [e1]
    congr 1
    funext x
    exact urlHeaderMap_values hs x
  · rw [if_neg (fun h => hall (hiff.1 h)), if_neg hall]

/-! ### header validation -/

theorem checkHeaders_ok {hs : List (Str × Str)} (h : ∀ x ∈ hs, headerName x.1 ≠ none ∧ headerValueOk x.2 = true) :
    checkHeaders hs = .ok (lowered hs) := by
  induction hs with
  | nil => rfl
  | cons e hs ih =>
    obtain ⟨k, v⟩ := e
    obtain ⟨h1, h2⟩ := h (k, v) (by simp)
    simp only [checkHeaders]
    cases hn : headerName k with
    | none => exact absurd hn h1
    | some k' =>
      simp only at h2
      simp only [h2, Bool.true_eq_false, if_false, ih (fun x hx => h x (by simp [hx]))]
      unfold headerName at hn
      split at hn
      · simp only [Option.some.injEq] at hn; subst hn; rfl
      · cases hn

/-- The error for the first bad header: its name is checked before its value. -/
def headerRejection : List (Str × Str) → Option BuildUrlError
  | [] => none
  | (k, v) :: r =>
    if headerName k = none then some .invalidHeaderName
    else if headerValueOk v = false then some .invalidHeaderValue
    else headerRejection r

theorem checkHeaders_eq (hs : List (Str × Str)) :
    checkHeaders hs = match headerRejection hs with
      | some e => .err e
      | none => .ok (lowered hs) := by
  induction hs with
  | nil => rfl
  | cons e hs ih =>
    obtain ⟨k, v⟩ := e
    simp only [checkHeaders, headerRejection]
    cases hn : headerName k with
    | none => simp
    | some k' =>
      simp only [reduceCtorEq, if_false]
      by_cases hv : headerValueOk v = false
      · simp [hv]
      · rw [if_neg hv, if_neg hv, ih]
        have : k' = asciiLower k := by
          unfold headerName at hn
          split at hn
          · simpa using hn.symm
          · cases hn
        cases headerRejection hs <;> simp [lowered, this]

theorem headerRejection_ne_method (hs : List (Str × Str)) (e : HttpVerbError) : headerRejection hs ≠ some (.httpMethod e) := by
  induction hs with
  | nil => simp [headerRejection]
  | cons x hs ih =>
    obtain ⟨k, v⟩ := x
    simp only [headerRejection]
    split
    · simp
    · split
      · simp
      · exact ih

theorem headerRejection_ne_request (hs : List (Str × Str)) : headerRejection hs ≠ some .httpRequest := by
  induction hs with
  | nil => simp [headerRejection]
  | cons x hs ih =>
    obtain ⟨k, v⟩ := x
    simp only [headerRejection]
    split
    · simp
    · split
      · simp
      · exact ih

theorem headerRejection_none {hs : List (Str × Str)} :
    headerRejection hs = none ↔ ∀ h ∈ hs, headerName h.1 ≠ none ∧ headerValueOk h.2 = true := by
  induction hs with
  | nil => simp [headerRejection]
  | cons e hs ih =>
    obtain ⟨k, v⟩ := e
    simp only [headerRejection, List.forall_mem_cons]
    by_cases hk : headerName k = none
    · simp [hk]
    · by_cases hv : headerValueOk v = true
      · simp [hk, hv, ih]
      · simp [hk, hv]

end CSS
