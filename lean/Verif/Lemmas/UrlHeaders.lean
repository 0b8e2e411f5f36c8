import Verif.Lemmas.UrlSigned
/- The characters of signed header names and values. -/
set_option linter.unusedSimpArgs false
namespace CSS
open Spec

theorem isTokenChar_ascii {c : Char} (h : isTokenChar c = true) : c.toNat < 128 := by
  unfold isTokenChar at h
  simp at h
  omega

theorem isTokenChar_mem {c : Char} (h : isTokenChar c = true) : c ∈ tokenChars :=
  forall_ascii (P := fun c => isTokenChar c = true → c ∈ tokenChars) (by decide +kernel) c (isTokenChar_ascii h) h

theorem mem_isTokenChar {c : Char} (h : c ∈ tokenChars) : isTokenChar c = true := by
  have : ∀ x ∈ tokenChars, isTokenChar x = true := by decide +kernel
  exact this c h

theorem headerName_iff {k : Str} : headerName k ≠ none ↔ k ≠ [] ∧ (∀ c ∈ k, c ∈ tokenChars) ∧ k.length ≤ 65535 := by
  unfold headerName
  by_cases h : k ≠ [] ∧ k.all isTokenChar = true ∧ k.length ≤ 65535
  · rw [if_pos h]
    refine ⟨fun _ => ⟨h.1, fun c hc => isTokenChar_mem (List.all_eq_true.1 h.2.1 c hc), h.2.2⟩, fun _ => by simp⟩
  · rw [if_neg h]
    refine ⟨fun h' => absurd rfl h', fun ⟨h1, h2, h3⟩ => absurd ⟨h1, List.all_eq_true.2 (fun c hc => mem_isTokenChar (h2 c hc)), h3⟩ h⟩

theorem plain_iff {v : Str} : headerToStrOk v = true ↔ PlainValue v := by
  unfold headerToStrOk PlainValue
  rw [List.all_eq_true]
  induction v with
  | nil => simp [utf8]
  | cons c v ih =>
    rw [utf8_cons]
    simp only [List.forall_mem_append, List.forall_mem_cons, ih]
    apply and_congr_left
    intro _
    by_cases hc : c.toNat < 128
    · rw [utf8Char_ascii hc]
      simp only [List.mem_singleton, forall_eq, toNat_ofNat8 (by omega : c.toNat < 256)]
      simp only [Bool.or_eq_true, Bool.and_eq_true, decide_eq_true_eq]
      have : c = '\t' ↔ c.toNat = 9 := by
        constructor
        · rintro rfl; rfl
        · intro h; rw [← char_ofNat_toNat c, h]
      rw [this]
      omega
    · constructor
      · intro h
        obtain ⟨b, hb⟩ := List.exists_mem_of_ne_nil _ (utf8Char_ne_nil c)
        have h1 := h b hb
        have h2 := utf8Char_nonascii (by omega) b hb
        simp only [Bool.or_eq_true, Bool.and_eq_true, decide_eq_true_eq] at h1
        omega
      · rintro (rfl | h)
        · exact absurd (by decide) hc
        · omega

theorem plain_valueOk {v : Str} (h : headerToStrOk v = true) : headerValueOk v = true := by
  unfold headerToStrOk at h
  unfold headerValueOk
  rw [List.all_eq_true] at h ⊢
  intro b hb
  have := h b hb
  simp only [Bool.or_eq_true, Bool.and_eq_true, decide_eq_true_eq] at this ⊢
  simp only [ne_eq, decide_not, Bool.not_eq_true', decide_eq_false_iff_not]
  omega

theorem asciiLower_token {k : Str} (h : ∀ c ∈ k, c ∈ tokenChars) : ∀ c ∈ asciiLower k, c ∈ tokenChars := by
  intro c hc
  unfold asciiLower at hc
  rw [List.mem_map] at hc
  obtain ⟨d, hd, rfl⟩ := hc
  have : ∀ x ∈ tokenChars, asciiLowerChar x ∈ tokenChars := by decide +kernel
  exact this d (h d hd)

theorem mem_signedNames (hs : List (Str × Str)) (n : Str) :
    n ∈ signedNames hs ↔ n = s% "host" ∨ ∃ h ∈ hs, n = asciiLower h.1 := by
  unfold signedNames
  rw [mem_toSet]
  simp only [allHeaders, List.map_cons, List.mem_cons, List.mem_map, lower_host]
  constructor
  · rintro (h | ⟨a, ha, rfl⟩)
    · exact .inl h
    · exact .inr ⟨a, ha, rfl⟩
  · rintro (h | ⟨a, ha, rfl⟩)
    · exact .inl h
    · exact .inr ⟨a, ha, rfl⟩

theorem mem_signedNames_iff (o : UrlOptions) (n : Str) :
    n ∈ signedNames o.headers ↔ ∃ x ∈ requestHeaders o, asciiLower x.1 = n := by
  rw [mem_signedNames, requestHeaders]
  constructor
  · rintro (rfl | ⟨x, hx, rfl⟩)
    · exact ⟨_, List.mem_cons_self, lower_host⟩
    · exact ⟨x, List.mem_cons_of_mem _ hx, rfl⟩
  · rintro ⟨x, hx, rfl⟩
    rcases List.mem_cons.1 hx with rfl | hx
    · exact .inl lower_host
    · exact .inr ⟨x, hx, rfl⟩

theorem signedNames_lt (hs : List (Str × Str)) : (signedNames hs).Pairwise LexLt :=
  (toSet_sorted _).imp fun h => by
    rcases (strLe_iff _ _).1 h.1 with h' | h'
    · exact absurd h' h.2
    · exact h'

theorem values_eq (o : UrlOptions) (n : Str) : valuesOf (lowered (allHeaders o.headers)) n = headerValues (requestHeaders o) n := by
  unfold valuesOf lowered headerValues requestHeaders allHeaders
  generalize (s% "host", s% "storage.googleapis.com") :: o.headers = l
  rw [List.filter_map, List.map_map]
  rfl

theorem partsOf_headers (env : Env) (o : UrlOptions) (t : Time) (email : Str) :
    (partsOf env o t email).headers = (signedNames o.headers).map fun n => (n, headerValues (requestHeaders o) n) := by
  simp only [partsOf, group]
  apply List.map_congr_left
  intro n _
  rw [values_eq]

theorem signedNames_token {hs : List (Str × Str)} (h : ∀ x ∈ hs, headerName x.1 ≠ none) :
    ∀ n ∈ signedNames hs, ∀ c ∈ n, c ∈ tokenChars := by
  intro n hn
  rcases (mem_signedNames hs n).1 hn with rfl | ⟨x, hx, rfl⟩
  · decide
  · exact asciiLower_token (headerName_iff.1 (h x hx)).2.1

theorem headerValues_plain {o : UrlOptions} (h : ∀ x ∈ o.headers, headerToStrOk x.2 = true) (n : Str) :
    ∀ v ∈ headerValues (requestHeaders o) n, PlainValue v := by
  intro v hv
  unfold headerValues requestHeaders at hv
  rw [List.mem_map] at hv
  obtain ⟨x, hx, rfl⟩ := hv
  rcases List.mem_cons.1 (List.mem_filter.1 hx).1 with rfl | hx
  · exact plain_iff.1 host_value_ok
  · exact plain_iff.1 (h x hx)

theorem plain_join_comma {l : List Str} (h : ∀ v ∈ l, PlainValue v) : PlainValue (join (s% ",") l) := by
  intro c hc
  rcases mem_join hc with hc | ⟨v, hv, hc⟩
  · simp only [List.mem_singleton] at hc; subst hc; right; decide
  · exact h v hv c hc

theorem plain_no_lf {v : Str} (h : PlainValue v) : '\n' ∉ v := by
  intro hc
  rcases h _ hc with h | h
  · exact absurd h (by decide)
  · exact absurd h (by decide)

end CSS
