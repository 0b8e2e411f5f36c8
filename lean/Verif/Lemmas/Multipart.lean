import Verif.Model.Multipart
import Verif.Spec.Multipart
import Verif.Lemmas.Utf8
/- Posted forms: the parts of a body are determined by it; what the browser writes is read as it is written. -/
set_option linter.unusedSimpArgs false
namespace CSS
open Spec ImageUploader

/-! ### Splitting at a delimiter -/

theorem infix_cons {α : Type} {d : List α} {c : α} {l : List α} : d <:+: c :: l ↔ d <+: c :: l ∨ d <:+: l :=
  List.infix_cons_iff

/-- The first occurrence of a delimiter that does not overlap itself is the one to split at. -/
theorem split_unique {α : Type} {h : α} {t a1 a2 x1 x2 : List α} (hh : h ∉ t)
    (h1 : ¬ h :: t <:+: a1) (h2 : ¬ h :: t <:+: a2) (heq : a1 ++ (h :: t ++ x1) = a2 ++ (h :: t ++ x2)) : a1 = a2 ∧ x1 = x2 := by
  have key : ∀ (a1 a2 x1 x2 : List α), ¬ h :: t <:+: a2 → a1 ++ (h :: t ++ x1) = a2 ++ (h :: t ++ x2) → a1.length ≤ a2.length →
      a1 = a2 := by
    intro a1 a2 x1 x2 h2 heq hl
    rcases List.append_eq_append_iff.1 heq with ⟨u, hu, hx⟩ | ⟨u, hu, hx⟩
    · cases u with
      | nil => simpa using hu.symm
      | cons c u =>
        exfalso
        rw [List.cons_append, List.cons_append, List.cons.injEq] at hx
        obtain ⟨hc, hx⟩ := hx
        subst hc
        rcases List.append_eq_append_iff.1 hx with ⟨v, hv, hw⟩ | ⟨v, hv, hw⟩
        · exact h2 ⟨a1, v, by rw [hu, hv]; simp⟩
        · cases v with
          | nil => exact h2 ⟨a1, [], by rw [hu]; simp at hv; simp [hv]⟩
          | cons d v =>
            rw [List.cons_append, List.cons_append, List.cons.injEq] at hw
            exact hh (by rw [hv, hw.1]; simp)
    · have : u = [] := by
        have := congrArg List.length hu
        rw [List.length_append] at this
        exact List.length_eq_zero_iff.1 (by omega)
      rw [hu, this, List.append_nil]
  have ha : a1 = a2 := by
    rcases Nat.le_total a1.length a2.length with hl | hl
    · exact key a1 a2 x1 x2 h2 heq hl
    · exact (key a2 a1 x2 x1 h1 heq.symm hl).symm
  subst ha
  exact ⟨rfl, by simpa using heq⟩

/-- Splitting at the first occurrence of a byte. -/
theorem split_byte {α : Type} {b : α} {a1 a2 x1 x2 : List α} (h1 : b ∉ a1) (h2 : b ∉ a2) (heq : a1 ++ b :: x1 = a2 ++ b :: x2) :
    a1 = a2 ∧ x1 = x2 := by
  refine split_unique (h := b) (t := []) (by simp) ?_ ?_ (by simpa using heq)
  · exact fun h => h1 (h.subset (by simp))
  · exact fun h => h2 (h.subset (by simp))

/-! ### No delimiter in a part -/

/-- The part of a delimiter after its carriage return. -/
theorem delimiter_eq (b : Str) : delimiter b = 13 :: 10 :: 45 :: 45 :: utf8 b := by
  unfold delimiter
  rw [utf8_append]
  have : utf8 (s% "\r\n--") = [13, 10, 45, 45] := by decide +kernel
  rw [this]; rfl

theorem crlf_eq : utf8 (s% "\r\n") = [13, 10] := by decide +kernel

theorem delimiter_skip {d : Bytes} {u l : Bytes} (hu : 13 ∉ u) (h : 13 :: d <:+: u ++ l) : 13 :: d <:+: l := by
  induction u with
  | nil => exact h
  | cons c u ih =>
    rw [List.cons_append, infix_cons] at h
    rcases h with h | h
    · rw [List.cons_prefix_cons] at h
      exact absurd (by simp [h.1]) hu
    · exact ih (fun hm => hu (List.mem_cons_of_mem _ hm)) h

theorem delimiter_skip_cons {d : Bytes} {c : UInt8} {u l : Bytes} (hc : c ≠ 13) (hu : 13 ∉ u) (h : 13 :: d <:+: c :: (u ++ l)) :
    13 :: d <:+: l :=
  delimiter_skip (u := c :: u) (by simp [hu, hc.symm]) h

theorem delimiter_skip_line {d : Bytes} {x : UInt8} {l : Bytes} (hx : x ≠ 45) (h : 13 :: 10 :: 45 :: d <:+: 13 :: 10 :: x :: l) :
    13 :: 10 :: 45 :: d <:+: x :: l := by
  rw [infix_cons, infix_cons] at h
  rcases h with h | h | h
  · simp only [List.cons_prefix_cons, true_and] at h
    exact absurd h.1.symm hx
  · simp only [List.cons_prefix_cons] at h
    exact absurd h.1 (by decide)
  · exact h

theorem delimiter_content {ub content : Bytes} (h : 13 :: 10 :: 45 :: 45 :: ub <:+: 13 :: 10 :: content) : ub <:+: content := by
  rw [infix_cons, infix_cons] at h
  rcases h with h | h | h
  · simp only [List.cons_prefix_cons, true_and] at h
    obtain ⟨r, rfl⟩ := h
    exact ⟨[45, 45], r, by simp⟩
  · simp only [List.cons_prefix_cons] at h
    exact absurd h.1 (by decide)
  · obtain ⟨p, q, rfl⟩ := h
    exact ⟨p ++ [13, 10, 45, 45], q, by simp⟩

/-- Text without a carriage return has no byte 13. -/
theorem no_cr {s : Str} (h : '\r' ∉ s) : (13 : UInt8) ∉ utf8 s := by
  intro hb
  obtain ⟨c, hc, he⟩ := mem_utf8_ascii hb (by decide)
  have : c = '\r' := by
    rw [← char_ofNat_toNat c, he]; rfl
  exact h (this ▸ hc)

theorem no_quote {s : Str} (h : '"' ∉ s) : (34 : UInt8) ∉ utf8 s := by
  intro hb
  obtain ⟨c, hc, he⟩ := mem_utf8_ascii hb (by decide)
  have : c = '"' := by
    rw [← char_ofNat_toNat c, he]; rfl
  exact h (this ▸ hc)

theorem field_text_eq (name : Str) (content : Bytes) :
    utf8 (s% "\r\n") ++ (utf8 (s% "Content-Disposition: form-data; name=\"" ++ name ++ s% "\"\r\n\r\n") ++ content) =
      13 :: 10 :: 67 :: (utf8 (s% "ontent-Disposition: form-data; name=\"" ++ name ++ s% "\"") ++ 13 :: 10 :: 13 :: 10 :: content) := by
  have h1 : utf8 (s% "\"\r\n\r\n") = utf8 (s% "\"") ++ [13, 10, 13, 10] := by decide +kernel
  have h2 : utf8 (s% "Content-Disposition: form-data; name=\"") = 67 :: utf8 (s% "ontent-Disposition: form-data; name=\"") := by
    decide +kernel
  rw [utf8_append, utf8_append, utf8_append, utf8_append, crlf_eq, h1, h2]
  simp only [List.append_assoc, List.cons_append, List.nil_append]

theorem file_text_eq (name filename type : Str) (content : Bytes) :
    utf8 (s% "\r\n") ++ (utf8 (s% "Content-Disposition: form-data; name=\"" ++ name ++ s% "\"; filename=\"" ++ filename ++
        s% "\"\r\nContent-Type: " ++ type ++ s% "\r\n\r\n") ++ content) =
      13 :: 10 :: 67 :: (utf8 (s% "ontent-Disposition: form-data; name=\"" ++ name ++ s% "\"; filename=\"" ++ filename ++ s% "\"") ++
        13 :: 10 :: 67 :: (utf8 (s% "ontent-Type: " ++ type) ++ 13 :: 10 :: 13 :: 10 :: content)) := by
  have h1 : utf8 (s% "\r\n\r\n") = [13, 10, 13, 10] := by decide +kernel
  have h2 : utf8 (s% "Content-Disposition: form-data; name=\"") = 67 :: utf8 (s% "ontent-Disposition: form-data; name=\"") := by
    decide +kernel
  have h3 : utf8 (s% "\"\r\nContent-Type: ") = utf8 (s% "\"") ++ 13 :: 10 :: 67 :: utf8 (s% "ontent-Type: ") := by decide +kernel
  rw [utf8_append, utf8_append, utf8_append, utf8_append, utf8_append, utf8_append, utf8_append, utf8_append, utf8_append, utf8_append,
    utf8_append, crlf_eq, h1, h2, h3]
  simp only [List.append_assoc, List.cons_append, List.nil_append]

theorem not_mem_specials {s : Str} (h : ∀ c ∈ s, c ∉ s% "\"\r\n") : '"' ∉ s ∧ '\r' ∉ s ∧ '\n' ∉ s :=
  ⟨fun hm => h _ hm (by decide), fun hm => h _ hm (by decide), fun hm => h _ hm (by decide)⟩

/-- The bytes after the empty line of a part. -/
def Spec.Part.content : Part → Bytes
  | .field _ c => c
  | .file _ _ _ c => c

/-- A delimiter in a part is in its content. -/
theorem part_delimiter {b : Str} {p : Part} {text : Bytes} (hp : PartText p text)
    (h : delimiter b <:+: utf8 (s% "\r\n") ++ text) : utf8 b <:+: p.content := by
  rw [delimiter_eq] at h
  have hlit : ∀ s : Str, '\r' ∉ s → ∀ t : Str, '\r' ∉ t → '\r' ∉ s ++ t := fun s hs t ht hm =>
    (List.mem_append.1 hm).elim hs ht
  cases hp with
  | field name content hn =>
    rw [field_text_eq] at h
    replace h := delimiter_skip_line (by decide) h
    have hcr : (13 : UInt8) ∉ utf8 (s% "ontent-Disposition: form-data; name=\"" ++ name ++ s% "\"") := by
      exact no_cr (hlit _ (hlit _ (by decide) _ (not_mem_specials hn).2.1) _ (by decide))
    exact delimiter_content (delimiter_skip_line (by decide) (delimiter_skip_cons (by decide) hcr h))
  | file name filename type content hn hf ht =>
    rw [file_text_eq] at h
    replace h := delimiter_skip_line (by decide) h
    have hcr : (13 : UInt8) ∉ utf8 (s% "ontent-Disposition: form-data; name=\"" ++ name ++ s% "\"; filename=\"" ++ filename ++
        s% "\"") := by
      exact no_cr (hlit _ (hlit _ (hlit _ (hlit _ (by decide) _ (not_mem_specials hn).2.1) _ (by decide)) _
        (not_mem_specials hf).2.1) _ (by decide))
    replace h := delimiter_skip_line (by decide) (delimiter_skip_cons (by decide) hcr h)
    have hcr' : (13 : UInt8) ∉ utf8 (s% "ontent-Type: " ++ type) := by
      exact no_cr (hlit _ (by decide) _ fun hm => ht _ hm (by decide))
    exact delimiter_content (delimiter_skip_line (by decide) (delimiter_skip_cons (by decide) hcr' h))

/-! ### A part and a body are read in one way -/

theorem part_unique {p q : Part} {text : Bytes} (hp : PartText p text) (hq : PartText q text) : p = q := by
  have hmark : ∀ s : Str, utf8 ('"' :: s) = 34 :: utf8 s := fun s => by
    rw [utf8_cons]; rfl
  have e1 : ∀ name : Str, ∀ rest : Str, ∀ content : Bytes,
      utf8 (s% "Content-Disposition: form-data; name=\"" ++ name ++ ('"' :: rest)) ++ content =
        utf8 (s% "Content-Disposition: form-data; name=\"") ++ (utf8 name ++ 34 :: (utf8 rest ++ content)) := by
    intro name rest content
    rw [utf8_append, utf8_append, hmark]
    simp only [List.append_assoc, List.cons_append]
  have e3 : ∀ name filename type : Str, ∀ content : Bytes,
      utf8 (s% "Content-Disposition: form-data; name=\"" ++ name ++ s% "\"; filename=\"" ++ filename ++
        s% "\"\r\nContent-Type: " ++ type ++ s% "\r\n\r\n") ++ content =
      utf8 (s% "Content-Disposition: form-data; name=\"") ++ (utf8 name ++ 34 ::
        (utf8 (s% "; filename=\"") ++ (utf8 filename ++ 34 :: (utf8 (s% "\r\nContent-Type: ") ++
          (utf8 type ++ 13 :: ([10, 13, 10] ++ content)))))) := by
    intro name filename type content
    have h1 : utf8 (s% "\"; filename=\"") = 34 :: utf8 (s% "; filename=\"") := by decide +kernel
    have h2 : utf8 (s% "\r\n\r\n") = [13, 10, 13, 10] := by decide +kernel
    have h3 : utf8 (s% "\"\r\nContent-Type: ") = 34 :: utf8 (s% "\r\nContent-Type: ") := by decide +kernel
    rw [utf8_append, utf8_append, utf8_append, utf8_append, utf8_append, utf8_append, h1, h2, h3]
    simp only [List.append_assoc, List.cons_append, List.nil_append]
  have hc : utf8 (s% "\r\n\r\n") = [13, 10, 13, 10] := by decide +kernel
  have hs : utf8 (s% "; filename=\"") = 59 :: utf8 (s% " filename=\"") := by decide +kernel
  cases hp with
  | field name content hn =>
    generalize ht : utf8 (s% "Content-Disposition: form-data; name=\"" ++ name ++ s% "\"\r\n\r\n") ++ content = text at hq
    rw [e1 name (s% "\r\n\r\n") content] at ht
    cases hq with
    | field name' content' hn' =>
      rw [e1 name' (s% "\r\n\r\n") content'] at ht
      obtain ⟨h1, h2⟩ := split_byte (no_quote (not_mem_specials hn).1) (no_quote (not_mem_specials hn').1)
        (List.append_cancel_left ht)
      rw [utf8_inj h1, List.append_cancel_left h2]
    | file name' filename' type' content' hn' hf' ht' =>
      rw [e3] at ht
      obtain ⟨h1, h2⟩ := split_byte (no_quote (not_mem_specials hn).1) (no_quote (not_mem_specials hn').1)
        (List.append_cancel_left ht)
      rw [hc, hs] at h2
      simp only [List.cons_append, List.cons.injEq] at h2
      exact absurd h2.1 (by decide)
  | file name filename type content hn hf ht0 =>
    generalize ht : utf8 (s% "Content-Disposition: form-data; name=\"" ++ name ++ s% "\"; filename=\"" ++ filename ++
        s% "\"\r\nContent-Type: " ++ type ++ s% "\r\n\r\n") ++ content = text at hq
    rw [e3] at ht
    cases hq with
    | field name' content' hn' =>
      rw [e1 name' (s% "\r\n\r\n") content'] at ht
      obtain ⟨h1, h2⟩ := split_byte (no_quote (not_mem_specials hn).1) (no_quote (not_mem_specials hn').1)
        (List.append_cancel_left ht)
      rw [hc, hs] at h2
      simp only [List.cons_append, List.cons.injEq] at h2
      exact absurd h2.1 (by decide)
    | file name' filename' type' content' hn' hf' ht' =>
      rw [e3] at ht
      obtain ⟨h1, h2⟩ := split_byte (no_quote (not_mem_specials hn).1) (no_quote (not_mem_specials hn').1)
        (List.append_cancel_left ht)
      obtain ⟨h3, h4⟩ := split_byte (no_quote (not_mem_specials hf).1) (no_quote (not_mem_specials hf').1)
        (List.append_cancel_left h2)
      obtain ⟨h5, h6⟩ := split_byte (no_cr fun hm => ht0 _ hm (by decide)) (no_cr fun hm => ht' _ hm (by decide))
        (List.append_cancel_left h4)
      rw [utf8_inj h1, utf8_inj h3, utf8_inj h5, List.append_cancel_left h6]

theorem texts_unique {b : Str} (hb : '\r' ∉ b) {rest rest' : Bytes} : ∀ (ts ts' : List Bytes),
    (∀ t ∈ ts, ¬ delimiter b <:+: utf8 (s% "\r\n") ++ t) → (∀ t ∈ ts', ¬ delimiter b <:+: utf8 (s% "\r\n") ++ t) →
    (ts.flatMap fun t => delimiter b ++ utf8 (s% "\r\n") ++ t) ++ delimiter b ++ utf8 (s% "--") ++ rest =
      (ts'.flatMap fun t => delimiter b ++ utf8 (s% "\r\n") ++ t) ++ delimiter b ++ utf8 (s% "--") ++ rest' → ts = ts' := by
  have hd : (13 : UInt8) ∉ (10 : UInt8) :: 45 :: 45 :: utf8 b := by
    simp only [List.mem_cons, not_or]
    exact ⟨by decide, by decide, by decide, no_cr hb⟩
  have hdash : utf8 (s% "--") = [45, 45] := by decide +kernel
  have htail : ∀ (ts : List Bytes) (rest : Bytes), ∃ x,
      (ts.flatMap fun t => delimiter b ++ utf8 (s% "\r\n") ++ t) ++ delimiter b ++ utf8 (s% "--") ++ rest = delimiter b ++ x := by
    intro ts rest
    cases ts with
    | nil => exact ⟨utf8 (s% "--") ++ rest, by simp⟩
    | cons t ts => exact ⟨utf8 (s% "\r\n") ++ t ++ ((ts.flatMap fun t => delimiter b ++ utf8 (s% "\r\n") ++ t) ++ delimiter b ++
        utf8 (s% "--") ++ rest), by simp⟩
  intro ts
  induction ts with
  | nil =>
    intro ts' _ _ h
    cases ts' with
    | nil => rfl
    | cons t ts' =>
      exfalso
      simp only [List.flatMap_nil, List.nil_append, List.flatMap_cons, List.append_assoc] at h
      have := List.append_cancel_left h
      rw [hdash, crlf_eq] at this
      simp only [List.cons_append, List.cons.injEq] at this
      exact absurd this.1 (by decide)
  | cons t ts ih =>
    intro ts' h1 h2 h
    cases ts' with
    | nil =>
      exfalso
      simp only [List.flatMap_nil, List.nil_append, List.flatMap_cons, List.append_assoc] at h
      have := List.append_cancel_left h
      rw [hdash, crlf_eq] at this
      simp only [List.cons_append, List.cons.injEq] at this
      exact absurd this.1 (by decide)
    | cons t' ts' =>
      simp only [List.flatMap_cons, List.append_assoc] at h
      have h := List.append_cancel_left h
      obtain ⟨x, hx⟩ := htail ts rest
      obtain ⟨x', hx'⟩ := htail ts' rest'
      simp only [List.append_assoc] at hx hx'
      have g1 := h1 t (by simp)
      have g2 := h2 t' (by simp)
      rw [hx, hx', ← List.append_assoc (utf8 (s% "\r\n")) t, ← List.append_assoc (utf8 (s% "\r\n")) t'] at h
      rw [delimiter_eq] at h g1 g2
      obtain ⟨ha, hxx⟩ := split_unique hd g1 g2 h
      have ht := List.append_cancel_left ha
      subst ht
      subst hxx
      rw [ih ts' (fun u hu => h1 u (by simp [hu])) (fun u hu => h2 u (by simp [hu])) (by
        simp only [List.append_assoc]; rw [hx, hx'])]

theorem parts_unique : ∀ {ps qs : List Part} {ts : List Bytes}, ts.length = ps.length → ts.length = qs.length →
    (∀ x ∈ ps.zip ts, PartText x.1 x.2) → (∀ x ∈ qs.zip ts, PartText x.1 x.2) → ps = qs := by
  intro ps
  induction ps with
  | nil =>
    intro qs ts h1 h2 _ _
    rw [h1] at h2
    exact (List.length_eq_zero_iff.1 h2.symm).symm
  | cons p ps ih =>
    intro qs ts h1 h2 h3 h4
    cases ts with
    | nil => cases h1
    | cons t ts =>
      cases qs with
      | nil => cases h2
      | cons q qs =>
        have hpq : p = q := part_unique (h3 (p, t) (by simp)) (h4 (q, t) (by simp))
        rw [hpq, ih (Nat.succ.inj h1) (Nat.succ.inj h2) (fun x hx => h3 x (by simp [hx])) (fun x hx => h4 x (by simp [hx]))]

/-- A body has one reading. -/
theorem bodyParts_unique {b : Str} (hb : '\r' ∉ b) {body : Bytes} {ps qs : List Part} (hp : BodyParts b body ps)
    (hq : BodyParts b body qs) : ps = qs := by
  obtain ⟨ts, rest, h1, h2, h3, h4⟩ := hp
  obtain ⟨ts', rest', g1, g2, g3, g4⟩ := hq
  have := texts_unique hb ts ts' h2 g2 (h1.symm.trans g1)
  subst this
  exact parts_unique h3 g3 h4 g4

/-! ### What the browser does to names and values -/

theorem escapeName_safe (s : Str) : ∀ c ∈ escapeName s, c ∉ s% "\"\r\n" := by
  intro c hc
  unfold escapeName at hc
  rw [List.mem_flatMap] at hc
  obtain ⟨d, _, hd⟩ := hc
  split at hd
  · revert c; decide
  · split at hd
    · revert c; decide
    · split at hd
      · revert c; decide
      · rename_i h1 h2 h3
        rw [List.mem_singleton] at hd
        subst hd
        simp [h1, h2, h3]

theorem escapeName_id {s : Str} (h : ∀ c ∈ s, c ∉ s% "\"\r\n") : escapeName s = s := by
  unfold escapeName
  induction s with
  | nil => rfl
  | cons c s ih =>
    rw [List.flatMap_cons, ih fun d hd => h d (by simp [hd])]
    have := h c (by simp)
    simp only [List.mem_cons, List.not_mem_nil, or_false, not_or] at this
    rw [if_neg this.2.2, if_neg this.2.1, if_neg this.1]; rfl

theorem lineEnds_iff {s t : Str} : LineEnds s t ↔ t = normalizeNewlines s := by
  constructor
  · intro h
    induction h with
    | nil => rfl
    | both _ ih => rw [normalizeNewlines, ih]
    | carriageReturn hh _ ih =>
      rw [normalizeNewlines, ih]
      rintro r rfl
      exact hh rfl
    | lineFeed _ ih => rw [normalizeNewlines, ih]
    | other c h1 h2 _ ih =>
      rw [normalizeNewlines, ih]
      · exact fun _ h _ => h1 h
      · exact h1
      · exact h2
  · rintro rfl
    fun_induction normalizeNewlines s with
    | case1 => exact .nil
    | case2 rest ih => exact .both ih
    | case3 rest hne ih =>
      refine .carriageReturn ?_ ih
      cases rest with
      | nil => simp
      | cons c r =>
        intro h
        exact hne r (by rw [List.head?_cons] at h; rw [Option.some.inj h])
    | case4 rest ih => exact .lineFeed ih
    | case5 c rest h1 h2 h3 ih => exact .other c h2 h3 ih

theorem escapeName_eq (s : Str) : escapeName s = s.flatMap quoted := by
  unfold escapeName
  congr 1
  funext c
  by_cases h1 : c = '\n'
  · subst h1; rfl
  by_cases h2 : c = '\r'
  · subst h2; rfl
  by_cases h3 : c = '"'
  · subst h3; rfl
  rw [if_neg h1, if_neg h2, if_neg h3]
  unfold quoted
  split <;> first | rfl | contradiction

theorem normalize_paired (s : Str) : PairedNewlines (normalizeNewlines s) := by
  fun_induction normalizeNewlines s with
  | case1 => exact fun b a => ⟨fun h => by simp at h, fun h => by simp at h⟩
  | case2 rest ih | case3 rest _ ih | case4 rest ih =>
    intro b a
    constructor
    · intro h
      match b with
      | [] => simp at h; exact ⟨_, h.symm⟩
      | [x] => simp at h
      | x :: y :: b =>
        simp only [List.cons_append, List.cons.injEq] at h
        exact (ih b a).1 h.2.2
    · intro h
      match b with
      | [] => simp at h
      | [x] =>
        simp only [List.cons_append, List.nil_append, List.cons.injEq] at h
        exact ⟨[], by rw [← h.1]; rfl⟩
      | x :: y :: b =>
        simp only [List.cons_append, List.cons.injEq] at h
        obtain ⟨b', hb'⟩ := (ih b a).2 h.2.2
        exact ⟨x :: y :: b', by rw [hb']; rfl⟩
  | case5 c rest h1 h2 h3 ih =>
    intro b a
    constructor
    · intro h
      cases b with
      | nil => simp only [List.nil_append, List.cons.injEq] at h; exact absurd h.1 (by intro e; simp_all)
      | cons x b =>
        simp only [List.cons_append, List.cons.injEq] at h
        exact (ih b a).1 h.2
    · intro h
      cases b with
      | nil => simp only [List.nil_append, List.cons.injEq] at h; exact absurd h.1 (by intro e; simp_all)
      | cons x b =>
        simp only [List.cons_append, List.cons.injEq] at h
        obtain ⟨b', hb'⟩ := (ih b a).2 h.2
        exact ⟨x :: b', by rw [hb']; rfl⟩

theorem normalize_id {s : Str} (h : PairedNewlines s) : normalizeNewlines s = s := by
  fun_induction normalizeNewlines s with
  | case1 => rfl
  | case2 rest ih =>
    rw [ih]
    intro b a
    refine ⟨fun e => (h ('\r' :: '\n' :: b) a).1 (by rw [e]; rfl), fun e => ?_⟩
    obtain ⟨b', hb'⟩ := (h ('\r' :: '\n' :: b) a).2 (by rw [e]; rfl)
    match b', hb' with
    | [], hb' => simp at hb'
    | [x], hb' => simp at hb'
    | x :: y :: b'', hb' =>
      simp only [List.cons_append, List.cons.injEq] at hb'
      exact ⟨b'', hb'.2.2⟩
  | case3 rest hne _ =>
    obtain ⟨r, hr⟩ := (h [] rest).1 rfl
    exact absurd hr (hne r)
  | case4 rest _ =>
    obtain ⟨b, hb⟩ := (h [] rest).2 rfl
    simp at hb
  | case5 c rest h1 h2 h3 ih =>
    rw [ih]
    intro b a
    refine ⟨fun e => (h (c :: b) a).1 (by rw [e]; rfl), fun e => ?_⟩
    obtain ⟨b', hb'⟩ := (h (c :: b) a).2 (by rw [e]; rfl)
    match b', hb' with
    | [], hb' =>
      simp only [List.nil_append, List.cons.injEq] at hb'
      exact absurd hb'.1 (by intro e; simp_all)
    | x :: b'', hb' =>
      simp only [List.cons_append, List.cons.injEq] at hb'
      exact ⟨b'', hb'.2⟩

theorem paired_of_none {s : Str} (h : ∀ c ∈ s, c ∉ s% "\r\n") : PairedNewlines s := by
  intro b a
  exact ⟨fun e => absurd (by decide) (h '\r' (by rw [e]; simp)), fun e => absurd (by decide) (h '\n' (by rw [e]; simp))⟩

/-- A text without line ends that is in the normalized value is in the value. -/
theorem normalize_infix {b s : Str} (hb : '\r' ∉ b ∧ '\n' ∉ b) (h : b <:+: normalizeNewlines s) : b <:+: s := by
  have hpre : ∀ (s b : Str), '\r' ∉ b ∧ '\n' ∉ b → b <+: normalizeNewlines s → b <+: s := by
    intro s
    fun_induction normalizeNewlines s with
    | case1 => exact fun b _ h => h
    | case2 rest ih | case3 rest _ ih | case4 rest ih =>
      intro b hb h
      cases b with
      | nil => exact List.nil_prefix
      | cons x b =>
        rw [List.cons_prefix_cons] at h
        exact absurd (by simp [h.1]) hb.1
    | case5 c rest h1 h2 h3 ih =>
      intro b hb h
      cases b with
      | nil => exact List.nil_prefix
      | cons x b =>
        rw [List.cons_prefix_cons] at h ⊢
        exact ⟨h.1, ih b ⟨fun hm => hb.1 (by simp [hm]), fun hm => hb.2 (by simp [hm])⟩ h.2⟩
  by_cases hnil : b = []
  · rw [hnil]; exact List.nil_infix
  have hline : ∀ c : Char, ∀ l, (c = '\r' ∨ c = '\n') → b <:+: c :: l → b <:+: l := by
    intro c l hc hi
    rw [infix_cons] at hi
    rcases hi with hi | hi
    · cases b with
      | nil => exact absurd rfl hnil
      | cons x b =>
        rw [List.cons_prefix_cons] at hi
        rcases hc with rfl | rfl
        · exact absurd (by simp [hi.1]) hb.1
        · exact absurd (by simp [hi.1]) hb.2
    · exact hi
  have hup : ∀ c : Char, ∀ l, b <:+: l → b <:+: c :: l := fun c l hi => infix_cons.2 (.inr hi)
  fun_induction normalizeNewlines s with
  | case1 => exact h
  | case2 rest ih => exact hup _ _ (hup _ _ (ih (hline _ _ (.inr rfl) (hline _ _ (.inl rfl) h))))
  | case3 rest _ ih | case4 rest ih => exact hup _ _ (ih (hline _ _ (.inr rfl) (hline _ _ (.inl rfl) h)))
  | case5 c rest h1 h2 h3 ih =>
    rcases infix_cons.1 h with h | h
    · have := hpre (c :: rest) b hb (by rw [normalizeNewlines]; exact h; all_goals assumption)
      exact this.isInfix
    · exact hup _ _ (ih h)

/-- Encoded texts: one is in the other only if it is so before encoding. (ASCII on the left.) -/
theorem utf8_infix {b s : Str} (hb : ∀ c ∈ b, c.toNat < 128) (h : utf8 b <:+: utf8 s) : b <:+: s := by
  have hpre : ∀ (b s : Str), (∀ c ∈ b, c.toNat < 128) → utf8 b <+: utf8 s → b <+: s := by
    intro b
    induction b with
    | nil => exact fun _ _ _ => List.nil_prefix
    | cons c b ih =>
      intro s hb h
      cases s with
      | nil =>
        rw [utf8_cons, utf8Char_ascii (hb c (by simp)), utf8_nil] at h
        simp at h
      | cons d s =>
        rw [utf8_cons, utf8Char_ascii (hb c (by simp)), utf8_cons] at h
        by_cases hd : d.toNat < 128
        · rw [utf8Char_ascii hd] at h
          simp only [List.cons_append, List.nil_append, List.cons_prefix_cons] at h
          have : c = d := by
            have h3 := congrArg UInt8.toNat h.1
            rw [toNat_ofNat8 (by have := hb c (by simp); omega), toNat_ofNat8 (by omega)] at h3
            rw [← char_ofNat_toNat c, h3, char_ofNat_toNat]
          rw [List.cons_prefix_cons]
          exact ⟨this, ih s (fun x hx => hb x (by simp [hx])) h.2⟩
        · exfalso
          have hall := utf8Char_nonascii (c := d) (by omega)
          cases hu : utf8Char d with
          | nil => exact utf8Char_ne_nil d hu
          | cons y ys =>
            rw [hu] at h hall
            simp only [List.cons_append, List.nil_append, List.cons_prefix_cons] at h
            have := hall y (by simp)
            rw [← h.1, toNat_ofNat8 (by have := hb c (by simp); omega)] at this
            have := hb c (by simp)
            omega
  by_cases hnil : b = []
  · rw [hnil]; exact List.nil_infix
  induction s with
  | nil =>
    obtain ⟨p, q, hpq⟩ := h
    have : utf8 b = [] := by
      rw [utf8_nil] at hpq
      simp at hpq; exact hpq.2.1
    exact absurd (utf8_inj (this.trans utf8_nil.symm)) hnil
  | cons c s ih =>
    have hskip : ∀ u : Bytes, u <:+ utf8Char c → utf8 b <:+: u ++ utf8 s → b <+: c :: s ∨ utf8 b <:+: utf8 s := by
      intro u
      induction u with
      | nil => exact fun _ h => .inr h
      | cons y u ihu =>
        intro hu h
        rw [List.cons_append, infix_cons] at h
        rcases h with h | h
        · cases hbc : b with
          | nil => exact absurd hbc hnil
          | cons x b' =>
            have hx : x.toNat < 128 := hb x (by simp [hbc])
            have h' := h
            rw [hbc, utf8_cons, utf8Char_ascii hx] at h'
            simp only [List.cons_append, List.nil_append, List.cons_prefix_cons] at h'
            by_cases hd : c.toNat < 128
            · have hu' := hu
              rw [utf8Char_ascii hd] at hu'
              have hul : y :: u = utf8Char c := by
                rw [utf8Char_ascii hd]
                have := hu'.length_le
                simp at this
                subst this
                exact hu'.eq_of_length rfl
              left
              rw [← hbc]
              refine hpre b (c :: s) hb ?_
              rw [utf8_cons, ← hul]; exact h
            · exfalso
              have := utf8Char_nonascii (c := c) (by omega) y (hu.subset (by simp))
              rw [← h'.1, toNat_ofNat8 (by omega)] at this
              omega
        · exact ihu ((List.suffix_cons y u).trans hu) h
    rw [utf8_cons] at h
    rcases hskip _ List.suffix_rfl h with h | h
    · exact h.isInfix
    · exact infix_cons.2 (.inr (ih h))

end CSS
