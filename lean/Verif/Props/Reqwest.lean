import Verif.Model.Reqwest
import Verif.Spec.Reqwest
import Verif.Lemmas.UrlText
import Verif.Props.Multipart
import Verif.Props.Storage
/-
C104: a program that posts the returned form with reqwest, as the crate's integration test does, sends a body from which the storage
server reads the fields of the form and the bytes of the file, if all metadata names are visible ASCII; from any other body it
reads no form. What is accepted is what a GET of a returned URL answers with.
Cases are in Cases/Reqwest.lean.
-/
set_option linter.unusedSimpArgs false
namespace CSS
open Spec

/-! ### Bodies of any parts -/

/-- A body made of some texts is read as those parts that have these texts. -/
theorem framed_iff {b : Str} (hcr : '\r' ∉ b) {texts : List Bytes} (ht : ∀ t ∈ texts, ¬ delimiter b <:+: utf8 (s% "\r\n") ++ t)
    {parts : List Part} :
    BodyParts b ((texts.flatMap fun part => utf8 (s% "--" ++ b ++ s% "\r\n") ++ part ++ utf8 (s% "\r\n")) ++
        utf8 (s% "--" ++ b ++ s% "--\r\n")) parts ↔
      texts.length = parts.length ∧ ∀ x ∈ parts.zip texts, PartText x.1 x.2 := by
  have hd1 : utf8 (s% "--" ++ b ++ s% "\r\n") = utf8 (s% "--" ++ b) ++ utf8 (s% "\r\n") := utf8_append _ _
  have hd2 : utf8 (s% "--" ++ b ++ s% "--\r\n") = utf8 (s% "--" ++ b) ++ (utf8 (s% "--") ++ utf8 (s% "\r\n")) := by
    rw [utf8_append]
    have : utf8 (s% "--\r\n") = utf8 (s% "--") ++ utf8 (s% "\r\n") := by decide +kernel
    rw [this]
  have hd : delimiter b = utf8 (s% "\r\n") ++ utf8 (s% "--" ++ b) := by
    rw [delimiter_eq, utf8_append, crlf_eq]
    have : utf8 (s% "--") = [45, 45] := by decide +kernel
    rw [this]; rfl
  have key : ∀ (parts : List Bytes) (tail : Bytes),
      utf8 (s% "\r\n") ++ ((parts.flatMap fun part => utf8 (s% "--" ++ b ++ s% "\r\n") ++ part ++ utf8 (s% "\r\n")) ++ tail) =
        (parts.flatMap fun text => delimiter b ++ utf8 (s% "\r\n") ++ text) ++ (utf8 (s% "\r\n") ++ tail) := by
    intro parts tail
    induction parts with
    | nil => rfl
    | cons p ps ih =>
      rw [List.flatMap_cons, List.flatMap_cons, List.append_assoc, List.append_assoc, List.append_assoc, ih, hd1, hd]
      simp only [List.append_assoc]
  have hbody : utf8 (s% "\r\n") ++ ((texts.flatMap fun part => utf8 (s% "--" ++ b ++ s% "\r\n") ++ part ++ utf8 (s% "\r\n")) ++
        utf8 (s% "--" ++ b ++ s% "--\r\n")) =
      (texts.flatMap fun text => delimiter b ++ utf8 (s% "\r\n") ++ text) ++ delimiter b ++ utf8 (s% "--") ++ utf8 (s% "\r\n") := by
    rw [key, hd2]
    conv => rhs; arg 1; arg 1; arg 2; rw [hd]
    simp only [List.append_assoc]
  constructor
  · rintro ⟨texts', rest, h1, h2, h3, h4⟩
    have := texts_unique hcr texts texts' ht h2 (hbody.symm.trans h1)
    subst this
    exact ⟨h3, h4⟩
  · rintro ⟨h1, h2⟩
    exact ⟨texts, _, hbody, ht, h1, h2⟩

/-! ### Names -/

private theorem nameEnc_of {n : Nat} : Reqwest.nameEncSet n = false ↔
    33 ≤ n ∧ n ≤ 126 ∧ n ≠ 34 ∧ n ≠ 35 ∧ n ≠ 37 ∧ n ≠ 47 ∧ n ≠ 60 ∧ n ≠ 62 ∧ n ≠ 63 ∧ n ≠ 96 ∧ n ≠ 123 ∧ n ≠ 125 := by
  simp [Reqwest.nameEncSet, encControls]; omega

private theorem mark_iff {c : Char} : c ∈ s% "\"#%/<>?`{}" ↔ c.toNat = 34 ∨ c.toNat = 35 ∨ c.toNat = 37 ∨ c.toNat = 47 ∨
    c.toNat = 60 ∨ c.toNat = 62 ∨ c.toNat = 63 ∨ c.toNat = 96 ∨ c.toNat = 123 ∨ c.toNat = 125 := by
  have key : ∀ d : Char, c = d ↔ c.toNat = d.toNat := fun d =>
    ⟨congrArg _, fun h => by rw [← char_ofNat_toNat c, h, char_ofNat_toNat]⟩
  simp only [List.mem_cons, List.not_mem_nil, or_false, key]
  exact Iff.rfl

private theorem kept_iff {c : Char} : Kept Reqwest.nameEncSet c ↔ 33 ≤ c.toNat ∧ c.toNat ≤ 126 ∧ c ∉ s% "\"#%/<>?`{}" := by
  rw [Kept, nameEnc_of, mark_iff]; omega

private theorem visible_iff {name : Str} : (∀ b ∈ utf8 name, Reqwest.nameEncSet b.toNat = false) ↔ VisibleName name := by
  constructor
  · intro h c hc
    rw [← kept_iff]
    have hin : ∀ b ∈ utf8Char c, b ∈ utf8 name := fun b hb => List.mem_flatMap.2 ⟨c, hc, hb⟩
    by_cases hs : c.toNat < 128
    · refine ⟨hs, ?_⟩
      have := h (UInt8.ofNat c.toNat) (hin _ (by rw [utf8Char_ascii hs]; simp))
      rwa [toNat_ofNat8 (by omega)] at this
    · exfalso
      cases hu : utf8Char c with
      | nil => exact utf8Char_ne_nil c hu
      | cons b r =>
        have hb : b ∈ utf8Char c := by rw [hu]; simp
        have h1 := utf8Char_nonascii (by omega) b hb
        have h2 := nameEnc_of.1 (h b (hin b hb))
        omega
  · intro h b hb
    have ha : ∀ c ∈ name, c.toNat < 128 := fun c hc => by have := (h c hc).2.1; omega
    rw [utf8_ascii ha] at hb
    obtain ⟨c, hc, rfl⟩ := List.mem_map.1 hb
    rw [toNat_ofNat8 (by have := ha c hc; omega)]
    exact (kept_iff.2 (h c hc)).2

private theorem encoded_no_cr (name : Str) : '\r' ∉ utf8PercentEncode Reqwest.nameEncSet name := by
  intro hc
  unfold utf8PercentEncode at hc
  rw [List.mem_flatMap] at hc
  obtain ⟨b, hb, hc⟩ := hc
  split at hc
  · exact absurd (pctByte_mem hc).2.2 (by decide)
  · rename_i hs
    have := nameEnc_of.1 (by simpa using hs)
    simp only [List.mem_cons, List.not_mem_nil, or_false] at hc
    have h2 := congrArg Char.toNat hc
    rw [toNat_ofNat_small (n := b.toNat) (by omega)] at h2
    have h3 : ('\r' : Char).toNat = 13 := rfl
    omega

private theorem parameter_visible {name : Str} (h : VisibleName name) : Reqwest.nameParameter name = s% "name=\"" ++ name ++ s% "\"" := by
  unfold Reqwest.nameParameter
  simp only
  rw [if_pos (.inl (visible_iff.2 h)), encode_id fun c hc => kept_iff.2 (h c hc)]

private theorem parameter_hidden {name : Str} (h : ¬ VisibleName name) (hl : 2 ≤ (utf8 name).length) :
    Reqwest.nameParameter name = s% "name*=utf-8''" ++ utf8PercentEncode Reqwest.nameEncSet name := by
  unfold Reqwest.nameParameter
  simp only
  rw [if_neg]
  rintro (h1 | h1)
  · exact h (visible_iff.1 h1)
  · omega

private theorem parameter_no_cr (name : Str) : '\r' ∉ Reqwest.nameParameter name := by
  unfold Reqwest.nameParameter
  simp only
  split
  · simp only [List.mem_append, not_or]
    exact ⟨⟨by decide, encoded_no_cr name⟩, by decide⟩
  · simp only [List.mem_append, not_or]
    exact ⟨by decide, encoded_no_cr name⟩

/-- A part contains the delimiter only if its content contains the boundary. -/
private theorem part_boundary {b name : Str} {content : Bytes}
    (h : delimiter b <:+: utf8 (s% "\r\n") ++ Reqwest.part name content) : utf8 b <:+: content := by
  have he : utf8 (s% "\r\n") ++ Reqwest.part name content =
      13 :: 10 :: 67 :: (utf8 (s% "ontent-Disposition: form-data; " ++ Reqwest.nameParameter name) ++ 13 :: 10 :: 13 :: 10 :: content) := by
    have h1 : utf8 (s% "\r\n\r\n") = [13, 10, 13, 10] := by decide +kernel
    have h2 : utf8 (s% "Content-Disposition: form-data; ") = 67 :: utf8 (s% "ontent-Disposition: form-data; ") := by decide +kernel
    unfold Reqwest.part
    rw [utf8_append, utf8_append, utf8_append, crlf_eq, h1, h2]
    simp
  rw [he, delimiter_eq] at h
  have h := delimiter_skip_line (by decide) h
  have hn : (13 : UInt8) ∉ utf8 (s% "ontent-Disposition: form-data; " ++ Reqwest.nameParameter name) :=
    no_cr fun hm => (List.mem_append.1 hm).elim (by decide) (parameter_no_cr name)
  have h := delimiter_skip_cons (by decide) hn h
  exact delimiter_content (delimiter_skip_line (by decide) h)

private theorem part_visible {name : Str} (h : VisibleName name) (content : Bytes) :
    PartText (.field name content) (Reqwest.part name content) := by
  have hs : ∀ c ∈ name, c ∉ s% "\"\r\n" := by
    intro c hc hm
    obtain ⟨h1, _, h3⟩ := h c hc
    simp only [List.mem_cons, List.not_mem_nil, or_false] at hm
    rcases hm with rfl | rfl | rfl
    · exact h3 (by decide)
    · exact absurd h1 (by decide)
    · exact absurd h1 (by decide)
  have := PartText.field name content hs
  have he : s% "Content-Disposition: form-data; " ++ (s% "name=\"" ++ name ++ s% "\"") ++ s% "\r\n\r\n" =
      s% "Content-Disposition: form-data; name=\"" ++ name ++ s% "\"\r\n\r\n" := by simp
  unfold Reqwest.part
  rw [parameter_visible h, he]
  exact this

private theorem part_hidden {name : Str} (h : ¬ VisibleName name) (hl : 2 ≤ (utf8 name).length) (content : Bytes) (p : Part) :
    ¬ PartText p (Reqwest.part name content) := by
  intro hp
  have he : Reqwest.part name content = utf8 (s% "Content-Disposition: form-data; name") ++ 42 ::
      (utf8 (s% "=utf-8''" ++ utf8PercentEncode Reqwest.nameEncSet name ++ s% "\r\n\r\n") ++ content) := by
    unfold Reqwest.part
    rw [parameter_hidden h hl]
    have : s% "Content-Disposition: form-data; " ++ (s% "name*=utf-8''" ++ utf8PercentEncode Reqwest.nameEncSet name) ++ s% "\r\n\r\n" =
        s% "Content-Disposition: form-data; name" ++ '*' :: (s% "=utf-8''" ++ utf8PercentEncode Reqwest.nameEncSet name ++
          s% "\r\n\r\n") := by simp
    rw [this, utf8_append, utf8_cons '*']
    have : utf8Char '*' = [42] := by decide +kernel
    rw [this]; simp
  have hq : ∀ rest : Str, ∀ content : Bytes, ∃ r, utf8 (s% "Content-Disposition: form-data; name=\"" ++ rest) ++ content =
      utf8 (s% "Content-Disposition: form-data; name") ++ 61 :: r := by
    intro rest content
    refine ⟨utf8 (s% "\"" ++ rest) ++ content, ?_⟩
    have : s% "Content-Disposition: form-data; name=\"" ++ rest = s% "Content-Disposition: form-data; name" ++ '=' :: (s% "\"" ++ rest) := by
      simp
    rw [this, utf8_append, utf8_cons '=']
    have : utf8Char '=' = [61] := by decide +kernel
    rw [this]; simp
  have hno : ∀ rest : Str, ∀ c : Bytes, Reqwest.part name content ≠ utf8 (s% "Content-Disposition: form-data; name=\"" ++ rest) ++ c := by
    intro rest c hh
    obtain ⟨r, hr⟩ := hq rest c
    rw [he, hr] at hh
    have := List.append_cancel_left hh
    simp only [List.cons.injEq] at this
    exact absurd this.1 (by decide)
  generalize ht : Reqwest.part name content = t at hp
  cases hp with
  | field n c _ => exact hno _ _ (by rw [ht]; simp only [List.append_assoc]; rfl)
  | file n f ty c _ _ _ => exact hno _ _ (by rw [ht]; simp only [List.append_assoc]; rfl)

/-! ### What is read from the body -/

private theorem texts_fresh {b : Str} {fields : List (Str × Str)} {content : Bytes} (hb : FreshBoundary b fields content) :
    ∀ t ∈ (fields.map fun f => Reqwest.part f.1 (utf8 f.2)) ++ [Reqwest.part (s% "file") content],
      ¬ delimiter b <:+: utf8 (s% "\r\n") ++ t := by
  obtain ⟨hb1, hb2, hb3⟩ := hb
  obtain ⟨_, _, hasc⟩ := boundary_chars hb1
  intro t ht hd
  rcases List.mem_append.1 ht with ht | ht
  · obtain ⟨f, hf, rfl⟩ := List.mem_map.1 ht
    exact hb2 f hf (utf8_infix hasc (part_boundary hd))
  · rw [List.mem_singleton] at ht
    subst ht
    exact hb3 (part_boundary hd)

/-- C104. If all names are visible ASCII, the server reads from the body exactly the fields, in order, with their values as
they are, and then the bytes of the file. The boundary must not occur in the values and the file. -/
theorem C104_parts (b : Str) (fields : List (Str × Str)) (content : Bytes) (hb : FreshBoundary b fields content)
    (hn : ∀ f ∈ fields, VisibleName f.1) (parts : List Part) :
    BodyParts b (Reqwest.postBody b fields content) parts ↔
      parts = (fields.map fun f => .field f.1 (utf8 f.2)) ++ [.field (s% "file") content] := by
  have hread : BodyParts b (Reqwest.postBody b fields content)
      ((fields.map fun f => .field f.1 (utf8 f.2)) ++ [.field (s% "file") content]) := by
    unfold Reqwest.postBody
    rw [framed_iff (boundary_chars hb.1).1 (texts_fresh hb)]
    refine ⟨by simp, fun x hx => ?_⟩
    rw [List.zip_append (by simp)] at hx
    rcases List.mem_append.1 hx with hx | hx
    · rw [List.zip_map'] at hx
      obtain ⟨f, hf, rfl⟩ := List.mem_map.1 hx
      exact part_visible (hn f hf) _
    · simp only [List.zip_cons_cons, List.zip_nil_left, List.mem_singleton] at hx
      subst hx
      exact part_visible (show VisibleName (s% "file") by unfold VisibleName; decide) _
  constructor
  · exact fun h => bodyParts_unique (boundary_chars hb.1).1 h hread
  · rintro rfl
    exact hread

/-- C104. If a name of two or more bytes has a character that is not visible ASCII, or one of the marks, then the server reads no form
at all. -/
theorem C104_unreadable (b : Str) (fields : List (Str × Str)) (content : Bytes) (hb : FreshBoundary b fields content)
    (f : Str × Str) (hf : f ∈ fields) (hn : ¬ VisibleName f.1) (hl : 2 ≤ (utf8 f.1).length) (parts : List Part) :
    ¬ BodyParts b (Reqwest.postBody b fields content) parts := by
  unfold Reqwest.postBody
  rw [framed_iff (boundary_chars hb.1).1 (texts_fresh hb)]
  rintro ⟨h1, h2⟩
  have hm : Reqwest.part f.1 (utf8 f.2) ∈ (fields.map fun f => Reqwest.part f.1 (utf8 f.2)) ++ [Reqwest.part (s% "file") content] :=
    List.mem_append_left _ (List.mem_map.2 ⟨f, hf, rfl⟩)
  obtain ⟨i, hi, he⟩ := List.getElem_of_mem hm
  have := h2 (parts[i]'(by omega), Reqwest.part f.1 (utf8 f.2))
    (List.mem_iff_getElem.2 ⟨i, by rw [List.length_zip]; omega, by rw [List.getElem_zip, he]⟩)
  exact part_hidden hn hl _ _ this

theorem bare_iff {b : Str} {entries : List (Str × Str)} {file : Bytes} (hb : FreshBoundary b entries file)
    (hn : ∀ f ∈ entries, VisibleName f.1) {fields : List (Str × Str)} {content : Bytes} :
    BareForm b (Reqwest.postBody b entries file) fields content ↔ fields = entries ∧ content = file := by
  unfold BareForm
  rw [C104_parts b entries file hb hn]
  constructor
  · intro h
    obtain ⟨h1, h2⟩ := List.append_inj' h rfl
    simp only [List.cons.injEq, Part.field.injEq, and_true, true_and] at h2
    refine ⟨?_, h2⟩
    clear h h2 hb hn
    induction fields generalizing entries with
    | nil => cases entries with
      | nil => rfl
      | cons _ _ => simp at h1
    | cons f fields ih => cases entries with
      | nil => simp at h1
      | cons e entries =>
        rw [List.map_cons, List.map_cons, List.cons.injEq] at h1
        obtain ⟨h3, h4⟩ := field_inj h1.1
        rw [ih h1.2, Prod.ext h3 h4]
  · rintro ⟨rfl, rfl⟩; rfl

/-! ### Accepted forms -/

/-- The names of a returned form are visible ASCII if those of the metadata are; and all have two or more bytes. -/
theorem names_visible {env : Env} {cs : List Call} {o : SigningOptions} {w w' : World} {fs : List (Str × Str)}
    (ho : (cs.filterMap callOptions).getLast? = some o) (h : (Builder.ofCalls cs).build env w = (.ok fs, w')) :
    ((∀ m ∈ cs.filterMap callMeta, VisibleName m.1) → ∀ f ∈ fs, VisibleName f.1) ∧
    ∀ m ∈ cs.filterMap callMeta, ¬ VisibleName m.1 → ∃ f ∈ fs, ¬ VisibleName f.1 ∧ 2 ≤ (utf8 f.1).length := by
  obtain ⟨_, _, _, _, _, _, computed, hfs, _⟩ := form_facts env cs o w w' fs ho h
  have key : ∀ x ∈ signedOrder, ∀ c ∈ x, 33 ≤ c.toNat ∧ c.toNat ≤ 126 ∧ c ∉ s% "\"#%/<>?`{}" := by decide +kernel
  have hmeta : ∀ c ∈ s% "x-goog-meta-", 33 ≤ c.toNat ∧ c.toNat ≤ 126 ∧ c ∉ s% "\"#%/<>?`{}" := by decide +kernel
  subst hfs
  refine ⟨fun hm f hf => ?_, fun m hm hn => ?_⟩
  · obtain ⟨n, v⟩ := f
    rcases mem_signedForm.1 hf with ⟨h1, _⟩ | ⟨h1, h2⟩
    · exact key n h1
    · intro c hc
      simp only at hc
      rw [← h1] at hc
      exact (List.mem_append.1 hc).elim (hmeta c) (hm _ h2 c)
  · refine ⟨(s% "x-goog-meta-" ++ m.1, m.2), List.mem_append_right _ (List.mem_map.2 ⟨m, hm, rfl⟩), fun hv => hn fun c hc =>
      hv c (List.mem_append_right _ hc), ?_⟩
    rw [utf8_append, List.length_append]
    have : (utf8 (s% "x-goog-meta-")).length = 12 := by decide +kernel
    omega

theorem bare_accepted {env : Env} {cs : List Call} {o : SigningOptions} {w w' : World} {fs : List (Str × Str)}
    {account : Str} {n e : Nat} {bucket b : Str} {file : Bytes} {time start : Int}
    (ho : (cs.filterMap callOptions).getLast? = some o) (h : (Builder.ofCalls cs).build env w = (.ok fs, w'))
    (hb : FreshBoundary b fs file)
    (hiff : AcceptsPost account n e ⟨bucket, fs, file.length, time⟩ ↔
      start / 1000000000 ≤ time ∧ time < o.expiration / 1000000000 ∧
      (∀ text, lastValue cs (s% "Content-Length") = some text → Decimal text file.length) ∧
      ∀ m ∈ cs.filterMap callMeta, ∀ m' ∈ cs.filterMap callMeta, m.1 = m'.1 → m.2 = m'.2) :
    (∃ fields content, BareForm b (Reqwest.postBody b fs file) fields content ∧
        AcceptsPost account n e ⟨bucket, fields, content.length, time⟩) ↔
      start / 1000000000 ≤ time ∧ time < o.expiration / 1000000000 ∧
      (∀ text, lastValue cs (s% "Content-Length") = some text → Decimal text file.length) ∧
      (∀ m ∈ cs.filterMap callMeta, ∀ m' ∈ cs.filterMap callMeta, m.1 = m'.1 → m.2 = m'.2) ∧
      ∀ m ∈ cs.filterMap callMeta, VisibleName m.1 := by
  obtain ⟨hv, hh⟩ := names_visible ho h
  constructor
  · rintro ⟨fields, content, hread, hacc⟩
    have hvis : ∀ m ∈ cs.filterMap callMeta, VisibleName m.1 := by
      intro m hm
      refine Classical.byContradiction fun hn => ?_
      obtain ⟨f, hf, hf1, hf2⟩ := hh m hm hn
      exact C104_unreadable b fs file hb f hf hf1 hf2 _ hread
    obtain ⟨rfl, rfl⟩ := (bare_iff hb (hv hvis)).1 hread
    obtain ⟨h1, h2, h3, h4⟩ := hiff.1 hacc
    exact ⟨h1, h2, h3, h4, hvis⟩
  · rintro ⟨h1, h2, h3, h4, h5⟩
    exact ⟨fs, file, (bare_iff hb (hv h5)).2 ⟨rfl, rfl⟩, hiff.2 ⟨h1, h2, h3, h4⟩⟩

/-- C104. The returned form, posted with reqwest and a file: the server reads a form from the body and accepts it exactly if
the time is in the window, the file has the given length, no two values of one metadata name differ, and all metadata names are
visible ASCII. -/
theorem C104_accepted_iff (env : Env) (cs : List Call) (o : SigningOptions) (w w' : World) (fs : List (Str × Str))
    (email pem : Str) (key : Bytes) (n e : Nat) (bucket : Str) (b : Str) (file : Bytes) (time : Int)
    (ho : (cs.filterMap callOptions).getLast? = some o) (h : (Builder.ofCalls cs).build env w = (.ok fs, w'))
    (hk : o.signingKey = .serviceAccount email pem) (hring : Rsa.Correct env) (hpem : env.pemParse pem = some key)
    (hpub : Rsa.PublicKeyIn key n e) (hbucket : lastValue cs (s% "bucket") = some bucket) (hb : FreshBoundary b fs file) :
    (∃ fields content, BareForm b (Reqwest.postBody b fs file) fields content ∧
        AcceptsPost email n e ⟨bucket, fields, content.length, time⟩) ↔
      validFrom env o.accessibleAt w / 1000000000 ≤ time ∧ time < o.expiration / 1000000000 ∧
      (∀ text, lastValue cs (s% "Content-Length") = some text → Decimal text file.length) ∧
      (∀ m ∈ cs.filterMap callMeta, ∀ m' ∈ cs.filterMap callMeta, m.1 = m'.1 → m.2 = m'.2) ∧
      ∀ m ∈ cs.filterMap callMeta, VisibleName m.1 := by
  exact bare_accepted ho h hb (C67_service_account env cs o w w' fs email pem key n e ⟨bucket, fs, file.length, time⟩ ho h hk hring hpem
    hpub rfl hbucket)

/-- C104. The integration test of the crate (tests/lib.rs:20-82), for all names, files, keys, times and boundaries: what is posted
with reqwest and a returned form is what a GET of a returned URL for the same bucket and name answers with, as long as nothing changes
the object in between. -/
theorem C104_round_trip (env : Env) (cs : List Call) (fo : SigningOptions) (w w' : World) (fs : List (Str × Str))
    (o : UrlOptions) (v v' : World) (url email pem : Str) (key : Bytes) (n e : Nat) (time time' : Int)
    (ho : (cs.filterMap callOptions).getLast? = some fo) (hform : (Builder.ofCalls cs).build env w = (.ok fs, w'))
    (hurl : buildSignedUrl env o v = (.ok url, v')) (hp : PlainAccess o) (hget : o.httpMethod = s% "GET")
    (hk : fo.signingKey = .serviceAccount email pem) (hk' : o.signingKey = .serviceAccount email pem)
    (hring : Rsa.Correct env) (hpem : env.pemParse pem = some key) (hpub : Rsa.PublicKeyIn key n e) (hemail : '%' ∉ email)
    (hbucket : lastValue cs (s% "bucket") = some o.bucketName) (hkey : lastValue cs (s% "key") = some o.objectName)
    (hvar : ¬ s% "${filename}" <:+: o.objectName)
    (htime : validFrom env fo.accessibleAt w / 1000000000 ≤ time ∧ time < fo.expiration / 1000000000)
    (htime' : validFrom env o.accessibleAt v / 1000000000 ≤ time' ∧
      time' < validFrom env o.accessibleAt v / 1000000000 + (o.expires - validFrom env o.accessibleAt v) / 1000000000)
    (b : Str) (file : Bytes) (hb : FreshBoundary b fs file)
    (hsize : ∀ text, lastValue cs (s% "Content-Length") = some text → Decimal text file.length)
    (hmeta : ∀ m ∈ cs.filterMap callMeta, ∀ m' ∈ cs.filterMap callMeta, m.1 = m'.1 → m.2 = m'.2)
    (hname : ∀ m ∈ cs.filterMap callMeta, VisibleName m.1) :
    ∃ fields content, BareForm b (Reqwest.postBody b fs file) fields content ∧
      (∀ fields' content', BareForm b (Reqwest.postBody b fs file) fields' content' → fields' = fields ∧ content' = content) ∧
      ∀ s s₁ s₂ : Store, Handles email n e (.form ⟨o.bucketName, fields, content.length, time⟩ [] content) s s₁ →
        s₂ (utf8 o.bucketName) (utf8 o.objectName) = s₁ (utf8 o.bucketName) (utf8 o.objectName) →
        ∀ answer, Answers email n e s₂ (theRequest o url time') answer ↔ answer = file := by
  have hv := (names_visible ho hform).1 hname
  refine ⟨fs, file, (bare_iff hb hv).2 ⟨rfl, rfl⟩, fun _ _ hx => (bare_iff hb hv).1 hx, fun s s₁ s₂ hs hkeep answer => ?_⟩
  exact C76_post_then_get env cs fo w w' fs o v v' url email pem key n e time time' ho hform hurl hp hget hk hk' hring hpem hpub hemail
    hbucket hkey hvar htime htime' [] file hsize hmeta s s₁ s₂ hs hkeep answer

end CSS
