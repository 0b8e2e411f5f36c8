import Verif.Lemmas.Multipart
import Verif.Lemmas.Unique
import Verif.Lemmas.Pem
import Verif.Props.PostServer
import Verif.Props.ImageSite
/-
C97: a browser that posts the returned form with a file sends a body from which the storage server reads the fields of the form and the
bytes of the file, unless a field has a lone line end or a quotation mark in its name; such a form is not accepted.
Cases are in Cases/Multipart.lean.
-/
set_option linter.unusedSimpArgs false
namespace CSS
open Spec ImageUploader Spec.ImageUploader

/-! ### What is read from the body -/

/-- The part that is read for a field. -/
private def sentField (f : Str × Str) : Part := .field (escapeName (normalizeNewlines f.1)) (utf8 (normalizeNewlines f.2))

private def typeOf (file : ChosenFile) : Str := if file.type = [] then s% "application/octet-stream" else file.type

private def sentFile (file : ChosenFile) : Part := .file (s% "file") (escapeName file.name) (typeOf file) file.content

theorem boundary_chars {b : Str} (h : ∀ c ∈ b, c.isAlphanum = true ∨ c = '-') :
    '\r' ∉ b ∧ '\n' ∉ b ∧ ∀ c ∈ b, c.toNat < 128 := by
  refine ⟨fun hm => absurd (h _ hm) (by decide), fun hm => absurd (h _ hm) (by decide), fun c hc => ?_⟩
  rcases h c hc with h | h
  · simp only [Char.isAlphanum, Char.isAlpha, Char.isUpper, Char.isLower, Char.isDigit, Bool.or_eq_true, Bool.and_eq_true,
      decide_eq_true_eq, ge_iff_le, UInt32.le_iff_toNat_le] at h
    have : c.val.toNat = c.toNat := rfl
    rcases h with (⟨_, h⟩ | ⟨_, h⟩) | ⟨_, h⟩
    · have e : (90 : UInt32).toNat = 90 := rfl
      have h' : c.val.toNat ≤ 90 := h
      omega
    · have h' : c.val.toNat ≤ 122 := h
      omega
    · have h' : c.val.toNat ≤ 57 := h
      omega
  · subst h; decide

private theorem typeOf_plain {file : ChosenFile} (ht : ∀ c ∈ file.type, c ∉ s% "\r\n") : ∀ c ∈ typeOf file, c ∉ s% "\r\n" := by
  unfold typeOf
  split
  · decide
  · exact ht

private theorem body_read {b : Str} {entries : List (Str × Str)} {file : ChosenFile} (hb : FreshBoundary b entries file.content)
    (ht : ∀ c ∈ file.type, c ∉ s% "\r\n") : BodyParts b (multipartBody b entries file) (entries.map sentField ++ [sentFile file]) := by
  obtain ⟨hb1, hb2, hb3⟩ := hb
  obtain ⟨hcr, hlf, hasc⟩ := boundary_chars hb1
  have hd1 : utf8 (s% "--" ++ b ++ s% "\r\n") = utf8 (s% "--" ++ b) ++ utf8 (s% "\r\n") := utf8_append _ _
  have hd2 : utf8 (s% "--" ++ b ++ s% "--\r\n") = utf8 (s% "--" ++ b) ++ (utf8 (s% "--") ++ utf8 (s% "\r\n")) := by
    rw [utf8_append]
    have : utf8 (s% "--\r\n") = utf8 (s% "--") ++ utf8 (s% "\r\n") := by decide +kernel
    rw [this]
  have hd : delimiter b = utf8 (s% "\r\n") ++ utf8 (s% "--" ++ b) := by
    rw [delimiter_eq, utf8_append, crlf_eq]
    have : utf8 (s% "--") = [45, 45] := by decide +kernel
    rw [this]; rfl
  have hpart : ∀ x ∈ (entries.map sentField ++ [sentFile file]).zip (entries.map fieldPart ++ [filePart file]),
      PartText x.1 x.2 ∧ ¬ delimiter b <:+: utf8 (s% "\r\n") ++ x.2 := by
    have hf : ∀ f ∈ entries, PartText (sentField f) (fieldPart f) ∧ ¬ delimiter b <:+: utf8 (s% "\r\n") ++ fieldPart f := by
      intro f hf
      have hp : PartText (sentField f) (fieldPart f) := .field _ _ (escapeName_safe _)
      exact ⟨hp, fun hi => hb2 f hf (normalize_infix ⟨hcr, hlf⟩ (utf8_infix hasc (part_delimiter hp hi)))⟩
    have hfile : PartText (sentFile file) (filePart file) ∧ ¬ delimiter b <:+: utf8 (s% "\r\n") ++ filePart file := by
      have hp : PartText (sentFile file) (filePart file) := by
        have h := PartText.file (s% "file") (escapeName file.name) (typeOf file) file.content (by decide) (escapeName_safe _)
          (typeOf_plain ht)
        exact h
      exact ⟨hp, fun hi => hb3 (part_delimiter hp hi)⟩
    intro x hx
    rw [List.zip_append (by simp)] at hx
    rcases List.mem_append.1 hx with hx | hx
    · rw [List.zip_map'] at hx
      obtain ⟨f, hf', rfl⟩ := List.mem_map.1 hx
      exact hf f hf'
    · simp only [List.zip_cons_cons, List.zip_nil_left, List.mem_singleton] at hx
      subst hx; exact hfile
  refine ⟨entries.map fieldPart ++ [filePart file], utf8 (s% "\r\n"), ?_, ?_, by simp, fun x hx => (hpart x hx).1⟩
  · unfold multipartBody
    rw [hd2]
    generalize entries.map fieldPart ++ [filePart file] = parts
    have key : ∀ (parts : List Bytes) (tail : Bytes),
        utf8 (s% "\r\n") ++ ((parts.flatMap fun part => utf8 (s% "--" ++ b ++ s% "\r\n") ++ part ++ utf8 (s% "\r\n")) ++ tail) =
          (parts.flatMap fun text => delimiter b ++ utf8 (s% "\r\n") ++ text) ++ (utf8 (s% "\r\n") ++ tail) := by
      intro parts tail
      induction parts with
      | nil => rfl
      | cons p ps ih =>
        rw [List.flatMap_cons, List.flatMap_cons, List.append_assoc, List.append_assoc, List.append_assoc, ih, hd1, hd]
        simp only [List.append_assoc]
    rw [key, hd]
    simp only [List.append_assoc]
  · intro text htext
    obtain ⟨i, hi, rfl⟩ := List.getElem_of_mem htext
    have hl : i < (entries.map sentField ++ [sentFile file]).length := by simpa using hi
    have := hpart ((entries.map sentField ++ [sentFile file])[i], (entries.map fieldPart ++ [filePart file])[i])
      (List.mem_iff_getElem.2 ⟨i, by rw [List.length_zip]; omega, by rw [List.getElem_zip]⟩)
    exact this.2

private theorem parts_iff {b : Str} {entries : List (Str × Str)} {file : ChosenFile} (hb : FreshBoundary b entries file.content)
    (ht : ∀ c ∈ file.type, c ∉ s% "\r\n") {parts : List Part} :
    BodyParts b (multipartBody b entries file) parts ↔ parts = entries.map sentField ++ [sentFile file] := by
  constructor
  · intro h
    exact bodyParts_unique (boundary_chars hb.1).1 h (body_read hb ht)
  · rintro rfl
    exact body_read hb ht

private theorem sentAs_iff {f g : Str × Str} : SentAs f g ↔ g = (escapeName (normalizeNewlines f.1), normalizeNewlines f.2) := by
  unfold SentAs
  constructor
  · rintro ⟨⟨name, h1, h2⟩, h3⟩
    rw [lineEnds_iff] at h1 h3
    exact Prod.ext (by rw [h2, h1, escapeName_eq]) h3
  · rintro rfl
    exact ⟨⟨_, lineEnds_iff.2 rfl, escapeName_eq _⟩, lineEnds_iff.2 rfl⟩

/-- C97. What a server reads from the body that a browser sends: for each field one part with its value, in which every line
end is a carriage return and a line feed, and in whose name line ends and quotation marks are escaped; then the file with exactly
its bytes. The boundary must not occur in the values and the file. -/
theorem C97_parts (b : Str) (entries : List (Str × Str)) (file : ChosenFile) (hb : FreshBoundary b entries file.content)
    (ht : ∀ c ∈ file.type, c ∉ s% "\r\n") (parts : List Part) :
    BodyParts b (multipartBody b entries file) parts ↔
      ∃ sent : List (Str × Str), sent.length = entries.length ∧ (∀ x ∈ entries.zip sent, SentAs x.1 x.2) ∧
        parts = (sent.map fun g => .field g.1 (utf8 g.2)) ++
          [.file (s% "file") (file.name.flatMap quoted) (if file.type = [] then s% "application/octet-stream" else file.type)
            file.content] := by
  rw [parts_iff hb ht]
  have hfile : sentFile file = .file (s% "file") (file.name.flatMap quoted)
      (if file.type = [] then s% "application/octet-stream" else file.type) file.content := by
    unfold sentFile typeOf
    rw [escapeName_eq]
  rw [← hfile]
  constructor
  · rintro rfl
    refine ⟨entries.map fun f => (escapeName (normalizeNewlines f.1), normalizeNewlines f.2), by simp, ?_, by rw [List.map_map]; rfl⟩
    intro x hx
    rw [show entries.zip (entries.map fun f => (escapeName (normalizeNewlines f.1), normalizeNewlines f.2)) =
      entries.map fun f => (f, (escapeName (normalizeNewlines f.1), normalizeNewlines f.2)) by
        conv => lhs; arg 1; rw [← List.map_id entries]
        rw [List.zip_map']; rfl] at hx
    obtain ⟨f, _, rfl⟩ := List.mem_map.1 hx
    exact sentAs_iff.2 rfl
  · rintro ⟨sent, h1, h2, rfl⟩
    have key : ∀ (entries sent : List (Str × Str)), sent.length = entries.length → (∀ x ∈ entries.zip sent, SentAs x.1 x.2) →
        (sent.map fun g => Part.field g.1 (utf8 g.2)) = entries.map sentField := by
      intro entries
      induction entries with
      | nil => intro sent h _; rw [List.length_eq_zero_iff.1 h]; rfl
      | cons f entries ih =>
        intro sent h h2
        cases sent with
        | nil => simp at h
        | cons g sent =>
          have hg : g = _ := sentAs_iff.1 (h2 (f, g) (by simp))
          rw [List.map_cons, List.map_cons, ih sent (by simpa using h) fun x hx => h2 x (by simp [hx]), hg]
          rfl
    rw [key entries sent h1 h2]

theorem field_inj {n n' : Str} {v v' : Str} (h : Part.field n (utf8 v) = Part.field n' (utf8 v')) : n = n' ∧ v = v' := by
  injection h with h1 h2
  exact ⟨h1, utf8_inj h2⟩

private theorem form_iff {b : Str} {entries : List (Str × Str)} {file : ChosenFile} (hb : FreshBoundary b entries file.content)
    (ht : ∀ c ∈ file.type, c ∉ s% "\r\n") {fields : List (Str × Str)} {filename : Str} {content : Bytes} :
    BodyForm b (multipartBody b entries file) fields filename content ↔
      fields = entries.map (fun f => (escapeName (normalizeNewlines f.1), normalizeNewlines f.2)) ∧
      filename = escapeName file.name ∧ content = file.content := by
  constructor
  · rintro ⟨type, hbody⟩
    have h := (parts_iff hb ht).1 hbody
    obtain ⟨h1, h2⟩ := List.append_inj' h rfl
    simp only [sentFile, List.cons.injEq, Part.file.injEq, and_true, true_and] at h2
    refine ⟨?_, h2.1, h2.2.2⟩
    clear hbody h h2 hb
    induction fields generalizing entries with
    | nil => cases entries with
      | nil => rfl
      | cons _ _ => simp at h1
    | cons f fields ih => cases entries with
      | nil => simp at h1
      | cons e entries =>
        simp only [sentField, List.map_cons, List.cons.injEq] at h1 ⊢
        obtain ⟨h3, h4⟩ := field_inj h1.1
        exact ⟨Prod.ext h3 h4, ih h1.2⟩
  · rintro ⟨rfl, rfl, rfl⟩
    refine ⟨typeOf file, (parts_iff hb ht).2 ?_⟩
    rw [List.map_map]; rfl

private theorem plain_sent {f : Str × Str} (h : PlainField f) : (escapeName (normalizeNewlines f.1), normalizeNewlines f.2) = f := by
  rw [normalize_id h.2, normalize_id (paired_of_none fun c hc hm => h.1 c hc (List.mem_cons_of_mem _ hm)), escapeName_id h.1]

/-- C97. Plain fields arrive as they are, and so do the bytes of the file: the server reads this form and no other. -/
theorem C97_carried (b : Str) (entries : List (Str × Str)) (file : ChosenFile) (hb : FreshBoundary b entries file.content)
    (ht : ∀ c ∈ file.type, c ∉ s% "\r\n") (hf : ∀ f ∈ entries, PlainField f) (hn : ∀ c ∈ file.name, c ∉ s% "\"\r\n")
    (fields : List (Str × Str)) (filename : Str) (content : Bytes) :
    BodyForm b (multipartBody b entries file) fields filename content ↔
      fields = entries ∧ filename = file.name ∧ content = file.content := by
  rw [form_iff hb ht, escapeName_id hn]
  have : entries.map (fun f => (escapeName (normalizeNewlines f.1), normalizeNewlines f.2)) = entries := by
    conv => rhs; rw [← List.map_id entries]
    exact List.map_congr_left fun f hm => plain_sent (hf f hm)
  rw [this]

/-! ### Accepted forms -/

private theorem escape_percent {s : Str} (h : '%' ∉ escapeName s) : escapeName s = s := by
  unfold escapeName at h ⊢
  induction s with
  | nil => rfl
  | cons c s ih =>
    rw [List.flatMap_cons, List.mem_append, not_or] at h
    rw [List.flatMap_cons, ih h.2]
    obtain ⟨h, _⟩ := h
    split at h
    · exact absurd (by decide) h
    · split at h
      · exact absurd (by decide) h
      · split at h
        · exact absurd (by decide) h
        · rename_i h1 h2 h3
          rw [if_neg h1, if_neg h2, if_neg h3]; rfl

private theorem normalize_no_cr {s : Str} (h : '\r' ∉ normalizeNewlines s) : normalizeNewlines s = s := by
  fun_induction normalizeNewlines s with
  | case1 => rfl
  | case2 rest ih | case3 rest _ ih | case4 rest ih => exact absurd (by simp) h
  | case5 c rest _ _ _ ih => rw [ih fun hm => h (by simp [hm])]

private theorem sent_name {x name : Str} (hn : ∀ c ∈ name, c ∉ s% "%\"\r\n") :
    escapeName (normalizeNewlines x) = name ↔ x = name := by
  constructor
  · intro h
    have h1 : escapeName (normalizeNewlines x) = normalizeNewlines x :=
      escape_percent fun hm => hn '%' (h ▸ hm) (by decide)
    rw [h1] at h
    rw [← normalize_no_cr fun hm => hn '\r' (h ▸ hm) (by decide), h]
  · rintro rfl
    rw [normalize_id (paired_of_none fun c hc hm => hn c hc (by revert hm; simp; intro h; simp [h])), escapeName_id fun c hc hm =>
      hn c hc (List.mem_cons_of_mem _ hm)]

theorem b64_lines {p : Str} {x : Bytes} (h : base64Decode p = some x) : ∀ c ∈ p, c ∉ s% "\"\r\n" := by
  intro c hc
  have key : ∀ c ∈ '=' :: b64Alphabet, c ∉ s% "\"\r\n" := by decide +kernel
  rcases b64_chars h hc with h | h
  · exact key c (by simp [h])
  · exact key c (by simp [h])

theorem hex_lines {p : Str} {x : Bytes} (h : hexDecode p = some x) : ∀ c ∈ p, c ∉ s% "\"\r\n" := by
  fun_induction hexDecode p generalizing x with
  | case1 => simp
  | case2 a b r ih =>
    have key : ∀ (c : Char) (n : Nat), lowerHexVal c = some n → c ∉ s% "\"\r\n" := by
      intro c n hc hm
      simp only [List.mem_cons, List.not_mem_nil, or_false] at hm
      rcases hm with rfl | rfl | rfl
      · exact absurd hc (by rw [show lowerHexVal '"' = none by decide]; simp)
      · exact absurd hc (by rw [show lowerHexVal '\r' = none by decide]; simp)
      · exact absurd hc (by rw [show lowerHexVal '\n' = none by decide]; simp)
    simp only [bind, Option.bind_eq_some_iff] at h
    obtain ⟨x, hx, y, hy, rest, hrest, _⟩ := h
    intro c hc
    simp only [List.mem_cons] at hc
    rcases hc with rfl | rfl | hc
    · exact key _ _ hx
    · exact key _ _ hy
    · exact ih hrest c hc
  | case3 => cases h

private theorem lines_of {s : Str} (h : ∀ c ∈ s, c ∉ s% "\"\r\n") : PairedNewlines s :=
  paired_of_none fun c hc hm => h c hc (List.mem_cons_of_mem _ hm)

private theorem mem_name {f : Str × Str} {fs : List (Str × Str)} {n v : Str} (h : fieldValues fs n = [v]) (hf : f ∈ fs) (hn : f.1 = n) :
    f.2 = v := by
  have : f.2 ∈ fieldValues fs n := mem_fieldValues.2 (by rw [← hn]; exact hf)
  rw [h] at this
  exact List.mem_singleton.1 this

/-- Whatever is known about when the form itself is accepted: posted by a browser, it is so if its fields are plain. -/
theorem posted_iff {env : Env} {cs : List Call} {o : SigningOptions} {w w' : World} {fs : List (Str × Str)} {account : Str} {n e : Nat}
    {bucket : Str} {b : Str} {file : ChosenFile} {start : Time} (ho : (cs.filterMap callOptions).getLast? = some o)
    (h : (Builder.ofCalls cs).build env w = (.ok fs, w')) (hb : FreshBoundary b fs file.content) (ht : ∀ c ∈ file.type, c ∉ s% "\r\n")
    (hiff : ∀ time : Int, AcceptsPost account n e ⟨bucket, fs, file.content.length, time⟩ ↔
      start / 1000000000 ≤ time ∧ time < o.expiration / 1000000000 ∧
        (∀ text, lastValue cs (s% "Content-Length") = some text → Decimal text file.content.length) ∧
        (∀ m ∈ cs.filterMap callMeta, ∀ m' ∈ cs.filterMap callMeta, m.1 = m'.1 → m.2 = m'.2)) :
    ∃ fields filename content, BodyForm b (multipartBody b fs file) fields filename content ∧
      (∀ fields' filename' content', BodyForm b (multipartBody b fs file) fields' filename' content' →
        fields' = fields ∧ filename' = filename ∧ content' = content) ∧
      content = file.content ∧
      ∀ time : Int, AcceptsPost account n e ⟨bucket, fields, content.length, time⟩ ↔
        start / 1000000000 ≤ time ∧ time < o.expiration / 1000000000 ∧
        (∀ text, lastValue cs (s% "Content-Length") = some text → Decimal text file.content.length) ∧
        (∀ m ∈ cs.filterMap callMeta, ∀ m' ∈ cs.filterMap callMeta, m.1 = m'.1 → m.2 = m'.2) ∧
        ∀ f ∈ fs, PlainField f := by
  refine ⟨_, _, _, (form_iff hb ht).2 ⟨rfl, rfl, rfl⟩, fun _ _ _ h => (form_iff hb ht).1 h, rfl, fun time => ?_⟩
  have hplain : (∀ f ∈ fs, PlainField f) →
      fs.map (fun f => (escapeName (normalizeNewlines f.1), normalizeNewlines f.2)) = fs := by
    intro hf
    conv => rhs; rw [← List.map_id fs]
    exact List.map_congr_left fun f hm => plain_sent (hf f hm)
  constructor
  · intro hacc
    have hall : ∀ f ∈ fs, PlainField f := by
      obtain ⟨_, policy, date, text, hex, sg, computed, hfs, hcomp, _, _, hpol, hj, _, halg, hdate, hbasic, hcred, hs1, hs2, _⟩ :=
        form_facts env cs o w w' fs ho h
      obtain ⟨_, hp64, _⟩ := (hj _).2 rfl
      have hsame : fieldValues (fs.map fun f => (escapeName (normalizeNewlines f.1), normalizeNewlines f.2)) (s% "policy") =
          fieldValues fs (s% "policy") := by
        unfold fieldValues
        rw [List.filter_map, List.map_map]
        have hfil : fs.filter ((fun f : Str × Str => decide (f.1 = s% "policy")) ∘
            fun f => (escapeName (normalizeNewlines f.1), normalizeNewlines f.2)) = fs.filter fun f => decide (f.1 = s% "policy") := by
          apply List.filter_congr
          intro f _
          show decide (escapeName (normalizeNewlines f.1) = s% "policy") = decide (f.1 = s% "policy")
          rw [decide_eq_decide]
          exact sent_name (by decide)
        rw [hfil]
        apply List.map_congr_left
        intro f hf
        obtain ⟨hf1, hf2⟩ := List.mem_filter.1 hf
        rw [decide_eq_true_eq] at hf2
        show normalizeNewlines f.2 = f.2
        exact normalize_id (by rw [mem_name hpol hf1 hf2]; exact lines_of (b64_lines hp64))
      have hsub := C68_unforgeable env cs o w w' fs n e ho h account _ hacc hsame
      intro f hf
      by_cases hname : ∀ c ∈ f.1, c ∉ s% "%\"\r\n"
      · have hname' : ∀ c ∈ f.1, c ∉ s% "\"\r\n" := fun c hc hm => hname c hc (List.mem_cons_of_mem _ hm)
        refine ⟨hname', ?_⟩
        by_cases h1 : f.1 = s% "policy"
        · rw [mem_name hpol hf h1]; exact lines_of (b64_lines hp64)
        by_cases h2 : f.1 = s% "x-goog-signature"
        · rw [mem_name hs1 hf h2]; exact lines_of (hex_lines hs2)
        by_cases h3 : f.1 = s% "Content-Length"
        · have hl : lastValue cs (s% "Content-Length") = some f.2 := by
            obtain ⟨n', v⟩ := f
            simp only at h3
            subst h3
            rw [hfs] at hf
            rcases mem_signedForm.1 hf with ⟨_, hv⟩ | ⟨hv, _⟩
            · rwa [hcomp _ (by decide) (by decide) (by decide) (by decide) (by decide)] at hv
            · exact absurd hv (by decide)
          have := (hsub.size _ hl).2.1
          have key : ∀ c ∈ s% "0123456789", c ∉ s% "\r\n" := by decide
          exact paired_of_none fun c hc => key c (this c hc)
        have hin : (f.1, normalizeNewlines f.2) ∈
            fs.map fun f => (escapeName (normalizeNewlines f.1), normalizeNewlines f.2) :=
          List.mem_map.2 ⟨f, hf, by rw [(sent_name hname).2 rfl]⟩
        have := hsub.same _ hin f hf rfl (fun hx => hx.elim h1 h2) h3
        rw [← this]
        exact normalize_paired _
      · have hns : ∀ x ∈ signedOrder, f.1 ≠ x := by
          intro x hx he
          have key : ∀ x ∈ signedOrder, ∀ c ∈ x, c ∉ s% "%\"\r\n" := by decide +kernel
          exact hname (he ▸ key x hx)
        have := hsub.complete f hf (by rintro (h | h) <;> exact hns _ (by decide) h) (hns _ (by decide)) (hns _ (by decide))
        obtain ⟨g, _, hg⟩ := List.mem_map.1 this
        rw [← hg]
        exact ⟨escapeName_safe _, normalize_paired _⟩
    rw [hplain hall] at hacc
    obtain ⟨h1, h2, h3, h4⟩ := (hiff time).1 hacc
    exact ⟨h1, h2, h3, h4, hall⟩
  · rintro ⟨h1, h2, h3, h4, h5⟩
    rw [hplain h5]
    exact (hiff time).2 ⟨h1, h2, h3, h4⟩

/-- C97. The returned form, posted by a browser with a file: the body is a form to the server, and it accepts it exactly if the time is
in the window, the file has the given length, no two values of one metadata name differ, and all fields are plain. -/
theorem C97_accepted_iff (env : Env) (cs : List Call) (o : SigningOptions) (w w' : World) (fs : List (Str × Str))
    (email pem : Str) (key : Bytes) (n e : Nat) (bucket : Str) (b : Str) (file : ChosenFile)
    (ho : (cs.filterMap callOptions).getLast? = some o) (h : (Builder.ofCalls cs).build env w = (.ok fs, w'))
    (hk : o.signingKey = .serviceAccount email pem) (hring : Rsa.Correct env) (hpem : env.pemParse pem = some key)
    (hpub : Rsa.PublicKeyIn key n e) (hbucket : lastValue cs (s% "bucket") = some bucket)
    (hb : FreshBoundary b fs file.content) (ht : ∀ c ∈ file.type, c ∉ s% "\r\n") :
    ∃ fields filename content, BodyForm b (multipartBody b fs file) fields filename content ∧
      (∀ fields' filename' content', BodyForm b (multipartBody b fs file) fields' filename' content' →
        fields' = fields ∧ filename' = filename ∧ content' = content) ∧
      content = file.content ∧
      ∀ time : Int, AcceptsPost email n e ⟨bucket, fields, content.length, time⟩ ↔
        validFrom env o.accessibleAt w / 1000000000 ≤ time ∧ time < o.expiration / 1000000000 ∧
        (∀ text, lastValue cs (s% "Content-Length") = some text → Decimal text file.content.length) ∧
        (∀ m ∈ cs.filterMap callMeta, ∀ m' ∈ cs.filterMap callMeta, m.1 = m'.1 → m.2 = m'.2) ∧
        ∀ f ∈ fs, PlainField f :=
  posted_iff ho h hb ht fun time => C67_service_account env cs o w w' fs email pem key n e ⟨bucket, fs, file.content.length, time⟩ ho h
    hk hring hpem hpub rfl hbucket

/-! ### The page of the example -/

private theorem no_lines_append {s t : Str} (hs : ∀ c ∈ s, c ∉ s% "\r\n") (ht : ∀ c ∈ t, c ∉ s% "\r\n") : ∀ c ∈ s ++ t, c ∉ s% "\r\n" :=
  fun c hc => (List.mem_append.1 hc).elim (hs c) (ht c)

/-- The fields of the form that the example server returns are plain. -/
theorem created_plain {env : Env} {cfg : Config} {id : Str} {n : Nat} {c : Str} {t : Time} {w w' : World} {fs : List (Str × Str)}
    (hbuild : (Builder.ofCalls (createCalls cfg id n c t)).build env w = (.ok fs, w'))
    (he : ∀ account, Authorizes env w w'.log cfg.signingKey account → ∀ x ∈ account, x ∉ s% "\r\n")
    (hb : ∀ x ∈ cfg.bucketName, x ∉ s% "\r\n") (hc : ∀ x ∈ c, x ∉ s% "\r\n") (hid : IsUuid id) : ∀ f ∈ fs, PlainField f := by
  obtain ⟨account, policy, date, text, hex, sg, computed, hfs, hcomp, _, hauth, hpol, hj, _, halg, hdate, ⟨d, _, hbasic, _⟩, hcred, hs1,
    hs2, _⟩ := form_facts env _ _ _ w' fs rfl hbuild
  obtain ⟨_, hp64, _⟩ := (hj _).2 rfl
  replace he := he account hauth
  have hdt : ∀ x ∈ date, x ∉ s% "\r\n" := by
    intro x hx hm
    rw [hbasic] at hx
    simp only [List.mem_cons, List.not_mem_nil, or_false] at hm
    rcases hm with rfl | rfl
    · exact basic_no (by decide) (by decide) (by decide) d hx
    · exact basic_no (by decide) (by decide) (by decide) d hx
  intro f hf
  have hf' := hf
  obtain ⟨name, v⟩ := f
  rw [hfs] at hf
  rcases mem_signedForm.1 hf with ⟨hn, hv⟩ | ⟨_, hv⟩
  · refine ⟨(show ∀ x ∈ signedOrder, ∀ c ∈ x, c ∉ s% "\"\r\n" by decide +kernel) name hn, ?_⟩
    show PairedNewlines v
    by_cases h1 : name = s% "policy"
    · rw [show v = policy from mem_name hpol hf' h1]; exact lines_of (b64_lines hp64)
    by_cases h2 : name = s% "x-goog-algorithm"
    · rw [show v = _ from mem_name halg hf' h2]; exact paired_of_none (by decide)
    by_cases h3 : name = s% "x-goog-credential"
    · rw [show v = _ from mem_name hcred hf' h3]
      refine paired_of_none (no_lines_append (no_lines_append (no_lines_append (no_lines_append (no_lines_append he (by decide))
        fun x hx => hdt x (List.mem_of_mem_take hx)) (by decide)) ?_) (by decide))
      show ∀ x ∈ s% "auto", x ∉ s% "\r\n"
      decide
    by_cases h4 : name = s% "x-goog-date"
    · rw [show v = date from mem_name hdate hf' h4]; exact paired_of_none hdt
    by_cases h5 : name = s% "x-goog-signature"
    · rw [show v = hex from mem_name hs1 hf' h5]; exact lines_of (hex_lines hs2)
    rw [hcomp name h1 h2 h3 h4 h5, Option.none_or] at hv
    unfold lastValue at hv
    rw [Option.map_eq_some_iff] at hv
    obtain ⟨p, hp, rfl⟩ := hv
    have hp := List.mem_filter.1 (List.mem_of_getLast? hp)
    simp only [createCalls, List.filterMap_cons, callSets, List.filterMap_nil, List.mem_cons, List.not_mem_nil, or_false] at hp
    rcases hp.1 with rfl | rfl | rfl | rfl
    · exact paired_of_none hb
    · have key : ∀ x ∈ s% "0123456789", x ∉ s% "\r\n" := by decide
      exact paired_of_none fun x hx => key x ((natDec_decimal n).2.1 x hx)
    · exact paired_of_none hc
    · have key : ∀ x ∈ s% "0123456789abcdef-", x ∉ s% "\r\n" := by decide
      exact paired_of_none fun x hx => key x (hid.2 x hx)
  · simp [createCalls, callMeta] at hv

/-- What the server reads from the body of an upload. -/
theorem upload_body {fields : List (Str × Str)} {file : ChosenFile} {b : Str} (hn : (fields.map (·.1)).Nodup)
    (hplain : ∀ f ∈ fields, PlainField f) (hb : FreshBoundary b fields file.content) (ht : ∀ c ∈ file.type, c ∉ s% "\r\n")
    {f : List (Str × Str)} {n : Str} {c : Bytes} :
    BodyForm b (uploadBody b fields file) f n c ↔ f = fields ∧ n = escapeName file.name ∧ c = file.content := by
  unfold uploadBody
  rw [formEntries_nodup hn, form_iff hb ht]
  have : fields.map (fun f => (escapeName (normalizeNewlines f.1), normalizeNewlines f.2)) = fields := by
    conv => rhs; rw [← List.map_id fields]
    exact List.map_congr_left fun f hm => plain_sent (hplain f hm)
  rw [this]

/-- What the server reads from the body of an upload, and what it does with it. -/
theorem upload_read {account : Str} {N E : Nat} {fields : List (Str × Str)} {file : ChosenFile} {b bucket id : Str} {lo hi : Int}
    (hn : (fields.map (·.1)).Nodup) (hplain : ∀ f ∈ fields, PlainField f) (hb : FreshBoundary b fields file.content)
    (ht : ∀ c ∈ file.type, c ∉ s% "\r\n") (hid : IsUuid id) (hkey : fieldValues (formEntries fields) (s% "key") = [id])
    (hacc : ∀ time : Int, (Sent.form ⟨bucket, formEntries fields, file.content.length, time⟩ file.name file.content).Accepted account N E ↔
      lo ≤ time ∧ time < hi) :
    ∃ fields' filename content, BodyForm b (uploadBody b fields file) fields' filename content ∧
      (∀ fields₂ filename₂ content₂, BodyForm b (uploadBody b fields file) fields₂ filename₂ content₂ →
        fields₂ = fields' ∧ filename₂ = filename ∧ content₂ = content) ∧
      ∀ (time : Int) (store store' : Store),
        Handles account N E (.form ⟨bucket, fields', content.length, time⟩ filename content) store store' →
        if lo ≤ time ∧ time < hi then
          store' (utf8 bucket) (utf8 id) = some file.content ∧
          ∀ bucket' object, store' bucket' object ≠ store bucket' object → bucket' = utf8 bucket ∧ object = utf8 id
        else store' = store := by
  have hsame : formEntries fields = fields := formEntries_nodup hn
  have hbody : ∀ {f n c}, BodyForm b (uploadBody b fields file) f n c ↔ f = fields ∧ n = escapeName file.name ∧ c = file.content :=
    upload_body hn hplain hb ht
  refine ⟨fields, escapeName file.name, file.content, hbody.2 ⟨rfl, rfl, rfl⟩,
    fun _ _ _ hx => hbody.1 hx, fun time store store' hh => ?_⟩
  rw [hsame] at hacc hkey
  split
  · rename_i hw
    refine ⟨?_, fun bucket' object hne => ?_⟩
    · have := hh.post ((hacc time).2 hw) _ _ _ id rfl hkey
      rwa [expand_uuid _ hid] at this
    · obtain ⟨hb', key', hk', ho⟩ := hh.others bucket' object hne
      rw [show fieldValues fields (s% "key") = [id] from hkey, List.mem_singleton] at hk'
      rw [hk', expand_uuid _ hid] at ho
      exact ⟨hb', ho⟩
  · rename_i hw
    exact hh.rejected fun ha => hw ((hacc time).1 ha)

/-- C97. A page of the example that has got its form posts a body from which the storage server reads a form. In the minute of the form,
when the storage server has handled it, the object of the image has exactly the bytes of the chosen file, and nothing else has
changed; outside, nothing has. -/
theorem C97_page (env : Env) (cfg : Config) (email pem : Str) (key : Bytes) (N E : Nat) (tr : List Event) (s : Site)
    (h : Site.Run (.alone env cfg) cfg email N E tr s) (hn : (createdIds tr).Nodup)
    (hk : cfg.signingKey = .serviceAccount email pem) (hring : Rsa.Correct env) (hpem : env.pemParse pem = some key)
    (hpub : Rsa.PublicKeyIn key N E) (he : ∀ c ∈ email, c ∉ s% "\r\n") (hbn : ∀ c ∈ cfg.bucketName, c ∉ s% "\r\n")
    (k : Nat) (file : ChosenFile) (fields : List (Str × Str)) (method url b : Str)
    (hu : s.uploads[k]? = some (file, .uploading fields method url)) (ht : ∀ c ∈ file.type, c ∉ s% "\r\n")
    (hb : FreshBoundary b fields file.content) :
    ∃ bucket id now start fields' filename content, bucketOf url = some bucket ∧ findKey fields = some id ∧
      FormFor env cfg id file.content.length file.type fields now start ∧
      BodyForm b (uploadBody b fields file) fields' filename content ∧
      (∀ fields₂ filename₂ content₂, BodyForm b (uploadBody b fields file) fields₂ filename₂ content₂ →
        fields₂ = fields' ∧ filename₂ = filename ∧ content₂ = content) ∧
      ∀ (time : Int) (store store' : Store),
        Handles email N E (.form ⟨bucket, fields', content.length, time⟩ filename content) store store' →
        if start / 1000000000 ≤ time ∧ time < (now + 60000000000) / 1000000000 then
          store' (utf8 bucket) (utf8 id) = some file.content ∧
          ∀ bucket' object, store' bucket' object ≠ store bucket' object → bucket' = utf8 bucket ∧ object = utf8 id
        else store' = store := by
  obtain ⟨_, bucket, id, now, start, h1, h2, h3, h4⟩ :=
    C81_upload_accepted env cfg email pem key N E tr s h hn hk hring hpem hpub k file fields method url hu
  obtain ⟨own, inv⟩ := site_inv (keyed_alone env cfg) h hn
  obtain ⟨i, _, hi⟩ := inv.uploads k file _ hu
  obtain ⟨id', _, _, hid, _, _, hfind, hkey⟩ := uploading_facts (keyed_alone env cfg) inv.run hi
  obtain rfl : id = id' := by rw [h2] at hfind; exact Option.some.inj hfind
  obtain ⟨w, w', hnow, hstart, hbuild⟩ := h3
  have hplain := created_plain (t := now + 60000000000) hbuild (by rw [hk]; rintro a rfl; exact he) hbn ht hid
  obtain ⟨fields', filename, content, g1, g2, g3⟩ := upload_read (formFor_names ⟨w, w', hnow, hstart, hbuild⟩) hplain hb ht hid hkey h4
  exact ⟨bucket, id, now, start, fields', filename, content, h1, h2, ⟨w, w', hnow, hstart, hbuild⟩, g1, g2, g3⟩

end CSS
