import Verif.Lemmas.Form
import Verif.Lemmas.Codec
import Verif.Lemmas.Sort
/- The policy document of a signed form against its fields. -/
set_option linter.unusedSimpArgs false
namespace CSS
open Spec

/-- The non-exempt fields, as conditions. -/
def pins (fs : List (Str × Str)) : List Json := (fs.filter fun f => ¬ exempt f.1).map pinning

theorem pins_append (a b : List (Str × Str)) : pins (a ++ b) = pins a ++ pins b := by
  simp [pins]

theorem pins_opt {n : Str} {f : Field} (v : Option Str) (h : f.toStr = n) (he : ¬ exempt n) (hl : n ≠ s% "Content-Length") :
    pins (optField n v) = (optCond f v).map Condition.toJson := by
  cases v with
  | none => rfl
  | some v => simp [pins, optField, optCond, he, pinning, hl, eqCond, Condition.toJson, h]

theorem pins_exempt {n : Str} (v : Option Str) (he : exempt n) : pins (optField n v) = [] := by
  cases v with
  | none => rfl
  | some v => simp [pins, optField, he]

theorem pins_length (v : Option Nat) :
    pins (optField (s% "Content-Length") (v.map natDec)) = (lengthConds v).map Condition.toJson := by
  cases v with
  | none => rfl
  | some v =>
    have : ¬ exempt (s% "Content-Length") := by decide
    simp [pins, optField, lengthConds, this, pinning, lengthCond, Condition.toJson]

theorem pins_one {n : Str} {f : Field} (v : Str) (h : f.toStr = n) (he : ¬ exempt n) (hl : n ≠ s% "Content-Length") :
    pins [(n, v)] = [Condition.toJson (.exactMatching f v)] := pins_opt (some v) h he hl

theorem meta_prefix_ne (n t : Str) (h : stripPrefix (s% "x-goog-meta-") t = none) : s% "x-goog-meta-" ++ n ≠ t := by
  intro e; rw [← e, stripPrefix_append] at h; cases h

theorem pins_metas (ms : List (Str × Str)) :
    pins (ms.map fun m => (s% "x-goog-meta-" ++ m.1, m.2)) =
      (ms.map fun m => Condition.exactMatching (.xGoogMeta m.1) m.2).map Condition.toJson := by
  induction ms with
  | nil => rfl
  | cons m ms ih =>
    have h := pins_one (n := s% "x-goog-meta-" ++ m.1) (f := .xGoogMeta m.1) m.2 rfl
      (by rintro (h | h)
          · exact meta_prefix_ne _ _ (by decide) h
          · exact meta_prefix_ne _ _ (by decide) h)
      (meta_prefix_ne _ _ (by decide))
    have h2 := pins_append [(s% "x-goog-meta-" ++ m.1, m.2)] (ms.map fun m => (s% "x-goog-meta-" ++ m.1, m.2))
    rw [h, ih] at h2
    simpa using h2

theorem pins_fieldList (b : Builder) (bucket key : Str) (p : PolicyFields) (hb : b.bucket = some bucket)
    (ha : p.algorithm = s% "GOOG4-RSA-SHA256") :
    pins (fieldList b key (some p)) =
      (conditionList b bucket key .goog4RsaSha256 p.credential p.date).map Condition.toJson := by
  unfold fieldList singles conditionList
  rw [hb]
  simp only [pins_append, List.map_append, pins_metas, pins_length]
  rw [pins_opt (n := s% "acl") (f := .acl) b.acl rfl (by decide) (by decide),
    pins_opt (n := s% "bucket") (f := .bucket) (some bucket) rfl (by decide) (by decide),
    pins_opt (n := s% "Cache-Control") (f := .cacheControl) b.cacheControl rfl (by decide) (by decide),
    pins_opt (n := s% "Content-Disposition") (f := .contentDisposition) b.contentDisposition rfl (by decide) (by decide),
    pins_opt (n := s% "Content-Encoding") (f := .contentEncoding) b.contentEncoding rfl (by decide) (by decide),
    pins_opt (n := s% "Content-Type") (f := .contentType) b.contentType rfl (by decide) (by decide),
    pins_opt (n := s% "Expires") (f := .expires) b.expires rfl (by decide) (by decide),
    pins_one (n := s% "key") (f := .key) key rfl (by decide) (by decide),
    pins_exempt (n := s% "policy") _ (by decide),
    pins_opt (n := s% "success_action_redirect") (f := .successActionRedirect) _ rfl (by decide) (by decide),
    pins_opt (n := s% "success_action_status") (f := .successActionStatus) _ rfl (by decide) (by decide),
    pins_opt (n := s% "x-goog-algorithm") (f := .xGoogAlgorithm) _ rfl (by decide) (by decide),
    pins_opt (n := s% "x-goog-credential") (f := .xGoogCredential) _ rfl (by decide) (by decide),
    pins_opt (n := s% "x-goog-custom-time") (f := .xGoogCustomTime) _ rfl (by decide) (by decide),
    pins_opt (n := s% "x-goog-date") (f := .xGoogDate) _ rfl (by decide) (by decide),
    pins_exempt (n := s% "x-goog-signature") _ (by decide)]
  simp only [Option.map_some, ha, optCond, List.map_cons, List.map_nil, SigningAlgorithm.asStr, List.append_assoc,
    List.nil_append, List.append_nil, List.cons_append]

/-! ### rendering the document -/

theorem condition_nums (c : Condition) : AllNums JNum c.toJson := by
  cases c <;> simp [Condition.toJson, AllNums, AllNumsElems, natDec_JNum]

theorem conditions_nums (cs : List Condition) : AllNumsElems JNum (cs.map Condition.toJson) := by
  induction cs with
  | nil => trivial
  | cons c cs ih => exact ⟨condition_nums c, ih⟩

theorem document_text (d : PolicyDocument) : JsonText d.toJson d.toJson.render := by
  apply render_text
  simp [PolicyDocument.toJson, AllNums, AllNumsMembers, conditions_nums]

theorem document_eq (d : PolicyDocument) :
    d.toJson = policyJson (d.conditions.map Condition.toJson) d.expiration.toStr := rfl

theorem carriesJson_unique {p : Str} {j j' : Json} (h : CarriesJson p j) (h' : CarriesJson p j') : j = j' := by
  obtain ⟨t, ht, hj⟩ := h
  obtain ⟨t', ht', hj'⟩ := h'
  rw [ht] at ht'
  cases Option.some.inj ht' |> utf8_inj
  exact jsonText_unique hj hj'

theorem carriesJson_document (d : PolicyDocument) : CarriesJson (b64Encode (utf8 d.toJson.render)) d.toJson :=
  ⟨_, base64Decode_b64Encode _, document_text d⟩

/-! ### values of named fields -/

theorem fieldValues_append (a b : List (Str × Str)) (n : Str) :
    fieldValues (a ++ b) n = fieldValues a n ++ fieldValues b n := by simp [fieldValues]

theorem fieldValues_opt_ne {n m : Str} (v : Option Str) (h : n ≠ m) : fieldValues (optField n v) m = [] := by
  cases v <;> simp [fieldValues, optField, h]

theorem fieldValues_opt_eq {n : Str} (v : Option Str) : fieldValues (optField n v) n = v.toList := by
  cases v <;> simp [fieldValues, optField]

theorem fieldValues_metas (ms : List (Str × Str)) {n : Str} (h : stripPrefix (s% "x-goog-meta-") n = none) :
    fieldValues (ms.map fun m => (s% "x-goog-meta-" ++ m.1, m.2)) n = [] := by
  induction ms with
  | nil => rfl
  | cons m ms ih =>
    have h1 : s% "x-goog-meta-" ++ m.1 ≠ n := meta_prefix_ne _ _ h
    have : fieldValues [(s% "x-goog-meta-" ++ m.1, m.2)] n = [] := fieldValues_opt_ne (some m.2) h1
    have h2 := fieldValues_append [(s% "x-goog-meta-" ++ m.1, m.2)] (ms.map fun m => (s% "x-goog-meta-" ++ m.1, m.2)) n
    rw [this, ih] at h2
    simpa using h2

theorem values_policy (b : Builder) (k : Str) (p : PolicyFields) : fieldValues (fieldList b k (some p)) (s% "policy") = [p.policy] := by
  unfold fieldList singles
  simp only [fieldValues_append, fieldValues_metas b.xGoogMeta (n := s% "policy") (by decide), fieldValues_opt_eq]
  have hk : fieldValues [(s% "key", k)] (s% "policy") = [] := fieldValues_opt_ne (some k) (by decide)
  rw [hk]
  repeat rw [fieldValues_opt_ne _ (by decide)]
  rfl

theorem values_algorithm (b : Builder) (k : Str) (p : PolicyFields) : fieldValues (fieldList b k (some p)) (s% "x-goog-algorithm") = [p.algorithm] := by
  unfold fieldList singles
  simp only [fieldValues_append, fieldValues_metas b.xGoogMeta (n := s% "x-goog-algorithm") (by decide), fieldValues_opt_eq]
  have hk : fieldValues [(s% "key", k)] (s% "x-goog-algorithm") = [] := fieldValues_opt_ne (some k) (by decide)
  rw [hk]
  repeat rw [fieldValues_opt_ne _ (by decide)]
  rfl

theorem values_credential (b : Builder) (k : Str) (p : PolicyFields) : fieldValues (fieldList b k (some p)) (s% "x-goog-credential") = [p.credential] := by
  unfold fieldList singles
  simp only [fieldValues_append, fieldValues_metas b.xGoogMeta (n := s% "x-goog-credential") (by decide), fieldValues_opt_eq]
  have hk : fieldValues [(s% "key", k)] (s% "x-goog-credential") = [] := fieldValues_opt_ne (some k) (by decide)
  rw [hk]
  repeat rw [fieldValues_opt_ne _ (by decide)]
  rfl

theorem values_date (b : Builder) (k : Str) (p : PolicyFields) : fieldValues (fieldList b k (some p)) (s% "x-goog-date") = [p.date] := by
  unfold fieldList singles
  simp only [fieldValues_append, fieldValues_metas b.xGoogMeta (n := s% "x-goog-date") (by decide), fieldValues_opt_eq]
  have hk : fieldValues [(s% "key", k)] (s% "x-goog-date") = [] := fieldValues_opt_ne (some k) (by decide)
  rw [hk]
  repeat rw [fieldValues_opt_ne _ (by decide)]
  rfl

theorem values_signature (b : Builder) (k : Str) (p : PolicyFields) : fieldValues (fieldList b k (some p)) (s% "x-goog-signature") = [p.signature] := by
  unfold fieldList singles
  simp only [fieldValues_append, fieldValues_metas b.xGoogMeta (n := s% "x-goog-signature") (by decide), fieldValues_opt_eq]
  have hk : fieldValues [(s% "key", k)] (s% "x-goog-signature") = [] := fieldValues_opt_ne (some k) (by decide)
  rw [hk]
  repeat rw [fieldValues_opt_ne _ (by decide)]
  rfl

end CSS
