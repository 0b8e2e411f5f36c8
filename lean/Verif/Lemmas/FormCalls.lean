import Verif.Lemmas.Calls
import Verif.Lemmas.Policy
/- Signed forms in the words of `Spec/Calls`. -/
set_option linter.unusedSimpArgs false
namespace CSS
open Spec

theorem jsonStr_eq (s : Str) : jsonStr s = ['"'] ++ jsonQuoted s ++ ['"'] := by
  unfold jsonStr jsonQuoted
  congr 2
  induction s with
  | nil => rfl
  | cons c s ih =>
    rw [List.flatMap_cons, List.flatMap_cons, ih]
    congr 1
    by_cases h : c.toNat < 128
    · exact forall_ascii (P := fun c => jsonEscapeChar c =
        if c = '"' then s% "\\\""
        else if c = '\\' then s% "\\\\"
        else if c = '\n' then s% "\\n"
        else if c = '\r' then s% "\\r"
        else if c = '\t' then s% "\\t"
        else if c.toNat = 8 then s% "\\b"
        else if c.toNat = 12 then s% "\\f"
        else if c.toNat < 32 then
          s% "\\u00" ++ [(s% "01").getD (c.toNat / 16) '0', (s% "0123456789abcdef").getD (c.toNat % 16) '0']
        else [c]) (by decide +kernel) c h
    · have ne : ∀ d : Char, d.toNat < 128 → c ≠ d := by rintro d hd rfl; exact h hd
      unfold jsonEscapeChar
      simp only
      rw [if_neg (by omega), if_neg (by omega), if_neg (by omega), if_neg (by omega), if_neg (by omega), if_neg (by omega),
        if_neg (by omega), if_neg (by omega), if_neg (ne _ (by decide)), if_neg (ne _ (by decide)), if_neg (ne _ (by decide)),
        if_neg (ne _ (by decide)), if_neg (ne _ (by decide)), if_neg (by omega), if_neg (by omega), if_neg (by omega)]

theorem render_eqCond (n v : Str) :
    (eqCond n v).render = s% "[\"eq\",\"$" ++ jsonQuoted n ++ s% "\",\"" ++ jsonQuoted v ++ s% "\"]" := by
  have h1 : jsonQuoted (s% "eq") = s% "eq" := by decide
  have h2 : jsonQuoted ('$' :: n) = '$' :: jsonQuoted n := by
    unfold jsonQuoted
    rw [List.flatMap_cons]
    rfl
  simp only [eqCond, Json.render, Json.renderElems, jsonStr_eq, h1, h2]
  simp

theorem render_pinning (f : Str × Str) : (pinning f).render = conditionText f := by
  unfold pinning conditionText
  split
  · have h1 : jsonQuoted (s% "content-length-range") = s% "content-length-range" := by decide
    simp only [lengthCond, Json.render, Json.renderElems, jsonStr_eq, h1]
    simp
  · exact render_eqCond _ _

theorem renderElems_join (x : Json) (xs : List Json) :
    x.render ++ Json.renderElems xs = join (s% ",") ((x :: xs).map Json.render) := by
  induction xs generalizing x with
  | nil => simp [Json.renderElems, join]
  | cons y xs ih =>
    rw [Json.renderElems]
    have := ih y
    simp only [List.map_cons, join] at this ⊢
    rw [← this]
    simp

theorem render_policy (fs : List (Str × Str)) (e : Str) (hne : fs ≠ []) (he : jsonQuoted e = e) :
    (policyJson (fs.map pinning) e).render = policyText fs e := by
  unfold policyText
  have h1 : jsonQuoted (s% "conditions") = s% "conditions" := by decide
  have h2 : jsonQuoted (s% "expiration") = s% "expiration" := by decide
  cases fs with
  | nil => exact absurd rfl hne
  | cons f fs =>
    have hj := renderElems_join (pinning f) (fs.map pinning)
    rw [← List.map_cons, List.map_map, show (Json.render ∘ pinning) = conditionText from funext render_pinning] at hj
    simp only [policyJson, Json.render, Json.renderMembers, jsonStr_eq, h1, h2, he, List.map_cons] at hj ⊢
    rw [← hj]
    simp

theorem rfc3339_quoted {s : Str} {t : Int} (h : Rfc3339Denotes s t) : jsonQuoted s = s := by
  obtain ⟨c, _, rfl, _⟩ := h
  have hd : ∀ n : Nat, jsonQuoted [digit (n % 10)] = [digit (n % 10)] := by
    intro n
    have : ∀ m : Fin 10, jsonQuoted [digit m.val] = [digit m.val] := by decide
    exact this ⟨n % 10, by omega⟩
  have ha : ∀ a b : Str, jsonQuoted (a ++ b) = jsonQuoted a ++ jsonQuoted b := by
    intro a b; unfold jsonQuoted; rw [List.flatMap_append]
  have h2 : ∀ n, jsonQuoted (d2 n) = d2 n := by
    intro n
    unfold d2
    rw [show [digit (n / 10 % 10), digit (n % 10)] = [digit (n / 10 % 10)] ++ [digit (n % 10)] from rfl, ha, hd, hd]
  have h4 : ∀ n, jsonQuoted (d4 n) = d4 n := by
    intro n
    unfold d4
    rw [show [digit (n / 1000 % 10), digit (n / 100 % 10), digit (n / 10 % 10), digit (n % 10)] =
      [digit (n / 1000 % 10)] ++ [digit (n / 100 % 10)] ++ [digit (n / 10 % 10)] ++ [digit (n % 10)] from rfl,
      ha, ha, ha, hd, hd, hd, hd]
  have hc : ∀ x ∈ ['-', 'T', ':', 'Z'], jsonQuoted [x] = [x] := by decide
  unfold DateTime.rfc3339
  simp only [ha, h2, h4, hc '-' (by decide), hc 'T' (by decide), hc ':' (by decide), hc 'Z' (by decide)]

theorem optField_eq_toList (n : Str) (v : Option Str) : optField n v = (v.map fun x => (n, x)).toList := by
  cases v <;> rfl

theorem filterMap_eq_flatMap {α β : Type} (f : α → Option β) (l : List α) :
    l.filterMap f = l.flatMap fun a => (f a).toList := by
  induction l with
  | nil => rfl
  | cons a l ih =>
    rw [List.flatMap_cons, ← ih]
    cases h : f a <;> simp [List.filterMap_cons, h]

theorem fieldList_signed (cs : List Call) (key : Str) (hk : lastValue cs (s% "key") = some key) (p : PolicyFields) :
    fieldList (Builder.ofCalls cs) key (some p) = signedForm cs [
      (s% "policy", p.policy), (s% "x-goog-algorithm", p.algorithm), (s% "x-goog-credential", p.credential),
      (s% "x-goog-date", p.date), (s% "x-goog-signature", p.signature)] := by
  have hs := ofCalls_spec cs
  unfold fieldList singles signedForm
  rw [filterMap_eq_flatMap]
  simp only [optField_eq_toList, hs.acl, hs.bucket, hs.cacheControl, hs.contentDisposition, hs.contentEncoding,
    hs.contentLength, hs.contentType, hs.expires, hs.redirect, hs.status, hs.customTime, hs.metas,
    signedOrder, List.flatMap_cons, List.flatMap_nil, Option.map_some, Option.toList_some,
    Option.map_none, Option.toList_none, List.append_nil, List.append_assoc, List.nil_append, List.lookup]
  simp [hk]

end CSS
