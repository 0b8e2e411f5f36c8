import Verif.Lemmas.Form
import Verif.Conformance
/-
C01 (fields of an unsigned form), C02 (builder calls), C12 (field names are unique).
-/
set_option linter.unusedSimpArgs false
namespace CSS
open Spec

theorem optField_eq (n : Str) (v : Option Str) : optField n v = (v.map fun x => (n, x)).toList := by
  cases v <;> rfl

theorem filterMap_toList {α β : Type} (f : α → Option β) (l : List α) :
    l.filterMap f = l.flatMap fun a => (f a).toList := by
  induction l with
  | nil => rfl
  | cons a l ih =>
    rw [List.flatMap_cons, ← ih]
    cases h : f a <;> simp [List.filterMap_cons, h]

/-- C01. Without signing options: `build` succeeds iff `key` was set and no metadata name is empty; the
form is then exactly `unsignedForm`; nothing observable happens otherwise (no I/O, no clock). -/
theorem C01_unsigned_form (env : Env) (cs : List Call) (w : World)
    (h : ∀ c ∈ cs, callOptions c = none) :
    (Builder.ofCalls cs).build env w =
      (if lastValue cs (s% "key") = none then .err .keyNotFound
       else if ∃ m ∈ cs.filterMap callMeta, m.1 = [] then .err .xGoogMetaNameEmpty
       else .ok (unsignedForm cs), w) := by
  have hs := ofCalls_spec cs
  have hopt : (Builder.ofCalls cs).signingOptions = none := by
    rw [hs.options]
    have : cs.filterMap callOptions = [] := by
      rw [List.filterMap_eq_nil_iff]; exact h
    rw [this]; rfl
  rw [build_eq]
  unfold buildPolicyAndSignature
  rw [hopt]
  simp only [M.pure_run]
  rw [hs.key, hs.metas]
  cases hk : lastValue cs (s% "key") with
  | none => simp
  | some k =>
    simp only [reduceCtorEq, if_false]
    congr 1
    by_cases hm : ∃ m ∈ cs.filterMap callMeta, m.1 = []
    · rw [if_pos hm, if_pos hm]
    · rw [if_neg hm, if_neg hm]
      refine congrArg Res.ok ?_
      unfold fieldList singles unsignedForm
      rw [filterMap_toList]
      simp only [optField_eq, hs.acl, hs.bucket, hs.cacheControl, hs.contentDisposition, hs.contentEncoding,
        hs.contentLength, hs.contentType, hs.expires, hs.redirect, hs.status, hs.customTime, hs.metas,
        fieldOrder, List.flatMap_cons, List.flatMap_nil, hk, Option.map_some, Option.toList_some,
        Option.map_none, Option.toList_none, List.append_nil, List.append_assoc, List.nil_append]

/-- A builder with a value overwritten, a repeated metadata name and unusual characters. -/
example : ((Builder.ofCalls [.xGoogMeta (s% "b") (s% "1"), .contentLength 0, .acl (s% "x"), .key (s% "k\"\n"),
      .xGoogMeta (s% "a") (s% "2"), .xGoogMeta (s% "b") (s% "3"), .acl (s% "y"), .successActionStatus 201]).build
      Conformance.env Conformance.world).1 =
    .ok [(s% "acl", s% "y"), (s% "Content-Length", s% "0"), (s% "key", s% "k\"\n"),
      (s% "success_action_status", s% "201"), (s% "x-goog-meta-b", s% "1"), (s% "x-goog-meta-a", s% "2"),
      (s% "x-goog-meta-b", s% "3")] := by decide +kernel

/-- C02. Adjacent calls of different setters commute: the whole outcome of `build` (result, requests,
caches, clock reads) is the same. -/
theorem C02_different_setters_commute (env : Env) (pre post : List Call) (c d : Call) (w : World)
    (h : setter c ≠ setter d) :
    (Builder.ofCalls (pre ++ c :: d :: post)).build env w = (Builder.ofCalls (pre ++ d :: c :: post)).build env w := by
  have : Builder.ofCalls (pre ++ c :: d :: post) = Builder.ofCalls (pre ++ d :: c :: post) := by
    unfold Builder.ofCalls
    rw [List.foldl_append, List.foldl_append]
    simp only [List.foldl_cons]
    generalize List.foldl Builder.apply Builder.default pre = b
    congr 1
    cases c <;> cases d <;> first | rfl | exact absurd rfl h
  rw [this]

theorem apply_overwrite (b : Builder) (c d : Call) (h : setter c = setter d) (hm : setter c ≠ s% "x_goog_meta") :
    (b.apply c).apply d = b.apply d := by
  cases c <;> cases d <;> first | rfl | (simp [setter] at h; done) | (simp [setter] at hm; done)

/-- C02. Last call wins: an earlier call of the same single-valued setter has no effect, wherever it is. -/
theorem C02_last_call_wins (env : Env) (pre mid post : List Call) (c d : Call) (w : World)
    (h : setter c = setter d) (hm : setter c ≠ s% "x_goog_meta") :
    (Builder.ofCalls (pre ++ c :: mid ++ d :: post)).build env w =
      (Builder.ofCalls (pre ++ mid ++ d :: post)).build env w := by
  have key : ∀ (mid : List Call) (b : Builder),
      (mid.foldl Builder.apply (b.apply c)).apply d = (mid.foldl Builder.apply b).apply d := by
    intro mid
    induction mid with
    | nil => intro b; exact apply_overwrite b c d h hm
    | cons x mid ih =>
      intro b
      simp only [List.foldl_cons]
      by_cases hx : setter c = setter x
      · rw [apply_overwrite b c x hx hm]
      · have : (b.apply c).apply x = (b.apply x).apply c := by
          cases c <;> cases x <;> first | rfl | exact absurd rfl hx
        rw [this]; exact ih _
  have : Builder.ofCalls (pre ++ c :: mid ++ d :: post) = Builder.ofCalls (pre ++ mid ++ d :: post) := by
    unfold Builder.ofCalls
    simp only [List.foldl_append, List.foldl_cons]
    rw [key]
  rw [this]

/-- C02. Metadata accumulates instead: in particular a repeated name yields two fields. -/
theorem C02_metadata_accumulates (env : Env) (cs : List Call) (n v v' : Str) (w : World)
    (h : ∀ c ∈ cs, callOptions c = none) (hk : lastValue cs (s% "key") ≠ none)
    (hm : ∀ m ∈ cs.filterMap callMeta, m.1 ≠ []) (hn : n ≠ []) :
    (Builder.ofCalls (cs ++ [.xGoogMeta n v, .xGoogMeta n v'])).build env w =
      (.ok (unsignedForm cs ++ [(s% "x-goog-meta-" ++ n, v), (s% "x-goog-meta-" ++ n, v')]), w) := by
  have hcs : cs ++ [.xGoogMeta n v, .xGoogMeta n v'] = (cs ++ [.xGoogMeta n v]) ++ [.xGoogMeta n v'] := by simp
  have hv : ∀ name, lastValue (cs ++ [.xGoogMeta n v, .xGoogMeta n v']) name = lastValue cs name := by
    intro name; rw [hcs, lastValue_snoc, lastValue_snoc]; rfl
  rw [C01_unsigned_form]
  · rw [hv, if_neg hk, if_neg]
    · congr 2
      unfold unsignedForm
      simp [hv, callMeta, List.filterMap_append]
    · rintro ⟨m, hm', he⟩
      rw [List.filterMap_append, List.mem_append] at hm'
      rcases hm' with hm' | hm'
      · exact hm m hm' he
      · simp [callMeta] at hm'
        rcases hm' with rfl | rfl <;> exact hn he
  · intro c hc
    rw [List.mem_append] at hc
    rcases hc with hc | hc
    · exact h c hc
    · simp at hc; rcases hc with rfl | rfl <;> rfl

example : setter (.acl (s% "x")) ≠ setter (.bucket (s% "y")) ∧ setter (.acl (s% "x")) = setter (.acl (s% "z")) ∧
    setter (.acl (s% "x")) ≠ s% "x_goog_meta" := by decide

/-- The single-valued field names, in form order. -/
def allNames : List Str :=
  [s% "acl", s% "bucket", s% "Cache-Control", s% "Content-Disposition", s% "Content-Encoding",
   s% "Content-Length", s% "Content-Type", s% "Expires", s% "key", s% "policy", s% "success_action_redirect",
   s% "success_action_status", s% "x-goog-algorithm", s% "x-goog-credential", s% "x-goog-custom-time",
   s% "x-goog-date", s% "x-goog-signature"]

theorem optField_names (n : Str) (v : Option Str) : List.Sublist ((optField n v).map (·.1)) [n] := by
  cases v <;> simp [optField]

theorem fieldList_names (b : Builder) (key : Str) (p : Option PolicyFields) :
    ∃ l, List.Sublist l allNames ∧
      (fieldList b key p).map (·.1) = l ++ b.xGoogMeta.map fun m => s% "x-goog-meta-" ++ m.1 := by
  refine ⟨(singles b key p).map (·.1), ?_, ?_⟩
  rotate_left
  · unfold fieldList
    rw [List.map_append, List.map_map]
    rfl
  · unfold singles allNames
    simp only [List.map_append, List.append_assoc]
    refine List.Sublist.append (l₂ := [_]) (optField_names _ _) ?_
    refine List.Sublist.append (l₂ := [_]) (optField_names _ _) ?_
    refine List.Sublist.append (l₂ := [_]) (optField_names _ _) ?_
    refine List.Sublist.append (l₂ := [_]) (optField_names _ _) ?_
    refine List.Sublist.append (l₂ := [_]) (optField_names _ _) ?_
    refine List.Sublist.append (l₂ := [_]) (optField_names _ _) ?_
    refine List.Sublist.append (l₂ := [_]) (optField_names _ _) ?_
    refine List.Sublist.append (l₂ := [_]) (optField_names _ _) ?_
    refine List.Sublist.append (l₂ := [_]) (List.Sublist.refl _) ?_
    refine List.Sublist.append (l₂ := [_]) (optField_names _ _) ?_
    refine List.Sublist.append (l₂ := [_]) (optField_names _ _) ?_
    refine List.Sublist.append (l₂ := [_]) (optField_names _ _) ?_
    refine List.Sublist.append (l₂ := [_]) (optField_names _ _) ?_
    refine List.Sublist.append (l₂ := [_]) (optField_names _ _) ?_
    refine List.Sublist.append (l₂ := [_]) (optField_names _ _) ?_
    refine List.Sublist.append (l₂ := [_]) (optField_names _ _) ?_
    exact optField_names _ _

theorem meta_not_name (n : Str) : s% "x-goog-meta-" ++ n ∉ allNames := by
  intro h
  have key : ∀ t ∈ allNames, stripPrefix (s% "x-goog-meta-") t = none := by decide +kernel
  have := key _ h
  rw [stripPrefix_append] at this; cases this

theorem build_ok_fieldList {env : Env} {b : Builder} {w w' : World} {fs : List (Str × Str)}
    (h : b.build env w = (.ok fs, w')) : ∃ k p, fs = fieldList b k p := by
  rw [build_eq] at h
  generalize buildPolicyAndSignature env b w = x at h
  obtain ⟨r, w1⟩ := x
  cases r with
  | ok p =>
    cases hk : b.key with
    | none => simp [hk] at h
    | some k =>
      simp only [hk] at h
      split at h
      · simp at h
      · simp only [Prod.mk.injEq, Res.ok.injEq] at h; exact ⟨k, p, h.1.symm⟩
  | err e => simp at h
  | panic e => simp at h

/-- C12. In every form that `build` returns, signed or not, the field names are pairwise distinct iff the
metadata names are; and a name that occurs twice is always a metadata name. -/
theorem C12_field_names_unique (env : Env) (cs : List Call) (w w' : World) (fs : List (Str × Str))
    (h : (Builder.ofCalls cs).build env w = (.ok fs, w')) :
    ((fs.map (·.1)).Nodup ↔ ((cs.filterMap callMeta).map (·.1)).Nodup) ∧
    ∀ n, 2 ≤ (fieldValues fs n).length → ∃ m ∈ cs.filterMap callMeta, n = s% "x-goog-meta-" ++ m.1 := by
  obtain ⟨k, p, rfl⟩ := build_ok_fieldList h
  obtain ⟨l, hl, hn⟩ := fieldList_names (Builder.ofCalls cs) k p
  rw [(ofCalls_spec cs).metas] at hn
  have hdis : ∀ x ∈ l, ∀ m ∈ (cs.filterMap callMeta).map (fun m : Str × Str => s% "x-goog-meta-" ++ m.1), x ≠ m := by
    intro x hx m hm e
    obtain ⟨q, _, rfl⟩ := List.mem_map.1 hm
    exact meta_not_name _ (e ▸ hl.subset hx)
  have hnd : l.Nodup := List.Nodup.sublist hl (by decide +kernel)
  constructor
  · rw [hn, List.nodup_append]
    constructor
    · rintro ⟨_, h2, _⟩
      have : ((cs.filterMap callMeta).map (·.1)).map (fun n => s% "x-goog-meta-" ++ n) =
        (cs.filterMap callMeta).map (fun m : Str × Str => s% "x-goog-meta-" ++ m.1) := by simp
      rw [← this] at h2
      exact List.Pairwise.imp (fun hne e => hne (by rw [e])) (List.pairwise_map.1 h2)
    · intro h2
      refine ⟨hnd, ?_, hdis⟩
      have : ((cs.filterMap callMeta).map (·.1)).map (fun n => s% "x-goog-meta-" ++ n) =
        (cs.filterMap callMeta).map (fun m : Str × Str => s% "x-goog-meta-" ++ m.1) := by simp
      rw [← this]
      unfold List.Nodup
      rw [List.pairwise_map]
      exact List.Pairwise.imp (fun hne e => hne (List.append_cancel_left e)) h2
  · intro n h2
    have hcount : (fieldValues (fieldList (Builder.ofCalls cs) k p) n).length =
        List.count n ((fieldList (Builder.ofCalls cs) k p).map (·.1)) := by
      generalize fieldList (Builder.ofCalls cs) k p = fs
      unfold fieldValues
      induction fs with
      | nil => rfl
      | cons f fs ih =>
        by_cases hf : f.1 = n
        · simp [hf] at ih ⊢; exact ih
        · simp [hf] at ih ⊢; exact ih
    rw [hcount, hn, List.count_append] at h2
    have h1 : List.count n l ≤ 1 := List.nodup_iff_count.1 hnd n
    have h3 : 0 < List.count n ((cs.filterMap callMeta).map (fun m : Str × Str => s% "x-goog-meta-" ++ m.1)) := by omega
    have := List.count_pos_iff.1 h3
    obtain ⟨m, hm, e⟩ := List.mem_map.1 this
    exact ⟨m, hm, e.symm⟩

/-- The premise holds for the crate's own signed test form. -/
example : ∃ fs w', (Builder.ofCalls Conformance.testCalls).build Conformance.env Conformance.world = (.ok fs, w') ∧
    fs.length = 19 := by
  have : ∃ fs, ((Builder.ofCalls Conformance.testCalls).build Conformance.env Conformance.world).1 = .ok fs ∧ fs.length = 19 := by
    refine ⟨_, rfl, ?_⟩
    decide +kernel
  obtain ⟨fs, h, hl⟩ := this
  exact ⟨fs, _, Prod.ext h rfl, hl⟩

end CSS
