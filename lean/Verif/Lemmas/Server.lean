import Verif.Spec.Server
import Verif.Lemmas.Rsa
import Verif.Lemmas.FormRead
import Verif.Lemmas.UrlSigned
import Verif.Lemmas.UrlHeaders
/- The server's view of a signed URL. -/
set_option linter.unusedSimpArgs false
namespace CSS
open Spec

/-! ### order -/

/-- Items in order are in order of their names, if neither name is a proper prefix of the other. -/
theorem name_order {a b : Str} : ∀ {x y : Str}, (a ++ '=' :: x = b ++ '=' :: y ∨ LexLt (a ++ '=' :: x) (b ++ '=' :: y)) →
    (a <+: b → a = b) → (b <+: a → b = a) → ¬ LexLt b a := by
  induction a generalizing b with
  | nil =>
    intro x y _ h1 _
    rw [← h1 (List.nil_prefix)]
    exact lexLt_irrefl _
  | cons c a ih =>
    intro x y h h1 h2
    cases b with
    | nil => exact absurd (h2 List.nil_prefix) (by simp)
    | cons d b =>
      intro hl
      have key : c.toNat ≤ d.toNat ∧ (c = d → a ++ '=' :: x = b ++ '=' :: y ∨ LexLt (a ++ '=' :: x) (b ++ '=' :: y)) := by
        rcases h with h | h
        · simp only [List.cons_append, List.cons.injEq] at h
          exact ⟨by rw [h.1]; exact Nat.le_refl _, fun _ => .inl h.2⟩
        · rcases h with h | ⟨h, h'⟩
          · exact ⟨Nat.le_of_lt h, fun e => by subst e; omega⟩
          · exact ⟨by rw [h]; exact Nat.le_refl _, fun _ => .inr h'⟩
      rcases hl with hl | ⟨rfl, hl⟩
      · omega
      · refine ih (key.2 rfl) (fun hp => ?_) (fun hp => ?_) hl
        · have := h1 (List.cons_prefix_cons.2 ⟨rfl, hp⟩)
          simpa using this
        · have := h2 (List.cons_prefix_cons.2 ⟨rfl, hp⟩)
          simpa using this

/-- Escaping reflects prefixes of texts without `%`. -/
theorem encode_prefix {a b : Str} (ha : '%' ∉ a) (hb : '%' ∉ b) (h : percentEncode a <+: percentEncode b) : a <+: b := by
  induction a generalizing b with
  | nil => exact List.nil_prefix
  | cons c a ih =>
    cases b with
    | nil =>
      exfalso
      rw [percentEncode_cons] at h
      have : percentEncodeChar c = [] := (List.append_eq_nil_iff.1 (List.prefix_nil.1 h)).1
      by_cases hc : c ∈ reserved
      · revert this; exact (by decide : ∀ c ∈ reserved, percentEncodeChar c = [] → False) c hc
      · rw [percentEncodeChar_not hc] at this; simp at this
    | cons d b =>
      simp only [List.mem_cons, not_or] at ha hb
      rw [percentEncode_cons, percentEncode_cons] at h
      have hr : ∀ c ∈ reserved, ∃ x y, percentEncodeChar c = ['%', x, y] := by
        intro c hc
        have := (by decide : ∀ c ∈ reserved, (percentEncodeChar c).length = 3 ∧ (percentEncodeChar c).head? = some '%') c hc
        match hp : percentEncodeChar c, this with
        | [p, x, y], h => exact ⟨x, y, by simp at h; rw [h]⟩
      have hcd : c = d ∧ percentEncode a <+: percentEncode b := by
        by_cases hc : c ∈ reserved <;> by_cases hd : d ∈ reserved
        · have : c = d := by
            obtain ⟨x, y, hx⟩ := hr c hc
            obtain ⟨x', y', hx'⟩ := hr d hd
            have hinj : ∀ c ∈ reserved, ∀ d ∈ reserved, percentEncodeChar c = percentEncodeChar d → c = d := by decide
            apply hinj c hc d hd
            rw [hx, hx'] at h ⊢
            simp only [List.cons_append, List.nil_append, List.cons_prefix_cons] at h
            rw [h.2.1, h.2.2.1]
          subst this
          exact ⟨rfl, (List.prefix_append_right_inj _).1 h⟩
        · obtain ⟨x, y, hx⟩ := hr c hc
          rw [hx, percentEncodeChar_not hd] at h
          simp only [List.cons_append, List.nil_append, List.cons_prefix_cons] at h
          exact absurd h.1 hb.1
        · obtain ⟨x, y, hx⟩ := hr d hd
          rw [hx, percentEncodeChar_not hc] at h
          simp only [List.cons_append, List.nil_append, List.cons_prefix_cons] at h
          exact absurd h.1.symm ha.1
        · rw [percentEncodeChar_not hc, percentEncodeChar_not hd] at h
          simp only [List.cons_append, List.nil_append, List.cons_prefix_cons] at h
          exact h
      rw [hcd.1]
      exact List.cons_prefix_cons.2 ⟨rfl, ih ha.2 hb.2 hcd.2⟩

theorem insertItem_perm (x : Str) (l : List Str) : (insertItem x l).Perm (x :: l) := by
  induction l with
  | nil => exact .refl _
  | cons y l ih =>
    unfold insertItem
    split
    · exact (ih.cons y).trans (.swap x y l)
    · exact .refl _

theorem sortItems_perm (l : List Str) : (l.foldr insertItem []).Perm l := by
  induction l with
  | nil => exact .refl _
  | cons x l ih => exact (insertItem_perm x _).trans (ih.cons x)

/-- Sorted items stay as they are. -/
theorem sortItems_sorted {l : List Str} (h : l.Pairwise fun a b => ¬ LexLt (itemName b) (itemName a)) :
    l.foldr insertItem [] = l := by
  induction l with
  | nil => rfl
  | cons x l ih =>
    rw [List.pairwise_cons] at h
    rw [List.foldr_cons, ih h.2]
    cases l with
    | nil => rfl
    | cons y l => rw [insertItem, if_neg (h.1 y List.mem_cons_self)]

theorem itemName_canonical (p : Str × Str) : itemName (canonicalItem p) = percentEncode p.1 := by
  unfold itemName canonicalItem
  rw [List.append_assoc, List.singleton_append, cutAt_append (percentEncode_no (by decide) _)]

/-! ### the query -/

/-- The items of a returned URL: those of the canonical query, then the signature. -/
theorem items_parts {env : Env} {o : UrlOptions} {t : Time} {email : Str} (digest : Bytes) :
    splitOn '&' (urlQuery ((partsOf env o t email).url (hexEncode digest))) =
      sortStr ((allParams env o (required o t email)).map canonicalItem) ++ [s% "X-Goog-Signature=" ++ hexEncode digest] := by
  have hne : sortStr ((allParams env o (required o t email)).map canonicalItem) ≠ [] :=
    sortStr_ne_nil (by simp [allParams_ne_nil])
  rw [urlQuery_parts, partsOf_query]
  have e : join (s% "&") (sortStr ((allParams env o (required o t email)).map canonicalItem)) ++ s% "&X-Goog-Signature=" ++
      hexEncode digest = join (s% "&") (sortStr ((allParams env o (required o t email)).map canonicalItem) ++
        [s% "X-Goog-Signature=" ++ hexEncode digest]) := by
    rw [join_append _ hne (by simp)]
    simp [join]
  rw [e, splitOn_join (by simp)]
  intro y hy
  rcases List.mem_append.1 hy with hy | hy
  · rw [mem_sortStr, List.mem_map] at hy
    obtain ⟨p, _, rfl⟩ := hy
    exact canonicalItem_no_amp p
  · rw [List.mem_singleton.1 hy, List.mem_append, not_or]
    exact ⟨by decide, fun h => absurd (hexEncode_chars digest _ h) (by decide)⟩

/-- The items other than the signature. -/
theorem unsignedItems_parts {env : Env} {o : UrlOptions} {t : Time} {email : Str} (digest : Bytes)
    (h : ∀ p ∈ allParams env o (required o t email), percentDecode p.1 ≠ utf8 (s% "X-Goog-Signature")) :
    unsignedItems (urlQuery ((partsOf env o t email).url (hexEncode digest))) =
      sortStr ((allParams env o (required o t email)).map canonicalItem) := by
  unfold unsignedItems
  rw [items_parts, List.filter_append]
  have h1 : (sortStr ((allParams env o (required o t email)).map canonicalItem)).filter
      (fun item => decide (percentDecode (itemName item) ≠ utf8 (s% "X-Goog-Signature"))) =
      sortStr ((allParams env o (required o t email)).map canonicalItem) := by
    rw [List.filter_eq_self]
    intro x hx
    rw [mem_sortStr, List.mem_map] at hx
    obtain ⟨p, hp, rfl⟩ := hx
    rw [itemName_canonical, percentDecode_encode, decide_eq_true_eq]
    exact h p hp
  rw [h1]
  have h2 : itemName (s% "X-Goog-Signature=" ++ hexEncode digest) = s% "X-Goog-Signature" := by
    have e : s% "X-Goog-Signature=" ++ hexEncode digest = s% "X-Goog-Signature" ++ '=' :: hexEncode digest := rfl
    rw [itemName, e, cutAt_append (by decide)]
  rw [List.filter_cons, h2, if_neg]
  · simp
  · rw [decide_eq_true_eq, percentDecode_plain (by decide)]
    exact fun h => h rfl

/-- The server's canonical query is the signed one, if no parameter name is a proper prefix of another. -/
theorem canonicalQuery_parts {env : Env} {o : UrlOptions} {t : Time} {email : Str} (digest : Bytes)
    (h : ∀ p ∈ allParams env o (required o t email), percentDecode p.1 ≠ utf8 (s% "X-Goog-Signature"))
    (hpct : ∀ p ∈ allParams env o (required o t email), '%' ∉ p.1)
    (hpre : ∀ p ∈ allParams env o (required o t email), ∀ q ∈ allParams env o (required o t email), p.1 <+: q.1 → p.1 = q.1) :
    canonicalQuery (urlQuery ((partsOf env o t email).url (hexEncode digest))) = (partsOf env o t email).query := by
  unfold canonicalQuery
  rw [unsignedItems_parts digest h, sortItems_sorted, partsOf_query]
  have hs := sortStr_sorted ((allParams env o (required o t email)).map canonicalItem)
  refine List.Pairwise.imp_of_mem (fun {a b} ha hb hle => ?_) hs
  rw [mem_sortStr, List.mem_map] at ha hb
  obtain ⟨p, hp, rfl⟩ := ha
  obtain ⟨q, hq, rfl⟩ := hb
  rw [itemName_canonical, itemName_canonical]
  have hle := (strLe_iff _ _).1 hle
  unfold canonicalItem at hle
  simp only [List.append_assoc, List.singleton_append] at hle
  refine name_order hle (fun hh => ?_) (fun hh => ?_)
  · rw [hpre p hp q hq (encode_prefix (hpct p hp) (hpct q hq) hh)]
  · rw [hpre q hq p hp (encode_prefix (hpct q hq) (hpct p hp) hh)]

end CSS
