import Verif.Spec.Multipart
import Verif.Lemmas.Utf8
/-
C97: a browser can choose a boundary.
-/
namespace CSS
open Spec

/-- All texts of length `m` of the letters a and b. -/
private def candidates : Nat → List Str
  | 0 => [[]]
  | m + 1 => (candidates m).map ('a' :: ·) ++ (candidates m).map ('b' :: ·)

private theorem candidates_length (m : Nat) : (candidates m).length = 2 ^ m := by
  induction m with
  | zero => rfl
  | succ m ih => simp only [candidates, List.length_append, List.length_map, ih]; omega

private theorem candidates_mem {m : Nat} {s : Str} (h : s ∈ candidates m) : s.length = m ∧ ∀ c ∈ s, c = 'a' ∨ c = 'b' := by
  induction m generalizing s with
  | zero => rcases List.mem_singleton.1 h with rfl; exact ⟨rfl, by simp⟩
  | succ m ih =>
    simp only [candidates, List.mem_append, List.mem_map] at h
    rcases h with ⟨t, ht, rfl⟩ | ⟨t, ht, rfl⟩
    · obtain ⟨h1, h2⟩ := ih ht
      exact ⟨by simp [h1], fun c hc => (List.mem_cons.1 hc).elim .inl (h2 c)⟩
    · obtain ⟨h1, h2⟩ := ih ht
      exact ⟨by simp [h1], fun c hc => (List.mem_cons.1 hc).elim .inr (h2 c)⟩

private theorem candidates_nodup (m : Nat) : (candidates m).Nodup := by
  induction m with
  | zero => simp [candidates]
  | succ m ih =>
    simp only [candidates]
    refine List.nodup_append.2 ⟨?_, ?_, ?_⟩
    · exact List.Pairwise.map _ (fun a b h e => h (List.cons.inj e).2) ih
    · exact List.Pairwise.map _ (fun a b h e => h (List.cons.inj e).2) ih
    · intro x hx y hy
      obtain ⟨t, _, rfl⟩ := List.mem_map.1 hx
      obtain ⟨u, _, rfl⟩ := List.mem_map.1 hy
      intro e
      exact absurd (List.cons.inj e).1 (by decide)

/-- All parts of length `m` of a list. -/
private def windows {α : Type} (m : Nat) (l : List α) : List (List α) := (List.range (l.length + 1)).map fun i => (l.drop i).take m

private theorem mem_windows {α : Type} {l x : List α} (h : x <:+: l) : x ∈ windows x.length l := by
  obtain ⟨a, b, rfl⟩ := h
  refine List.mem_map.2 ⟨a.length, List.mem_range.2 (by simp; omega), ?_⟩
  simp

private theorem pigeonhole {α : Type} : ∀ {l₁ l₂ : List α}, l₁.Nodup → (∀ x ∈ l₁, x ∈ l₂) → l₁.length ≤ l₂.length
  | [], _, _, _ => Nat.zero_le _
  | a :: l, l₂, hn, hs => by
    obtain ⟨u, v, rfl⟩ := List.append_of_mem (hs a List.mem_cons_self)
    have hn' := List.nodup_cons.1 hn
    have : l.length ≤ (u ++ v).length := pigeonhole hn'.2 fun x hx => by
      have := hs x (List.mem_cons_of_mem _ hx)
      simp only [List.mem_append, List.mem_cons] at this ⊢
      rcases this with h | rfl | h
      · exact .inl h
      · exact absurd hx hn'.1
      · exact .inr h
    simp only [List.length_append, List.length_cons] at this ⊢
    omega

private theorem sum_windows (m : Nat) (fields : List (Str × Str)) :
    (fields.flatMap fun f => (windows m f.2).map utf8).length = (fields.map fun f => f.2.length + 1).sum := by
  induction fields with
  | nil => rfl
  | cons f r ih =>
    rw [List.flatMap_cons, List.length_append, ih]
    simp [windows]

/-- C97. For every form and file, of less than 2^70 characters and bytes altogether, there is a boundary of 70 characters that the browser
can choose. -/
theorem C97_boundary_exists (fields : List (Str × Str)) (content : Bytes)
    (h : (fields.map fun f => f.2.length + 1).sum + content.length + 1 < 2 ^ 70) :
    ∃ b, FreshBoundary b fields content ∧ b.length = 70 := by
  apply Classical.byContradiction
  intro hno
  let bad := (fields.flatMap fun f => (windows 70 f.2).map utf8) ++ windows 70 content
  have hlen : bad.length = (fields.map fun f => f.2.length + 1).sum + (content.length + 1) := by
    show List.length (_ ++ _) = _
    rw [List.length_append, sum_windows]
    simp [windows]
  have hle : ((candidates 70).map utf8).length ≤ bad.length := by
    refine pigeonhole ?_ fun x hx => ?_
    · exact List.Pairwise.map _ (fun a b h e => h (utf8_inj e)) (candidates_nodup 70)
    · obtain ⟨c, hc, rfl⟩ := List.mem_map.1 hx
      obtain ⟨h1, h2⟩ := candidates_mem hc
      have hab : ∀ x ∈ c, x.isAlphanum = true ∨ x = '-' := fun x hx => by
        rcases h2 x hx with rfl | rfl <;> exact .inl (by decide)
      have hu : (utf8 c).length = 70 := by
        rw [utf8_length_ascii (fun x hx => by rcases h2 x hx with rfl | rfl <;> decide)]; exact h1
      refine Classical.byContradiction fun hb => hno ⟨c, ⟨hab, fun f hf hi => hb ?_, fun hi => hb ?_⟩, h1⟩
      · refine List.mem_append_left _ (List.mem_flatMap.2 ⟨f, hf, List.mem_map.2 ⟨c, ?_, rfl⟩⟩)
        have := mem_windows hi
        rwa [h1] at this
      · refine List.mem_append_right _ ?_
        have := mem_windows hi
        rwa [hu] at this
  rw [List.length_map, candidates_length, hlen] at hle
  omega

/-- A form with one field, and a file of four bytes. -/
example : ∃ b, FreshBoundary b [(s% "key", s% "aaaa")] [1, 2, 3, 4] ∧ b.length = 70 :=
  C97_boundary_exists _ _ (by decide)

end CSS
