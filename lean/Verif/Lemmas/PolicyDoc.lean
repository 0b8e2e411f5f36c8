import Verif.Lemmas.PolicyRead
import Verif.Lemmas.NoUnicode
namespace CSS
open Spec

/-- The values of the members called `k`. -/
def memberValues (ms : List (Str × Json)) (k : Str) : List Json := (ms.filter fun m => m.1 = k).map (·.2)

/-- A field that is `a` before the members with values `vals` are read and `a'` afterwards. -/
def Comp {α : Type} (R : Json → α → Prop) (a : Option α) (vals : List Json) (a' : Option α) : Prop :=
  (vals = [] ∧ a' = a) ∨ ∃ x v, a = none ∧ vals = [x] ∧ R x v ∧ a' = some v

/-- Both fields. -/
def Reads (acc : PolicyAcc) (ms : List (Str × Json)) (acc' : PolicyAcc) : Prop :=
  Comp CondsOf acc.conditions (memberValues ms (s% "conditions")) acc'.conditions ∧
  Comp ExpirationOf acc.expiration (memberValues ms (s% "expiration")) acc'.expiration

theorem memberValues_cons_eq (k : Str) (x : Json) (ms : List (Str × Json)) : memberValues ((k, x) :: ms) k = x :: memberValues ms k := by
  simp [memberValues]
theorem memberValues_cons_ne {k k' : Str} (h : k' ≠ k) (x : Json) (ms : List (Str × Json)) :
    memberValues ((k', x) :: ms) k = memberValues ms k := by
  simp [memberValues, h]

/-- The text of a member's value, with plain tags if it is the list of conditions. -/
def Good (k : Str) (x : Json) (t : Str) : Prop := JVal x t ∧ (k = s% "conditions" → ∀ xs, x = .arr xs → CondArr xs t)

/-- `JMembers` with `Good` values. -/
def GMembers : List (Str × Json) → Str → Prop
  | [], s => s = []
  | (k, x) :: ms, s => ∃ w q w1 w2 t w' r, Ws w ∧ JQuoted q k ∧ Ws w1 ∧ Ws w2 ∧ Good k x t ∧ Ws w' ∧
      GMembers ms r ∧ s = ',' :: (w ++ q ++ w1 ++ [':'] ++ w2 ++ t ++ w' ++ r)

theorem stop_gmembers {ms : List (Str × Json)} {r : Str} (h : GMembers ms r) {s : Str} (hs : Stop s) : Stop (r ++ s) := by
  match ms with
  | [] => simp only [GMembers] at h; subst h; exact hs
  | (k, x) :: ms =>
    simp only [GMembers] at h
    obtain ⟨w, q, w1, w2, t, w', r', _, _, _, _, _, _, _, rfl⟩ := h; exact stop_cons (by decide) _

/-- The first member read, then the others. -/
theorem reads_cons {acc acc' : PolicyAcc} {k : Str} {x : Json} {ms : List (Str × Json)} :
    Reads acc ((k, x) :: ms) acc' ↔
      ∃ mid, Reads mid ms acc' ∧
        ((k = s% "conditions" ∧ acc.conditions = none ∧ ∃ cs, CondsOf x cs ∧ mid = { acc with conditions := some cs }) ∨
         (k = s% "expiration" ∧ acc.expiration = none ∧ ∃ e, ExpirationOf x e ∧ mid = { acc with expiration := some e }) ∨
         (k ≠ s% "conditions" ∧ k ≠ s% "expiration" ∧ mid = acc)) := by
  by_cases h1 : k = s% "conditions"
  · subst h1
    have hne : s% "conditions" ≠ s% "expiration" := by decide
    unfold Reads
    rw [memberValues_cons_eq, memberValues_cons_ne hne]
    constructor
    · rintro ⟨hc, he⟩
      rcases hc with ⟨h, _⟩ | ⟨y, cs, ha, hv, hR, ha'⟩
      · cases h
      · simp only [List.cons.injEq] at hv
        obtain ⟨rfl, hv⟩ := hv
        exact ⟨{ acc with conditions := some cs }, ⟨.inl ⟨hv, ha'⟩, he⟩, .inl ⟨rfl, ha, cs, hR, rfl⟩⟩
    · rintro ⟨mid, ⟨hc, he⟩, h | h | h⟩
      · obtain ⟨_, ha, cs, hR, rfl⟩ := h
        refine ⟨?_, he⟩
        rcases hc with ⟨hv, ha'⟩ | ⟨y, cs', ha', _⟩
        · exact .inr ⟨x, cs, ha, by rw [hv], hR, ha'⟩
        · cases ha'
      · exact absurd h.1 hne
      · exact absurd rfl h.1
  · by_cases h2 : k = s% "expiration"
    · subst h2
      unfold Reads
      rw [memberValues_cons_eq, memberValues_cons_ne h1]
      constructor
      · rintro ⟨hc, he⟩
        rcases he with ⟨h, _⟩ | ⟨y, cs, ha, hv, hR, ha'⟩
        · cases h
        · simp only [List.cons.injEq] at hv
          obtain ⟨rfl, hv⟩ := hv
          exact ⟨{ acc with expiration := some cs }, ⟨hc, .inl ⟨hv, ha'⟩⟩, .inr (.inl ⟨rfl, ha, cs, hR, rfl⟩)⟩
      · rintro ⟨mid, ⟨hc, he⟩, h | h | h⟩
        · exact absurd h.1 h1
        · obtain ⟨_, ha, cs, hR, rfl⟩ := h
          refine ⟨hc, ?_⟩
          rcases he with ⟨hv, ha'⟩ | ⟨y, cs', ha', _⟩
          · exact .inr ⟨x, cs, ha, by rw [hv], hR, ha'⟩
          · cases ha'
        · exact absurd rfl h.2.1
    · unfold Reads
      rw [memberValues_cons_ne h2, memberValues_cons_ne h1]
      constructor
      · intro h; exact ⟨acc, h, .inr (.inr ⟨h1, h2, rfl⟩)⟩
      · rintro ⟨mid, hm, h | h | h⟩
        · exact absurd h.1 h1
        · exact absurd h.1 h2
        · obtain ⟨_, _, rfl⟩ := h; exact hm

theorem readMember_complete {acc mid : PolicyAcc} {k : Str} {x : Json} {t w r : Str} (hg : Good k x t) (hw : Ws w) (hr : Stop r)
    (h : (k = s% "conditions" ∧ acc.conditions = none ∧ ∃ cs, CondsOf x cs ∧ mid = { acc with conditions := some cs }) ∨
         (k = s% "expiration" ∧ acc.expiration = none ∧ ∃ e, ExpirationOf x e ∧ mid = { acc with expiration := some e }) ∨
         (k ≠ s% "conditions" ∧ k ≠ s% "expiration" ∧ mid = acc)) :
    readMember k acc (w ++ t ++ r) = some (mid, r) := by
  unfold readMember
  rcases h with ⟨rfl, ha, cs, hc, rfl⟩ | ⟨rfl, ha, e, he, rfl⟩ | ⟨h1, h2, rfl⟩
  · rw [if_pos rfl]
    simp only [ha]
    rw [readConditions_complete hc (hg.2 rfl) hw]
    rfl
  · rw [if_neg (by decide), if_pos rfl]
    simp only [ha]
    rw [readExpiration_complete he hg.1 hw]
    rfl
  · rw [if_neg h1, if_neg h2, skipValue_complete hg.1 hw hr]
    rfl

theorem readMember_sound {acc mid : PolicyAcc} {k : Str} {s r : Str} (hn : NoUnicodeEscape s)
    (h : readMember k acc s = some (mid, r)) : ∃ w x t, Ws w ∧ JVal x t ∧ s = w ++ t ++ r ∧
      ((k = s% "conditions" ∧ acc.conditions = none ∧ ∃ cs, CondsOf x cs ∧ mid = { acc with conditions := some cs }) ∨
         (k = s% "expiration" ∧ acc.expiration = none ∧ ∃ e, ExpirationOf x e ∧ mid = { acc with expiration := some e }) ∨
         (k ≠ s% "conditions" ∧ k ≠ s% "expiration" ∧ mid = acc)) := by
  unfold readMember at h
  split at h
  · rename_i hk
    split at h
    · cases h
    · rename_i ha
      rw [Option.map_eq_some_iff] at h
      obtain ⟨⟨cs, r'⟩, h1, h2⟩ := h
      cases h2
      obtain ⟨w, j, t, hw, hj, hc, e⟩ := readConditions_sound h1
      exact ⟨w, j, t, hw, hj, e, .inl ⟨hk, ha, cs, hc, rfl⟩⟩
  · rename_i hk
    split at h
    · rename_i hk2
      split at h
      · cases h
      · rename_i ha
        rw [Option.map_eq_some_iff] at h
        obtain ⟨⟨cs, r'⟩, h1, h2⟩ := h
        cases h2
        obtain ⟨w, j, t, hw, hj, hc, e⟩ := readExpiration_sound h1
        exact ⟨w, j, t, hw, hj, e, .inr (.inl ⟨hk2, ha, cs, hc, rfl⟩)⟩
    · rename_i hk2
      rw [Option.map_eq_some_iff] at h
      obtain ⟨r', h1, h2⟩ := h
      cases h2
      obtain ⟨w, j, t, hw, hj, e⟩ := skipValue_json hn h1
      exact ⟨w, j, t, hw, hj, e, .inr (.inr ⟨hk, hk2, rfl⟩)⟩

theorem readMembers_complete (ms : List (Str × Json)) :
    ∀ {k : Str} {x : Json} {u q u1 u2 t w rs : Str} {acc acc' : PolicyAcc} {n : Nat} (r : Str),
      Ws u → JQuoted q k → Ws u1 → Ws u2 → Good k x t → Ws w → GMembers ms rs → rs.length + 1 ≤ n →
      Reads acc ((k, x) :: ms) acc' →
      readMembers n acc (u ++ q ++ (u1 ++ ':' :: (u2 ++ t ++ (w ++ (rs ++ '}' :: r))))) = some (acc', r) := by
  induction ms with
  | nil =>
    intro k x u q u1 u2 t w rs acc acc' n r hu hq hu1 hu2 hg hw hms hn hr
    simp only [GMembers] at hms
    subst hms
    obtain ⟨n, rfl⟩ : ∃ n', n = n' + 1 := ⟨n - 1, by omega⟩
    obtain ⟨mid, hmid, hstep⟩ := reads_cons.1 hr
    have hm : mid = acc' := by
      obtain ⟨h1, h2⟩ := hmid
      have e1 : acc'.conditions = mid.conditions := by
        rcases h1 with ⟨_, h⟩ | ⟨_, _, _, h, _⟩
        · exact h
        · simp [memberValues] at h
      have e2 : acc'.expiration = mid.expiration := by
        rcases h2 with ⟨_, h⟩ | ⟨_, _, _, h, _⟩
        · exact h
        · simp [memberValues] at h
      cases acc'; cases mid; simp_all
    subst hm
    rw [readMembers, readString_complete hq hu]
    simp only [Option.bind_eq_bind, Option.bind_some]
    rw [readTok_complete (by decide) hu1]
    simp only [Option.bind_some, List.nil_append]
    rw [readMember_complete hg hu2 (stop_ws hw (stop_cons (by decide) _)) hstep]
    simp only [Option.bind_some]
    rw [skipWs_append hw (noWs_of_head (by decide))]
    rfl
  | cons m ms ih =>
    obtain ⟨k', x'⟩ := m
    intro k x u q u1 u2 t w rs acc acc' n r hu hq hu1 hu2 hg hw hms hn hr
    have hstop : Stop (w ++ (rs ++ ('}' :: r))) := stop_ws hw (stop_gmembers hms (stop_cons (by decide) _))
    simp only [GMembers] at hms
    obtain ⟨w1, q', u1', u2', t', w2, rs', hw1, hq', hu1', hu2', hx', hw2, hms', rfl⟩ := hms
    simp only [List.length_cons, List.length_append, List.length_nil] at hn
    obtain ⟨n, rfl⟩ : ∃ n', n = n' + 1 := ⟨n - 1, by omega⟩
    obtain ⟨mid, hmid, hstep⟩ := reads_cons.1 hr
    rw [readMembers, readString_complete hq hu]
    simp only [Option.bind_eq_bind, Option.bind_some]
    rw [readTok_complete (by decide) hu1]
    simp only [Option.bind_some]
    rw [readMember_complete hg hu2 hstop hstep]
    simp only [Option.bind_some, List.cons_append]
    rw [skipWs_append hw (noWs_of_head (by decide))]
    simp only
    have := ih r hw1 hq' hu1' hu2' hx' hw2 hms' (n := n) (by omega) hmid
    rw [← this]
    congr 1
    simp

theorem readMembers_sound (n : Nat) : ∀ {acc acc' : PolicyAcc} {s r : Str}, NoUnicodeEscape s →
    readMembers n acc s = some (acc', r) →
    ∃ u k q u1 u2 x t w ms rs, Ws u ∧ JQuoted q k ∧ Ws u1 ∧ Ws u2 ∧ JVal x t ∧ Ws w ∧ JMembers ms rs ∧
      Reads acc ((k, x) :: ms) acc' ∧ s = u ++ q ++ (u1 ++ ':' :: (u2 ++ t ++ (w ++ (rs ++ '}' :: r)))) := by
  induction n with
  | zero => intro acc acc' s r _ h; rw [readMembers] at h; cases h
  | succ n ih =>
    intro acc acc' s r hn h
    rw [readMembers] at h
    simp only [Option.bind_eq_bind, Option.bind_eq_some_iff] at h
    obtain ⟨⟨k, s1⟩, h1, s2, h2, ⟨mid, s3⟩, h3, h⟩ := h
    obtain ⟨u, q, hu, hq, e1⟩ := readString_sound h1
    obtain ⟨u1, hu1, e2⟩ := readTok_sound h2
    simp only at e2 h3 h
    subst e1; subst e2
    have hn2 : NoUnicodeEscape s2 := noU_tail (noU_right (noU_right hn))
    obtain ⟨u2, x, t, hu2, hx, e3, hstep⟩ := readMember_sound hn2 h3
    subst e3
    obtain ⟨w, hw, hs3⟩ := skipWs_spec s3
    split at h
    · rename_i r0 e0
      rw [e0] at hs3
      simp only [Option.some.injEq, Prod.mk.injEq] at h
      obtain ⟨rfl, rfl⟩ := h
      refine ⟨u, k, q, u1, u2, x, t, w, [], [], hu, hq, hu1, hu2, hx, hw, by rw [JMembers], ?_, by rw [hs3]; simp⟩
      exact reads_cons.2 ⟨mid, ⟨.inl ⟨rfl, rfl⟩, .inl ⟨rfl, rfl⟩⟩, hstep⟩
    · rename_i r0 e0
      rw [e0] at hs3
      have hn3 : NoUnicodeEscape r0 := by
        have h' := noU_right hn2
        rw [hs3] at h'
        exact noU_tail (noU_right h')
      obtain ⟨u', k', q', u1', u2', x', t', w', ms, rs, hu', hq', hu1', hu2', hx', hw', hms, hR, e⟩ := ih hn3 h
      refine ⟨u, k, q, u1, u2, x, t, w, (k', x') :: ms, ',' :: (u' ++ q' ++ u1' ++ [':'] ++ u2' ++ t' ++ w' ++ rs),
        hu, hq, hu1, hu2, hx, hw, ?_, reads_cons.2 ⟨mid, hR, hstep⟩, by rw [hs3, e]; simp⟩
      rw [JMembers]
      exact ⟨u', q', u1', u2', t', w', rs, hu', hq', hu1', hu2', hx', hw', hms, rfl⟩
    · cases h

theorem onlyMember_memberValues {ms : List (Str × Json)} {k : Str} {x : Json} : OnlyMember ms k x ↔ memberValues ms k = [x] := Iff.rfl

theorem reads_iff {ms : List (Str × Json)} {cs : List Condition} {e : PolicyExpiration} :
    Reads ⟨none, none⟩ ms ⟨some cs, some e⟩ ↔
      ∃ jc je, CondsOf jc cs ∧ ExpirationOf je e ∧ OnlyMember ms (s% "conditions") jc ∧ OnlyMember ms (s% "expiration") je := by
  constructor
  · rintro ⟨h1, h2⟩
    rcases h1 with ⟨_, h⟩ | ⟨jc, cs', _, hv, hR, h⟩
    · cases h
    · rcases h2 with ⟨_, h'⟩ | ⟨je, e', _, hv', hR', h'⟩
      · cases h'
      · cases h; cases h'
        exact ⟨jc, je, hR, hR', hv, hv'⟩
  · rintro ⟨jc, je, h1, h2, h3, h4⟩
    exact ⟨.inr ⟨jc, cs, rfl, h3, h1, rfl⟩, .inr ⟨je, e, rfl, h4, h2, rfl⟩⟩

end CSS
