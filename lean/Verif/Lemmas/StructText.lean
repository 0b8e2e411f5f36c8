import Verif.Lemmas.Struct
/- Structs read from JSON text: exactly which texts are accepted. -/
set_option linter.unusedSimpArgs false
namespace CSS
open Spec

/-- The text of a value read as a field. -/
def KindText : Kind → Str → FieldVal → Prop
  | .string, t, .s v => JQuoted t v
  | .u64, t, .n n => JNum t ∧ UnsignedLit t n
  | _, _, _ => False

theorem digits_iff_all {l : Str} : (Digits l ↔ l ≠ [] ∧ l.all isDigit = true) := by
  unfold Digits
  rw [List.all_eq_true]
  exact and_congr_right fun _ => forall_congr' fun c => forall_congr' fun _ => (isDigit_iff c).symm

theorem kindText_sound {kind : Kind} {s r : Str} {v : FieldVal} (h : parseKind kind s = some (v, r)) :
    ∃ w t, Ws w ∧ KindText kind t v ∧ s = w ++ t ++ r := by
  obtain ⟨w, hw, hs⟩ := skipWs_spec s
  cases kind with
  | string =>
    unfold parseKind at h
    simp only at h
    split at h
    · rename_i r0 heq
      rw [heq] at hs
      rw [Option.map_eq_some_iff] at h
      obtain ⟨⟨v', r'⟩, hp, he⟩ := h
      cases he
      obtain ⟨t, ht, rfl⟩ := parseStrBody_sound r0 hp
      exact ⟨w, '"' :: t ++ ['"'], hw, ⟨t, ht, rfl⟩, by rw [hs]; simp⟩
    · cases h
  | u64 =>
    unfold parseKind at h
    simp only at h
    split at h
    · rename_i lit r0 hq
      split at h
      · rename_i hle
        cases h
        obtain ⟨ip, fr, ex, hi, hf, hx, rfl, e, hb⟩ := parseNumBody_sound hq
        simp only [Bool.true_eq, Bool.and_eq_true, decide_eq_true_eq] at hb
        obtain ⟨rfl, rfl⟩ := hb
        simp only [List.append_nil] at hle e ⊢
        exact ⟨w, ip, hw, ⟨by simpa using JNum_pos hi hf hx, hi.1, rfl, hle⟩, by rw [hs, e]; simp⟩
      · cases h
    · cases h

theorem kindText_complete {kind : Kind} {t : Str} {v : FieldVal} (h : KindText kind t v) {w r : Str} (hw : Ws w)
    (hr : Stop r) : parseKind kind (w ++ t ++ r) = some (v, r) := by
  match kind, v, h with
  | .string, .s v, h =>
    have hj : JVal (.str v) t := by rw [JVal]; exact h
    rw [parseKind_complete hj .string hw hr]
    rfl
  | .u64, .n n, h =>
    obtain ⟨hn, hd, he, hle⟩ := h
    have hj : JVal (.num t) t := by rw [JVal]; exact ⟨rfl, hn⟩
    rw [parseKind_complete hj .u64 hw hr]
    subst he
    simp [kindOf, (digits_iff_all.1 hd).2, hle]
  | .string, .n _, h => exact h.elim
  | .u64, .s _, h => exact h.elim

/-- The members `ms` of an object, read one after the other. -/
inductive FieldReads (fields : List (Str × Kind)) : List (Str × FieldVal) → List (Str × Str) → List (Str × FieldVal) → Prop
  | nil {acc} : FieldReads fields acc [] acc
  | skip {acc acc' k t ms} : fields.lookup k = none → Skipped t → FieldReads fields acc ms acc' →
      FieldReads fields acc ((k, t) :: ms) acc'
  | read {acc acc' k t ms kind v} : fields.lookup k = some kind → acc.lookup k = none → KindText kind t v →
      FieldReads fields ((k, v) :: acc) ms acc' → FieldReads fields acc ((k, t) :: ms) acc'

theorem memberTexts_ws {ms : List (Str × Str)} {s : Str} (h : MemberTexts ms s) {w : Str} (hw : Ws w) :
    MemberTexts ms (w ++ s) := by
  have happ : ∀ {w' : Str}, Ws w' → Ws (w ++ w') := by
    intro w' hw' c hc
    rcases List.mem_append.1 hc with h | h
    · exact hw c h
    · exact hw' c h
  cases h with
  | @one _ _ _ _ _ t _ h1 h2 h3 h4 h5 =>
    have := MemberTexts.one (t := t) (happ h1) h2 h3 h4 h5
    simpa only [List.append_assoc] using this
  | @cons _ _ _ _ _ t _ _ _ h1 h2 h3 h4 h5 h6 =>
    have := MemberTexts.cons (t := t) (happ h1) h2 h3 h4 h5 h6
    simpa only [List.append_assoc] using this

theorem structMembers_reads (fields : List (Str × Kind)) (n : Nat) :
    ∀ (acc acc' : List (Str × FieldVal)) (s r : Str), structMembers fields n acc s = some (acc', r) →
      ∃ ms body, MemberTexts ms body ∧ FieldReads fields acc ms acc' ∧ '"' :: s = body ++ '}' :: r := by
  induction n with
  | zero => intro acc acc' s r h; rw [structMembers] at h; cases h
  | succ n ih =>
    intro acc acc' s r h
    rw [structMembers] at h
    split at h
    · cases h
    · rename_i k r0 hk
      obtain ⟨b, hb, rfl⟩ := parseStrBody_sound s hk
      obtain ⟨u1, hu1, hs1⟩ := skipWs_spec r0
      split at h
      · rename_i r1 heq
        rw [heq] at hs1
        subst hs1
        simp only at h
        split at h
        · cases h
        · rename_i acc1 r2 hstep
          have : ∃ w t, Ws w ∧ r1 = w ++ t ++ r2 ∧
              ∀ ms, FieldReads fields acc1 ms acc' → FieldReads fields acc ((k, t) :: ms) acc' := by
            split at hstep
            · rename_i hl
              rw [Option.map_eq_some_iff] at hstep
              obtain ⟨r2', h1, h2⟩ := hstep
              cases h2
              obtain ⟨w, t, hw, ht, e⟩ := skipValue_sound h1
              exact ⟨w, t, hw, e, fun ms h => .skip hl ht h⟩
            · rename_i kind hl
              split at hstep
              · cases hstep
              · rename_i ha
                rw [Option.map_eq_some_iff] at hstep
                obtain ⟨⟨v, r2'⟩, h1, h2⟩ := hstep
                cases h2
                obtain ⟨w, t, hw, ht, e⟩ := kindText_sound h1
                exact ⟨w, t, hw, e, fun ms h => .read hl (Option.not_isSome_iff_eq_none.1 ha) ht h⟩
          obtain ⟨u2, t, hu2, rfl, hread⟩ := this
          obtain ⟨w, hw, hs2⟩ := skipWs_spec r2
          have hq : JQuoted ('"' :: b ++ ['"']) k := ⟨b, hb, rfl⟩
          split at h
          · rename_i r3 heq2
            rw [heq2] at hs2
            cases h
            refine ⟨[(k, t)], _, .one (w := []) (by simp [Ws]) hq hu1 hu2 hw, hread [] .nil, ?_⟩
            rw [hs2]; simp
          · rename_i r3 heq2
            rw [heq2] at hs2
            obtain ⟨w3, hw3, hs3⟩ := skipWs_spec r3
            split at h
            · rename_i r4 heq3
              rw [heq3] at hs3
              obtain ⟨ms, body, hm, hr, e⟩ := ih _ _ _ _ h
              refine ⟨(k, t) :: ms, _, .cons (w := []) (by simp [Ws]) hq hu1 hu2 hw (memberTexts_ws hm hw3), hread ms hr, ?_⟩
              rw [hs2, hs3, e]; simp
            · cases h
          · cases h
      · cases h

theorem reads_structMembers {fields : List (Str × Kind)} {ms : List (Str × Str)} {body : Str} (h : MemberTexts ms body) :
    ∀ {acc acc'}, FieldReads fields acc ms acc' → ∀ r, ∃ w q, Ws w ∧ body = w ++ '"' :: q ∧
      ∀ n, q.length + 1 ≤ n → structMembers fields n acc (q ++ '}' :: r) = some (acc', r) := by
  induction h with
  | @one w q k u1 u2 t w' hw hq hu1 hu2 hw' =>
    intro acc acc' hr r
    obtain ⟨b, hb, rfl⟩ := hq
    refine ⟨w, b ++ '"' :: (u1 ++ ':' :: (u2 ++ t ++ w')), hw, by simp, fun n hn => ?_⟩
    obtain ⟨n, rfl⟩ : ∃ n', n = n' + 1 := ⟨n - 1, by omega⟩
    have hstop : Stop (w' ++ ('}' :: r)) := stop_ws hw' (stop_cons (by decide) _)
    have hend : skipWs (w' ++ ('}' :: r)) = '}' :: r := skipWs_append hw' (noWs_of_head (by decide))
    have e : (b ++ '"' :: (u1 ++ ':' :: (u2 ++ t ++ w'))) ++ '}' :: r =
        b ++ '"' :: (u1 ++ (':' :: (u2 ++ t ++ (w' ++ ('}' :: r))))) := by simp
    rw [e, structMembers, parseStrBody_complete hb]
    simp only
    rw [skipWs_append hu1 (noWs_of_head (by decide))]
    cases hr with
    | skip hl ht hr =>
      cases hr
      simp only [hl, skipSkipped_complete ht hu2 hstop, Option.map_some, hend]
    | read hl ha ht hr =>
      cases hr
      simp only [hl, ha, kindText_complete ht hu2 hstop, Option.map_some, hend, Option.isSome_none, Bool.false_eq_true, if_false]
  | @cons w q k u1 u2 t w' rest ms hw hq hu1 hu2 hw' hm ih =>
    intro acc acc' hr r
    obtain ⟨b, hb, rfl⟩ := hq
    refine ⟨w, b ++ '"' :: (u1 ++ ':' :: (u2 ++ t ++ (w' ++ ',' :: rest))), hw, by simp, fun n hn => ?_⟩
    simp only [List.length_append, List.length_cons, List.length_nil] at hn
    obtain ⟨n, rfl⟩ : ∃ n', n = n' + 1 := ⟨n - 1, by omega⟩
    have hstop : ∀ x, Stop (w' ++ (',' :: x)) := fun x => stop_ws hw' (stop_cons (by decide) _)
    have hend : ∀ x, skipWs (w' ++ (',' :: x)) = ',' :: x := fun x => skipWs_append hw' (noWs_of_head (by decide))
    have e : (b ++ '"' :: (u1 ++ ':' :: (u2 ++ t ++ (w' ++ ',' :: rest)))) ++ '}' :: r =
        b ++ '"' :: (u1 ++ (':' :: (u2 ++ t ++ (w' ++ (',' :: (rest ++ '}' :: r)))))) := by simp
    rw [e, structMembers, parseStrBody_complete hb]
    simp only
    rw [skipWs_append hu1 (noWs_of_head (by decide))]
    cases hr with
    | skip hl ht hr =>
      obtain ⟨w3, q3, hw3, rfl, hrec⟩ := ih hr r
      have hend2 : skipWs (w3 ++ '"' :: q3 ++ '}' :: r) = '"' :: (q3 ++ '}' :: r) := by
        rw [List.append_assoc]; exact skipWs_append hw3 (noWs_of_head (by decide))
      simp only [hl, skipSkipped_complete ht hu2 (hstop _), Option.map_some, hend, hend2]
      refine hrec n ?_
      simp only [List.length_append, List.length_cons, List.length_nil] at hn
      omega
    | read hl ha ht hr =>
      obtain ⟨w3, q3, hw3, rfl, hrec⟩ := ih hr r
      have hend2 : skipWs (w3 ++ '"' :: q3 ++ '}' :: r) = '"' :: (q3 ++ '}' :: r) := by
        rw [List.append_assoc]; exact skipWs_append hw3 (noWs_of_head (by decide))
      simp only [hl, ha, kindText_complete ht hu2 (hstop _), Option.map_some, hend, hend2, Option.isSome_none,
        Bool.false_eq_true, if_false]
      refine hrec n ?_
      simp only [List.length_append, List.length_cons, List.length_nil] at hn
      omega

/-- Further values of an array, each after a comma. -/
inductive ReadsSeq : List (Str × Kind) → Str → List FieldVal → Prop
  | nil {w} : Ws w → ReadsSeq [] w []
  | cons {k kind fs w w1 t v r vs} : Ws w → Ws w1 → KindText kind t v → ReadsSeq fs r vs →
      ReadsSeq ((k, kind) :: fs) (w ++ ',' :: (w1 ++ t ++ r)) (v :: vs)

theorem structSeq_reads {fields : List (Str × Kind)} : ∀ {s r : Str} {vs : List FieldVal},
    structSeq fields false s = some (vs, r) → ∃ body, ReadsSeq fields body vs ∧ s = body ++ ']' :: r := by
  induction fields with
  | nil =>
    intro s r vs h
    rw [structSeq] at h
    obtain ⟨w, hw, hs⟩ := skipWs_spec s
    split at h
    · rename_i r0 heq
      rw [heq] at hs
      cases h
      exact ⟨w, .nil hw, hs⟩
    · cases h
  | cons f fs ih =>
    obtain ⟨k, kind⟩ := f
    intro s r vs h
    rw [structSeq] at h
    obtain ⟨w, hw, hs⟩ := skipWs_spec s
    simp only [Bool.false_eq_true, if_false] at h
    split at h
    · cases h
    · rename_i s2 hs2
      split at hs2
      · rename_i r0 heq
        rw [heq] at hs
        cases hs2
        split at h
        · cases h
        · rename_i v r1 hk
          obtain ⟨w1, t, hw1, ht, rfl⟩ := kindText_sound hk
          rw [Option.map_eq_some_iff] at h
          obtain ⟨⟨vs', r'⟩, hp, he⟩ := h
          cases he
          obtain ⟨body, hb, rfl⟩ := ih hp
          exact ⟨_, .cons hw hw1 ht hb, by rw [hs]; simp⟩
      · cases hs2

theorem stop_readsSeq {fields : List (Str × Kind)} {body : Str} {vs : List FieldVal} (h : ReadsSeq fields body vs)
    {s : Str} (hs : Stop s) : Stop (body ++ s) := by
  cases h with
  | nil hw => exact stop_ws hw hs
  | cons hw _ _ _ => rw [List.append_assoc]; exact stop_ws hw (stop_cons (by decide) _)

theorem readsSeq_structSeq {fields : List (Str × Kind)} {body : Str} {vs : List FieldVal} (h : ReadsSeq fields body vs)
    (r : Str) : structSeq fields false (body ++ ']' :: r) = some (vs, r) := by
  induction h with
  | nil hw => rw [structSeq, skipWs_append hw (noWs_of_head (by decide))]; rfl
  | @cons k kind fs w w1 t v rest vs hw hw1 ht hrest ih =>
    have e : w ++ ',' :: (w1 ++ t ++ rest) ++ ']' :: r = w ++ (',' :: (w1 ++ t ++ (rest ++ ']' :: r))) := by simp
    rw [e, structSeq]
    simp only [Bool.false_eq_true, if_false]
    rw [skipWs_append hw (noWs_of_head (by decide))]
    have hstop : Stop (rest ++ ']' :: r) := stop_readsSeq hrest (stop_cons (by decide) _)
    simp only [kindText_complete ht hw1 hstop, ih, Option.map_some]

/-- Exactly the texts that are accepted as a struct with the fields `fields`, and the values that are read. -/
theorem parseStruct_iff {k0 : Str} {kind0 : Kind} {fs : List (Str × Kind)} {s : Str} {vs : List FieldVal} :
    parseStruct ((k0, kind0) :: fs) s = some vs ↔
      (∃ ms acc, ObjectText ms s ∧ FieldReads ((k0, kind0) :: fs) [] ms acc ∧
        ((k0, kind0) :: fs).mapM (fun f => acc.lookup f.1) = some vs) ∨
      ∃ w w1 t v r vs' w', Ws w ∧ Ws w1 ∧ KindText kind0 t v ∧ ReadsSeq fs r vs' ∧ Ws w' ∧ vs = v :: vs' ∧
        s = w ++ '[' :: (w1 ++ t ++ (r ++ ']' :: w')) := by
  generalize hfields : (k0, kind0) :: fs = fields
  constructor
  · intro h
    unfold parseStruct at h
    obtain ⟨w, hw, hs⟩ := skipWs_spec s
    split at h
    · rename_i r heq
      rw [heq] at hs
      obtain ⟨w1, hw1, hs1⟩ := skipWs_spec r
      split at h
      · rename_i r1 heq1
        rw [heq1] at hs1
        split at h
        · cases h
        · rename_i acc r2 hm
          split at h
          · rename_i hw2
            obtain ⟨ms, body, hmt, hr, e⟩ := structMembers_reads _ _ _ _ _ _ hm
            refine .inl ⟨ms, acc, ⟨w, w1 ++ body, r2, hw, memberTexts_ws hmt hw1, ?_, ?_⟩, hr, h⟩
            · have hsp := skipWs_spec r2
              obtain ⟨w2, hw2', e2⟩ := hsp
              rw [hw2, List.append_nil] at e2
              rw [e2]; exact hw2'
            · rw [hs, hs1, e]; simp
          · cases h
      · cases h
    · rename_i r heq
      rw [heq] at hs
      split at h
      · cases h
      · rename_i vs' r2 hq
        split at h
        · rename_i hw2
          cases h
          subst hfields
          rw [structSeq] at hq
          simp only [if_true] at hq
          split at hq
          · cases hq
          · rename_i v r1 hk
            obtain ⟨w1, t, hw1, ht, rfl⟩ := kindText_sound hk
            rw [Option.map_eq_some_iff] at hq
            obtain ⟨⟨vs', r'⟩, hp, he⟩ := hq
            cases he
            obtain ⟨body, hb, rfl⟩ := structSeq_reads hp
            refine .inr ⟨w, w1, t, v, body, vs', r', hw, hw1, ht, hb, ?_, rfl, by rw [hs]⟩
            obtain ⟨w2, hw2', e2⟩ := skipWs_spec r'
            rw [hw2, List.append_nil] at e2
            rw [e2]; exact hw2'
        · cases h
    · cases h
  · rintro (⟨ms, acc, ⟨w, body, w', hw, hmt, hw', rfl⟩, hr, hv⟩ | ⟨w, w1, t, v, r, vs', w', hw, hw1, ht, hb, hw', rfl, rfl⟩)
    · obtain ⟨w1, q, hw1, rfl, hrec⟩ := reads_structMembers hmt hr w'
      have e : w ++ '{' :: (w1 ++ '"' :: q) ++ '}' :: w' = w ++ ('{' :: (w1 ++ ('"' :: (q ++ '}' :: w')))) := by simp
      unfold parseStruct
      rw [e, skipWs_append hw (noWs_of_head (by decide))]
      simp only
      rw [skipWs_append hw1 (noWs_of_head (by decide))]
      simp only
      rw [hrec _ (by simp)]
      simp only [skipWs_ws hw', if_true]
      exact hv
    · subst hfields
      unfold parseStruct
      rw [skipWs_append hw (noWs_of_head (by decide))]
      simp only
      rw [structSeq]
      have hstop : Stop (r ++ ']' :: w') := stop_readsSeq hb (stop_cons (by decide) _)
      simp only [if_true, kindText_complete ht hw1 hstop, readsSeq_structSeq hb,
        Option.map_some, skipWs_ws hw']

theorem fieldReads_iff (fields : List (Str × Kind)) (val : Str → FieldVal) (ms : List (Str × Str)) :
    ∀ acc, (∃ acc', FieldReads fields acc ms acc' ∧
        ∀ k kind, fields.lookup k = some kind → acc'.lookup k = some (val k)) ↔
      (∀ m ∈ ms, fields.lookup m.1 = none → Skipped m.2) ∧ ∀ k kind, fields.lookup k = some kind →
        (acc.lookup k = some (val k) ∧ ms.filter (fun m => m.1 = k) = []) ∨
        (acc.lookup k = none ∧ ∃ t, OnlyMember ms k t ∧ KindText kind t (val k)) := by
  induction ms with
  | nil =>
    intro acc
    simp only [OnlyMember]
    constructor
    · rintro ⟨_, h, h2⟩
      cases h
      exact ⟨by simp, fun k kind hk => .inl ⟨h2 k kind hk, rfl⟩⟩
    · rintro ⟨-, h⟩
      refine ⟨acc, .nil, fun k kind hk => ?_⟩
      rcases h k kind hk with ⟨h, _⟩ | ⟨_, x, hx, _⟩
      · exact h
      · cases hx
  | cons m ms ih =>
    obtain ⟨k0, t0⟩ := m
    intro acc
    have hself : ((k0, t0) :: ms).filter (fun m => decide (m.1 = k0)) = (k0, t0) :: ms.filter (fun m => decide (m.1 = k0)) := by
      rw [List.filter_cons_of_pos]; simp
    constructor
    · rintro ⟨acc', hr, hv⟩
      cases hr with
      | skip hl ht hr =>
        obtain ⟨h1, h2⟩ := (ih acc).1 ⟨acc', hr, hv⟩
        refine ⟨fun m hm hn => ?_, fun k kind hk => ?_⟩
        · rcases List.mem_cons.1 hm with rfl | hm
          · exact ht
          · exact h1 m hm hn
        · have hne : k ≠ k0 := by rintro rfl; rw [hl] at hk; cases hk
          simpa only [OnlyMember, filter_cons_ne ms hne] using h2 k kind hk
      | @read _ _ _ _ _ kind0 v hl ha ht hr =>
        obtain ⟨h1, h2⟩ := (ih _).1 ⟨acc', hr, hv⟩
        refine ⟨fun m hm hn => ?_, fun k kind hk => ?_⟩
        · rcases List.mem_cons.1 hm with rfl | hm
          · rw [hl] at hn; cases hn
          · exact h1 m hm hn
        · have hh := h2 k kind hk
          by_cases hkk : k = k0
          · subst hkk
            rw [hl] at hk; cases hk
            rw [lookup_cons_self'] at hh
            rcases hh with ⟨e, h3⟩ | ⟨e, _⟩
            · cases e
              refine .inr ⟨ha, t0, ?_, ht⟩
              simp only [OnlyMember, hself, List.map_cons, h3, List.map_nil]
            · cases e
          · simpa only [OnlyMember, filter_cons_ne ms hkk, lookup_cons_ne acc hkk] using hh
    · rintro ⟨h1, h2⟩
      cases hl : fields.lookup k0 with
      | none =>
        obtain ⟨acc', hr, hv⟩ := (ih acc).2 ⟨fun m hm hn => h1 m (List.mem_cons_of_mem _ hm) hn, fun k kind hk => by
          have hne : k ≠ k0 := by rintro rfl; rw [hl] at hk; cases hk
          simpa only [OnlyMember, filter_cons_ne ms hne] using h2 k kind hk⟩
        exact ⟨acc', .skip hl (h1 (k0, t0) List.mem_cons_self hl) hr, hv⟩
      | some kind0 =>
        rcases h2 k0 kind0 hl with ⟨_, h⟩ | ⟨ha, x, hx, ht⟩
        · rw [hself] at h; cases h
        · simp only [OnlyMember, hself, List.map_cons, List.cons.injEq, List.map_eq_nil_iff] at hx
          obtain ⟨rfl, hx⟩ := hx
          obtain ⟨acc', hr, hv⟩ := (ih ((k0, val k0) :: acc)).2 ⟨fun m hm hn => h1 m (List.mem_cons_of_mem _ hm) hn,
            fun k kind hk => by
              by_cases hkk : k = k0
              · subst hkk; exact .inl ⟨lookup_cons_self' _, hx⟩
              · simpa only [OnlyMember, filter_cons_ne ms hkk, lookup_cons_ne acc hkk] using h2 k kind hk⟩
          exact ⟨acc', .read hl ha ht hr, hv⟩

def tokenFields : List (Str × Kind) :=
  [(s% "access_token", .string), (s% "expires_in", .u64), (s% "token_type", .string)]
def blobFields : List (Str × Kind) := [(s% "keyId", .string), (s% "signedBlob", .string)]

theorem mapM_three {acc : List (Str × FieldVal)} {a b c : Str} {ka kb kc : Kind} {x y z : FieldVal} :
    ([(a, ka), (b, kb), (c, kc)] : List (Str × Kind)).mapM (fun f => acc.lookup f.1) = some [x, y, z] ↔
      acc.lookup a = some x ∧ acc.lookup b = some y ∧ acc.lookup c = some z := by
  cases h1 : acc.lookup a <;> cases h2 : acc.lookup b <;> cases h3 : acc.lookup c <;>
    simp [List.mapM_cons, h1, h2, h3]

theorem mapM_two {acc : List (Str × FieldVal)} {a b : Str} {ka kb : Kind} {x y : FieldVal} :
    ([(a, ka), (b, kb)] : List (Str × Kind)).mapM (fun f => acc.lookup f.1) = some [x, y] ↔
      acc.lookup a = some x ∧ acc.lookup b = some y := by
  cases h1 : acc.lookup a <;> cases h2 : acc.lookup b <;> simp [List.mapM_cons, h1, h2]

theorem tokenFields_lookup (P : Str → Kind → Prop) :
    (∀ k kind, tokenFields.lookup k = some kind → P k kind) ↔
      P (s% "access_token") .string ∧ P (s% "expires_in") .u64 ∧ P (s% "token_type") .string := by
  constructor
  · intro h; exact ⟨h _ _ (by decide), h _ _ (by decide), h _ _ (by decide)⟩
  · rintro ⟨h1, h2, h3⟩ k kind hk
    by_cases e1 : k = s% "access_token"
    · subst e1
      have : tokenFields.lookup (s% "access_token") = some .string := by decide
      rw [this] at hk; cases hk; exact h1
    · by_cases e2 : k = s% "expires_in"
      · subst e2
        have : tokenFields.lookup (s% "expires_in") = some .u64 := by decide
        rw [this] at hk; cases hk; exact h2
      · by_cases e3 : k = s% "token_type"
        · subst e3
          have : tokenFields.lookup (s% "token_type") = some .string := by decide
          rw [this] at hk; cases hk; exact h3
        · rw [tokenFields, lookup_cons_ne _ e1, lookup_cons_ne _ e2, lookup_cons_ne _ e3] at hk
          cases hk

theorem blobFields_lookup (P : Str → Kind → Prop) :
    (∀ k kind, blobFields.lookup k = some kind → P k kind) ↔
      P (s% "keyId") .string ∧ P (s% "signedBlob") .string := by
  constructor
  · intro h; exact ⟨h _ _ (by decide), h _ _ (by decide)⟩
  · rintro ⟨h1, h2⟩ k kind hk
    by_cases e1 : k = s% "keyId"
    · subst e1
      have : blobFields.lookup (s% "keyId") = some .string := by decide
      rw [this] at hk; cases hk; exact h1
    · by_cases e2 : k = s% "signedBlob"
      · subst e2
        have : blobFields.lookup (s% "signedBlob") = some .string := by decide
        rw [this] at hk; cases hk; exact h2
      · rw [blobFields, lookup_cons_ne _ e1, lookup_cons_ne _ e2] at hk
        cases hk


theorem tokenFields_none {k : Str} : tokenFields.lookup k = none ↔ k ∉ [s% "access_token", s% "expires_in", s% "token_type"] := by
  constructor
  · intro h hm
    simp only [List.mem_cons, List.not_mem_nil, or_false] at hm
    rcases hm with rfl | rfl | rfl <;> revert h <;> decide
  · intro h
    simp only [List.mem_cons, List.not_mem_nil, or_false, not_or] at h
    rw [tokenFields, lookup_cons_ne _ h.1, lookup_cons_ne _ h.2.1, lookup_cons_ne _ h.2.2]
    rfl

theorem blobFields_none {k : Str} : blobFields.lookup k = none ↔ k ∉ [s% "keyId", s% "signedBlob"] := by
  constructor
  · intro h hm
    simp only [List.mem_cons, List.not_mem_nil, or_false] at hm
    rcases hm with rfl | rfl <;> revert h <;> decide
  · intro h
    simp only [List.mem_cons, List.not_mem_nil, or_false, not_or] at h
    rw [blobFields, lookup_cons_ne _ h.1, lookup_cons_ne _ h.2]
    rfl

/-- The texts accepted as the answer of the token endpoint. -/
theorem parseAccessToken_iff {s token : Str} {life : Nat} {type : Str} :
    parseAccessToken s = some ⟨token, life, type⟩ ↔ TokenText s token life type := by
  have hp : parseAccessToken s = some ⟨token, life, type⟩ ↔
      parseStruct tokenFields s = some [.s token, .n life, .s type] := by
    unfold parseAccessToken
    rw [← tokenFields]
    generalize parseStruct tokenFields s = o
    constructor
    · intro h
      split at h
      · cases h; rfl
      · cases h
    · rintro rfl; rfl
  rw [hp]
  let val : Str → FieldVal := fun k =>
    if k = s% "access_token" then .s token else if k = s% "expires_in" then .n life else .s type
  have hv1 : val (s% "access_token") = .s token := by simp [val]
  have hv2 : val (s% "expires_in") = .n life := by simp [val]
  have hv3 : val (s% "token_type") = .s type := by simp [val]
  have key := fun ms => fieldReads_iff tokenFields val ms []
  simp only [tokenFields_lookup (fun k kind => _), hv1, hv2, hv3, tokenFields_none] at key
  simp only [List.lookup_nil, true_and, reduceCtorEq, false_and, false_or] at key
  have hi := @parseStruct_iff (s% "access_token") .string [(s% "expires_in", .u64), (s% "token_type", .string)] s
    [.s token, .n life, .s type]
  rw [← tokenFields] at hi
  rw [hi]
  constructor
  · rintro (⟨ms, acc, ho, hr, hv⟩ | ⟨w, w1, t, v, r, vs', w', hw, hw1, ht, hb, hw', e, rfl⟩)
    · obtain ⟨hs, ⟨t1, o1, k1⟩, ⟨t2, o2, k2⟩, ⟨t3, o3, k3⟩⟩ := (key ms).1 ⟨acc, hr, mapM_three.1 hv⟩
      exact ⟨t1, t2, t3, k1, k2, k3, .inl ⟨ms, ho, o1, o2, o3, hs⟩⟩
    · cases e
      cases hb with
      | @cons _ _ _ w2 w3 t2 _ r2 _ hw2 hw3 ht2 hb =>
        cases hb with
        | @cons _ _ _ w4 w5 t3 _ r3 _ hw4 hw5 ht3 hb =>
          cases hb with
          | nil hw6 =>
            exact ⟨t, t2, t3, ht, ht2, ht3, .inr ⟨w, w1, w2, w3, w4, w5, _, w', hw, hw1, hw2, hw3, hw4, hw5, hw6, hw',
              by simp⟩⟩
  · rintro ⟨t1, t2, t3, k1, k2, k3, ⟨ms, ho, o1, o2, o3, hs⟩ | ⟨w, w1, w2, w3, w4, w5, w6, w7, hw, hw1, hw2, hw3, hw4, hw5, hw6, hw7, rfl⟩⟩
    · obtain ⟨acc, hr, hv⟩ := (key ms).2 ⟨hs, ⟨t1, o1, k1⟩, ⟨t2, o2, k2⟩, ⟨t3, o3, k3⟩⟩
      exact .inl ⟨ms, acc, ho, hr, mapM_three.2 hv⟩
    · exact .inr ⟨w, w1, t1, .s token, _, [.n life, .s type], w7, hw, hw1, k1,
        .cons (v := .n life) hw2 hw3 k2 (.cons (v := .s type) hw4 hw5 k3 (.nil hw6)), hw7, rfl, by simp⟩

/-- The texts accepted as the answer of `signBlob`. -/
theorem parseSignBlobResponse_iff {s blob : Str} : parseSignBlobResponse s = some blob ↔ SignBlobText s blob := by
  have hp : parseSignBlobResponse s = some blob ↔ ∃ keyId, parseStruct blobFields s = some [.s keyId, .s blob] := by
    unfold parseSignBlobResponse
    rw [← blobFields]
    generalize parseStruct blobFields s = o
    constructor
    · intro h
      split at h
      · cases h; exact ⟨_, rfl⟩
      · cases h
    · rintro ⟨k, rfl⟩; rfl
  rw [hp]
  unfold SignBlobText
  refine exists_congr fun keyId => ?_
  let val : Str → FieldVal := fun k => if k = s% "keyId" then .s keyId else .s blob
  have hv1 : val (s% "keyId") = .s keyId := by simp [val]
  have hv2 : val (s% "signedBlob") = .s blob := by simp [val]
  have key := fun ms => fieldReads_iff blobFields val ms []
  simp only [blobFields_lookup (fun k kind => _), hv1, hv2, blobFields_none] at key
  simp only [List.lookup_nil, true_and, reduceCtorEq, false_and, false_or] at key
  have hi := @parseStruct_iff (s% "keyId") .string [(s% "signedBlob", .string)] s [.s keyId, .s blob]
  rw [← blobFields] at hi
  rw [hi]
  constructor
  · rintro (⟨ms, acc, ho, hr, hv⟩ | ⟨w, w1, t, v, r, vs', w', hw, hw1, ht, hb, hw', e, rfl⟩)
    · obtain ⟨hs, ⟨t1, o1, k1⟩, ⟨t2, o2, k2⟩⟩ := (key ms).1 ⟨acc, hr, mapM_two.1 hv⟩
      exact ⟨t1, t2, k1, k2, .inl ⟨ms, ho, o1, o2, hs⟩⟩
    · cases e
      cases hb with
      | @cons _ _ _ w2 w3 t2 _ r2 _ hw2 hw3 ht2 hb =>
        cases hb with
        | nil hw4 =>
          exact ⟨t, t2, ht, ht2, .inr ⟨w, w1, w2, w3, _, w', hw, hw1, hw2, hw3, hw4, hw', by simp⟩⟩
  · rintro ⟨t1, t2, k1, k2, ⟨ms, ho, o1, o2, hs⟩ | ⟨w, w1, w2, w3, w4, w5, hw, hw1, hw2, hw3, hw4, hw5, rfl⟩⟩
    · obtain ⟨acc, hr, hv⟩ := (key ms).2 ⟨hs, ⟨t1, o1, k1⟩, ⟨t2, o2, k2⟩⟩
      exact .inl ⟨ms, acc, ho, hr, mapM_two.2 hv⟩
    · exact .inr ⟨w, w1, t1, .s keyId, _, [.s blob], w5, hw, hw1, k1,
        .cons (v := .s blob) hw2 hw3 k2 (.nil hw4), hw5, rfl, by simp⟩

end CSS
