import Verif.Lemmas.PolicyDoc
import Verif.Lemmas.Policy
namespace CSS
open Spec

/-- The text of a document, with plain tags in the list of conditions. -/
def PlainDoc (j : Json) (s : Str) : Prop :=
  ∃ w t w', Ws w ∧ Ws w' ∧ s = w ++ t ++ w' ∧
    ((∃ k x ms u q u1 u2 v u3 rs, j = .obj ((k, x) :: ms) ∧ Ws u ∧ JQuoted q k ∧ Ws u1 ∧ Ws u2 ∧ Good k x v ∧ Ws u3 ∧
        GMembers ms rs ∧ t = '{' :: (u ++ q ++ u1 ++ [':'] ++ u2 ++ v ++ u3 ++ rs ++ ['}'])) ∨
     (∃ jc je u v u1 u2 v2 u3, j = .arr [jc, je] ∧ Ws u ∧ JVal jc v ∧ (∀ xs, jc = .arr xs → CondArr xs v) ∧ Ws u1 ∧
        Ws u2 ∧ JVal je v2 ∧ Ws u3 ∧ t = '[' :: (u ++ v ++ (u1 ++ ',' :: (u2 ++ v2 ++ (u3 ++ [']']))))))

theorem readPolicy_complete {j : Json} {s : Str} {d : PolicyDocument} (ht : PlainDoc j s) (hd : PolicyOf j d) :
    readPolicy s = some d := by
  obtain ⟨w, t, w', hw, hw', rfl, ht⟩ := ht
  obtain ⟨jc, je, hc, he, hj⟩ := hd
  obtain ⟨cs, e⟩ := d
  rcases ht with ⟨k, x, ms, u, q, u1, u2, v, u3, rs, rfl, hu, hq, hu1, hu2, hg, hu3, hms, rfl⟩ |
    ⟨jc', je', u, v, u1, u2, v2, u3, rfl, hu, hv, hca, hu1, hu2, hv2, hu3, rfl⟩
  · rcases hj with ⟨ms', e1, h1, h2⟩ | e1
    · simp only [Json.obj.injEq] at e1
      subst e1
      have hr := (reads_iff (cs := cs) (e := e)).2 ⟨jc, je, hc, he, h1, h2⟩
      have hsk : skipWs (w ++ ('{' :: (u ++ q ++ u1 ++ [':'] ++ u2 ++ v ++ u3 ++ rs ++ ['}'])) ++ w') =
          '{' :: (u ++ q ++ (u1 ++ ':' :: (u2 ++ v ++ (u3 ++ (rs ++ '}' :: w'))))) := by
        rw [List.append_assoc, List.cons_append, skipWs_append hw (noWs_of_head (by decide))]
        simp
      unfold readPolicy
      rw [hsk]
      simp only
      rw [readMembers_complete ms w' hu hq hu1 hu2 hg hu3 hms (by simp; omega) hr]
      simp only
      rw [if_pos (skipWs_ws hw')]
    · cases e1
  · rcases hj with ⟨ms', e1, h1, h2⟩ | e1
    · cases e1
    · simp only [Json.arr.injEq, List.cons.injEq, and_true] at e1
      obtain ⟨rfl, rfl⟩ := e1
      have hsk : skipWs (w ++ ('[' :: (u ++ v ++ (u1 ++ ',' :: (u2 ++ v2 ++ (u3 ++ [']']))))) ++ w') =
          '[' :: (u ++ v ++ (u1 ++ ',' :: (u2 ++ v2 ++ (u3 ++ ']' :: w')))) := by
        rw [List.append_assoc, List.cons_append, skipWs_append hw (noWs_of_head (by decide))]
        simp
      unfold readPolicy
      rw [hsk]
      simp only
      rw [readConditions_complete hc hca hu]
      simp only [Option.bind_eq_bind, Option.bind_some]
      rw [readComma_complete hu1]
      simp only [Option.bind_some]
      rw [readExpiration_complete he hv2 hu2]
      simp only [Option.bind_some]
      rw [readTok_complete (by decide) hu3]
      simp only [Option.bind_some]
      rw [if_pos (skipWs_ws hw')]

theorem readPolicy_sound {s : Str} {d : PolicyDocument} (hn : NoUnicodeEscape s) (h : readPolicy s = some d) :
    ∃ j, JsonText j s ∧ PolicyOf j d := by
  obtain ⟨w, hw, hs⟩ := skipWs_spec s
  unfold readPolicy at h
  split at h
  · rename_i r0 e0
    rw [e0] at hs
    split at h
    · rename_i cs e r' hm
      split at h
      · rename_i hr'
        simp only [Option.some.injEq] at h
        subst h
        have hn0 : NoUnicodeEscape r0 := by rw [hs] at hn; exact noU_tail (noU_right hn)
        obtain ⟨u, k, q, u1, u2, x, t, w1, ms, rs, hu, hq, hu1, hu2, hx, hw1, hms, hR, rfl⟩ := readMembers_sound _ hn0 hm
        obtain ⟨jc, je, h1, h2, h3, h4⟩ := reads_iff.1 hR
        refine ⟨.obj ((k, x) :: ms), ⟨w, '{' :: (u ++ q ++ u1 ++ [':'] ++ u2 ++ t ++ w1 ++ rs ++ ['}']), r', hw, ?_, ws_of_skipWs hr', ?_⟩,
          jc, je, h1, h2, .inl ⟨_, rfl, h3, h4⟩⟩
        · rw [JVal]
          exact ⟨u, q, u1, u2, t, w1, rs, hu, hq, hu1, hu2, hx, hw1, hms, rfl⟩
        · rw [hs]; simp
      · cases h
    · cases h
  · rename_i r0 e0
    rw [e0] at hs
    simp only [Option.bind_eq_bind, Option.bind_eq_some_iff] at h
    obtain ⟨⟨cs, s1⟩, h1, s2, h2, ⟨e, s3⟩, h3, s4, h4, h⟩ := h
    simp only at h2 h3 h4 h
    split at h
    · rename_i hr'
      simp only [Option.some.injEq] at h
      subst h
      obtain ⟨u, jc, v, hu, hv, hc, e1⟩ := readConditions_sound h1
      obtain ⟨u1, hu1, e2⟩ := readComma_sound h2
      obtain ⟨u2, je, v2, hu2, hv2, he, e3⟩ := readExpiration_sound h3
      obtain ⟨u3, hu3, e4⟩ := readTok_sound h4
      refine ⟨.arr [jc, je], ⟨w, '[' :: (u ++ v ++ u1 ++ (',' :: (u2 ++ v2 ++ u3 ++ [])) ++ [']']), s4, hw, ?_, ws_of_skipWs hr', ?_⟩,
        jc, je, hc, he, .inr rfl⟩
      · rw [JVal]
        refine ⟨u, v, u1, _, hu, hv, hu1, ?_, rfl⟩
        simp only [JElems]
        exact ⟨u2, v2, u3, [], hu2, hv2, hu3, rfl, rfl⟩
      · rw [hs, e1, e2, e3, e4]; simp
    · cases h
  · cases h

/-! ### texts with plain tags -/

theorem tag_chars {tag : Str} (h : tag ∈ tags) : ∀ c ∈ tag, c ≠ '"' ∧ c ≠ '\\' ∧ c ≠ '/' ∧ 32 ≤ c.toNat := by
  have : ∀ tag ∈ tags, ∀ c ∈ tag, c ≠ '"' ∧ c ≠ '\\' ∧ c ≠ '/' ∧ 32 ≤ c.toNat := by decide
  exact this tag h

/-- Without `\u`, a tag has one spelling only. -/
theorem JStr_plain {b v : Str} (h : JStr b v) : NoUnicodeEscape b →
    (∀ c ∈ v, c ≠ '"' ∧ c ≠ '\\' ∧ c ≠ '/' ∧ 32 ≤ c.toNat) → b = v := by
  induction h with
  | nil => intros; rfl
  | char h1 h2 h3 _ ih =>
    intro hn hv
    rw [ih (noU_tail hn) (fun c hc => hv c (by simp [hc]))]
  | @esc e c t v h _ ih =>
    intro hn hv
    exfalso
    obtain ⟨h1, h2, h3, h4⟩ := hv c (by simp)
    have key : ∀ p ∈ escapes, p.2 = '"' ∨ p.2 = '\\' ∨ p.2 = '/' ∨ p.2.toNat < 32 := by decide
    rcases key _ h with h | h | h | h
    · exact h1 h
    · exact h2 h
    · exact h3 h
    · simp only at h; omega
  | unicode _ _ _ _ =>
    intro hn _
    exact absurd ⟨[], _, rfl⟩ hn
  | pair _ _ _ _ _ _ _ _ =>
    intro hn _
    exact absurd ⟨[], _, rfl⟩ hn

theorem tagPlain_noU {j : Json} {t : Str} (h : JVal j t) (hn : NoUnicodeEscape t) : TagPlain j t := by
  rintro tag xs rfl ht
  rw [JVal] at h
  obtain ⟨w, q, w', r, hw, hq, hw', hxs, rfl⟩ := h
  rw [JVal] at hq
  obtain ⟨b, hb, rfl⟩ := hq
  have : NoUnicodeEscape b := by
    have h1 := noU_tail hn
    have e : w ++ ('"' :: b ++ ['"']) ++ w' ++ r ++ [']'] = w ++ '"' :: (b ++ ('"' :: (w' ++ r ++ [']']))) := by simp
    rw [e] at h1
    exact noU_left (noU_tail (noU_right h1))
  have e := JStr_plain hb this (tag_chars ht)
  subst e
  exact ⟨w, w', r, hw, hw', hxs, by simp⟩

theorem condElems_noU (xs : List Json) : ∀ {s : Str}, JElems xs s → NoUnicodeEscape s → CondElems xs s := by
  induction xs with
  | nil => intro s h _; simpa [JElems, CondElems] using h
  | cons x xs ih =>
    intro s h hn
    simp only [JElems] at h
    obtain ⟨w, t, w', r, hw, ht, hw', hxs, rfl⟩ := h
    have h1 := noU_tail hn
    simp only [CondElems]
    exact ⟨w, t, w', r, hw, ht, tagPlain_noU ht (noU_right (noU_left (noU_left h1))), hw', ih hxs (noU_right h1), rfl⟩

theorem condArr_noU {xs : List Json} {s : Str} (h : JVal (.arr xs) s) (hn : NoUnicodeEscape s) : CondArr xs s := by
  cases xs with
  | nil => simpa [JVal, CondArr] using h
  | cons x xs =>
    rw [JVal] at h
    obtain ⟨w, t, w', r, hw, ht, hw', hxs, rfl⟩ := h
    have h1 := noU_left (noU_tail hn)
    simp only [CondArr]
    exact ⟨w, t, w', r, hw, ht, tagPlain_noU ht (noU_right (noU_left (noU_left h1))), hw',
      condElems_noU xs hxs (noU_right h1), rfl⟩

theorem good_noU {k : Str} {x : Json} {t : Str} (h : JVal x t) (hn : NoUnicodeEscape t) : Good k x t :=
  ⟨h, fun _ xs e => by subst e; exact condArr_noU h hn⟩

theorem gmembers_noU (ms : List (Str × Json)) : ∀ {s : Str}, JMembers ms s → NoUnicodeEscape s → GMembers ms s := by
  induction ms with
  | nil => intro s h _; simpa [JMembers, GMembers] using h
  | cons m ms ih =>
    obtain ⟨k, x⟩ := m
    intro s h hn
    simp only [JMembers] at h
    obtain ⟨w, q, w1, w2, t, w', r, hw, hq, hw1, hw2, ht, hw', hms, rfl⟩ := h
    have h1 := noU_tail hn
    simp only [GMembers]
    exact ⟨w, q, w1, w2, t, w', r, hw, hq, hw1, hw2, good_noU ht (noU_right (noU_left (noU_left h1))), hw',
      ih hms (noU_right h1), rfl⟩

theorem plainDoc_noU {j : Json} {s : Str} {d : PolicyDocument} (h : JsonText j s) (hn : NoUnicodeEscape s) (hd : PolicyOf j d) :
    PlainDoc j s := by
  obtain ⟨w, t, w', hw, hj, hw', rfl⟩ := h
  have hnt : NoUnicodeEscape t := noU_right (noU_left hn)
  refine ⟨w, t, w', hw, hw', rfl, ?_⟩
  obtain ⟨jc, je, hc, he, hh⟩ := hd
  rcases hh with ⟨ms, rfl, h1, _⟩ | rfl
  · cases ms with
    | nil => simp [OnlyMember] at h1
    | cons m ms =>
      obtain ⟨k, x⟩ := m
      rw [JVal] at hj
      obtain ⟨u, q, w1, w2, v, u', r, hu, hq, hw1, hw2, hv, hu', hms, rfl⟩ := hj
      have h2 := noU_left (noU_tail hnt)
      exact .inl ⟨k, x, ms, u, q, w1, w2, v, u', r, rfl, hu, hq, hw1, hw2,
        good_noU hv (noU_right (noU_left (noU_left h2))), hu', gmembers_noU ms hms (noU_right h2), rfl⟩
  · rw [JVal] at hj
    obtain ⟨u, v, u1, r, hu, hv, hu1, hr, rfl⟩ := hj
    simp only [JElems] at hr
    obtain ⟨u2, v2, u3, r', hu2, hv2, hu3, rfl, rfl⟩ := hr
    have h2 := noU_left (noU_tail hnt)
    exact .inr ⟨jc, je, u, v, u1, u2, v2, u3, rfl, hu, hv,
      fun xs e => by subst e; exact condArr_noU hv (noU_right (noU_left (noU_left h2))), hu1, hu2, hv2, hu3, by simp⟩

/-! ### the writer's text -/

theorem tagPlain_render (c : Condition) : TagPlain c.toJson c.toJson.render := by
  have key : ∀ tag a b, tag ∈ tags → AllNumsElems JNum [a, b] →
      TagPlain (.arr [.str tag, a, b]) (Json.render (.arr [.str tag, a, b])) := by
    intro tag a b ht hnum tag' xs e ht'
    simp only [Json.arr.injEq, List.cons.injEq, Json.str.injEq] at e
    obtain ⟨rfl, rfl⟩ := e
    have hq : jsonStr tag = '"' :: (tag ++ ['"']) := by
      have : ∀ tag ∈ tags, jsonStr tag = '"' :: (tag ++ ['"']) := by decide
      exact this tag ht
    refine ⟨[], [], Json.renderElems [a, b], Ws.nil, Ws.nil, renderElems_JElems _ hnum, ?_⟩
    rw [Json.render, Json.render, hq]
    simp
  cases c with
  | exactMatching f v => exact key _ _ _ (by decide) (by simp [AllNumsElems, AllNums])
  | startsWith f v => exact key _ _ _ (by decide) (by simp [AllNumsElems, AllNums])
  | contentLengthRange a b => exact key _ _ _ (by decide) (by simp [AllNumsElems, AllNums, natDec_JNum])

theorem condElems_render (cs : List Condition) :
    CondElems (cs.map Condition.toJson) (Json.renderElems (cs.map Condition.toJson)) := by
  induction cs with
  | nil => simp [CondElems, Json.renderElems]
  | cons c cs ih =>
    simp only [List.map_cons, CondElems, Json.renderElems]
    exact ⟨[], _, [], _, Ws.nil, render_JVal _ (condition_nums c), tagPlain_render c, Ws.nil, ih, by simp⟩

theorem condArr_render (cs : List Condition) :
    CondArr (cs.map Condition.toJson) (Json.render (.arr (cs.map Condition.toJson))) := by
  cases cs with
  | nil => simp only [List.map_nil, CondArr, Json.render]; exact ⟨[], Ws.nil, rfl⟩
  | cons c cs =>
    simp only [List.map_cons, CondArr, Json.render]
    exact ⟨[], _, [], _, Ws.nil, render_JVal _ (condition_nums c), tagPlain_render c, Ws.nil, condElems_render cs, by simp⟩

theorem plainDoc_render (d : PolicyDocument) : PlainDoc d.toJson d.toJson.render := by
  refine ⟨[], d.toJson.render, [], Ws.nil, Ws.nil, by simp, .inl ?_⟩
  have hn : AllNums JNum (.arr (d.conditions.map Condition.toJson)) := conditions_nums d.conditions
  refine ⟨s% "conditions", .arr (d.conditions.map Condition.toJson), [(s% "expiration", .str d.expiration.toStr)],
    [], jsonStr (s% "conditions"), [], [], _, [], Json.renderMembers [(s% "expiration", .str d.expiration.toStr)], rfl,
    Ws.nil, jsonStr_quoted _, Ws.nil, Ws.nil, ⟨render_JVal _ hn, ?_⟩, Ws.nil, ?_, ?_⟩
  · intro _ xs e
    simp only [Json.arr.injEq] at e
    rw [← e]; exact condArr_render d.conditions
  · simp only [GMembers, Json.renderMembers]
    refine ⟨[], jsonStr (s% "expiration"), [], [], Json.render (.str d.expiration.toStr), [], [], Ws.nil, jsonStr_quoted _, Ws.nil, Ws.nil,
      ⟨render_JVal _ trivial, fun h => absurd h (by decide)⟩, Ws.nil, rfl, by simp⟩
  · simp only [PolicyDocument.toJson, Json.render, Json.renderMembers]
    simp

/-! ### reading JSON texts -/

/-- A value is determined by a text that starts with it. -/
theorem value_unique {x x2 : Json} {w t r w2 t2 r2 : Str} (hw : Ws w) (hx : JVal x t) (hr : Stop r) (hw2 : Ws w2)
    (hx2 : JVal x2 t2) (hr2 : Stop r2) (e : w ++ t ++ r = w2 ++ t2 ++ r2) : x = x2 ∧ r = r2 := by
  have h1 := skipValue_complete hx hw hr
  have h2 := skipValue_complete hx2 hw2 hr2
  rw [e, h2] at h1
  simp only [Option.some.injEq] at h1
  subst h1
  have e := List.append_cancel_right e
  exact ⟨jsonText_unique ⟨w, t, [], hw, hx, Ws.nil, rfl⟩ ⟨w2, t2, [], hw2, hx2, Ws.nil, by simpa using e⟩, rfl⟩

theorem stop_of_skip {r0 s : Str} {c : Char} (h : skipWs s = c :: r0) (hc : c ∈ s% ",]}") : Stop s := by
  obtain ⟨w, hw, hs⟩ := skipWs_spec s
  rw [h] at hs
  rw [hs]
  refine stop_ws hw (stop_cons ?_ _)
  have : ∀ c ∈ s% ",]}", c ∈ s% " \t\n\r,]}" := by decide
  exact this c hc

theorem readMember_of_json {acc mid : PolicyAcc} {k : Str} {x : Json} {t w r r' : Str} (hx : JVal x t) (hw : Ws w)
    (hr : Stop r) (hr' : Stop r') (h : readMember k acc (w ++ t ++ r) = some (mid, r')) : r' = r ∧
      ((k = s% "conditions" ∧ acc.conditions = none ∧ ∃ cs, CondsOf x cs ∧ mid = { acc with conditions := some cs }) ∨
         (k = s% "expiration" ∧ acc.expiration = none ∧ ∃ e, ExpirationOf x e ∧ mid = { acc with expiration := some e }) ∨
         (k ≠ s% "conditions" ∧ k ≠ s% "expiration" ∧ mid = acc)) := by
  unfold readMember at h
  split at h
  · rename_i hk
    split at h
    · cases h
    · rename_i ha
      rw [Option.map_eq_some_iff] at h
      obtain ⟨⟨cs, r2⟩, h1, h2⟩ := h
      simp only [Prod.mk.injEq] at h2
      obtain ⟨rfl, rfl⟩ := h2
      obtain ⟨w2, j, t2, hw2, hj, hc, e⟩ := readConditions_sound h1
      obtain ⟨rfl, rfl⟩ := value_unique hw hx hr hw2 hj hr' e
      exact ⟨rfl, .inl ⟨hk, ha, cs, hc, rfl⟩⟩
  · rename_i hk
    split at h
    · rename_i hk2
      split at h
      · cases h
      · rename_i ha
        rw [Option.map_eq_some_iff] at h
        obtain ⟨⟨cs, r2⟩, h1, h2⟩ := h
        simp only [Prod.mk.injEq] at h2
        obtain ⟨rfl, rfl⟩ := h2
        obtain ⟨w2, j, t2, hw2, hj, hc, e⟩ := readExpiration_sound h1
        obtain ⟨rfl, rfl⟩ := value_unique hw hx hr hw2 hj hr' e
        exact ⟨rfl, .inr (.inl ⟨hk2, ha, cs, hc, rfl⟩)⟩
    · rename_i hk2
      rw [Option.map_eq_some_iff] at h
      obtain ⟨r2, h1, h2⟩ := h
      simp only [Prod.mk.injEq] at h2
      obtain ⟨rfl, rfl⟩ := h2
      rw [skipValue_complete hx hw hr] at h1
      exact ⟨(Option.some.inj h1).symm, .inr (.inr ⟨hk, hk2, rfl⟩)⟩

theorem readMembers_of_json (ms : List (Str × Json)) :
    ∀ {k : Str} {x : Json} {u q u1 u2 t w rs r r' : Str} {acc acc' : PolicyAcc} {n : Nat},
      Ws u → JQuoted q k → Ws u1 → Ws u2 → JVal x t → Ws w → JMembers ms rs →
      readMembers n acc (u ++ q ++ (u1 ++ ':' :: (u2 ++ t ++ (w ++ (rs ++ '}' :: r))))) = some (acc', r') →
      Reads acc ((k, x) :: ms) acc' := by
  induction ms with
  | nil =>
    intro k x u q u1 u2 t w rs r r' acc acc' n hu hq hu1 hu2 hx hw hms h
    simp only [JMembers] at hms
    subst hms
    cases n with
    | zero => rw [readMembers] at h; cases h
    | succ n =>
    rw [readMembers, readString_complete hq hu] at h
    simp only [Option.bind_eq_bind, Option.bind_some] at h
    rw [readTok_complete (by decide) hu1] at h
    simp only [Option.bind_some, List.nil_append, Option.bind_eq_some_iff] at h
    obtain ⟨⟨mid, s3⟩, h3, h⟩ := h
    simp only at h
    have hst : Stop (w ++ '}' :: r) := stop_ws hw (stop_cons (by decide) _)
    split at h
    · rename_i r0 e0
      simp only [Option.some.injEq, Prod.mk.injEq] at h
      obtain ⟨rfl, rfl⟩ := h
      obtain ⟨_, hstep⟩ := readMember_of_json hx hu2 hst (stop_of_skip e0 (by decide)) h3
      exact reads_cons.2 ⟨mid, ⟨.inl ⟨rfl, rfl⟩, .inl ⟨rfl, rfl⟩⟩, hstep⟩
    · rename_i r0 e0
      obtain ⟨rfl, _⟩ := readMember_of_json hx hu2 hst (stop_of_skip e0 (by decide)) h3
      rw [skipWs_append hw (noWs_of_head (by decide))] at e0
      cases e0
    · cases h
  | cons m ms ih =>
    obtain ⟨k', x'⟩ := m
    intro k x u q u1 u2 t w rs r r' acc acc' n hu hq hu1 hu2 hx hw hms h
    simp only [JMembers] at hms
    obtain ⟨w1, q', u1', u2', t', w2, rs', hw1, hq', hu1', hu2', hx', hw2, hms', rfl⟩ := hms
    cases n with
    | zero => rw [readMembers] at h; cases h
    | succ n =>
    rw [readMembers, readString_complete hq hu] at h
    simp only [Option.bind_eq_bind, Option.bind_some] at h
    rw [readTok_complete (by decide) hu1] at h
    simp only [Option.bind_some, List.cons_append, Option.bind_eq_some_iff] at h
    obtain ⟨⟨mid, s3⟩, h3, h⟩ := h
    simp only at h
    have hst : Stop (w ++ ',' :: (w1 ++ q' ++ u1' ++ [':'] ++ u2' ++ t' ++ w2 ++ rs' ++ '}' :: r)) :=
      stop_ws hw (stop_cons (by decide) _)
    split at h
    · rename_i r0 e0
      obtain ⟨rfl, _⟩ := readMember_of_json hx hu2 hst (stop_of_skip e0 (by decide)) h3
      rw [skipWs_append hw (noWs_of_head (by decide))] at e0
      cases e0
    · rename_i r0 e0
      obtain ⟨rfl, hstep⟩ := readMember_of_json hx hu2 hst (stop_of_skip e0 (by decide)) h3
      rw [skipWs_append hw (noWs_of_head (by decide))] at e0
      simp only [List.cons.injEq, true_and] at e0
      subst e0
      refine reads_cons.2 ⟨mid, ih (r := r) (r' := r') (n := n) hw1 hq' hu1' hu2' hx' hw2 hms' ?_, hstep⟩
      rw [← h]
      congr 1
      simp
    · cases h

theorem readPolicy_of_json {j : Json} {s : Str} {d : PolicyDocument} (hj : JsonText j s) (h : readPolicy s = some d) :
    PolicyOf j d := by
  obtain ⟨w, t, w', hw, hj, hw', rfl⟩ := hj
  have hsk : skipWs (w ++ t ++ w') = t ++ w' := by
    rw [List.append_assoc]; exact skipWs_append hw (JVal_noWs hj w')
  unfold readPolicy at h
  rw [hsk] at h
  match j, hj with
  | .obj ((k, x) :: ms), hj =>
    rw [JVal] at hj
    obtain ⟨u, q, w1, w2, v, u', r, hu, hq, hw1, hw2, hv, hu', hms, rfl⟩ := hj
    simp only [List.cons_append] at h
    split at h
    · rename_i cs e r' hm
      split at h
      · simp only [Option.some.injEq] at h
        subst h
        have e1 : u ++ q ++ w1 ++ [':'] ++ w2 ++ v ++ u' ++ r ++ ['}'] ++ w' =
            u ++ q ++ (w1 ++ ':' :: (w2 ++ v ++ (u' ++ (r ++ '}' :: w')))) := by simp
        rw [e1] at hm
        obtain ⟨jc, je, h1, h2, h3, h4⟩ := reads_iff.1 (readMembers_of_json ms hu hq hw1 hw2 hv hu' hms hm)
        exact ⟨jc, je, h1, h2, .inl ⟨_, rfl, h3, h4⟩⟩
      · cases h
    · cases h
  | .obj [], hj =>
    rw [JVal] at hj
    obtain ⟨u, hu, rfl⟩ := hj
    simp only [List.cons_append] at h
    split at h
    · rename_i cs e r' hm
      rw [readMembers] at hm
      simp only [Option.bind_eq_bind, Option.bind_eq_some_iff] at hm
      obtain ⟨⟨k, s1⟩, h1, _⟩ := hm
      obtain ⟨u2, q, hu2, ⟨b, hb, rfl⟩, e1⟩ := readString_sound h1
      have e2 : skipWs (u ++ '}' :: w') = '}' :: w' := skipWs_append hu (noWs_of_head (by decide))
      have e3 : skipWs (u2 ++ '"' :: (b ++ '"' :: s1)) = '"' :: (b ++ '"' :: s1) :=
        skipWs_append hu2 (noWs_of_head (by decide))
      have e4 : u ++ '}' :: w' = u2 ++ '"' :: (b ++ '"' :: s1) := by simpa using e1
      rw [e4, e3] at e2
      cases e2
    · cases h
  | .arr xs, hj =>
    have hj0 := hj
    obtain ⟨t0, rfl⟩ : ∃ t0, t = '[' :: t0 := by
      match xs, hj with
      | [], hj => rw [JVal] at hj; obtain ⟨u, _, rfl⟩ := hj; exact ⟨_, rfl⟩
      | x :: xs, hj => rw [JVal] at hj; obtain ⟨u, v, u', r, _, _, _, _, rfl⟩ := hj; exact ⟨_, rfl⟩
    simp only [List.cons_append, Option.bind_eq_bind, Option.bind_eq_some_iff] at h
    obtain ⟨⟨cs, s1⟩, h1, s2, h2, ⟨e, s3⟩, h3, s4, h4, h⟩ := h
    simp only at h2 h3 h4 h
    split at h
    · rename_i hr'
      simp only [Option.some.injEq] at h
      subst h
      obtain ⟨u, jc, v, hu, hv, hc, e1⟩ := readConditions_sound h1
      obtain ⟨u1, hu1, e2⟩ := readComma_sound h2
      obtain ⟨u2, je, v2, hu2, hv2, he, e3⟩ := readExpiration_sound h3
      obtain ⟨u3, hu3, e4⟩ := readTok_sound h4
      have hj2 : JVal (.arr [jc, je]) ('[' :: (u ++ v ++ u1 ++ (',' :: (u2 ++ v2 ++ u3 ++ [])) ++ [']'])) := by
        rw [JVal]
        refine ⟨u, v, u1, _, hu, hv, hu1, ?_, rfl⟩
        simp only [JElems]
        exact ⟨u2, v2, u3, [], hu2, hv2, hu3, rfl, rfl⟩
      have := jsonText_unique (j := .arr xs) (j' := .arr [jc, je]) ⟨[], '[' :: t0, w', Ws.nil, hj0, hw', rfl⟩
        ⟨[], _, s4, Ws.nil, hj2, ws_of_skipWs hr', by
          rw [e2, e3, e4] at e1
          simp only [List.nil_append, List.cons_append, e1]
          simp⟩
      exact ⟨jc, je, hc, he, .inr this⟩
    · cases h
  | .null, hj => simp only [JVal] at hj; subst hj; simp at h
  | .bool true, hj => simp only [JVal] at hj; subst hj; simp at h
  | .bool false, hj => simp only [JVal] at hj; subst hj; simp at h
  | .str v, hj => obtain ⟨b, _, rfl⟩ := hj; simp at h
  | .num l, hj =>
    obtain ⟨c, t', e, hc⟩ := head_not_quote hj (by intro v e; cases e) w'
    rw [e] at h
    have hne : c ≠ '{' ∧ c ≠ '[' := by
      rw [JVal] at hj
      obtain ⟨rfl, hn⟩ := hj
      rcases JNum_split hn with ⟨ip, fr, ex, rfl, hi, _⟩ | ⟨ip, fr, ex, rfl, _⟩
      · obtain ⟨c0, t1, rfl, hc0⟩ := intPart_head hi
        simp only [List.cons_append, List.cons.injEq] at e
        obtain ⟨rfl, _⟩ := e
        have key : ∀ c ∈ s% "0123456789", c ≠ '{' ∧ c ≠ '[' := by decide
        exact key _ hc0
      · simp only [List.cons_append, List.cons.injEq] at e
        obtain ⟨rfl, _⟩ := e
        decide
    split at h
    · rename_i e0; simp only [List.cons.injEq] at e0; exact absurd e0.1 hne.1
    · rename_i e0; simp only [List.cons.injEq] at e0; exact absurd e0.1 hne.2
    · cases h

end CSS
