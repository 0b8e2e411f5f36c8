import Verif.Spec.Json
import Verif.Lemmas.Codec
import Verif.Lemmas.Digits
/- The model's JSON reader accepts exactly the RFC 8259 grammar (up to nesting depth and number range),
and the writer produces texts of that grammar. -/
set_option linter.unusedSimpArgs false
namespace CSS
open Spec

theorem mem_takeWhile {α : Type} {p : α → Bool} {l : List α} {c : α} (h : c ∈ l.takeWhile p) : p c = true := by
  induction l with
  | nil => simp at h
  | cons x l ih =>
    rw [List.takeWhile_cons] at h
    split at h
    · rcases List.mem_cons.1 h with rfl | h
      · assumption
      · exact ih h
    · simp at h

theorem forall_ascii {P : Char → Prop} (h : ∀ n : Fin 128, P (Char.ofNat n.val)) (c : Char)
    (hc : c.toNat < 128) : P c := by
  have := h ⟨c.toNat, hc⟩
  simpa using this

theorem hexDigitVal_eq (c : Char) : hexDigitVal c = hexVal? c := by
  by_cases h : c.toNat < 128
  · exact forall_ascii (P := fun c => hexDigitVal c = hexVal? c) (by decide +kernel) c h
  · have h1 : c ∉ s% "0123456789ABCDEF" := by
      intro hm
      have : ∀ c ∈ s% "0123456789ABCDEF", c.toNat < 128 := by decide
      exact h (this c hm)
    have h2 : c ∉ s% "0123456789abcdef" := by
      intro hm
      have : ∀ c ∈ s% "0123456789abcdef", c.toNat < 128 := by decide
      exact h (this c hm)
    have e1 : hexVal? c = none := by
      unfold hexVal?
      rw [List.idxOf?_eq_none_iff.2 h1, List.idxOf?_eq_none_iff.2 h2]
    have e2 : hexDigitVal c = none := by
      unfold hexDigitVal
      simp only
      rw [if_neg (by omega), if_neg (by omega), if_neg (by omega)]
    rw [e1, e2]

theorem hex4_eq (a b c d : Char) : hex4 a b c d = hexQuad a b c d := by
  unfold hex4 hexQuad
  simp only [hexDigitVal_eq]
  cases hexVal? a <;> simp
  cases hexVal? b <;> simp
  cases hexVal? c <;> simp
  cases hexVal? d <;> simp
  omega

theorem parseStrBody_complete {t v : Str} (h : JStr t v) (r : Str) :
    parseStrBody (t ++ '"' :: r) = some (v, r) := by
  induction h with
  | nil => simp [parseStrBody]
  | @char c t v h1 h2 h3 _ ih =>
    rw [List.cons_append, parseStrBody.eq_def]
    split
    · rename_i h; cases h
    · rename_i h; injection h with h _; exact absurd h h1
    · rename_i h; injection h with h _; exact absurd h h2
    · rename_i h; injection h with h _; exact absurd h h2
    · rename_i h
      injection h with ha hb
      subst ha; subst hb
      rw [if_neg (by simp [h2]; omega), ih]; rfl
  | esc he _ ih =>
    simp only [escapes, List.mem_cons, List.not_mem_nil, or_false, Prod.mk.injEq] at he
    rcases he with ⟨rfl, rfl⟩ | ⟨rfl, rfl⟩ | ⟨rfl, rfl⟩ | ⟨rfl, rfl⟩ | ⟨rfl, rfl⟩ | ⟨rfl, rfl⟩ | ⟨rfl, rfl⟩ | ⟨rfl, rfl⟩ <;>
      simp [parseStrBody, ih]
  | unicode hq hs _ ih =>
    simp only [List.cons_append, parseStrBody]
    rw [hex4_eq, hq]
    simp only
    rw [if_neg (by omega), if_neg (by omega), ih]; rfl
  | pair hq hq' h1 h2 h3 h4 _ ih =>
    simp only [List.cons_append, parseStrBody]
    rw [hex4_eq, hq]
    simp only
    rw [if_neg (by omega), if_pos (by omega), hex4_eq, hq']
    simp only
    rw [if_pos (by omega), ih]; rfl

theorem parseStrBody_sound (s : Str) : ∀ {v r : Str}, parseStrBody s = some (v, r) →
    ∃ t, JStr t v ∧ s = t ++ '"' :: r := by
  intro v r h
  rw [parseStrBody.eq_def] at h
  split at h
  · cases h
  · cases h; exact ⟨[], .nil, rfl⟩
  · rename_i a b c d r0
    cases hq : hex4 a b c d with
    | none => rw [hq] at h; cases h
    | some u =>
      rw [hq] at h
      rw [hex4_eq] at hq
      simp only at h
      by_cases h1 : 0xDC00 ≤ u ∧ u ≤ 0xDFFF
      · rw [if_pos h1] at h; cases h
      · rw [if_neg h1] at h
        by_cases h2 : 0xD800 ≤ u ∧ u ≤ 0xDBFF
        · rw [if_pos h2] at h
          split at h
          · rename_i a' b' c' d' r'
            cases hq' : hex4 a' b' c' d' with
            | none => rw [hq'] at h; cases h
            | some l =>
              rw [hq'] at h
              rw [hex4_eq] at hq'
              simp only at h
              by_cases h3 : 0xDC00 ≤ l ∧ l ≤ 0xDFFF
              · rw [if_pos h3, Option.map_eq_some_iff] at h
                obtain ⟨⟨v', r2⟩, hp, he⟩ := h
                cases he
                obtain ⟨t, ht, e⟩ := parseStrBody_sound r' hp
                exact ⟨_, JStr.pair hq hq' h2.1 h2.2 h3.1 h3.2 ht, by rw [e]; rfl⟩
              · rw [if_neg h3] at h; cases h
          · cases h
        · rw [if_neg h2, Option.map_eq_some_iff] at h
          obtain ⟨⟨v', r2⟩, hp, he⟩ := h
          cases he
          obtain ⟨t, ht, e⟩ := parseStrBody_sound r0 hp
          exact ⟨_, JStr.unicode hq (by omega) ht, by rw [e]; rfl⟩
  · rename_i e0 r0 _
    have key : ∀ c, (e0, c) ∈ escapes →
        Option.map (fun p : Str × Str => (c :: p.1, p.2)) (parseStrBody r0) = some (v, r) →
        ∃ t, JStr t v ∧ '\\' :: e0 :: r0 = t ++ '"' :: r := by
      intro c hc h
      rw [Option.map_eq_some_iff] at h
      obtain ⟨⟨v', r2⟩, hp, he⟩ := h
      cases he
      obtain ⟨t, ht, e⟩ := parseStrBody_sound r0 hp
      exact ⟨_, JStr.esc hc ht, by rw [e]; rfl⟩
    split at h
    · rename_i he; exact key _ (by rcases he with rfl | rfl | rfl <;> decide) h
    · split at h
      · rename_i he; subst he; exact key _ (by decide) h
      · split at h
        · rename_i he; subst he; exact key _ (by decide) h
        · split at h
          · rename_i he; subst he; exact key _ (by decide) h
          · split at h
            · rename_i he; subst he; exact key _ (by decide) h
            · split at h
              · rename_i he; subst he; exact key _ (by decide) h
              · cases h
  · rename_i c r0 hq _ _
    split at h
    · cases h
    · rename_i hc
      simp only [not_or] at hc
      rw [Option.map_eq_some_iff] at h
      obtain ⟨⟨v', r2⟩, hp, he⟩ := h
      cases he
      obtain ⟨t, ht, e⟩ := parseStrBody_sound r0 hp
      refine ⟨_, JStr.char (fun e => ?_) hc.2 (by omega) ht, by rw [e]; rfl⟩
      subst e; exact hq rfl
termination_by s.length

/-! ### whitespace -/

theorem isJsonWs_iff (c : Char) : isJsonWs c = true ↔ c ∈ s% " \t\n\r" := by
  simp only [isJsonWs, Bool.or_eq_true, decide_eq_true_eq, List.mem_cons, List.not_mem_nil, or_false]
  constructor
  · rintro (((h | h) | h) | h) <;> simp [h]
  · rintro (h | h | h | h) <;> simp [h]

theorem skipWs_spec (s : Str) : ∃ w, Ws w ∧ s = w ++ skipWs s := by
  refine ⟨s.takeWhile isJsonWs, ?_, (List.takeWhile_append_dropWhile).symm⟩
  intro c hc
  exact (isJsonWs_iff c).1 (mem_takeWhile hc)

/-- A text that does not begin with whitespace. -/
def NoWs (s : Str) : Prop := ∀ c, s.head? = some c → c ∉ s% " \t\n\r"

theorem skipWs_noWs {s : Str} (h : NoWs s) : skipWs s = s := by
  cases s with
  | nil => rfl
  | cons c r =>
    have := h c rfl
    rw [← isJsonWs_iff] at this
    simp [skipWs, this]

theorem skipWs_append {w s : Str} (hw : Ws w) (hs : NoWs s) : skipWs (w ++ s) = s := by
  induction w with
  | nil => exact skipWs_noWs hs
  | cons c w ih =>
    have hc : isJsonWs c = true := (isJsonWs_iff c).2 (hw c (by simp))
    have : skipWs (c :: w ++ s) = skipWs (w ++ s) := by simp [skipWs, hc]
    rw [this, ih (fun d hd => hw d (by simp [hd]))]

theorem skipWs_self (s : Str) : NoWs (skipWs s) := by
  intro c hc hm
  have h2 := List.head?_dropWhile_not isJsonWs s
  rw [skipWs] at hc
  rw [hc] at h2
  rw [← isJsonWs_iff] at hm
  simp [hm] at h2

/-! ### numbers -/

theorem isDigit_iff (c : Char) : isDigit c = true ↔ c ∈ s% "0123456789" := by
  by_cases h : c.toNat < 128
  · exact forall_ascii (P := fun c => isDigit c = true ↔ c ∈ s% "0123456789") (by decide +kernel) c h
  · constructor
    · intro hd; simp [isDigit] at hd; omega
    · intro hm
      have : ∀ c ∈ s% "0123456789", c.toNat < 128 := by decide
      exact absurd (this c hm) h

/-- A text that does not begin with a digit. -/
def NoDigit (s : Str) : Prop := ∀ c, s.head? = some c → isDigit c = false

theorem takeWhile_digits {ds r : Str} (h : ∀ c ∈ ds, isDigit c = true) (hr : NoDigit r) :
    (ds ++ r).takeWhile isDigit = ds ∧ (ds ++ r).dropWhile isDigit = r := by
  induction ds with
  | nil =>
    cases r with
    | nil => simp
    | cons c r => have := hr c rfl; simp [this]
  | cons c ds ih =>
    have := ih (fun d hd => h d (by simp [hd]))
    simp [h c (by simp), this]

/-- What may follow a JSON value inside a document. -/
def Stop (s : Str) : Prop := ∀ c, s.head? = some c → c ∈ s% " \t\n\r,]}"

theorem Stop.noDigit {s : Str} (h : Stop s) : NoDigit s := by
  intro c hc
  have := h c hc
  have key : ∀ c ∈ s% " \t\n\r,]}", isDigit c = false := by decide
  exact key c this

theorem digits_all {s : Str} (h : Digits s) : ∀ c ∈ s, isDigit c = true :=
  fun c hc => (isDigit_iff c).2 (h.2 c hc)

/-- The optional exponent of the grammar. -/
def IsExp (ex : Str) : Prop :=
  ex = [] ∨ ∃ e sg' ds, (e = 'e' ∨ e = 'E') ∧ (sg' = [] ∨ sg' = ['+'] ∨ sg' = ['-']) ∧ Digits ds ∧
      ex = e :: (sg' ++ ds)
def IsFrac (fr : Str) : Prop := fr = [] ∨ ∃ ds, Digits ds ∧ fr = '.' :: ds
def IsIntPart (ip : Str) : Prop := Digits ip ∧ (ip.head? = some '0' → ip = ['0'])

theorem takeWhile_self_digits {ds : Str} (h : ∀ c ∈ ds, isDigit c = true) {r : Str} (hr : NoDigit r) :
    (ds ++ r).takeWhile isDigit = ds := (takeWhile_digits h hr).1

/-- The exponent part of `parseNumBody`, as a separate function. -/
def numExp (r2 : Str) : Option (Str × Str) :=
  match r2 with
  | e :: r3 =>
    if e = 'e' ∨ e = 'E' then
      let (sg, r4) : Str × Str := match r3 with
        | '+' :: t => (['+'], t)
        | '-' :: t => (['-'], t)
        | _ => ([], r3)
      if r4.takeWhile isDigit = [] then none
      else some (e :: sg ++ r4.takeWhile isDigit, r4.dropWhile isDigit)
    else some ([], r2)
  | [] => some ([], r2)
def numFrac (r : Str) : Option (Str × Str) :=
  match r with
  | '.' :: r1 => if r1.takeWhile isDigit = [] then none
                 else some ('.' :: r1.takeWhile isDigit, r1.dropWhile isDigit)
  | _ => some ([], r)

theorem parseNumBody_eq (s : Str) : parseNumBody s =
    if s.takeWhile isDigit = [] ∨ ((s.takeWhile isDigit).head? = some '0' ∧ (s.takeWhile isDigit).length ≠ 1) then none
    else match numFrac (s.dropWhile isDigit) with
      | none => none
      | some (f, r2) =>
        match numExp r2 with
        | none => none
        | some (x, r5) => some (f = [] && x = [], s.takeWhile isDigit ++ f ++ x, r5) := rfl

theorem numExp_complete {ex r : Str} (h : IsExp ex) (hr : Stop r) : numExp (ex ++ r) = some (ex, r) := by
  rcases h with rfl | ⟨e, sg, ds, he, hs, hd, rfl⟩
  · cases r with
    | nil => rfl
    | cons c r =>
      have hc := hr c rfl
      have : ¬ (c = 'e' ∨ c = 'E') := by
        rintro (rfl | rfl) <;> revert hc <;> decide
      simp [numExp, this]
  · have htw := takeWhile_digits (digits_all hd) hr.noDigit
    have hne : ds ≠ [] := hd.1
    simp only [List.cons_append, numExp]
    rw [if_pos he]
    rcases hs with rfl | rfl | rfl
    · cases ds with
      | nil => exact absurd rfl hne
      | cons d ds =>
        have hdd : isDigit d = true := (digits_all hd) d (by simp)
        simp only [List.nil_append, List.cons_append]
        split
        · rename_i heq; exfalso; injection heq with h1 _; subst h1; revert hdd; decide
        · rename_i heq; exfalso; injection heq with h1 _; subst h1; revert hdd; decide
        · rw [List.cons_append] at htw
          simp only
          rw [htw.1, htw.2]; simp
    · simp only [List.cons_append, List.nil_append]
      rw [htw.1, htw.2]; simp [hne]
    · simp only [List.cons_append, List.nil_append]
      rw [htw.1, htw.2]; simp [hne]

theorem exp_noDigit {ex r : Str} (h : IsExp ex) (hr : Stop r) : NoDigit (ex ++ r) := by
  rcases h with rfl | ⟨e, sg, ds, he, hs, hd, rfl⟩
  · exact hr.noDigit
  · intro c hc
    simp at hc; subst hc
    rcases he with rfl | rfl <;> decide

theorem numFrac_complete {fr ex r : Str} (h : IsFrac fr) (hx : IsExp ex) (hr : Stop r) :
    numFrac (fr ++ (ex ++ r)) = some (fr, ex ++ r) := by
  rcases h with rfl | ⟨ds, hd, rfl⟩
  · simp only [List.nil_append]
    unfold numFrac
    split
    · rename_i r1 heq
      exfalso
      rcases hx with rfl | ⟨e, sg, ds, he, hs, hd, rfl⟩
      · have := hr '.' (by simp only [List.nil_append] at heq; rw [heq]; rfl)
        revert this; decide
      · simp only [List.cons_append] at heq
        injection heq with h1 _
        subst h1; simp at he
    · rfl
  · have htw := takeWhile_digits (digits_all hd) (exp_noDigit hx hr)
    simp only [List.cons_append, numFrac]
    rw [htw.1, htw.2, if_neg hd.1]

theorem frac_noDigit {fr ex r : Str} (h : IsFrac fr) (hx : IsExp ex) (hr : Stop r) : NoDigit (fr ++ (ex ++ r)) := by
  rcases h with rfl | ⟨ds, hd, rfl⟩
  · rw [List.nil_append]; exact exp_noDigit hx hr
  · intro c hc
    simp at hc; subst hc; decide

theorem parseNumBody_complete {ip fr ex r : Str} (hi : IsIntPart ip) (hf : IsFrac fr) (hx : IsExp ex) (hr : Stop r) :
    parseNumBody (ip ++ fr ++ ex ++ r) = some (fr = [] && ex = [], ip ++ fr ++ ex, r) := by
  have htw := takeWhile_digits (digits_all hi.1) (frac_noDigit hf hx hr)
  rw [List.append_assoc, List.append_assoc, parseNumBody_eq, htw.1, htw.2, if_neg, numFrac_complete hf hx hr]
  · simp only
    rw [numExp_complete hx hr]
  · rintro (h | ⟨h, hl⟩)
    · exact hi.1.1 h
    · rw [hi.2 h] at hl; simp at hl

theorem takeWhile_Digits (s : Str) (h : s.takeWhile isDigit ≠ []) : Digits (s.takeWhile isDigit) :=
  ⟨h, fun c hc => (isDigit_iff c).1 (mem_takeWhile hc)⟩

theorem numExp_sound {s x r : Str} (h : numExp s = some (x, r)) : IsExp x ∧ s = x ++ r := by
  unfold numExp at h
  split at h
  · rename_i e r3
    split at h
    · rename_i he
      have key : ∀ sg r4 : Str, (sg = [] ∨ sg = ['+'] ∨ sg = ['-']) →
          (if r4.takeWhile isDigit = [] then none
            else some (e :: sg ++ r4.takeWhile isDigit, r4.dropWhile isDigit)) = some (x, r) →
          IsExp x ∧ e :: (sg ++ r4) = x ++ r := by
        intro sg r4 hsg h
        split at h
        · cases h
        · rename_i hne
          cases h
          refine ⟨.inr ⟨e, sg, _, he, hsg, takeWhile_Digits r4 hne, rfl⟩, ?_⟩
          simp [List.takeWhile_append_dropWhile]
      simp only at h
      split at h
      · exact key ['+'] _ (by simp) h
      · exact key ['-'] _ (by simp) h
      · exact key [] _ (by simp) h
    · cases h; exact ⟨.inl rfl, rfl⟩
  · cases h; exact ⟨.inl rfl, rfl⟩

theorem numFrac_sound {s x r : Str} (h : numFrac s = some (x, r)) : IsFrac x ∧ s = x ++ r := by
  unfold numFrac at h
  split at h
  · rename_i r1
    split at h
    · cases h
    · rename_i hne
      cases h
      exact ⟨.inr ⟨_, takeWhile_Digits r1 hne, rfl⟩, by simp [List.takeWhile_append_dropWhile]⟩
  · cases h; exact ⟨.inl rfl, rfl⟩

theorem parseNumBody_sound {s l r : Str} {b : Bool} (h : parseNumBody s = some (b, l, r)) :
    ∃ ip fr ex, IsIntPart ip ∧ IsFrac fr ∧ IsExp ex ∧ l = ip ++ fr ++ ex ∧ s = l ++ r ∧
      b = (fr = [] && ex = []) := by
  rw [parseNumBody_eq] at h
  split at h
  · cases h
  · rename_i hn
    simp only [not_or, not_and] at hn
    split at h
    · cases h
    · rename_i f r2 hf
      split at h
      · cases h
      · rename_i x r5 hx
        cases h
        obtain ⟨hf1, hf2⟩ := numFrac_sound hf
        obtain ⟨hx1, hx2⟩ := numExp_sound hx
        refine ⟨_, f, x, ⟨takeWhile_Digits s hn.1, ?_⟩, hf1, hx1, rfl, ?_, rfl⟩
        · intro h0
          have := hn.2 h0
          match hh : s.takeWhile isDigit with
          | [] => rw [hh] at h0; cases h0
          | [c] => rw [hh] at h0; cases h0; rfl
          | c :: d :: t => rw [hh] at this; simp at this
        · have e := (List.takeWhile_append_dropWhile (p := isDigit) (l := s)).symm
          rw [hf2, hx2] at e
          simpa [List.append_assoc] using e

end CSS
