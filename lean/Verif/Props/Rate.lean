import Verif.Spec.Rate
import Verif.Props.Concurrent
/-
C79: how often tokens are fetched.
-/
namespace CSS
open Spec

variable {env : Env} {base : Nat → Str} {s : Sys}

/-- What it takes to write a cache. -/
theorem stored_needed (h : Sys.Reach env base s) {pre post : List Event} {i id : Nat} {c : Cached}
    (ht : s.trace = pre ++ .did i (.stored id c) :: post) :
    ∃ t0 life, Refreshed (base id) (pre ++ [.did i (.stored id c)]) i id c t0 life ∧ .did i (.clock t0) ∈ pre ∧
      (cacheOf id pre = none ∨ ∃ c' t, cacheOf id pre = some c' ∧ c'.expires ≤ t + 30 * 1000000000 ∧
        (SteadyClock pre → t ≤ t0)) := by
  obtain ⟨s1, _, call, hr1, _, h1, _, hrun, _, hb, hl, _⟩ := legal_of_reach h ht
  subst h1
  rcases hl with ⟨t, hc⟩ | ⟨bt, hk, hid, _, before, steps, t0, life, happ, hof, hh, hm⟩
  · cases hc
  subst hid
  have hb := hb bt hk
  rw [hb] at hof
  obtain ⟨s1', s2', doc, _, _, _, _, hsteps, _⟩ := hof.answers
  have hd : did s1.trace i = before ++
      [.sent (metadataGet (emailUrl (base bt.id))), .status (some s1'), .body (some c.email),
       .sent (metadataGet (tokenUrl (base bt.id))), .status (some s2'), .body (some doc), .clock t0] := by
    rw [hsteps] at happ
    unfold refreshSteps at happ
    rw [show before ++ [Ev.sent (metadataGet (emailUrl (base bt.id))), .status (some s1'), .body (some c.email),
       .sent (metadataGet (tokenUrl (base bt.id))), .status (some s2'), .body (some doc), .clock t0, .stored bt.id c] =
       before ++ [Ev.sent (metadataGet (emailUrl (base bt.id))), .status (some s1'), .body (some c.email),
       .sent (metadataGet (tokenUrl (base bt.id))), .status (some s2'), .body (some doc), .clock t0] ++ [.stored bt.id c] by simp] at happ
    exact (List.append_inj' happ rfl).1
  refine ⟨t0, life, ⟨before, steps, [], by rw [did_snoc_self, happ]; simp, hof, hh⟩, mem_did (by rw [hd]; simp), ?_⟩
  rw [← (inv_reach hr1).cache]
  rcases hm with ⟨b, hb'⟩ | ⟨b, c', t, hb', _, _, hx⟩
  · left
    refine view hr1 hrun (before := b) (c := none) ?_ ?_ ?_ (id := bt.id)
      (after := [.sent (metadataGet (emailUrl (base bt.id))), .status (some s1'), .body (some c.email),
       .sent (metadataGet (tokenUrl (base bt.id))), .status (some s2'), .body (some doc), .clock t0])
    · rw [hd, hb']; simp
    · simp
    · simp
  · right
    refine ⟨c', t, view hr1 hrun (before := b) (id := bt.id)
      (after := [.clock t, .sent (metadataGet (emailUrl (base bt.id))), .status (some s1'), .body (some c.email),
       .sent (metadataGet (tokenUrl (base bt.id))), .status (some s2'), .body (some doc), .clock t0]) ?_ ?_ ?_, hx, ?_⟩
    · rw [hd, hb']; simp
    · simp
    · simp
    · intro hs
      have := hs i
      rw [hd, hb'] at this
      simp only [readings, List.filterMap_append, List.filterMap_cons, List.filterMap_nil, List.pairwise_append] at this
      exact this.2.2 t (by simp) t0 (by simp)

theorem steady_prefix {a b : List Event} (h : SteadyClock (a ++ b)) : SteadyClock a := by
  intro i
  have := h i
  rw [did_append, readings, List.filterMap_append, List.pairwise_append] at this
  exact this.1

theorem tokensGot_snoc (id : Nat) (a : List Event) (e : Event) :
    tokensGot id (a ++ [e]) = tokensGot id a + (match e with | .did _ (.stored j _) => if j = id then 1 else 0 | _ => 0) := by
  unfold tokensGot
  rw [List.countP_append]
  congr 1
  rw [List.countP_cons]
  cases e with
  | did j x => cases x <;> simp
  | _ => simp

/-- C79. However many calls share a key: if every token the metadata server gives lives at least `L` seconds, and the
clock does not go back, then between the times `a` and `b` the calls together get at most one token per `L - 30` seconds,
and one more. -/
theorem C79_rate (h : Sys.Reach env base s) (id L : Nat) (hL : 30 ≤ L)
    (hlife : ∀ j c t0 life, Refreshed (base id) s.trace j id c t0 life → L ≤ life) (hs : SteadyClock s.trace) (a b : Time)
    (hab : a ≤ b) (hclock : ∀ i t, .did i (.clock t) ∈ s.trace → a ≤ t ∧ t ≤ b) :
    (((tokensGot id s.trace - 1) * (L - 30) : Nat) : Int) * 1000000000 ≤ b - a := by
  have key : ∀ pre post, s.trace = pre ++ post →
      (((tokensGot id pre - 1) * (L - 30) : Nat) : Int) * 1000000000 ≤ b - a ∧
      (tokensGot id pre = 0 ∨ ∃ c, cacheOf id pre = some c ∧
        a + (((tokensGot id pre - 1) * (L - 30) + L : Nat) : Int) * 1000000000 ≤ c.expires) := by
    intro pre
    induction pre using list_snoc_induction with
    | nil => intro _ _; exact ⟨by simp [tokensGot]; omega, .inl rfl⟩
    | snoc pre x ih =>
      intro post ht
      have ht' : s.trace = pre ++ x :: post := by rw [ht]; simp
      obtain ⟨ih1, ih2⟩ := ih (x :: post) ht'
      by_cases hx : ∃ i c, x = .did i (.stored id c)
      · obtain ⟨i, c, rfl⟩ := hx
        obtain ⟨t0, life, hr, hmem, hn⟩ := stored_needed h ht'
        have hl := hlife i c t0 life (by rw [ht]; exact refreshed_append hr)
        have ht0 := hclock i t0 (by rw [ht']; simp [hmem])
        have hst : SteadyClock pre := steady_prefix (by rw [ht'] at hs; exact hs)
        have hexp : c.expires = t0 + (life : Int) * 1000000000 := by
          obtain ⟨_, _, _, _, hof, _⟩ := hr
          exact hof.expires
        rw [tokensGot_snoc, cacheOf_snoc]
        simp only [if_true, Nat.add_sub_cancel]
        have hmain : a + ((tokensGot id pre * (L - 30) : Nat) : Int) * 1000000000 ≤ t0 := by
          rcases ih2 with h0 | ⟨c0, hc0, he0⟩
          · rw [h0]; simp; omega
          · rcases hn with hn | ⟨c', t, hc', hx, hle⟩
            · rw [hc0] at hn; cases hn
            · rw [hc0] at hc'
              cases hc'
              have := hle hst
              by_cases h0 : tokensGot id pre = 0
              · rw [h0]; simp; omega
              · have : tokensGot id pre * (L - 30) = (tokensGot id pre - 1) * (L - 30) + (L - 30) := by
                  rw [← Nat.succ_mul]; congr 1; omega
                omega
        exact ⟨by omega, .inr ⟨c, rfl, by rw [hexp]; omega⟩⟩
      · have e1 : tokensGot id (pre ++ [x]) = tokensGot id pre := by
          rw [tokensGot_snoc]
          cases x with
          | did j e =>
            cases e with
            | stored k c => 
              have : k ≠ id := fun hk => hx ⟨j, c, by rw [hk]⟩
              simp [this]
            | _ => rfl
          | _ => rfl
        have e2 : cacheOf id (pre ++ [x]) = cacheOf id pre :=
          cacheOf_append_quiet fun j c hm => hx ⟨j, c, (List.mem_singleton.1 hm).symm⟩
        rw [e1, e2]
        exact ⟨ih1, ih2⟩
  exact (key s.trace [] (by simp)).1

/-! ### a case in which the bound is reached -/

open Conformance

/-- A call gets a token for 3599 s, reads the clock again 3569 s later and must get another one. -/
def Conformance.twice : List Move :=
  refreshing (s% "3599") ++ [.clock 0 atNow, .go 0, .go 0, .go 0, .clock 0 (atNow + 3569 * nsPerSec), .go 0,
   .status 0 (some 200), .body 0 (some (s% "a@b.c")), .go 0, .status 0 (some 200), .body 0 (some (tokenDoc (s% "3599"))),
   .clock 0 (atNow + 3569 * nsPerSec), .go 0]

/-- The hypotheses of `C79_rate` are met with two tokens in exactly the shortest time. -/
theorem Conformance.twice_meets : ∃ s, Sys.Reach btEnv baseOf s ∧ tokensGot 0 s.trace = 2 ∧ SteadyClock s.trace ∧
    (∀ j c t0 life, Refreshed (baseOf 0) s.trace j 0 c t0 life → 3599 ≤ life) ∧
    (∀ i t, .did i (.clock t) ∈ s.trace → atNow ≤ t ∧ t ≤ atNow + ((2 - 1) * (3599 - 30) : Nat) * 1000000000) := by
  obtain ⟨s, hr, h⟩ := leads_reach (env := btEnv) (base := baseOf) (ms := twice) (P := fun s =>
    decide (tokensGot 0 s.trace = 2) && s.trace.all (fun e => decide (e.call < 2)) &&
    decide ((readings (did s.trace 0)).Pairwise (· ≤ ·)) && decide ((readings (did s.trace 1)).Pairwise (· ≤ ·)) &&
    s.trace.all (fun
      | .did _ (.body (some doc)) => match parseAccessToken doc with
        | some t => decide (3599 ≤ t.expiresIn)
        | none => true
      | .did _ (.clock t) => decide (atNow ≤ t ∧ t ≤ atNow + 3569 * nsPerSec)
      | _ => true)) (by decide +kernel)
  simp only [Bool.and_eq_true, decide_eq_true_eq, List.all_eq_true] at h
  obtain ⟨⟨⟨⟨h1, h2⟩, h3⟩, h4⟩, h5⟩ := h
  refine ⟨s, hr, h1, ?_, ?_, ?_⟩
  · intro i
    match i with
    | 0 => exact h3
    | 1 => exact h4
    | i + 2 =>
      have : did s.trace (i + 2) = [] := by
        unfold did
        rw [List.filterMap_eq_nil_iff]
        intro e he
        have := h2 e he
        cases e with
        | did j x => simp only [Event.call] at this; simp only; rw [if_neg (by omega)]
        | _ => rfl
      rw [this]
      exact List.Pairwise.nil
  · rintro j c t0 life ⟨before, steps, after, hd, hof, _⟩
    obtain ⟨s1, s2, doc, _, _, _, _, hsteps, htext⟩ := hof.answers
    have hm : Event.did j (.body (some doc)) ∈ s.trace := mem_did (by rw [hd, hsteps]; simp [refreshSteps])
    have := h5 _ hm
    simp only [parseAccessToken_iff.2 htext, decide_eq_true_eq] at this
    exact this
  · intro i t ht
    have := h5 _ ht
    simp only [decide_eq_true_eq] at this
    simpa [nsPerSec] using this

example : ∃ s, Sys.Reach btEnv baseOf s ∧ tokensGot 0 s.trace = 2 ∧
    (((tokensGot 0 s.trace - 1) * (3599 - 30) : Nat) : Int) * 1000000000 ≤ 3569 * 1000000000 := by
  obtain ⟨s, hr, h1, h2, h3, h4⟩ := twice_meets
  have := C79_rate hr 0 3599 (by decide) h3 h2 atNow (atNow + 3569 * 1000000000) (by decide) h4
  exact ⟨s, hr, h1, by omega⟩

end CSS
