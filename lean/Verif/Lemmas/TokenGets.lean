import Verif.Lemmas.TokenPanic
import Verif.Lemmas.FormEq
/- Getting e-mail and token, in the words of the specification. -/
set_option linter.unusedSimpArgs false
namespace CSS
open Spec

theorem afterStart_eq (given : Option Time) (w : World) : afterStart given w = clocked given w := by cases given <;> rfl

theorem refresh_panic_iff {env : Env} {bt : BoundToken} {w : World} {s : PanicSite} :
    (refresh env bt w).1 = .panic s ↔
      s = .expiresOverflow ∧ env.canBuild (metadataGet (emailUrl bt.baseUrl)) = true ∧
      env.canBuild (metadataGet (tokenUrl bt.baseUrl)) = true ∧
      ∃ st1 st2 email body token life, 200 ≤ st1 ∧ st1 ≤ 299 ∧ 200 ≤ st2 ∧ st2 ≤ 299 ∧
        env.net w.log.length (metadataGet (emailUrl bt.baseUrl)) = .response st1 (some email) ∧
        env.net (w.log.length + 1) (metadataGet (tokenUrl bt.baseUrl)) = .response st2 (some body) ∧
        TokenText body token life (s% "Bearer") ∧
        9223372036854775808 * 1000000000 ≤ env.now w.ticks + (life : Int) * 1000000000 := by
  rw [← emailRequest_eq, ← tokenRequest_eq, refresh_eq]
  constructor
  · intro h
    by_cases h1 : env.canBuild (emailRequest bt) = false
    · rw [if_pos h1] at h; cases h
    rw [if_neg h1] at h
    cases h2 : fetchOutcome emailErrors (env.net w.log.length (emailRequest bt)) with
    | err e => rw [h2] at h; cases h
    | panic p => exact absurd h2 (fetchOutcome_not_panic _ _ _)
    | ok email =>
      rw [h2] at h
      simp only at h
      by_cases h3 : env.canBuild (tokenRequest bt) = false
      · rw [if_pos h3] at h; cases h
      rw [if_neg h3] at h
      cases h4 : fetchOutcome tokenErrors (env.net (w.log.length + 1) (tokenRequest bt)) with
      | err e => rw [h4] at h; cases h
      | panic p => exact absurd h4 (fetchOutcome_not_panic _ _ _)
      | ok body =>
        rw [h4] at h
        simp only [refreshEnd] at h
        cases hp : parseAccessToken body with
        | none => rw [hp] at h; cases h
        | some t =>
          rw [hp] at h
          simp only at h
          by_cases h5 : t.tokenType ≠ s% "Bearer"
          · rw [if_pos h5] at h; cases h
          rw [if_neg h5] at h
          by_cases h6 : timeLimit ≤ env.now ((w.sent (emailRequest bt)).sent (tokenRequest bt)).ticks + (t.expiresIn : Int) * nsPerSec
          · rw [if_pos h6] at h
            obtain ⟨s1, a1, a2, a3⟩ := fetchOutcome_ok.1 h2
            obtain ⟨s2, b1, b2, b3⟩ := fetchOutcome_ok.1 h4
            have ht : t.tokenType = s% "Bearer" := Classical.not_not.1 h5
            simp only [Res.panic.injEq] at h
            refine ⟨h.symm, by simpa using h1, by simpa using h3, s1, s2, email, body, t.accessToken, t.expiresIn,
              a1, a2, b1, b2, a3, b3, ?_, h6⟩
            rw [← parseAccessToken_iff, hp, ← ht]
          · rw [if_neg h6] at h; cases h
  · rintro ⟨rfl, h1, h3, s1, s2, email, body, token, life, a1, a2, b1, b2, a3, b3, hp, h6⟩
    rw [if_neg (by rw [h1]; simp), fetchOutcome_ok.2 ⟨s1, a1, a2, a3⟩]
    simp only
    rw [if_neg (by rw [h3]; simp), fetchOutcome_ok.2 ⟨s2, b1, b2, b3⟩]
    simp only [refreshEnd, parseAccessToken_iff.2 hp]
    rw [if_neg (by simp)]
    have h6' : timeLimit ≤ env.now ((w.sent (emailRequest bt)).sent (tokenRequest bt)).ticks + (life : Int) * nsPerSec := h6
    rw [if_pos h6']

theorem getEmailAndToken_panic_cases {env : Env} {bt : BoundToken} {w : World} {s : PanicSite} :
    (getEmailAndToken env bt w).1 = .panic s ↔
      (w.caches bt.id = none ∧ (refresh env bt w).1 = .panic s) ∨
      ∃ c, w.caches bt.id = some c ∧
        ((c.expires < 0 ∧ s = .expiresBeforeEpoch) ∨
        (0 ≤ c.expires ∧ env.now w.ticks < 0 ∧ s = .nowBeforeEpoch) ∨
        (0 ≤ c.expires ∧ 0 ≤ env.now w.ticks ∧ c.expires ≤ env.now w.ticks + 30 * 1000000000 ∧
          (refresh env bt w.tick).1 = .panic s)) := by
  rw [getEmailAndToken_eq]
  cases hc : w.caches bt.id with
  | none => simp
  | some c =>
    simp only [reduceCtorEq, false_and, false_or, Option.some.injEq, exists_eq_left']
    by_cases h1 : c.expires < 0
    · rw [if_pos h1]
      have : ¬ 0 ≤ c.expires := by omega
      simp [h1, this, eq_comm]
    rw [if_neg h1]
    by_cases h2 : env.now w.ticks < 0
    · rw [if_pos h2]
      have : ¬ 0 ≤ env.now w.ticks := by omega
      have h0 : 0 ≤ c.expires := by omega
      simp [h1, h2, this, h0, eq_comm]
    rw [if_neg h2]
    have h0 : 0 ≤ c.expires := by omega
    have h0' : 0 ≤ env.now w.ticks := by omega
    by_cases h3 : env.now w.ticks + 30 * nsPerSec < c.expires
    · rw [if_pos h3]
      have : ¬ c.expires ≤ env.now w.ticks + 30 * 1000000000 := by unfold nsPerSec at h3; omega
      simp only [h1, h2, this, reduceCtorEq, false_and, and_false, or_false]
    · rw [if_neg h3]
      have : c.expires ≤ env.now w.ticks + 30 * 1000000000 := by unfold nsPerSec at h3; omega
      simp only [h1, h2, this, h0, h0', true_and, and_true, false_and, and_false, or_false, false_or]


theorem getEmailAndToken_panic_iff {env : Env} {bt : BoundToken} {w : World} {s : PanicSite} :
    (getEmailAndToken env bt w).1 = .panic s ↔ TokenPanics env bt w s := by
  rw [getEmailAndToken_panic_cases, refresh_panic_iff, refresh_panic_iff]
  constructor
  · rintro (⟨hc, rfl, b1, b2, s1, s2, email, body, token, life, a1, a2, a3, a4, n1, n2, hp, hl⟩ |
      ⟨c, hc, ⟨h1, rfl⟩ | ⟨h1, h2, rfl⟩ | ⟨h1, h2, h3, rfl, b1, b2, s1, s2, email, body, token, life, a1, a2, a3, a4, n1, n2, hp, hl⟩⟩)
    · exact .inr (.inr ⟨_, email, token, life, .inl ⟨hc, rfl⟩, ⟨b1, b2, s1, s2, body, a1, a2, a3, a4, n1, n2, hp⟩, hl, rfl⟩)
    · exact .inl ⟨c, hc, h1, rfl⟩
    · exact .inr (.inl ⟨c, hc, h1, h2, rfl⟩)
    · exact .inr (.inr ⟨_, email, token, life, .inr ⟨c, hc, h1, h2, h3, rfl⟩,
        ⟨b1, b2, s1, s2, body, a1, a2, a3, a4, n1, n2, hp⟩, hl, rfl⟩)
  · rintro (⟨c, hc, h1, rfl⟩ | ⟨c, hc, h1, h2, rfl⟩ |
      ⟨k, email, token, life, ⟨hc, rfl⟩ | ⟨c, hc, h1, h2, h3, rfl⟩, ⟨b1, b2, s1, s2, body, a1, a2, a3, a4, n1, n2, hp⟩, hl, rfl⟩)
    · exact .inr ⟨c, hc, .inl ⟨h1, rfl⟩⟩
    · exact .inr ⟨c, hc, .inr (.inl ⟨h1, h2, rfl⟩)⟩
    · exact .inl ⟨hc, rfl, b1, b2, s1, s2, email, body, token, life, a1, a2, a3, a4, n1, n2, hp, hl⟩
    · exact .inr ⟨c, hc, .inr (.inr ⟨h1, h2, h3, rfl, b1, b2, s1, s2, email, body, token, life, a1, a2, a3, a4, n1, n2, hp, hl⟩)⟩

theorem refresh_ok_iff {env : Env} {bt : BoundToken} {w w' : World} {email token : Str} :
    refresh env bt w = (.ok (email, token), w') ↔ ∃ life, ServerGives env bt w email token life ∧
      env.now w.ticks + (life : Int) * 1000000000 < 9223372036854775808 * 1000000000 ∧
      w' = { w with
        ticks := w.ticks + 1
        log := w.log ++ [metadataGet (emailUrl bt.baseUrl), metadataGet (tokenUrl bt.baseUrl)]
        caches := fun i => if i = bt.id then some ⟨email, token, env.now w.ticks + (life : Int) * 1000000000⟩ else w.caches i } := by
  unfold ServerGives
  rw [← emailRequest_eq, ← tokenRequest_eq, refresh_eq]
  constructor
  · intro h
    by_cases h1 : env.canBuild (emailRequest bt) = false
    · rw [if_pos h1] at h; cases h
    rw [if_neg h1] at h
    cases h2 : fetchOutcome emailErrors (env.net w.log.length (emailRequest bt)) with
    | err e => rw [h2] at h; cases h
    | panic p => exact absurd h2 (fetchOutcome_not_panic _ _ _)
    | ok email' =>
      rw [h2] at h
      simp only at h
      by_cases h3 : env.canBuild (tokenRequest bt) = false
      · rw [if_pos h3] at h; cases h
      rw [if_neg h3] at h
      cases h4 : fetchOutcome tokenErrors (env.net (w.log.length + 1) (tokenRequest bt)) with
      | err e => rw [h4] at h; cases h
      | panic p => exact absurd h4 (fetchOutcome_not_panic _ _ _)
      | ok body =>
        rw [h4] at h
        simp only [refreshEnd] at h
        cases hp : parseAccessToken body with
        | none => rw [hp] at h; cases h
        | some t =>
          rw [hp] at h
          simp only at h
          by_cases h5 : t.tokenType ≠ s% "Bearer"
          · rw [if_pos h5] at h; cases h
          rw [if_neg h5] at h
          by_cases h6 : timeLimit ≤ env.now ((w.sent (emailRequest bt)).sent (tokenRequest bt)).ticks + (t.expiresIn : Int) * nsPerSec
          · rw [if_pos h6] at h; cases h
          · rw [if_neg h6] at h
            obtain ⟨s1, a1, a2, a3⟩ := fetchOutcome_ok.1 h2
            obtain ⟨s2, b1, b2, b3⟩ := fetchOutcome_ok.1 h4
            have ht : t.tokenType = s% "Bearer" := Classical.not_not.1 h5
            simp only [Prod.mk.injEq, Res.ok.injEq] at h
            obtain ⟨⟨rfl, rfl⟩, rfl⟩ := h
            refine ⟨t.expiresIn, ⟨by simpa using h1, by simpa using h3, s1, s2, body, a1, a2, b1, b2, a3, b3, ?_⟩, ?_, ?_⟩
            · rw [← parseAccessToken_iff, hp, ← ht]
            · exact Int.not_le.1 h6
            · simp only [World.sent, World.tick, World.store, List.append_assoc, List.cons_append, List.nil_append]
              rfl
  · rintro ⟨life, ⟨h1, h3, s1, s2, body, a1, a2, b1, b2, a3, b3, hp⟩, h6, rfl⟩
    rw [if_neg (by rw [h1]; simp), fetchOutcome_ok.2 ⟨s1, a1, a2, a3⟩]
    simp only
    rw [if_neg (by rw [h3]; simp), fetchOutcome_ok.2 ⟨s2, b1, b2, b3⟩]
    simp only [refreshEnd, parseAccessToken_iff.2 hp]
    rw [if_neg (by simp)]
    have h6' : ¬ timeLimit ≤ env.now ((w.sent (emailRequest bt)).sent (tokenRequest bt)).ticks + (life : Int) * nsPerSec :=
      Int.not_le.2 h6
    rw [if_neg h6']
    simp only [World.sent, World.tick, World.store, List.append_assoc, List.cons_append, List.nil_append]
    rfl

theorem getEmailAndToken_ok_iff {env : Env} {bt : BoundToken} {w w' : World} {email token : Str} :
    getEmailAndToken env bt w = (.ok (email, token), w') ↔ GetsToken env bt w email token w' := by
  rw [getEmailAndToken_eq]
  constructor
  · intro h
    cases hc : w.caches bt.id with
    | none =>
      rw [hc] at h
      obtain ⟨life, hs, hl, rfl⟩ := refresh_ok_iff.1 h
      exact .asked w.ticks life email token (.inl ⟨hc, rfl⟩) hs hl
    | some c =>
      rw [hc] at h
      simp only at h
      by_cases h1 : c.expires < 0
      · rw [if_pos h1] at h; cases h
      rw [if_neg h1] at h
      by_cases h2 : env.now w.ticks < 0
      · rw [if_pos h2] at h; cases h
      rw [if_neg h2] at h
      by_cases h3 : c.expires > env.now w.ticks + 30 * nsPerSec
      · rw [if_pos h3] at h
        simp only [Prod.mk.injEq, Res.ok.injEq] at h
        obtain ⟨⟨rfl, rfl⟩, rfl⟩ := h
        exact .cached c hc (by omega) (by omega) h3
      · rw [if_neg h3] at h
        obtain ⟨life, hs, hl, rfl⟩ := refresh_ok_iff.1 h
        exact .asked (w.ticks + 1) life email token (.inr ⟨c, hc, by omega, by omega, Int.not_lt.1 h3, rfl⟩) hs hl
  · intro h
    cases h with
    | cached c hc h1 h2 h3 =>
      rw [hc]
      simp only
      rw [if_neg (by omega), if_neg (by omega)]
      have h3' : c.expires > env.now w.ticks + 30 * nsPerSec := h3
      rw [if_pos h3']
      rfl
    | asked k life email token hm hs hl =>
      rcases hm with ⟨hc, rfl⟩ | ⟨c, hc, h1, h2, h3, rfl⟩
      · rw [hc]
        exact refresh_ok_iff.2 ⟨life, hs, hl, rfl⟩
      · rw [hc]
        simp only
        rw [if_neg (by omega), if_neg (by omega)]
        have h3' : ¬ c.expires > env.now w.ticks + 30 * nsPerSec := Int.not_lt.2 h3
        rw [if_neg h3']
        exact refresh_ok_iff.2 ⟨life, hs, hl, rfl⟩

end CSS
