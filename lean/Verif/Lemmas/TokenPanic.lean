import Verif.Lemmas.Token
/- When bound-token calls panic. -/
set_option linter.unusedSimpArgs false
namespace CSS
open Spec

/-- The three panic sites of a bound-token call. -/
def TokenPanic (s : PanicSite) : Prop := s = .expiresBeforeEpoch ∨ s = .nowBeforeEpoch ∨ s = .expiresOverflow

theorem refreshEnd_panic {env : Env} {bt : BoundToken} {email body : Str} {w w' : World} {s : PanicSite}
    (h : refreshEnd env bt email body w = (.panic s, w')) :
    s = .expiresOverflow ∧ ∃ t, parseAccessToken body = some t ∧ t.tokenType = s% "Bearer" ∧
      timeLimit ≤ env.now w.ticks + (t.expiresIn : Int) * nsPerSec := by
  unfold refreshEnd at h
  split at h
  · simp at h
  · rename_i t ht
    split at h
    · simp at h
    · rename_i hb
      simp only at h
      split at h
      · rename_i hl
        simp only [Prod.mk.injEq, Res.panic.injEq] at h
        exact ⟨h.1.symm, t, ht, by simpa using hb, hl⟩
      · simp at h

theorem refreshEnd_sane {env : Env} {bt : BoundToken} {email body : Str} {w : World} (hs : ∀ k, 0 ≤ env.now k)
    (hw : SaneCaches w) : SaneCaches (refreshEnd env bt email body w).2 := by
  unfold refreshEnd
  split
  · exact hw
  · split
    · exact hw
    · rename_i t _ _
      simp only
      split
      · exact hw
      · intro i c hc
        simp only [World.store, World.tick] at hc
        split at hc
        · cases hc
          have := hs w.ticks
          have h2 : (0 : Int) ≤ (t.expiresIn : Int) * nsPerSec := by unfold nsPerSec; omega
          simp only; omega
        · exact hw i c hc

/-- When `refresh` panics. -/
theorem refresh_panic {env : Env} {bt : BoundToken} {w w' : World} {s : PanicSite}
    (h : refresh env bt w = (.panic s, w')) :
    s = .expiresOverflow ∧ ∃ body t, Answered env w'.log (w.log.length + 1) (metadataGet (tokenUrl bt.baseUrl)) body ∧
      parseAccessToken body = some t ∧ t.tokenType = s% "Bearer" ∧
      timeLimit ≤ env.now w.ticks + (t.expiresIn : Int) * nsPerSec := by
  rw [refresh_eq] at h
  split at h
  · simp at h
  · cases h1 : fetchOutcome emailErrors (env.net w.log.length (emailRequest bt)) with
    | err e => simp [h1] at h
    | panic p => exact absurd h1 (fetchOutcome_not_panic _ _ _)
    | ok email =>
      rw [h1] at h
      simp only at h
      split at h
      · simp at h
      · cases h2 : fetchOutcome tokenErrors (env.net (w.log.length + 1) (tokenRequest bt)) with
        | err e => simp [h2] at h
        | panic p => exact absurd h2 (fetchOutcome_not_panic _ _ _)
        | ok body =>
          rw [h2] at h
          simp only at h
          have hl := refreshEnd_log env bt email body ((w.sent (emailRequest bt)).sent (tokenRequest bt))
          rw [h] at hl
          obtain ⟨hs, t, ht⟩ := refreshEnd_panic h
          refine ⟨hs, body, t, ?_, ht⟩
          obtain ⟨st, a, b, c⟩ := fetchOutcome_ok.1 h2
          refine ⟨?_, st, a, b, c⟩
          simp only at hl
          rw [hl]
          simp [World.sent, tokenRequest_eq]

theorem refresh_saneCaches {env : Env} {bt : BoundToken} {w : World} (hs : ∀ k, 0 ≤ env.now k)
    (hw : SaneCaches w) : SaneCaches (refresh env bt w).2 := by
  rw [refresh_eq]
  split
  · exact hw
  · cases h1 : fetchOutcome emailErrors (env.net w.log.length (emailRequest bt)) with
    | err e => exact hw
    | panic p => exact hw
    | ok email =>
      simp only
      split
      · exact hw
      · cases h2 : fetchOutcome tokenErrors (env.net (w.log.length + 1) (tokenRequest bt)) with
        | err e => exact hw
        | panic p => exact hw
        | ok body => exact refreshEnd_sane hs hw

/-- When a token request panics. -/
theorem getEmailAndToken_panic {env : Env} {bt : BoundToken} {w w' : World} {s : PanicSite}
    (h : getEmailAndToken env bt w = (.panic s, w')) :
    (s = .expiresBeforeEpoch ∧ ∃ c, w.caches bt.id = some c ∧ c.expires < 0) ∨
    (s = .nowBeforeEpoch ∧ (∃ c, w.caches bt.id = some c) ∧ env.now w.ticks < 0) ∨
    (s = .expiresOverflow ∧ ∃ j body t, Answered env w'.log (w.log.length + 1) (metadataGet (tokenUrl bt.baseUrl)) body ∧
      parseAccessToken body = some t ∧ t.tokenType = s% "Bearer" ∧
      timeLimit ≤ env.now j + (t.expiresIn : Int) * nsPerSec) := by
  rw [getEmailAndToken_eq] at h
  cases hc : w.caches bt.id with
  | none =>
    rw [hc] at h
    obtain ⟨h1, body, t, h2⟩ := refresh_panic h
    exact .inr (.inr ⟨h1, _, body, t, h2⟩)
  | some c =>
    rw [hc] at h
    simp only at h
    split at h
    · rename_i h0; cases h; exact .inl ⟨rfl, c, rfl, h0⟩
    · split at h
      · rename_i h0; cases h; exact .inr (.inl ⟨rfl, ⟨c, rfl⟩, h0⟩)
      · split at h
        · simp at h
        · obtain ⟨h1, body, t, h2⟩ := refresh_panic h
          exact .inr (.inr ⟨h1, _, body, t, h2⟩)

theorem getEmailAndToken_tokenPanic {env : Env} {bt : BoundToken} {w w' : World} {s : PanicSite}
    (h : getEmailAndToken env bt w = (.panic s, w')) : TokenPanic s := by
  rcases getEmailAndToken_panic h with h | h | h
  · exact .inl h.1
  · exact .inr (.inl h.1)
  · exact .inr (.inr h.1)

theorem getEmailAndToken_saneCaches {env : Env} {bt : BoundToken} {w : World} (hs : ∀ k, 0 ≤ env.now k)
    (hw : SaneCaches w) : SaneCaches (getEmailAndToken env bt w).2 := by
  rw [getEmailAndToken_eq]
  cases hc : w.caches bt.id with
  | none => exact refresh_saneCaches hs hw
  | some c =>
    simp only
    split
    · exact hw
    · split
      · exact hw
      · split
        · exact hw
        · exact refresh_saneCaches hs hw

theorem getEmailAndToken_sane {env : Env} {bt : BoundToken} {w : World} (hs : Sane env) (hw : SaneCaches w)
    (s : PanicSite) : (getEmailAndToken env bt w).1 ≠ .panic s := by
  intro h
  have h' : getEmailAndToken env bt w = (.panic s, (getEmailAndToken env bt w).2) := Prod.ext h rfl
  rcases getEmailAndToken_panic h' with ⟨_, c, hc, hx⟩ | ⟨_, _, hx⟩ | ⟨_, j, body, t, ha, ht, _, hx⟩
  · have := hw _ _ hc; omega
  · have := hs.clock w.ticks; omega
  · obtain ⟨_, st, _, _, hn⟩ := ha
    have := hs.life _ _ _ _ t.accessToken t.expiresIn t.tokenType j hn (parseAccessToken_iff.1 ht)
    unfold timeLimit nsPerSec at hx
    omega

/-- The outcome of `sign` up to its panics. -/
theorem sign_panic_iff {env : Env} {bt : BoundToken} {m : Bytes} {w : World} {s : PanicSite} :
    (bt.sign env m w).1 = .panic s ↔ (getEmailAndToken env bt w).1 = .panic s := by
  rw [sign_eq]
  generalize getEmailAndToken env bt w = x
  obtain ⟨r, w'⟩ := x
  cases r with
  | err e => simp
  | panic p => simp
  | ok p =>
    simp only [reduceCtorEq, iff_false]
    split
    · simp
    · simp only
      split
      · simp
      · rename_i hp; exact absurd hp (fetchOutcome_not_panic _ _ _)
      · split
        · simp
        · split <;> simp

theorem authorizer_panic {env : Env} {key : SigningKey} {w : World} {s : PanicSite}
    (h : (key.authorizer env w).1 = .panic s) :
    ∃ bt, key = .boundToken bt ∧ (getEmailAndToken env bt w).1 = .panic s := by
  cases key with
  | boundToken bt =>
    refine ⟨bt, rfl, ?_⟩
    rw [authorizer_boundToken_eq] at h
    generalize getEmailAndToken env bt w = x at h
    obtain ⟨r, w'⟩ := x
    cases r <;> simp_all
  | hmac a s => simp [SigningKey.authorizer] at h
  | serviceAccount a s => simp [SigningKey.authorizer] at h

theorem authorizer_snd (env : Env) (bt : BoundToken) (w : World) :
    ((SigningKey.boundToken bt).authorizer env w).2 = (getEmailAndToken env bt w).2 := by
  rw [authorizer_boundToken_eq]
  generalize getEmailAndToken env bt w = x
  obtain ⟨r, w'⟩ := x
  cases r <;> rfl

theorem rsaSignPem_not_panic (env : Env) (pem : Str) (m : Bytes) (s : PanicSite) : rsaSignPem env pem m ≠ .panic s := by
  unfold rsaSignPem
  split
  · simp
  · split
    · simp
    · split <;> simp

/-- When `sign` panics, for each kind of key. -/
theorem keySign_panic {env : Env} {key : SigningKey} {u : Bool} {m : Bytes} {w : World} {s : PanicSite} :
    (key.sign env u m w).1 = .panic s ↔
      (∃ a b, key = .hmac a b ∧ s = .hmacTodo) ∨
      (∃ a b, key = .serviceAccount a b ∧ u = true ∧ s = .serviceAccountSignBlobTodo) ∨
      (∃ bt, key = .boundToken bt ∧ u = true ∧ (getEmailAndToken env bt w).1 = .panic s) := by
  cases key with
  | boundToken bt =>
    unfold SigningKey.sign
    cases u with
    | false => simp
    | true =>
      simp only [if_true, M.mapErr_run]
      have hsp : (bt.sign env m w).1 = .panic s ↔ _ := sign_panic_iff
      constructor
      · intro h
        refine .inr (.inr ⟨bt, rfl, trivial, hsp.1 ?_⟩)
        cases hr : (bt.sign env m w).1 with
        | ok a => rw [hr] at h; simp at h
        | err e => rw [hr] at h; simp at h
        | panic p => rw [hr] at h; simpa using h
      · rintro (⟨_, _, h, _⟩ | ⟨_, _, h, _⟩ | ⟨bt', h, _, hg⟩)
        · cases h
        · cases h
        · cases h; rw [hsp.2 hg]; rfl
  | hmac a b => unfold SigningKey.sign; simp [eq_comm]
  | serviceAccount a b =>
    unfold SigningKey.sign
    cases u with
    | false => simp [rsaSignPem_not_panic]
    | true => simp [eq_comm]

end CSS
