import Verif.Lemmas.ProgEq
import Verif.Spec.Failures
/-
From the steps of a call to its error.
-/
set_option linter.unusedSimpArgs false
namespace CSS
open Spec

/-! ### Requests -/

/-- The trouble that an error of a request stands for. -/
theorem fetchRuns_err {env : Env} {e : FetchErrors} {r : Request} {h : List Ev} {x : BoundTokenError}
    (hf : FetchRuns env e r h (.err x)) : ∃ tr : Trouble, tr.Leaves env r h ∧
      ((tr = .notBuilt ∧ x = e.build) ∨ (tr = .unanswered ∧ x = e.execute) ∨ (∃ s b, tr = .refused s b ∧ x = e.status s b) ∨
       (tr = .refusedUnread ∧ x = e.errorResponse) ∨ (tr = .unread ∧ x = e.successResponse)) := by
  generalize hx : Res.err x = y at hf
  cases hf with
  | build hb => cases hx; exact ⟨.notBuilt, .notBuilt hb, .inl ⟨rfl, rfl⟩⟩
  | execute => cases hx; exact ⟨.unanswered, .unanswered, .inr (.inl ⟨rfl, rfl⟩)⟩
  | unread s h1 h2 => cases hx; exact ⟨.unread, .unread s h1 h2, .inr (.inr (.inr (.inr ⟨rfl, rfl⟩)))⟩
  | ok s t h1 h2 => cases hx
  | refusedUnread s h1 => cases hx; exact ⟨.refusedUnread, .refusedUnread s (by omega), .inr (.inr (.inr (.inl ⟨rfl, rfl⟩)))⟩
  | refused s t h1 => cases hx; exact ⟨.refused s t, .refused s t (by omega), .inr (.inr (.inl ⟨s, t, rfl, rfl⟩))⟩

theorem fetchRuns_ok {env : Env} {e : FetchErrors} {r : Request} {h : List Ev} {t : Str}
    (hf : FetchRuns env e r h (.ok t)) : ∃ s, 200 ≤ s ∧ s ≤ 299 ∧ h = [.sent r, .status (some s), .body (some t)] := by
  generalize hx : Res.ok t = y at hf
  cases hf with
  | ok s t h1 h2 => cases hx; exact ⟨s, h1, h2, rfl⟩
  | _ => cases hx

/-! ### Refreshes -/

theorem hasEmail_of {env : Env} {bt : BoundToken} {h h1 : List Ev} {email : Str} (hm : MustRefresh bt.id h)
    (hf : FetchRuns env emailErrors (emailRequest bt) h1 (.ok email)) : HasEmail bt.baseUrl bt.id (h ++ h1) := by
  obtain ⟨s, hs1, hs2, rfl⟩ := fetchRuns_ok hf
  exact ⟨h, s, email, by rw [emailRequest_eq], hm, hs1, hs2⟩

theorem hasDocument_of {env : Env} {bt : BoundToken} {h h1 : List Ev} {doc : Str} (hm : HasEmail bt.baseUrl bt.id h)
    (hf : FetchRuns env tokenErrors (tokenRequest bt) h1 (.ok doc)) : HasDocument bt.baseUrl bt.id doc (h ++ h1) := by
  obtain ⟨s, hs1, hs2, rfl⟩ := fetchRuns_ok hf
  exact ⟨h, s, by rw [tokenRequest_eq], hm, hs1, hs2⟩

theorem refreshRuns_err {env : Env} {bt : BoundToken} {h h1 : List Ev} {e : BoundTokenError} (hm : MustRefresh bt.id h)
    (hr : RefreshRuns env bt h1 (.err e)) : Explains env bt.baseUrl bt.id (h ++ h1 ++ [.unlocked bt.id]) e := by
  generalize hx : Res.err e = y at hr
  cases hr with
  | email hf =>
    cases hx
    obtain ⟨tr, hl, hc⟩ := fetchRuns_err hf
    rw [emailRequest_eq] at hl
    have ht : EmailTrouble env bt.baseUrl bt.id tr (h ++ h1 ++ [.unlocked bt.id]) := ⟨h, h1, rfl, hm, hl⟩
    rcases hc with ⟨rfl, rfl⟩ | ⟨rfl, rfl⟩ | ⟨s, b, rfl, rfl⟩ | ⟨rfl, rfl⟩ | ⟨rfl, rfl⟩ <;> exact ht
  | @token h2 h3 email _ hf1 hf =>
    cases hx
    obtain ⟨tr, hl, hc⟩ := fetchRuns_err hf
    rw [tokenRequest_eq] at hl
    have ht : TokenTrouble env bt.baseUrl bt.id tr (h ++ (h2 ++ h3) ++ [.unlocked bt.id]) :=
      ⟨h ++ h2, h3, by simp, hasEmail_of hm hf1, hl⟩
    rcases hc with ⟨rfl, rfl⟩ | ⟨rfl, rfl⟩ | ⟨s, b, rfl, rfl⟩ | ⟨rfl, rfl⟩ | ⟨rfl, rfl⟩ <;> exact ht
  | @unreadable h2 h3 email body hf1 hf2 hp =>
    cases hx
    refine ⟨h ++ h2 ++ h3, body, by simp, hasDocument_of (hasEmail_of hm hf1) hf2, ?_⟩
    rintro ⟨token, life, type, ht⟩
    rw [parseAccessToken_iff.2 ht] at hp
    cases hp
  | @type h2 h3 email body t hf1 hf2 hp hne =>
    cases hx
    exact ⟨h ++ h2 ++ h3, body, t.accessToken, t.expiresIn, by simp, hasDocument_of (hasEmail_of hm hf1) hf2,
      parseAccessToken_iff.1 hp, hne⟩
  | overflow => cases hx
  | ok => cases hx

theorem refreshRuns_panic {env : Env} {bt : BoundToken} {h h1 : List Ev} {site : PanicSite} (hm : MustRefresh bt.id h)
    (hr : RefreshRuns env bt h1 (.panic site)) : ExplainsPanic bt.baseUrl bt.id (h ++ h1 ++ [.unlocked bt.id]) site := by
  generalize hx : Res.panic site = y at hr
  cases hr with
  | @overflow h2 h3 email body t now hf1 hf2 hp hb hl =>
    cases hx
    refine .inr (.inr ⟨rfl, h ++ h2 ++ h3, body, t.accessToken, t.expiresIn, now, by simp, hasDocument_of (hasEmail_of hm hf1) hf2, ?_, ?_⟩)
    · rw [← hb]; exact parseAccessToken_iff.1 hp
    · simpa [timeLimit, nsPerSec] using hl
  | _ => cases hx

theorem refreshRuns_pair {env : Env} {bt : BoundToken} {h h1 : List Ev} {email token : Str} (hh : holding bt.id h = true)
    (hr : RefreshRuns env bt h1 (.ok (email, token))) : GotPair bt.baseUrl bt.id (h ++ h1 ++ [.unlocked bt.id]) email token := by
  generalize hx : Res.ok (email, token) = y at hr
  cases hr with
  | @ok h2 h3 email body t now hf1 hf2 hp hb hl =>
    cases hx
    obtain ⟨s1, a1, a2, rfl⟩ := fetchRuns_ok hf1
    obtain ⟨s2, b1, b2, rfl⟩ := fetchRuns_ok hf2
    refine .inr ⟨h, _, ⟨email, t.accessToken, now + (t.expiresIn : Int) * nsPerSec⟩, now, t.expiresIn, rfl,
      ⟨⟨s1, s2, body, a1, a2, b1, b2, ?_, ?_⟩, rfl⟩, hh, rfl, rfl⟩
    · simp [refreshSteps, emailRequest_eq, tokenRequest_eq]
    · rw [← hb]; exact parseAccessToken_iff.1 hp
  | _ => cases hx

/-! ### Getting e-mail and token -/

theorem must_empty (id : Nat) (h : List Ev) : MustRefresh id (h ++ [.locked id none]) := .inl ⟨h, rfl⟩

theorem must_stale {id : Nat} {h : List Ev} {c : Cached} {t : Time} (h1 : 0 ≤ c.expires) (h2 : 0 ≤ t)
    (h3 : c.expires ≤ t + 30 * nsPerSec) : MustRefresh id (h ++ [.locked id (some c), .clock t]) :=
  .inr ⟨h, c, t, rfl, h1, h2, h3⟩

theorem getRuns_err {env : Env} {bt : BoundToken} {h h1 : List Ev} {e : BoundTokenError}
    (hr : GetRuns env bt h1 (.err e)) : Explains env bt.baseUrl bt.id (h ++ h1) e := by
  generalize hx : Res.err e = y at hr
  cases hr with
  | @empty h2 _ hr =>
    subst hx
    have := refreshRuns_err (must_empty bt.id h) hr
    simpa using this
  | @stale c t h2 _ a1 a2 a3 hr =>
    subst hx
    have := refreshRuns_err (must_stale (h := h) a1 a2 a3) hr
    simpa using this
  | _ => cases hx

theorem getRuns_panic {env : Env} {bt : BoundToken} {h h1 : List Ev} {site : PanicSite}
    (hr : GetRuns env bt h1 (.panic site)) : ExplainsPanic bt.baseUrl bt.id (h ++ h1) site := by
  generalize hx : Res.panic site = y at hr
  cases hr with
  | @empty h2 _ hr =>
    subst hx
    have := refreshRuns_panic (must_empty bt.id h) hr
    simpa using this
  | @stale c t h2 _ a1 a2 a3 hr =>
    subst hx
    have := refreshRuns_panic (must_stale (h := h) a1 a2 a3) hr
    simpa using this
  | @expires c a1 => cases hx; exact .inl ⟨rfl, h, c, rfl, a1⟩
  | @clock c t a1 a2 => cases hx; exact .inr (.inl ⟨rfl, h, c, t, rfl, a2⟩)
  | fresh => cases hx

theorem getRuns_pair {env : Env} {bt : BoundToken} {h h1 : List Ev} {email token : Str}
    (hr : GetRuns env bt h1 (.ok (email, token))) : GotPair bt.baseUrl bt.id (h ++ h1) email token := by
  generalize hx : Res.ok (email, token) = y at hr
  cases hr with
  | @empty h2 _ hr =>
    subst hx
    have := refreshRuns_pair (h := h ++ [.locked bt.id none]) (by rw [holding_snoc]; simp) hr
    simpa using this
  | @stale c t h2 _ a1 a2 a3 hr =>
    subst hx
    have := refreshRuns_pair (h := h ++ [.locked bt.id (some c)] ++ [.clock t]) (by rw [holding_snoc, holding_snoc]; simp) hr
    simpa using this
  | @fresh c t a1 a2 a3 => cases hx; exact .inl ⟨h, c, t, rfl, rfl, rfl, a2, by simpa [nsPerSec] using a3⟩
  | _ => cases hx

/-! ### Signing -/

theorem signRuns_err {env : Env} {bt : BoundToken} {m : Bytes} {h h1 : List Ev} {e : BoundTokenError}
    (hr : SignRuns env bt m h1 (.err e)) : Explains env bt.baseUrl bt.id (h ++ h1) e := by
  generalize hx : Res.err e = y at hr
  have blob : ∀ email token, signBlobRequest email token m = signBlobPost email token
      (Json.render (.obj [(s% "payload", .str (b64Encode m))])) := fun _ _ => rfl
  cases hr with
  | getErr hg => cases hx; exact getRuns_err hg
  | getPanic => cases hx
  | @post h2 h3 email token _ hg hf =>
    cases hx
    obtain ⟨tr, hl, hc⟩ := fetchRuns_err hf
    rw [blob] at hl
    have ht : BlobTrouble env bt.baseUrl bt.id tr (h ++ (h2 ++ h3)) := ⟨h ++ h2, h3, email, token, _, by simp, getRuns_pair hg, hl⟩
    rcases hc with ⟨rfl, rfl⟩ | ⟨rfl, rfl⟩ | ⟨s, b, rfl, rfl⟩ | ⟨rfl, rfl⟩ | ⟨rfl, rfl⟩ <;> exact ht
  | @unreadable h2 h3 email token body hg hf hp =>
    cases hx
    obtain ⟨s, a1, a2, rfl⟩ := fetchRuns_ok hf
    refine ⟨body, ⟨h ++ h2, s, email, token, _, by rw [blob]; simp; rfl, getRuns_pair hg, a1, a2⟩, ?_⟩
    rintro ⟨blob, hb⟩
    rw [parseSignBlobResponse_iff.2 hb] at hp
    cases hp
  | @base64 h2 h3 email token body bl hg hf hp hb =>
    cases hx
    obtain ⟨s, a1, a2, rfl⟩ := fetchRuns_ok hf
    refine ⟨body, bl, ⟨h ++ h2, s, email, token, _, by rw [blob]; simp; rfl, getRuns_pair hg, a1, a2⟩, parseSignBlobResponse_iff.1 hp, ?_⟩
    rw [← b64Decode_eq]
    exact hb
  | ok => cases hx

theorem signRuns_panic {env : Env} {bt : BoundToken} {m : Bytes} {h h1 : List Ev} {site : PanicSite}
    (hr : SignRuns env bt m h1 (.panic site)) : ExplainsPanic bt.baseUrl bt.id (h ++ h1) site := by
  generalize hx : Res.panic site = y at hr
  cases hr with
  | getPanic hg => cases hx; exact getRuns_panic hg
  | _ => cases hx

/-! ### Trouble is never swallowed -/

theorem calm_nil : ¬ HadTrouble [] := by rintro (h | ⟨_, h, _⟩ | h) <;> simp at h

theorem trouble_append {a b : List Ev} : HadTrouble (a ++ b) ↔ HadTrouble a ∨ HadTrouble b := by
  unfold HadTrouble
  simp only [List.mem_append]
  constructor
  · rintro ((h | h) | ⟨s, h | h, hs⟩ | h | h)
    · exact .inl (.inl h)
    · exact .inr (.inl h)
    · exact .inl (.inr (.inl ⟨s, h, hs⟩))
    · exact .inr (.inr (.inl ⟨s, h, hs⟩))
    · exact .inl (.inr (.inr h))
    · exact .inr (.inr (.inr h))
  · rintro ((h | ⟨s, h, hs⟩ | h) | (h | ⟨s, h, hs⟩ | h))
    · exact .inl (.inl h)
    · exact .inr (.inl ⟨s, .inl h, hs⟩)
    · exact .inr (.inr (.inl h))
    · exact .inl (.inr h)
    · exact .inr (.inl ⟨s, .inr h, hs⟩)
    · exact .inr (.inr (.inr h))

/-- Steps that are not about answers are no trouble. -/
theorem calm_one {e : Ev} (h1 : ∀ s, e ≠ .status s) (h2 : ∀ b, e ≠ .body b) : ¬ HadTrouble [e] := by
  rintro (h | ⟨s, h, _⟩ | h)
  · exact h1 _ (by simpa using (List.mem_singleton.1 h).symm)
  · exact h1 _ (by simpa using (List.mem_singleton.1 h).symm)
  · exact h2 _ (by simpa using (List.mem_singleton.1 h).symm)

theorem fetchRuns_calm {env : Env} {e : FetchErrors} {r : Request} {h : List Ev} {t : Str}
    (hf : FetchRuns env e r h (.ok t)) : ¬ HadTrouble h := by
  obtain ⟨s, h1, h2, rfl⟩ := fetchRuns_ok hf
  rintro (h | ⟨s, h, hs⟩ | h)
  · simp at h
  · simp at h; omega
  · simp at h

theorem calm_append {a b : List Ev} (ha : ¬ HadTrouble a) (hb : ¬ HadTrouble b) : ¬ HadTrouble (a ++ b) := by
  rw [trouble_append]
  exact fun h => h.elim ha hb

theorem refreshRuns_calm {env : Env} {bt : BoundToken} {h : List Ev} {x : Res BoundTokenError (Str × Str)}
    (hr : RefreshRuns env bt h x) (hx : ∀ e, x ≠ .err e) : ¬ HadTrouble h := by
  cases hr with
  | overflow hf1 hf2 => exact calm_append (calm_append (fetchRuns_calm hf1) (fetchRuns_calm hf2)) (calm_one (by simp) (by simp))
  | @ok _ _ _ _ _ now hf1 hf2 =>
    exact calm_append (calm_append (fetchRuns_calm hf1) (fetchRuns_calm hf2))
      (calm_append (a := [_]) (calm_one (by simp) (by simp)) (calm_one (by simp) (by simp)))
  | email => exact absurd rfl (hx _)
  | token => exact absurd rfl (hx _)
  | unreadable => exact absurd rfl (hx _)
  | type => exact absurd rfl (hx _)

theorem getRuns_calm {env : Env} {bt : BoundToken} {h : List Ev} {x : Res BoundTokenError (Str × Str)}
    (hr : GetRuns env bt h x) (hx : ∀ e, x ≠ .err e) : ¬ HadTrouble h := by
  have one : ∀ e : Ev, (∀ s, e ≠ .status s) → (∀ b, e ≠ .body b) → ¬ HadTrouble [e] := fun _ => calm_one
  cases hr with
  | empty hr =>
    exact calm_append (calm_append (a := [_]) (one _ (by simp) (by simp)) (refreshRuns_calm hr hx)) (one _ (by simp) (by simp))
  | stale _ _ _ hr =>
    exact calm_append (calm_append (a := [_]) (one _ (by simp) (by simp))
      (calm_append (a := [_]) (one _ (by simp) (by simp)) (refreshRuns_calm hr hx))) (one _ (by simp) (by simp))
  | expires => exact calm_append (a := [_]) (one _ (by simp) (by simp)) (one _ (by simp) (by simp))
  | clock => exact calm_append (a := [_]) (one _ (by simp) (by simp)) (calm_append (a := [_]) (one _ (by simp) (by simp)) (one _ (by simp) (by simp)))
  | fresh => exact calm_append (a := [_]) (one _ (by simp) (by simp)) (calm_append (a := [_]) (one _ (by simp) (by simp)) (one _ (by simp) (by simp)))

theorem signRuns_calm {env : Env} {bt : BoundToken} {m : Bytes} {h : List Ev} {x : Res BoundTokenError Bytes}
    (hr : SignRuns env bt m h x) (hx : ∀ e, x ≠ .err e) : ¬ HadTrouble h := by
  cases hr with
  | getErr => exact absurd rfl (hx _)
  | getPanic hg => exact getRuns_calm hg (by simp)
  | post => exact absurd rfl (hx _)
  | unreadable => exact absurd rfl (hx _)
  | base64 => exact absurd rfl (hx _)
  | ok hg hf => exact calm_append (getRuns_calm hg (by simp)) (fetchRuns_calm hf)

end CSS
