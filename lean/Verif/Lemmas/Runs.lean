import Verif.Lemmas.Critical
import Verif.Lemmas.FormEq
/-
Complete runs of programs: what a call that has returned did, from its start to its end.
-/
set_option linter.unusedSimpArgs false
namespace CSS
open Spec

/-- The program does `h` and has then become `q`. -/
inductive Prog.Does {α : Type} : Prog α → List Ev → Prog α → Prop where
  | nil (p : Prog α) : Does p [] p
  | snoc {p q q' : Prog α} {h : List Ev} {e : Ev} : Does p h q → q.Step e q' → Does p (h ++ [e]) q'

theorem Prog.Does.cons {α : Type} {p p' q : Prog α} {e : Ev} {h : List Ev} (hs : p.Step e p') (hd : p'.Does h q) :
    p.Does (e :: h) q := by
  induction hd with
  | nil => exact (Prog.Does.nil _).snoc hs
  | snoc h1 h2 ih => exact ih.snoc h2

theorem Prog.Does.uncons {α : Type} {p q : Prog α} {h : List Ev} (hd : p.Does h q) :
    (h = [] ∧ q = p) ∨ ∃ e h' p', h = e :: h' ∧ p.Step e p' ∧ p'.Does h' q := by
  induction hd with
  | nil => exact .inl ⟨rfl, rfl⟩
  | snoc h1 h2 ih =>
    right
    rcases ih with ⟨rfl, rfl⟩ | ⟨e, h', p', rfl, hs, hd⟩
    · exact ⟨_, [], _, rfl, h2, .nil _⟩
    · exact ⟨e, _, p', rfl, hs, hd.snoc h2⟩

/-- The program does `h` and returns `a`. -/
def Prog.Runs {α : Type} (p : Prog α) (h : List Ev) (a : α) : Prop := p.Does h (.ret a)

theorem Prog.Runs.ret {α : Type} {a b : α} {h : List Ev} (hr : (Prog.ret a).Runs h b) : h = [] ∧ b = a := by
  rcases Prog.Does.uncons hr with ⟨rfl, h⟩ | ⟨e, h', p', _, hs, _⟩
  · exact ⟨rfl, by cases h; rfl⟩
  · cases hs

theorem Prog.Runs.now {α : Type} {k : Time → Prog α} {b : α} {h : List Ev} (hr : (Prog.now k).Runs h b) :
    ∃ t h', h = .clock t :: h' ∧ (k t).Runs h' b := by
  rcases Prog.Does.uncons hr with ⟨_, h⟩ | ⟨e, h', p', rfl, hs, hd⟩
  · cases h
  · cases hs; exact ⟨_, _, rfl, hd⟩

theorem Prog.Runs.lock {α : Type} {id : Nat} {k : Option Cached → Prog α} {b : α} {h : List Ev} (hr : (Prog.lock id k).Runs h b) :
    ∃ c h', h = .locked id c :: h' ∧ (k c).Runs h' b := by
  rcases Prog.Does.uncons hr with ⟨_, h⟩ | ⟨e, h', p', rfl, hs, hd⟩
  · cases h
  · cases hs; exact ⟨_, _, rfl, hd⟩

theorem Prog.Runs.store {α : Type} {id : Nat} {c : Cached} {k : Prog α} {b : α} {h : List Ev} (hr : (Prog.store id c k).Runs h b) :
    ∃ h', h = .stored id c :: h' ∧ k.Runs h' b := by
  rcases Prog.Does.uncons hr with ⟨_, h⟩ | ⟨e, h', p', rfl, hs, hd⟩
  · cases h
  · cases hs; exact ⟨_, rfl, hd⟩

theorem Prog.Runs.unlock {α : Type} {id : Nat} {k : Prog α} {b : α} {h : List Ev} (hr : (Prog.unlock id k).Runs h b) :
    ∃ h', h = .unlocked id :: h' ∧ k.Runs h' b := by
  rcases Prog.Does.uncons hr with ⟨_, h⟩ | ⟨e, h', p', rfl, hs, hd⟩
  · cases h
  · cases hs; exact ⟨_, rfl, hd⟩

theorem Prog.Runs.send {α : Type} {r : Request} {k : Prog α} {b : α} {h : List Ev} (hr : (Prog.send r k).Runs h b) :
    ∃ h', h = .sent r :: h' ∧ k.Runs h' b := by
  rcases Prog.Does.uncons hr with ⟨_, h⟩ | ⟨e, h', p', rfl, hs, hd⟩
  · cases h
  · cases hs; exact ⟨_, rfl, hd⟩

theorem Prog.Runs.recv {α : Type} {k : Option Nat → Prog α} {b : α} {h : List Ev} (hr : (Prog.recv k).Runs h b) :
    ∃ s h', h = .status s :: h' ∧ (k s).Runs h' b := by
  rcases Prog.Does.uncons hr with ⟨_, h⟩ | ⟨e, h', p', rfl, hs, hd⟩
  · cases h
  · cases hs; exact ⟨_, _, rfl, hd⟩

theorem Prog.Runs.text {α : Type} {k : Option Str → Prog α} {b : α} {h : List Ev} (hr : (Prog.text k).Runs h b) :
    ∃ s h', h = .body s :: h' ∧ (k s).Runs h' b := by
  rcases Prog.Does.uncons hr with ⟨_, h⟩ | ⟨e, h', p', rfl, hs, hd⟩
  · cases h
  · cases hs; exact ⟨_, _, rfl, hd⟩

theorem Prog.Runs.bind {α β : Type} {p : Prog α} {f : α → Prog β} {b : β} : ∀ {h : List Ev}, (p.bind f).Runs h b →
    ∃ h1 a h2, h = h1 ++ h2 ∧ p.Runs h1 a ∧ (f a).Runs h2 b := by
  induction p with
  | ret a => exact fun {h} hr => ⟨[], a, h, rfl, .nil _, hr⟩
  | now k ih =>
    intro h hr
    obtain ⟨t, h', rfl, hr'⟩ := Prog.Runs.now hr
    obtain ⟨h1, a, h2, rfl, h3, h4⟩ := ih t hr'
    exact ⟨_ :: h1, a, h2, rfl, Prog.Does.cons (.now ..) h3, h4⟩
  | lock id k ih =>
    intro h hr
    obtain ⟨t, h', rfl, hr'⟩ := Prog.Runs.lock hr
    obtain ⟨h1, a, h2, rfl, h3, h4⟩ := ih t hr'
    exact ⟨_ :: h1, a, h2, rfl, Prog.Does.cons (.lock ..) h3, h4⟩
  | store id c k ih =>
    intro h hr
    obtain ⟨h', rfl, hr'⟩ := Prog.Runs.store hr
    obtain ⟨h1, a, h2, rfl, h3, h4⟩ := ih hr'
    exact ⟨_ :: h1, a, h2, rfl, Prog.Does.cons (.store ..) h3, h4⟩
  | unlock id k ih =>
    intro h hr
    obtain ⟨h', rfl, hr'⟩ := Prog.Runs.unlock hr
    obtain ⟨h1, a, h2, rfl, h3, h4⟩ := ih hr'
    exact ⟨_ :: h1, a, h2, rfl, Prog.Does.cons (.unlock ..) h3, h4⟩
  | send r k ih =>
    intro h hr
    obtain ⟨h', rfl, hr'⟩ := Prog.Runs.send hr
    obtain ⟨h1, a, h2, rfl, h3, h4⟩ := ih hr'
    exact ⟨_ :: h1, a, h2, rfl, Prog.Does.cons (.send ..) h3, h4⟩
  | recv k ih =>
    intro h hr
    obtain ⟨t, h', rfl, hr'⟩ := Prog.Runs.recv hr
    obtain ⟨h1, a, h2, rfl, h3, h4⟩ := ih t hr'
    exact ⟨_ :: h1, a, h2, rfl, Prog.Does.cons (.recv ..) h3, h4⟩
  | text k ih =>
    intro h hr
    obtain ⟨t, h', rfl, hr'⟩ := Prog.Runs.text hr
    obtain ⟨h1, a, h2, rfl, h3, h4⟩ := ih t hr'
    exact ⟨_ :: h1, a, h2, rfl, Prog.Does.cons (.text ..) h3, h4⟩

/-- What a program returns is determined by what it did. -/
theorem Prog.Runs.unique {α : Type} {p : Prog α} {a b : α} : ∀ {h : List Ev}, p.Runs h a → p.Runs h b → a = b := by
  have step : ∀ {p q q' : Prog α} {e : Ev}, p.Step e q → p.Step e q' → q = q' := by
    intro p q q' e h1 h2
    cases h1 <;> cases h2 <;> rfl
  intro h
  induction h generalizing p with
  | nil =>
    intro h1 h2
    rcases Prog.Does.uncons h1 with ⟨_, h1⟩ | ⟨_, _, _, h1, _⟩
    · rcases Prog.Does.uncons h2 with ⟨_, h2⟩ | ⟨_, _, _, h2, _⟩
      · rw [← h1] at h2; cases h2; rfl
      · cases h2
    · cases h1
  | cons e h ih =>
    intro h1 h2
    rcases Prog.Does.uncons h1 with ⟨h1, _⟩ | ⟨_, _, _, h1, s1, d1⟩
    · cases h1
    rcases Prog.Does.uncons h2 with ⟨h2, _⟩ | ⟨_, _, _, h2, s2, d2⟩
    · cases h2
    cases h1
    cases h2
    rw [step s1 s2] at d1
    exact ih d1 d2

/-! ### Functions with outcomes -/

theorem runs_bind {ε α β : Type} {p : P ε α} {f : α → P ε β} {h : List Ev} {r : Res ε β}
    (hr : Prog.Runs (p >>= f : P ε β) h r) :
    (∃ h1 a h2, h = h1 ++ h2 ∧ Prog.Runs p h1 (.ok a) ∧ Prog.Runs (f a) h2 r) ∨
    (∃ e, r = .err e ∧ Prog.Runs p h (.err e)) ∨ ∃ s, r = .panic s ∧ Prog.Runs p h (.panic s) := by
  obtain ⟨h1, a, h2, rfl, h3, h4⟩ := Prog.Runs.bind (p := p) hr
  cases a with
  | ok a => exact .inl ⟨h1, a, h2, rfl, h3, h4⟩
  | err e =>
    obtain ⟨rfl, rfl⟩ := Prog.Runs.ret h4
    exact .inr (.inl ⟨e, rfl, by rw [List.append_nil]; exact h3⟩)
  | panic e =>
    obtain ⟨rfl, rfl⟩ := Prog.Runs.ret h4
    exact .inr (.inr ⟨e, rfl, by rw [List.append_nil]; exact h3⟩)

theorem runs_mapErr {ε ε' α : Type} {p : P ε α} {f : ε → ε'} {h : List Ev} {r : Res ε' α}
    (hr : Prog.Runs (P.mapErr f p) h r) : ∃ r', r = r'.mapErr f ∧ Prog.Runs p h r' := by
  obtain ⟨h1, a, h2, rfl, h3, h4⟩ := Prog.Runs.bind (p := p) hr
  obtain ⟨rfl, rfl⟩ := Prog.Runs.ret h4
  exact ⟨a, rfl, by rw [List.append_nil]; exact h3⟩

/-- What a call returned is what its program returns after doing what the call did. -/
theorem returned_runs {env : Env} {base : Nat → Str} {s : Sys} (h : Sys.Reach env base s) {pre post : List Event} {i : Nat}
    {r : ApiResult} {call : ApiCall} (ht : s.trace = pre ++ .returned i r :: post) (hst : .started i call ∈ pre) :
    (call.prog env).Runs (did pre i) r := by
  have inv : ∀ {s : Sys}, Sys.Reach env base s → ∀ i p, s.calls i = some p →
      ∃ call, .started i call ∈ s.trace ∧ (call.prog env).Does (did s.trace i) p := by
    intro s h
    induction h with
    | init => intro i p hp; cases hp
    | step s s' hr hs ih =>
      intro i p hp
      rcases step_cases hs with ⟨j, call, ht, _, hf, hc⟩ | ⟨j, e, q, q', ht, hq, hst, _, hc⟩ | ⟨j, r, ht, _, hq, hc⟩ |
        ⟨j, q, ht, _, hq, _, _, hc⟩
      all_goals
        rw [hc] at hp
        rw [ht]
        simp only at hp
        split at hp
        rename_i hij
      · subst hij
        cases hp
        refine ⟨call, by simp, ?_⟩
        rw [did_append, did_unused hf]
        exact .nil _
      · obtain ⟨c, h1, h2⟩ := ih i p hp
        refine ⟨c, by simp [h1], ?_⟩
        rw [did_append]
        simpa [did] using h2
      · subst hij
        cases hp
        obtain ⟨c, h1, h2⟩ := ih i q hq
        refine ⟨c, by simp [h1], ?_⟩
        rw [did_snoc_self]
        exact h2.snoc hst
      · rename_i hij
        obtain ⟨c, h1, h2⟩ := ih i p hp
        refine ⟨c, by simp [h1], ?_⟩
        rw [did_snoc_other _ _ (fun h => hij h.symm)]
        exact h2
      · cases hp
      · obtain ⟨c, h1, h2⟩ := ih i p hp
        refine ⟨c, by simp [h1], ?_⟩
        rw [did_append]
        simpa [did] using h2
      · cases hp
      · obtain ⟨c, h1, h2⟩ := ih i p hp
        refine ⟨c, by simp [h1], ?_⟩
        rw [did_append]
        simpa [did] using h2
  obtain ⟨s1, s2, hr, hs, rfl, h2⟩ := reach_split h ht
  rcases step_cases hs with ⟨j, call, ht, _⟩ | ⟨j, e, p, q, ht, _⟩ | ⟨j, r', ht, _, hp, _⟩ | ⟨j, p, ht, _⟩
  all_goals
    rw [ht] at h2
    have := List.append_cancel_left h2
    simp only [List.cons.injEq, reduceCtorEq, Event.returned.injEq, and_true] at this
  obtain ⟨rfl, rfl⟩ := this
  obtain ⟨call', hst', hd⟩ := inv hr j _ hp
  rw [started_unique hr hst hst']
  exact hd

/-! ### The pieces of a bound token -/

/-- How a request can end: the steps and the outcome. -/
inductive FetchRuns (env : Env) (e : FetchErrors) (r : Request) : List Ev → Res BoundTokenError Str → Prop where
  | build : env.canBuild r = false → FetchRuns env e r [] (.err e.build)
  | execute : FetchRuns env e r [.sent r, .status none] (.err e.execute)
  | unread (s : Nat) : 200 ≤ s → s ≤ 299 → FetchRuns env e r [.sent r, .status (some s), .body none] (.err e.successResponse)
  | ok (s : Nat) (t : Str) : 200 ≤ s → s ≤ 299 → FetchRuns env e r [.sent r, .status (some s), .body (some t)] (.ok t)
  | refusedUnread (s : Nat) : (s < 200 ∨ 299 < s) → FetchRuns env e r [.sent r, .status (some s), .body none] (.err e.errorResponse)
  | refused (s : Nat) (t : Str) : (s < 200 ∨ 299 < s) →
      FetchRuns env e r [.sent r, .status (some s), .body (some t)] (.err (e.status s t))

theorem fetchText_runs {env : Env} {e : FetchErrors} {r : Request} {h : List Ev} {x : Res BoundTokenError Str}
    (hr : Prog.Runs (fetchTextP env e r) h x) : FetchRuns env e r h x := by
  unfold fetchTextP at hr
  split at hr
  · rename_i hb
    obtain ⟨rfl, rfl⟩ := Prog.Runs.ret hr
    exact .build hb
  · obtain ⟨h1, rfl, hr1⟩ := Prog.Runs.send hr
    obtain ⟨s, h2, rfl, hr2⟩ := Prog.Runs.recv hr1
    clear hr hr1
    cases s with
    | none =>
      obtain ⟨rfl, rfl⟩ := Prog.Runs.ret hr2
      exact .execute
    | some s =>
      simp only at hr2
      split at hr2
      · rename_i hs
        have hs : 200 ≤ s ∧ s < 300 := by simpa [isSuccess] using hs
        obtain ⟨t, h3, rfl, hr3⟩ := Prog.Runs.text hr2
        clear hr2
        cases t with
        | none =>
          obtain ⟨rfl, rfl⟩ := Prog.Runs.ret hr3
          exact .unread s hs.1 (by omega)
        | some t =>
          obtain ⟨rfl, rfl⟩ := Prog.Runs.ret hr3
          exact .ok s t hs.1 (by omega)
      · rename_i hs
        have hs : s < 200 ∨ 299 < s := by
          simp [isSuccess] at hs
          omega
        obtain ⟨t, h3, rfl, hr3⟩ := Prog.Runs.text hr2
        clear hr2
        cases t with
        | none =>
          obtain ⟨rfl, rfl⟩ := Prog.Runs.ret hr3
          exact .refusedUnread s hs
        | some t =>
          obtain ⟨rfl, rfl⟩ := Prog.Runs.ret hr3
          exact .refused s t hs

/-- How a refresh can end. -/
inductive RefreshRuns (env : Env) (bt : BoundToken) : List Ev → Res BoundTokenError (Str × Str) → Prop where
  | email {h : List Ev} {e : BoundTokenError} : FetchRuns env emailErrors (emailRequest bt) h (.err e) → RefreshRuns env bt h (.err e)
  | token {h1 h2 : List Ev} {email : Str} {e : BoundTokenError} : FetchRuns env emailErrors (emailRequest bt) h1 (.ok email) →
      FetchRuns env tokenErrors (tokenRequest bt) h2 (.err e) → RefreshRuns env bt (h1 ++ h2) (.err e)
  | unreadable {h1 h2 : List Ev} {email body : Str} : FetchRuns env emailErrors (emailRequest bt) h1 (.ok email) →
      FetchRuns env tokenErrors (tokenRequest bt) h2 (.ok body) → parseAccessToken body = none →
      RefreshRuns env bt (h1 ++ h2) (.err .tokenRequestSuccessResponseDeserialize)
  | type {h1 h2 : List Ev} {email body : Str} {t : AccessToken} : FetchRuns env emailErrors (emailRequest bt) h1 (.ok email) →
      FetchRuns env tokenErrors (tokenRequest bt) h2 (.ok body) → parseAccessToken body = some t → t.tokenType ≠ s% "Bearer" →
      RefreshRuns env bt (h1 ++ h2) (.err (.tokenRequestInvalidTokenType t.tokenType))
  | overflow {h1 h2 : List Ev} {email body : Str} {t : AccessToken} {now : Time} :
      FetchRuns env emailErrors (emailRequest bt) h1 (.ok email) →
      FetchRuns env tokenErrors (tokenRequest bt) h2 (.ok body) → parseAccessToken body = some t → t.tokenType = s% "Bearer" →
      timeLimit ≤ now + (t.expiresIn : Int) * nsPerSec → RefreshRuns env bt (h1 ++ h2 ++ [.clock now]) (.panic .expiresOverflow)
  | ok {h1 h2 : List Ev} {email body : Str} {t : AccessToken} {now : Time} :
      FetchRuns env emailErrors (emailRequest bt) h1 (.ok email) →
      FetchRuns env tokenErrors (tokenRequest bt) h2 (.ok body) → parseAccessToken body = some t → t.tokenType = s% "Bearer" →
      now + (t.expiresIn : Int) * nsPerSec < timeLimit →
      RefreshRuns env bt (h1 ++ h2 ++ [.clock now, .stored bt.id ⟨email, t.accessToken, now + (t.expiresIn : Int) * nsPerSec⟩])
        (.ok (email, t.accessToken))

theorem fetch_no_panic {env : Env} {e : FetchErrors} {r : Request} {h : List Ev} {s : PanicSite}
    (hf : FetchRuns env e r h (.panic s)) : False := by cases hf

theorem refresh_runs {env : Env} {bt : BoundToken} {h : List Ev} {x : Res BoundTokenError (Str × Str)}
    (hr : Prog.Runs (refreshP env bt) h x) : RefreshRuns env bt h x := by
  unfold refreshP at hr
  rcases runs_bind hr with ⟨h1, email, h2, rfl, hf1, hr⟩ | ⟨e, rfl, hf⟩ | ⟨s, rfl, hf⟩
  · replace hf1 := fetchText_runs hf1
    rcases runs_bind hr with ⟨h3, body, h4, rfl, hf2, hr⟩ | ⟨e, rfl, hf⟩ | ⟨s, rfl, hf⟩
    · replace hf2 := fetchText_runs hf2
      cases hp : parseAccessToken body with
      | none =>
        rw [hp] at hr
        obtain ⟨rfl, rfl⟩ := Prog.Runs.ret hr
        rw [List.append_nil]
        exact .unreadable hf1 hf2 hp
      | some t =>
        rw [hp] at hr
        simp only at hr
        split at hr
        · rename_i ht
          obtain ⟨rfl, rfl⟩ := Prog.Runs.ret hr
          rw [List.append_nil]
          exact .type hf1 hf2 hp ht
        · rename_i ht
          have ht : t.tokenType = s% "Bearer" := by simpa using ht
          obtain ⟨now, h5, rfl, hr'⟩ := Prog.Runs.now hr
          clear hr
          replace hr : Prog.Runs (if timeLimit ≤ now + (t.expiresIn : Int) * nsPerSec then P.panic .expiresOverflow
            else storeP bt.id ⟨email, t.accessToken, now + (t.expiresIn : Int) * nsPerSec⟩ >>= fun _ => pure (email, t.accessToken) :
              P BoundTokenError (Str × Str)) h5 x := hr'
          split at hr
          · rename_i hl
            obtain ⟨rfl, rfl⟩ := Prog.Runs.ret hr
            rw [← List.append_assoc]
            exact .overflow hf1 hf2 hp ht hl
          · rename_i hl
            obtain ⟨h6, rfl, hr2⟩ := Prog.Runs.store hr
            obtain ⟨rfl, rfl⟩ := Prog.Runs.ret hr2
            rw [← List.append_assoc]
            exact .ok hf1 hf2 hp ht (by omega)
    · exact .token hf1 (fetchText_runs hf)
    · exact (fetch_no_panic (fetchText_runs hf)).elim
  · exact .email (fetchText_runs hf)
  · exact (fetch_no_panic (fetchText_runs hf)).elim

/-- How getting e-mail and token can end. -/
inductive GetRuns (env : Env) (bt : BoundToken) : List Ev → Res BoundTokenError (Str × Str) → Prop where
  | empty {h : List Ev} {x : Res BoundTokenError (Str × Str)} : RefreshRuns env bt h x →
      GetRuns env bt (.locked bt.id none :: h ++ [.unlocked bt.id]) x
  | expires {c : Cached} : c.expires < 0 → GetRuns env bt [.locked bt.id (some c), .unlocked bt.id] (.panic .expiresBeforeEpoch)
  | clock {c : Cached} {t : Time} : 0 ≤ c.expires → t < 0 →
      GetRuns env bt [.locked bt.id (some c), .clock t, .unlocked bt.id] (.panic .nowBeforeEpoch)
  | fresh {c : Cached} {t : Time} : 0 ≤ c.expires → 0 ≤ t → t + 30 * nsPerSec < c.expires →
      GetRuns env bt [.locked bt.id (some c), .clock t, .unlocked bt.id] (.ok (c.email, c.token))
  | stale {c : Cached} {t : Time} {h : List Ev} {x : Res BoundTokenError (Str × Str)} : 0 ≤ c.expires → 0 ≤ t →
      c.expires ≤ t + 30 * nsPerSec → RefreshRuns env bt h x →
      GetRuns env bt (.locked bt.id (some c) :: .clock t :: h ++ [.unlocked bt.id]) x

theorem get_runs {env : Env} {bt : BoundToken} {h : List Ev} {x : Res BoundTokenError (Str × Str)}
    (hr : Prog.Runs (getP env bt) h x) : GetRuns env bt h x := by
  unfold getP at hr
  obtain ⟨c, h1, rfl, hr1⟩ := Prog.Runs.lock hr
  obtain ⟨h2, y, h3, rfl, hl, hr2⟩ := Prog.Runs.bind hr1
  obtain ⟨h4, rfl, hr3⟩ := Prog.Runs.unlock hr2
  obtain ⟨rfl, rfl⟩ := Prog.Runs.ret hr3
  cases c with
  | none => exact .empty (refresh_runs hl)
  | some c =>
    simp only [lockedP] at hl
    rcases runs_bind hl with ⟨h5, fresh, h6, rfl, hf, hr⟩ | ⟨e, rfl, hf⟩ | ⟨s, rfl, hf⟩
    all_goals
      unfold cacheFreshP at hf
      split at hf
      rename_i hneg
    · obtain ⟨_, h⟩ := Prog.Runs.ret hf; cases h
    · rename_i hneg
      obtain ⟨t, h7, rfl, hf'⟩ := Prog.Runs.now hf
      clear hf
      replace hf : Prog.Runs (if t < 0 then P.panic .nowBeforeEpoch else pure (decide (c.expires > t + 30 * nsPerSec)) :
        P BoundTokenError Bool) h7 _ := hf'
      split at hf
      · obtain ⟨_, h⟩ := Prog.Runs.ret hf; cases h
      · rename_i ht
        obtain ⟨rfl, hfr⟩ := Prog.Runs.ret hf
        simp only [Res.ok.injEq] at hfr
        subst hfr
        split at hr
        · rename_i hfr
          obtain ⟨rfl, rfl⟩ := Prog.Runs.ret hr
          exact .fresh (by omega) (by omega) (by simpa using hfr)
        · rename_i hfr
          refine .stale (by omega) (by omega) ?_ (refresh_runs hr)
          have : ¬ c.expires > t + 30 * nsPerSec := by simpa using hfr
          omega
    · obtain ⟨_, h⟩ := Prog.Runs.ret hf; cases h
    · rename_i hneg
      obtain ⟨t, h7, rfl, hf'⟩ := Prog.Runs.now hf
      clear hf
      replace hf : Prog.Runs (if t < 0 then P.panic .nowBeforeEpoch else pure (decide (c.expires > t + 30 * nsPerSec)) :
        P BoundTokenError Bool) h7 _ := hf'
      split at hf
      · obtain ⟨_, h⟩ := Prog.Runs.ret hf; cases h
      · obtain ⟨_, h⟩ := Prog.Runs.ret hf; cases h
    · obtain ⟨rfl, h⟩ := Prog.Runs.ret hf
      cases h
      exact .expires hneg
    · rename_i hneg
      obtain ⟨t, h7, rfl, hf'⟩ := Prog.Runs.now hf
      clear hf
      replace hf : Prog.Runs (if t < 0 then P.panic .nowBeforeEpoch else pure (decide (c.expires > t + 30 * nsPerSec)) :
        P BoundTokenError Bool) h7 _ := hf'
      split at hf
      · rename_i ht
        obtain ⟨rfl, h⟩ := Prog.Runs.ret hf
        cases h
        exact .clock (by omega) ht
      · obtain ⟨_, h⟩ := Prog.Runs.ret hf; cases h

/-- How signing can end. -/
inductive SignRuns (env : Env) (bt : BoundToken) (m : Bytes) : List Ev → Res BoundTokenError Bytes → Prop where
  | getErr {h : List Ev} {e : BoundTokenError} : GetRuns env bt h (.err e) → SignRuns env bt m h (.err e)
  | getPanic {h : List Ev} {s : PanicSite} : GetRuns env bt h (.panic s) → SignRuns env bt m h (.panic s)
  | post {h1 h2 : List Ev} {email token : Str} {e : BoundTokenError} : GetRuns env bt h1 (.ok (email, token)) →
      FetchRuns env signBlobErrors (signBlobRequest email token m) h2 (.err e) → SignRuns env bt m (h1 ++ h2) (.err e)
  | unreadable {h1 h2 : List Ev} {email token body : Str} : GetRuns env bt h1 (.ok (email, token)) →
      FetchRuns env signBlobErrors (signBlobRequest email token m) h2 (.ok body) → parseSignBlobResponse body = none →
      SignRuns env bt m (h1 ++ h2) (.err .signBlobRequestSuccessResponseDeserialize)
  | base64 {h1 h2 : List Ev} {email token body blob : Str} : GetRuns env bt h1 (.ok (email, token)) →
      FetchRuns env signBlobErrors (signBlobRequest email token m) h2 (.ok body) → parseSignBlobResponse body = some blob →
      b64Decode blob = none → SignRuns env bt m (h1 ++ h2) (.err .signBlobRequestSuccessResponseBase64Decode)
  | ok {h1 h2 : List Ev} {email token body blob : Str} {signature : Bytes} : GetRuns env bt h1 (.ok (email, token)) →
      FetchRuns env signBlobErrors (signBlobRequest email token m) h2 (.ok body) → parseSignBlobResponse body = some blob →
      b64Decode blob = some signature → SignRuns env bt m (h1 ++ h2) (.ok signature)

theorem sign_runs {env : Env} {bt : BoundToken} {m : Bytes} {h : List Ev} {x : Res BoundTokenError Bytes}
    (hr : Prog.Runs (signP env bt m) h x) : SignRuns env bt m h x := by
  unfold signP at hr
  rcases runs_bind hr with ⟨h1, ⟨email, token⟩, h2, rfl, hg, hr⟩ | ⟨e, rfl, hg⟩ | ⟨s, rfl, hg⟩
  · rcases runs_bind hr with ⟨h3, body, h4, rfl, hf, hr⟩ | ⟨e, rfl, hf⟩ | ⟨s, rfl, hf⟩
    · cases hp : parseSignBlobResponse body with
      | none =>
        rw [hp] at hr
        obtain ⟨rfl, rfl⟩ := Prog.Runs.ret hr
        rw [List.append_nil]
        exact .unreadable (get_runs hg) (fetchText_runs hf) hp
      | some blob =>
        rw [hp] at hr
        simp only at hr
        cases hb : b64Decode blob with
        | none =>
          rw [hb] at hr
          obtain ⟨rfl, rfl⟩ := Prog.Runs.ret hr
          rw [List.append_nil]
          exact .base64 (get_runs hg) (fetchText_runs hf) hp hb
        | some sg =>
          rw [hb] at hr
          obtain ⟨rfl, rfl⟩ := Prog.Runs.ret hr
          rw [List.append_nil]
          exact .ok (get_runs hg) (fetchText_runs hf) hp hb
    · exact .post (get_runs hg) (fetchText_runs hf)
    · exact (fetch_no_panic (fetchText_runs hf)).elim
  · exact .getErr (get_runs hg)
  · exact .getPanic (get_runs hg)

end CSS
