import Verif.Lemmas.FifoLock
/-
C90. First come, first served.
-/
namespace CSS
open Spec
variable {env : Env} {base : Nat → Str}

/-! ### the queue adds no behaviour and takes none away -/

theorem fifo_of_reach {s : Sys} (h : Sys.Reach env base s) :
    ∃ f : FifoSys, FifoSys.Reach env base f ∧ f.sys = s ∧ ∀ id, f.queue id = [] := by
  induction h with
  | init => exact ⟨FifoSys.init, .init, rfl, fun _ => rfl⟩
  | step s s' hr hs ih =>
    obtain ⟨f, hf, hfs, hq⟩ := ih
    subst hfs
    obtain ⟨e, he⟩ := step_snoc hs
    by_cases hl : ∃ i id c, e = .did i (.locked id c)
    · obtain ⟨i, id, c, rfl⟩ := hl
      obtain ⟨_, k, hk⟩ := locked_from hs he
      have h1 : FifoSys.Step env base f { f with queue := fun x => if x = id then f.queue id ++ [i] else f.queue x } :=
        .ask f i id k hk (by rw [hq]; simp)
      refine ⟨_, .step _ _ (.step _ _ hf h1) (.take _ s' i id c [] ?_ hs he), rfl, ?_⟩
      · simp [hq]
      · intro x
        simp only
        split
        · rfl
        · simp [hq]
    · by_cases hc : ∃ i, e = .cancelled i
      · obtain ⟨i, rfl⟩ := hc
        exact ⟨_, .step _ _ hf (.drop f s' i hs he), rfl, fun x => by simp [hq]⟩
      · exact ⟨_, .step _ _ hf (.other f s' e hs he (fun i id c h => hl ⟨i, id, c, h⟩) (fun i h => hc ⟨i, h⟩)), rfl, hq⟩

/-- C90. What can happen is the same with the queue as without: a state is reached by some schedule of the system with
queues exactly when it is reached by some schedule in which any call may have a free lock. So everything that is proved of
all schedules holds with the queues too, and nothing that can happen without them is excluded. -/
theorem C90_same_behaviour (s : Sys) : Sys.Reach env base s ↔ ∃ f : FifoSys, FifoSys.Reach env base f ∧ f.sys = s := by
  constructor
  · intro h
    obtain ⟨f, h1, h2, _⟩ := fifo_of_reach h
    exact ⟨f, h1, h2⟩
  · rintro ⟨f, h, rfl⟩
    exact fifo_reach h

/-! ### nobody is overtaken -/

theorem fifo_new {f f' : FifoSys} (h : FifoSys.Step env base f f') :
    (f'.sys = f.sys) ∨ ∃ e, Sys.Step env base f.sys f'.sys ∧ f'.sys.trace = f.sys.trace ++ [e] := by
  cases h with
  | ask => exact .inl rfl
  | take _ _ _ _ _ _ h ht => exact .inr ⟨_, h, ht⟩
  | drop _ _ h ht => exact .inr ⟨_, h, ht⟩
  | other _ _ h ht => exact .inr ⟨_, h, ht⟩

/-- C90. Call `i` has asked for the lock `id` and the calls `ahead` have asked before it. As long as it is not given the lock
and is not dropped, it stays in the queue, only those calls are given the lock, and it is given at most as many times as
there are such calls — however many other calls ask for it meanwhile, and however often. -/
theorem C90_first_come {f f' : FifoSys} {more : List Event} (h : FifoRun env base f more f') {id i : Nat} {ahead behind : List Nat}
    (hq : f.queue id = ahead ++ i :: behind) (hl : ∀ c, .did i (.locked id c) ∉ more) (hc : .cancelled i ∉ more) :
    i ∈ f'.queue id ∧ (∀ j c, .did j (.locked id c) ∈ more → j ∈ ahead) ∧ timesTaken id more ≤ ahead.length := by
  suffices ∃ a' b', f'.queue id = a' ++ i :: b' ∧ a'.Sublist ahead ∧ a'.length + timesTaken id more ≤ ahead.length ∧
      ∀ j c, .did j (.locked id c) ∈ more → j ∈ ahead by
    obtain ⟨a', b', h1, _, h3, h4⟩ := this
    exact ⟨by rw [h1]; simp, h4, by omega⟩
  induction h with
  | refl => exact ⟨ahead, behind, hq, List.Sublist.refl _, by simp [timesTaken], by simp⟩
  | @step f' f'' more new _ hs ht ih =>
    obtain ⟨a1, b1, h1, h2, h3, h4⟩ := ih (fun c hm => hl c (List.mem_append_left _ hm)) (fun hm => hc (List.mem_append_left _ hm))
    obtain ⟨a2, b2, g1, g2, g3, g4⟩ := ahead_step hs ht h1 (fun c hm => hl c (List.mem_append_right _ hm))
      (fun hm => hc (List.mem_append_right _ hm))
    refine ⟨a2, b2, g1, g2.trans h2, ?_, ?_⟩
    · rw [timesTaken_append]; omega
    · intro j c hm
      rcases List.mem_append.1 hm with hm | hm
      · exact h4 j c hm
      · exact h2.subset (List.mem_of_mem_head? (g4 j c hm))

/-! ### weak fairness suffices -/

theorem holder_not_at_lock {s : Sys} (h : Sys.Reach env base s) {id j : Nat} (hj : s.holder id = some j) (id' : Nat)
    (k : Option Cached → Prog ApiResult) : s.calls j ≠ some (.lock id' k) := by
  intro hpj
  obtain ⟨_, hhj⟩ := ((inv_reach h).lock id j).1 hj
  obtain ⟨call, hcall⟩ := (inv_reach h).running j _ hpj
  have hleg := (hcall.ok.step (.lock id' k none)).1
  rcases hleg with ⟨t, hc⟩ | ⟨bt, hk, hid, hn⟩
  · cases hc
  · obtain ⟨bt', hk', hid'⟩ := hcall.own id hhj
    rw [hk] at hk'
    cases hk'
    rw [hid', hhj] at hn
    cases hn

/-- A call that is not at a lock can go on. -/
theorem fifo_act {f : FifoSys} {i : Nat} {p : Prog ApiResult} (hp : f.sys.calls i = some p) (hl : ∀ id k, p ≠ .lock id k) :
    ∃ f' e, FifoSys.Step env base f f' ∧ f'.sys.trace = f.sys.trace ++ [e] ∧ ((∃ x, e = .did i x) ∨ ∃ r, e = .returned i r) := by
  obtain ⟨s', e, hs, ht, he⟩ := can_go (env := env) (base := base) hp fun id k h => absurd h (hl id k)
  refine ⟨⟨s', f.queue⟩, e, .other f s' e hs ht ?_ ?_, ht, he⟩
  · rintro j id c rfl
    rcases he with ⟨x, he⟩ | ⟨r, he⟩
    · cases he
      obtain ⟨_, k, hk⟩ := locked_from hs ht
      rw [hp] at hk
      cases hk
      exact hl _ _ rfl
    · cases he
  · rintro j rfl
    rcases he with ⟨x, he⟩ | ⟨r, he⟩ <;> cases he

/-- The first in the queue can have a free lock. -/
theorem fifo_take {f : FifoSys} (hr : FifoSys.Reach env base f) {i id : Nat} {rest : List Nat} (hq : f.queue id = i :: rest)
    (hfree : f.sys.holder id = none) : ∃ f' c, FifoSys.Step env base f f' ∧ f'.sys.trace = f.sys.trace ++ [.did i (.locked id c)] := by
  obtain ⟨k, hk⟩ := (fifo_inv hr).waits id i (by rw [hq]; simp)
  obtain ⟨s', e, hs, ht, he⟩ := can_go (env := env) (base := base) hk fun id' k' h => by cases h; exact hfree
  have hei : e.call = i := by rcases he with ⟨x, rfl⟩ | ⟨r, rfl⟩ <;> rfl
  rcases at_lock_event (fifo_reach hr) hs ht hk hei with ⟨c, rfl⟩ | rfl
  · exact ⟨_, c, .take f s' i id c rest hq hs ht, ht⟩
  · rcases he with ⟨x, h⟩ | ⟨r, h⟩ <;> cases h

/-- Who asks is at the lock and was not in its queue, but is afterwards. -/
theorem asks_from {f f' : FifoSys} (h : FifoSys.Step env base f f') {i : Nat} (ha : Asks f f' i) :
    ∃ id k, f.sys.calls i = some (.lock id k) ∧ i ∉ f.queue id ∧ i ∈ f'.queue id := by
  obtain ⟨x, h1, h2⟩ := ha
  cases h with
  | ask j id k hk hn =>
    simp only at h2
    split at h2
    · rename_i hx
      subst hx
      rcases List.mem_append.1 h2 with h2 | h2
      · exact absurd h2 h1
      · rw [List.mem_singleton] at h2
        subst h2
        exact ⟨_, k, hk, h1, by simp⟩
    · exact absurd h2 h1
  | take s' j id c rest hq hs ht =>
    simp only at h2
    split at h2
    · rename_i hx
      subst hx
      exact absurd (by rw [hq]; exact List.mem_cons_of_mem _ h2) h1
    · exact absurd h2 h1
  | drop s' j hs ht =>
    simp only [List.mem_filter] at h2
    exact absurd h2.1 h1
  | other s' e hs ht hl hc => exact absurd h2 h1

theorem fifo_history_reach {σ : Nat → FifoSys} (h : FifoHistory env base σ) (n : Nat) : FifoSys.Reach env base (σ n) := by
  induction n with
  | zero => exact h.begins
  | succ n ih =>
    rcases h.next n with hn | hn
    · rw [hn]; exact ih
    · exact .step _ _ ih hn

/-- C90. Without the queues, an infinite history of the system with queues is an infinite history of the system. -/
theorem C90_history (σ : Nat → FifoSys) (h : FifoHistory env base σ) : History env base fun n => (σ n).sys := by
  refine ⟨fifo_reach h.begins, fun n => ?_⟩
  rcases h.next n with hn | hn
  · exact .inl (by rw [hn])
  · exact fifo_sys hn

/-- A call that moved in a step and was not at a lock has a new event. -/
theorem moved_event {f f' : FifoSys} (h : f' = f ∨ FifoSys.Step env base f f') {i : Nat} (hm : Moved f f' i)
    (hl : ∀ id k, f.sys.calls i = some (.lock id k) → i ∈ f.queue id) :
    ∃ e, Sys.Step env base f.sys f'.sys ∧ f'.sys.trace = f.sys.trace ++ [e] ∧ e.call = i := by
  rcases h with rfl | h
  · rcases hm with ⟨e, he, _⟩ | ⟨id, h1, h2⟩
    · have := congrArg List.length he
      simp at this
    · exact absurd h2 h1
  · rcases hm with ⟨e, he, hc⟩ | ha
    · rcases fifo_sys h with h' | h'
      · rw [h'] at he
        have := congrArg List.length he
        simp at this
      · exact ⟨e, h', he, hc⟩
    · obtain ⟨id, k, hk, hn, _⟩ := asks_from h ha
      exact absurd (hl id k hk) hn

/-- Who holds a lock lets go of it. -/
theorem holder_lets_go {σ : Nat → FifoSys} (h : FifoHistory env base σ) (hf : WeaklyFair env base σ) {id n j : Nat} :
    ∃ m, n ≤ m ∧ (σ m).sys.holder id ≠ some j := by
  apply Classical.byContradiction
  intro hno
  have hall : ∀ m, n ≤ m → (σ m).sys.holder id = some j := fun m hm => Classical.byContradiction fun hn => hno ⟨m, hm, hn⟩
  have hr := fun m => fifo_reach (fifo_history_reach h m)
  have hrun : ∀ m, n ≤ m → Running (σ m).sys j := fun m hm => canGo_running (holder_canGo (hr m) (hall m hm))
  have grow : ∀ K, ∃ m, n ≤ m ∧ K ≤ (did (σ m).sys.trace j).length := by
    intro K
    induction K with
    | zero => exact ⟨n, Nat.le_refl _, Nat.zero_le _⟩
    | succ K ih =>
      obtain ⟨m, hm, hK⟩ := ih
      obtain ⟨k, hk, hmv⟩ := hf j m fun m' hm' => by
        obtain ⟨p, hp⟩ := hrun m' (by omega)
        obtain ⟨f', e, hs, ht, he⟩ := fifo_act (env := env) (base := base) hp fun id' k' hl =>
          holder_not_at_lock (hr m') (hall m' (by omega)) id' k' (by rw [hp, hl])
        rcases he with ⟨x, rfl⟩ | ⟨r, rfl⟩
        · exact ⟨f', hs, .inl ⟨x, ht⟩⟩
        · exact ⟨f', hs, .inr (.inl ⟨r, ht⟩)⟩
      obtain ⟨e, hs, ht, hc⟩ := moved_event (h.next k) hmv fun id' k' hl =>
        absurd hl (holder_not_at_lock (hr k) (hall k (by omega)) id' k')
      refine ⟨k + 1, by omega, ?_⟩
      have hmono := did_mono (C90_history σ h) hrun hm hk
      have := (did_step (hr k) hs (hrun k (by omega)) (hrun (k + 1) (by omega))).2 ⟨e, ht, hc⟩
      omega
  obtain ⟨m, _, hm⟩ := grow 27
  have := C38_bounded (hr m) j
  omega

/-- A free lock stays free or is taken. -/
theorem free_step {s s' : Sys} (h : Sys.Step env base s s') {id : Nat} (hfree : s.holder id = none) :
    s'.holder id = none ∨ ∃ i c, s'.trace = s.trace ++ [.did i (.locked id c)] := by
  cases h with
  | start i call hf hb => exact .inl hfree
  | act i p q e caches holder hp hs he =>
    cases he with
    | locked id' hfree' =>
      by_cases hx : id = id'
      · subst hx; exact .inr ⟨i, _, rfl⟩
      · left; simp only [if_neg hx]; exact hfree
    | unlocked id' =>
      simp only
      left
      split
      · rfl
      · exact hfree
    | _ => exact .inl hfree
  | finish i r hp => exact .inl hfree
  | cancel i p hp ha =>
    simp only
    left
    split
    · rfl
    · exact hfree

/-- C90. With the queues, weak fairness is enough: a history in which every call that can go on at every moment does so
sooner or later is fair in the stronger sense of C78, in which also a call that waits for a lock gets it sooner or later.
Nothing needs to be assumed of the lock but that it is first come, first served. -/
theorem C90_fair (σ : Nat → FifoSys) (h : FifoHistory env base σ) (hf : WeaklyFair env base σ) :
    Fair env base fun n => (σ n).sys := by
  intro i n hio
  apply Classical.byContradiction
  intro hno
  have hno' : ∀ k, n ≤ k → ∀ e, (σ (k + 1)).sys.trace = (σ k).sys.trace ++ [e] → e.call ≠ i :=
    fun k hk e ht hc => hno ⟨k, e, hk, ht, hc⟩
  have hr := fun m => fifo_reach (fifo_history_reach h m)
  obtain ⟨k0, hk0, hgo⟩ := hio n (Nat.le_refl _)
  obtain ⟨p, hp⟩ := canGo_running hgo
  have hconst : ∀ m, k0 ≤ m → (σ m).sys.calls i = some p := by
    intro m
    induction m with
    | zero => intro hm; rw [← Nat.le_zero.1 hm]; exact hp
    | succ m ih =>
      intro hm
      rcases Nat.lt_or_ge k0 (m + 1) with hlt | hge
      · have h1 := ih (by omega)
        rcases h.next m with hn | hn
        · rw [hn]; exact h1
        · rcases fifo_new hn with hs | ⟨e, hs, ht⟩
          · rw [hs]; exact h1
          · rw [calls_other hs ht (hno' m (by omega) e ht)]; exact h1
      · rw [show m + 1 = k0 by omega]; exact hp
  by_cases hl : ∃ id k, p = .lock id k
  · obtain ⟨id, k, rfl⟩ := hl
    have hasked : ∃ k1, k0 ≤ k1 ∧ i ∈ (σ k1).queue id := by
      apply Classical.byContradiction
      intro hne
      have hout : ∀ m, k0 ≤ m → i ∉ (σ m).queue id := fun m hm hin => hne ⟨m, hm, hin⟩
      obtain ⟨m, hm, hmv⟩ := hf i k0 fun m hm =>
        ⟨_, .ask (σ m) i id k (hconst m hm) (hout m hm), .inr (.inr ⟨id, hout m hm, by simp⟩)⟩
      rcases hmv with ⟨e, ht, hc⟩ | ha
      · exact hno' m (by omega) e ht hc
      · rcases h.next m with hn | hn
        · obtain ⟨x, h1, h2⟩ := ha
          rw [hn] at h2
          exact h1 h2
        · obtain ⟨id', k', hk', _, hin⟩ := asks_from hn ha
          rw [hconst m hm] at hk'
          cases hk'
          exact hout (m + 1) (by omega) hin
    have hmain : ∀ N m a b, k0 ≤ m → a.length = N → (σ m).queue id = a ++ i :: b → False := by
      intro N
      induction N using Nat.strongRecOn with
      | ind N ih =>
        intro m0 a b hm0 hN hq0
        by_cases hdec : ∃ m a' b', m0 ≤ m ∧ a'.length < N ∧ (σ m).queue id = a' ++ i :: b'
        · obtain ⟨m, a', b', hm, hlt, hq⟩ := hdec
          exact ih _ hlt m a' b' (by omega) rfl hq
        · have hstep : ∀ m, m0 ≤ m → (∃ b', (σ m).queue id = a ++ i :: b') →
              (∃ b', (σ (m + 1)).queue id = a ++ i :: b') ∧
              ∀ j c, (σ (m + 1)).sys.trace ≠ (σ m).sys.trace ++ [.did j (.locked id c)] := by
            rintro m hm ⟨b', hb'⟩
            rcases h.next m with hn | hn
            · rw [hn]
              refine ⟨⟨b', hb'⟩, fun j c ht => ?_⟩
              have := congrArg List.length ht
              simp at this
            · have hnew : ∃ new : List Event, (σ (m + 1)).sys.trace = (σ m).sys.trace ++ new ∧ ∀ e ∈ new, e.call ≠ i := by
                rcases fifo_new hn with hs | ⟨e, hs, ht⟩
                · exact ⟨[], by rw [hs]; simp, by simp⟩
                · refine ⟨[e], ht, fun x hx => ?_⟩
                  rw [List.mem_singleton.1 hx]
                  exact hno' m (by omega) e ht
              obtain ⟨new, ht, hnot⟩ := hnew
              obtain ⟨a', b'', h1, h2, h3, _⟩ := ahead_step hn ht hb' (fun c hm => hnot _ hm rfl) (fun hm => hnot _ hm rfl)
              have hlen : a'.length = a.length := by
                have h4 := h2.length_le
                rcases Nat.lt_or_ge a'.length a.length with hlt | hge
                · exact absurd ⟨m + 1, a', b'', by omega, by omega, h1⟩ hdec
                · omega
              have heq := h2.eq_of_length hlen
              subst heq
              refine ⟨⟨b'', h1⟩, fun j c ht' => ?_⟩
              rw [ht] at ht'
              have := List.append_cancel_left ht'
              subst this
              rw [timesTaken_taken] at h3
              omega
          have hahead : ∀ m, m0 ≤ m → ∃ b', (σ m).queue id = a ++ i :: b' := by
            intro m
            induction m with
            | zero => intro hm; rw [← Nat.le_zero.1 hm]; exact ⟨b, hq0⟩
            | succ m ihm =>
              intro hm
              rcases Nat.lt_or_ge m0 (m + 1) with hlt | hge
              · exact (hstep m (by omega) (ihm (by omega))).1
              · rw [show m + 1 = m0 by omega]; exact ⟨b, hq0⟩
          have hstays : ∀ m, m0 ≤ m → (σ m).sys.holder id = none → (σ (m + 1)).sys.holder id = none := by
            intro m hm hfree
            rcases h.next m with hn | hn
            · rw [hn]; exact hfree
            · rcases fifo_sys hn with hs | hs
              · rw [hs]; exact hfree
              · rcases free_step hs hfree with hfr | ⟨j, c, ht⟩
                · exact hfr
                · exact absurd ht ((hstep m hm (hahead m hm)).2 j c)
          have hfree : ∃ m1, m0 ≤ m1 ∧ (σ m1).sys.holder id = none := by
            cases hh : (σ m0).sys.holder id with
            | none => exact ⟨m0, Nat.le_refl _, hh⟩
            | some j =>
              have hor : ∀ m, m0 ≤ m → (σ m).sys.holder id = some j ∨ (σ m).sys.holder id = none := by
                intro m
                induction m with
                | zero => intro hm; rw [← Nat.le_zero.1 hm]; exact .inl hh
                | succ m ihm =>
                  intro hm
                  rcases Nat.lt_or_ge m0 (m + 1) with hlt | hge
                  · rcases ihm (by omega) with h1 | h1
                    · rcases h.next m with hn | hn
                      · rw [hn]; exact .inl h1
                      · rcases fifo_sys hn with hs | hs
                        · rw [hs]; exact .inl h1
                        · exact holder_step hs h1
                    · exact .inr (hstays m (by omega) h1)
                  · rw [show m + 1 = m0 by omega]; exact .inl hh
              obtain ⟨m, hm, hne⟩ := holder_lets_go h hf (id := id) (n := m0) (j := j)
              exact ⟨m, hm, (hor m hm).resolve_left hne⟩
          obtain ⟨m1, hm1, hfree1⟩ := hfree
          have hfreeAll : ∀ m, m1 ≤ m → (σ m).sys.holder id = none := by
            intro m
            induction m with
            | zero => intro hm; rw [← Nat.le_zero.1 hm]; exact hfree1
            | succ m ihm =>
              intro hm
              rcases Nat.lt_or_ge m1 (m + 1) with hlt | hge
              · exact hstays m (by omega) (ihm (by omega))
              · rw [show m + 1 = m1 by omega]; exact hfree1
          obtain ⟨x, hx⟩ : ∃ x, ∀ b', ∃ rest, a ++ i :: b' = x :: rest := by
            cases a with
            | nil => exact ⟨i, fun b' => ⟨b', rfl⟩⟩
            | cons y a => exact ⟨y, fun b' => ⟨a ++ i :: b', rfl⟩⟩
          have hhead : ∀ m, m0 ≤ m → ∃ rest, (σ m).queue id = x :: rest := by
            intro m hm
            obtain ⟨b', hb'⟩ := hahead m hm
            obtain ⟨rest, hrest⟩ := hx b'
            exact ⟨rest, by rw [hb', hrest]⟩
          obtain ⟨m, hm, hmv⟩ := hf x m1 fun m hm => by
            obtain ⟨rest, hq⟩ := hhead m (by omega)
            obtain ⟨f', c, hs, ht⟩ := fifo_take (fifo_history_reach h m) hq (hfreeAll m hm)
            exact ⟨f', hs, .inl ⟨_, ht⟩⟩
          obtain ⟨rest, hq⟩ := hhead m (by omega)
          obtain ⟨kx, hkx⟩ := (fifo_inv (fifo_history_reach h m)).waits id x (by rw [hq]; simp)
          obtain ⟨e, hs, ht, hc⟩ := moved_event (h.next m) hmv fun id' k' hl => by
            rw [hkx] at hl
            cases hl
            rw [hq]; simp
          rcases at_lock_event (hr m) hs ht hkx hc with ⟨c, rfl⟩ | rfl
          · exact (hstep m (by omega) (hahead m (by omega))).2 x c ht
          · obtain ⟨rest', hq'⟩ := hhead (m + 1) (by omega)
            obtain ⟨k', hk'⟩ := (fifo_inv (fifo_history_reach h (m + 1))).waits id x (by rw [hq']; simp)
            exact ((running_iff (hr (m + 1)) x).1 ⟨_, hk'⟩).2 (.inr (by rw [ht]; simp))
    obtain ⟨k1, hk1, hin⟩ := hasked
    obtain ⟨a, b, hab⟩ := List.append_of_mem hin
    exact hmain _ k1 a b hk1 rfl hab
  · obtain ⟨m, hm, hmv⟩ := hf i k0 fun m hm => by
      obtain ⟨f', e, hs, ht, he⟩ := fifo_act (env := env) (base := base) (hconst m hm) fun id k hk => hl ⟨id, k, hk⟩
      rcases he with ⟨x, rfl⟩ | ⟨r, rfl⟩
      · exact ⟨f', hs, .inl ⟨x, ht⟩⟩
      · exact ⟨f', hs, .inr (.inl ⟨r, ht⟩)⟩
    obtain ⟨e, _, ht, hc⟩ := moved_event (h.next m) hmv fun id k hk => by
      rw [hconst m hm] at hk
      cases hk
      exact absurd ⟨id, k, rfl⟩ hl
    exact hno' m (by omega) e ht hc

/-- C90. In every weakly fair infinite history of the system with queues, every call that is running returns or is dropped. -/
theorem C90_every_call_ends (σ : Nat → FifoSys) (h : FifoHistory env base σ) (hf : WeaklyFair env base σ) (i n : Nat)
    (hi : Running (σ n).sys i) : ∃ m, n ≤ m ∧ ((∃ r, .returned i r ∈ (σ m).sys.trace) ∨ .cancelled i ∈ (σ m).sys.trace) :=
  C78_every_call_ends _ (C90_history σ h) (C90_fair σ h hf) i n hi

/-! ### a history in which all calls return -/

/-- As long as a call is running, some call can do something, perhaps after asking for a lock. -/
theorem fifo_goes {f : FifoSys} (hr : FifoSys.Reach env base f) {i : Nat} (hi : Running f.sys i) :
    ∃ f1 f' e j, (f1 = f ∨ FifoSys.Step env base f f1 ∧ f1.sys = f.sys) ∧ FifoSys.Step env base f1 f' ∧
      f'.sys.trace = f1.sys.trace ++ [e] ∧ ((∃ x, e = .did j x) ∨ ∃ r, e = .returned j r) := by
  obtain ⟨p, hp⟩ := hi
  by_cases hl : ∃ id k, p = .lock id k
  · obtain ⟨id, k, rfl⟩ := hl
    cases hh : f.sys.holder id with
    | some j =>
      obtain ⟨pj, hpj⟩ := canGo_running (holder_canGo (fifo_reach hr) hh)
      obtain ⟨f', e, hs, ht, he⟩ := fifo_act (env := env) (base := base) hpj fun id' k' h =>
        holder_not_at_lock (fifo_reach hr) hh id' k' (by rw [hpj, h])
      exact ⟨f, f', e, j, .inl rfl, hs, ht, he⟩
    | none =>
      cases hq : f.queue id with
      | cons x rest =>
        obtain ⟨f', c, hs, ht⟩ := fifo_take hr hq hh
        exact ⟨f, f', _, x, .inl rfl, hs, ht, .inl ⟨_, rfl⟩⟩
      | nil =>
        have ha : FifoSys.Step env base f { f with queue := fun x => if x = id then f.queue id ++ [i] else f.queue x } :=
          .ask f i id k hp (by rw [hq]; simp)
        obtain ⟨f', c, hs, ht⟩ := fifo_take (.step _ _ hr ha) (i := i) (id := id) (rest := []) (by simp [hq]) hh
        exact ⟨_, f', _, i, .inr ⟨ha, rfl⟩, hs, ht, .inl ⟨_, rfl⟩⟩
  · obtain ⟨f', e, hs, ht, he⟩ := fifo_act (env := env) (base := base) hp fun id k hk => hl ⟨id, k, hk⟩
    exact ⟨f, f', e, i, .inl rfl, hs, ht, he⟩

theorem fifo_run_trace {f f' : FifoSys} {more : List Event} (h : FifoRun env base f more f') :
    f'.sys.trace = f.sys.trace ++ more := by
  induction h with
  | refl => simp
  | step _ _ ht ih => rw [ht, ih]; simp

theorem fifo_run_reach {f f' : FifoSys} {more : List Event} (h : FifoRun env base f more f') (hr : FifoSys.Reach env base f) :
    FifoSys.Reach env base f' := by
  induction h with
  | refl => exact hr
  | step _ hs _ ih => exact .step _ _ ih hs

/-- A run is the beginning of a history that then stands still. -/
theorem fifo_run_history {f f' : FifoSys} {more : List Event} (h : FifoRun env base f more f') :
    ∃ σ : Nat → FifoSys, σ 0 = f ∧ (∀ n, σ (n + 1) = σ n ∨ FifoSys.Step env base (σ n) (σ (n + 1))) ∧ ∃ n, ∀ m, n ≤ m → σ m = f' := by
  induction h with
  | refl => exact ⟨fun _ => f, rfl, fun _ => .inl rfl, 0, fun _ _ => rfl⟩
  | @step f' f'' more new _ hs _ ih =>
    obtain ⟨σ, h0, hn, n, hm⟩ := ih
    refine ⟨fun m => if m ≤ n then σ m else f'', by simp [h0], fun m => ?_, n + 1, fun m h => ?_⟩
    · rcases Nat.lt_trichotomy m n with h | h | h
      · simp only [if_pos (show m ≤ n by omega), if_pos (show m + 1 ≤ n by omega)]
        exact hn m
      · subst h
        simp only [Nat.le_refl, if_true, if_neg (show ¬ m + 1 ≤ m by omega), hm m (Nat.le_refl _)]
        exact .inr hs
      · simp only [if_neg (show ¬ m ≤ n by omega), if_neg (show ¬ m + 1 ≤ n by omega)]
        exact .inl trivial
    · simp only [if_neg (show ¬ m ≤ n by omega)]

/-- The calls in progress can go on one after the other until none is left. -/
theorem fifo_to_end (l : List Nat) : ∀ N (f : FifoSys), FifoSys.Reach env base f → (∀ i, Running f.sys i → i ∈ l) →
    stepsLeft f.sys l = N → ∃ more f', FifoRun env base f more f' ∧ (∀ i, ¬ Running f'.sys i) ∧ ∀ i, .cancelled i ∉ more := by
  intro N
  induction N using Nat.strongRecOn with
  | ind N ih =>
    intro f hr hl hN
    by_cases hrun : ∃ i, Running f.sys i
    · obtain ⟨i, hi⟩ := hrun
      obtain ⟨f1, f', e, j, h1, hs, ht, he⟩ := fifo_goes hr hi
      have hr1 : FifoSys.Reach env base f1 := by
        rcases h1 with rfl | ⟨h1, _⟩
        · exact hr
        · exact .step _ _ hr h1
      have hsys : f1.sys = f.sys := by
        rcases h1 with rfl | ⟨_, h1⟩
        · rfl
        · exact h1
      have hs' : Sys.Step env base f1.sys f'.sys := by
        rcases fifo_sys hs with h | h
        · rw [h] at ht
          have := congrArg List.length ht
          simp at this
        · exact h
      have hdec := stepsLeft_step (fifo_reach hr1) hs' (goes_not_started ht he) (l := l) (by rw [hsys]; exact hl)
      rw [hsys, hN] at hdec
      obtain ⟨more, f'', hrun', hend, hnc⟩ := ih _ hdec.1 f' (.step _ _ hr1 hs) (fun i hi => hl i (hdec.2 i hi)) rfl
      have hfirst : FifoRun env base f [e] f' := by
        rcases h1 with rfl | ⟨h1, h2⟩
        · exact .step (.refl _) hs ht
        · exact .step (more := []) (.step (more := []) (new := []) (.refl _) h1 (by rw [h2]; simp)) hs ht
      have htrans : ∀ {more' : List Event} {g : FifoSys}, FifoRun env base f' more' g → FifoRun env base f ([e] ++ more') g := by
        intro more' g hg
        induction hg with
        | refl => simpa using hfirst
        | step _ hs ht ih' =>
          rw [← List.append_assoc]
          exact .step ih' hs ht
      refine ⟨_, f'', htrans hrun', hend, fun i hm => ?_⟩
      rcases List.mem_append.1 hm with hm | hm
      · rw [List.mem_singleton] at hm
        subst hm
        rcases he with ⟨_, he⟩ | ⟨_, he⟩ <;> cases he
      · exact hnc i hm
    · exact ⟨[], f, .refl _, fun i hi => hrun ⟨i, hi⟩, by simp⟩

/-- Only a call that is running can go on. -/
theorem fifoCanGo_running {f : FifoSys} {i : Nat} (h : FifoCanGo env base f i) : Running f.sys i := by
  obtain ⟨f', hs, h⟩ := h
  have hsys : ∀ e, f'.sys.trace = f.sys.trace ++ [e] → Sys.Step env base f.sys f'.sys := by
    intro e ht
    rcases fifo_sys hs with h | h
    · rw [h] at ht
      have := congrArg List.length ht
      simp at this
    · exact h
  rcases h with ⟨x, ht⟩ | ⟨r, ht⟩ | ha
  · exact canGo_running (env := env) (base := base) ⟨_, _, hsys _ ht, ht, .inl ⟨x, rfl⟩⟩
  · exact canGo_running (env := env) (base := base) ⟨_, _, hsys _ ht, ht, .inr ⟨r, rfl⟩⟩
  · obtain ⟨id, k, hk, _⟩ := asks_from hs ha
    exact ⟨_, hk⟩

/-- C90. Every state that can be reached lies on a weakly fair history, in which no call is dropped and all calls return. -/
theorem C90_can_end (f : FifoSys) (hr : FifoSys.Reach env base f) : ∃ σ, σ 0 = f ∧ FifoHistory env base σ ∧ WeaklyFair env base σ ∧
    ∀ i, Running f.sys i → ∃ n r, .returned i r ∈ (σ n).sys.trace := by
  obtain ⟨l, hl⟩ := running_finite (fifo_reach hr)
  obtain ⟨more, f', hrun, hend, hnc⟩ := fifo_to_end l _ f hr hl rfl
  obtain ⟨σ, h0, hn, n, hlast⟩ := fifo_run_history hrun
  refine ⟨σ, h0, ⟨by rw [h0]; exact hr, hn⟩, ?_, ?_⟩
  · intro i m hgo
    have := fifoCanGo_running (hgo (n + m) (by omega))
    rw [hlast (n + m) (by omega)] at this
    exact absurd this (hend i)
  · intro i hi
    obtain ⟨⟨call, hst⟩, hne⟩ := (running_iff (fifo_reach hr) i).1 hi
    have hr' := fifo_reach (fifo_run_reach hrun hr)
    have hnr := hend i
    rw [running_iff hr'] at hnr
    have ht := fifo_run_trace hrun
    refine ⟨n, ?_⟩
    rw [hlast n (Nat.le_refl _)]
    apply Classical.byContradiction
    intro hno
    refine hnr ⟨⟨call, by rw [ht]; exact List.mem_append_left _ hst⟩, ?_⟩
    rintro (⟨r, h⟩ | h)
    · exact hno ⟨r, h⟩
    · rw [ht] at h
      rcases List.mem_append.1 h with h | h
      · exact hne (.inr h)
      · exact hnc i h

/-! ### cases -/

open Conformance

/-- Two calls with the same key have come to the lock. -/
def Conformance.bothAtLock (s : Sys) : Bool :=
  (match s.calls 0 with | some (.lock 0 _) => true | _ => false) &&
  (match s.calls 1 with | some (.lock 0 _) => true | _ => false) && decide (s.holder 0 = none)

/-- Calls 1 and 0 have asked for a free lock, in this order. -/
theorem Conformance.two_in_queue : ∃ f, FifoSys.Reach btEnv baseOf f ∧ f.queue 0 = [1, 0] ∧ f.sys.holder 0 = none ∧
    Running f.sys 0 ∧ Running f.sys 1 := by
  obtain ⟨s, hr, h⟩ := leads_reach (env := btEnv) (base := baseOf) (P := bothAtLock)
    (ms := [.start 0 (.url btUrlOptions), .clock 0 atNow, .start 1 (.form btCalls), .clock 1 atNow]) (by decide +kernel)
  simp only [bothAtLock, Bool.and_eq_true, decide_eq_true_eq] at h
  obtain ⟨⟨h0, h1⟩, hfree⟩ := h
  obtain ⟨f, hf, rfl, hq⟩ := fifo_of_reach hr
  split at h0
  · rename_i k0 hk0
    split at h1
    · rename_i k1 hk1
      have s1 := FifoSys.Step.ask (env := btEnv) (base := baseOf) f 1 0 k1 hk1 (by rw [hq]; simp)
      have s0 := FifoSys.Step.ask (env := btEnv) (base := baseOf)
        { f with queue := fun x => if x = 0 then f.queue 0 ++ [1] else f.queue x } 0 0 k0 hk0 (by simp [hq])
      exact ⟨_, .step _ _ (.step _ _ hf s1) s0, by simp [hq], hfree, ⟨_, hk0⟩, ⟨_, hk1⟩⟩
    · cases h1
  · cases h0

/-- Non-vacuity of C90_first_come, with both bounds met: call 1 is ahead of call 0 and takes the lock once. -/
example : ∃ f f' more, FifoSys.Reach btEnv baseOf f ∧ FifoRun btEnv baseOf f more f' ∧ f.queue 0 = [1] ++ 0 :: [] ∧
    (∀ c, .did 0 (.locked 0 c) ∉ more) ∧ .cancelled 0 ∉ more ∧ (∃ c, .did 1 (.locked 0 c) ∈ more) ∧ timesTaken 0 more = [1].length := by
  obtain ⟨f, hr, hq, hfree, _⟩ := two_in_queue
  obtain ⟨f', c, hs, ht⟩ := fifo_take hr hq hfree
  exact ⟨f, f', _, hr, .step (more := []) (.refl f) hs ht, hq, by simp, by simp, ⟨c, by simp⟩, timesTaken_taken 0 1 c⟩

/-- Non-vacuity of C90_fair and C90_every_call_ends: a weakly fair history from there, in which both calls return. -/
example : ∃ σ, FifoHistory btEnv baseOf σ ∧ WeaklyFair btEnv baseOf σ ∧ (σ 0).queue 0 = [1, 0] ∧ Running (σ 0).sys 0 ∧ Running (σ 0).sys 1 ∧
    (∃ n r, .returned 0 r ∈ (σ n).sys.trace) ∧ ∃ n r, .returned 1 r ∈ (σ n).sys.trace := by
  obtain ⟨f, hr, hq, _, h0, h1⟩ := two_in_queue
  obtain ⟨σ, rfl, hh, hf, hend⟩ := C90_can_end f hr
  exact ⟨σ, hh, hf, hq, h0, h1, hend 0 h0, hend 1 h1⟩

end CSS
