import Verif.Lemmas.Alone
import Verif.Lemmas.Progress
/-
C91: calls that are made one after the other. C92: a call is not disturbed by the others.
-/
set_option linter.unusedSimpArgs false
namespace CSS
open Spec

variable {env : Env} {base : Nat → Str} {s : Sys}

theorem prog_showing (call : ApiCall) (h : List Ev) : call.prog (showing env h) = call.prog env := by
  cases call <;> rfl

theorem alone_of_run {call : ApiCall} {w w' : World} {r : ApiResult} {n n' : NetResult}
    (h : (call.prog env).run env n w = (r, w', n')) : alone env call w = (r, w') := by
  obtain ⟨n'', hp⟩ := prog_run (env := env) call n w
  rw [hp] at h
  cases call <;> (cases h; rfl)

/-- A lock shows the cache. -/
theorem locked_sees (h : Sys.Reach env base s) {pre post : List Event} {i id : Nat} {c : Option Cached}
    (ht : s.trace = pre ++ .did i (.locked id c) :: post) : c = cacheOf id pre := by
  obtain ⟨s1, s2, call, hr1, _, h1, _, _, _, _, _, caches, holder, he, _, _⟩ := legal_of_reach h ht
  generalize hev : Ev.locked id c = ev at he
  cases he with
  | locked id' hf =>
    cases hev
    rw [(inv_reach hr1).cache, h1]
  | _ => cases hev

/-- What the call saw of its cache, if no other call wrote it meanwhile. -/
theorem sees_mid (h : Sys.Reach env base s) (i k : Nat) : ∀ (mid pre post : List Event) (ca : Nat → Option Cached),
    s.trace = pre ++ mid ++ post → (∀ j c, .did j (.stored k c) ∈ mid → j = i) →
    (∀ id c, .did i (.locked id c) ∈ mid → id = k) → ca k = cacheOf k pre →
    Sees ca (did mid i) ∧ storing ca (did mid i) k = cacheOf k (pre ++ mid)
  | [], pre, post, ca, _, _, _, hca => ⟨trivial, by simpa [did, storing] using hca⟩
  | e :: mid, pre, post, ca, ht, hst, hlk, hca => by
    have ht' : s.trace = (pre ++ [e]) ++ mid ++ post := by rw [ht]; simp
    have hcons : did (e :: mid) i = did [e] i ++ did mid i := did_append [e] mid i
    have happ : pre ++ e :: mid = (pre ++ [e]) ++ mid := by simp
    have go : ∀ ca', ca' k = cacheOf k (pre ++ [e]) →
        Sees ca' (did mid i) ∧ storing ca' (did mid i) k = cacheOf k ((pre ++ [e]) ++ mid) := fun ca' hca' =>
      sees_mid h i k mid (pre ++ [e]) post ca' ht' (fun j c hm => hst j c (by simp [hm]))
        (fun id c hm => hlk id c (by simp [hm])) hca'
    rw [hcons, happ]
    rw [cacheOf_snoc] at go
    cases e with
    | started j call => exact go ca hca
    | returned j r => exact go ca hca
    | cancelled j => exact go ca hca
    | did j e =>
      by_cases hij : j = i
      · subst hij
        have hd : did [.did j e] j = [e] := by simp [did]
        rw [hd]
        cases e with
        | locked id c =>
          have hid := hlk id c (by simp)
          subst hid
          obtain ⟨h1, h2⟩ := go ca hca
          refine ⟨⟨?_, h1⟩, h2⟩
          rw [hca]
          exact locked_sees h (i := j) (post := mid ++ post) (by rw [ht]; simp)
        | stored id c =>
          refine go (fun i => if i = id then some c else ca i) ?_
          dsimp only
          by_cases hid : id = k
          · simp [hid]
          · rw [if_neg (fun h => hid h.symm), if_neg hid]; exact hca
        | clock t => exact go ca hca
        | unlocked id => exact go ca hca
        | sent r => exact go ca hca
        | status t => exact go ca hca
        | body t => exact go ca hca
      · have hd : did [.did j e] i = [] := by simp [did, hij]
        rw [hd]
        refine go ca ?_
        cases e with
        | stored id c =>
          have : id ≠ k := fun hid => hij (hst j c (by simp [hid]))
          simp only [if_neg this]
          exact hca
        | _ => exact hca

/-- What a call did up to its end, it did between its start and its end. -/
theorem did_between (h : Sys.Reach env base s) {pre mid post : List Event} {i : Nat} {call : ApiCall} {r : ApiResult}
    (ht : s.trace = pre ++ .started i call :: mid ++ .returned i r :: post) :
    did (pre ++ .started i call :: mid) i = did mid i := by
  obtain ⟨s1, s2, hr, hs, h1, h2⟩ := reach_split h (pre := pre) (e := .started i call) (post := mid ++ .returned i r :: post)
    (by rw [ht]; simp)
  rcases step_cases hs with ⟨j, c, ht', _, hf, hc⟩ | ⟨j, e, q, q', ht', _⟩ | ⟨j, r, ht', _⟩ | ⟨j, q, ht', _⟩
  all_goals
    rw [ht', h1] at h2
    have := List.append_cancel_left h2
    simp only [List.cons.injEq, reduceCtorEq, Event.started.injEq, and_true] at this
  obtain ⟨rfl, rfl⟩ := this
  rw [did_append, ← h1, did_unused hf]
  simp [did]

theorem mem_did_iff {trace : List Event} {i : Nat} {e : Ev} : e ∈ did trace i ↔ .did i e ∈ trace := by
  unfold did
  rw [List.mem_filterMap]
  constructor
  · rintro ⟨x, hx, he⟩
    cases x with
    | did j e' =>
      simp only at he
      split at he
      · rename_i hij; subst hij; cases he; exact hx
      · cases he
    | _ => cases he
  · exact fun h => ⟨_, h, by simp⟩

theorem sees_nothing {h : List Ev} (hl : ∀ id c, Ev.locked id c ∉ h) (ca : Nat → Option Cached) : Sees ca h := by
  induction h generalizing ca with
  | nil => trivial
  | cons e h ih =>
    have ih' := fun ca => ih (fun id c hm => hl id c (List.mem_cons_of_mem _ hm)) ca
    cases e with
    | locked id c => exact absurd List.mem_cons_self (hl id c)
    | stored id c => exact ih' _
    | _ => exact ih' ca

/-- A call takes the lock of its key only. -/
theorem locks_own (h : Sys.Reach env base s) {i id : Nat} {c : Option Cached} {call : ApiCall} (hst : .started i call ∈ s.trace)
    (hm : .did i (.locked id c) ∈ s.trace) : ∃ bt, call.key? = some bt ∧ bt.id = id := by
  obtain ⟨pre, post, ht⟩ := List.append_of_mem hm
  obtain ⟨s1, s2, call', hr1, _, h1, _, _, hst', _, hl, _⟩ := legal_of_reach h ht
  rw [started_unique h hst (by rw [ht]; exact List.mem_append_left _ hst')]
  rcases hl with ⟨t, hc⟩ | ⟨bt, hk, hid, _⟩
  · cases hc
  · exact ⟨bt, hk, hid.symm⟩

/-- C92. A call whose cache no other call wrote between its start and its end returned what it returns when it is made
alone with the cache that it found at its start: with the same clock readings and answers it also sends the same
requests, and leaves the cache as it was at its end. A call without a bound token is never disturbed. -/
theorem C92_undisturbed (h : Sys.Reach env base s) {pre mid post : List Event} {i : Nat} {call : ApiCall} {r : ApiResult}
    (ht : s.trace = pre ++ .started i call :: mid ++ .returned i r :: post)
    (hq : ∀ bt, call.key? = some bt → ∀ j c, .did j (.stored bt.id c) ∈ mid → j = i) :
    ∃ env' w', (∃ now net, env' = { env with now := now, net := net }) ∧ Shows env' (worldAfter pre) (did mid i) ∧
      alone env' call (worldAfter pre) = (r, w') ∧ w'.log = sentIn (did mid i) ∧
      ∀ bt, call.key? = some bt → w'.caches bt.id = cacheOf bt.id (pre ++ mid) := by
  have hst : .started i call ∈ pre ++ .started i call :: mid := by simp
  have hruns := returned_runs h ht hst
  rw [did_between h ht] at hruns
  have hturn := turning_prog call _ _ hruns
  have hown : ∀ id c, .did i (.locked id c) ∈ mid → ∃ bt, call.key? = some bt ∧ bt.id = id := fun id c hm =>
    locks_own h (i := i) (c := c) (by rw [ht]; simp) (by rw [ht]; simp [hm])
  have ht' : s.trace = (pre ++ [.started i call]) ++ mid ++ .returned i r :: post := by rw [ht]; simp
  have hpre : ∀ k, cacheOf k (pre ++ [.started i call]) = cacheOf k pre := fun k => cacheOf_snoc k pre _
  have happ : ∀ k, cacheOf k (pre ++ [.started i call] ++ mid) = cacheOf k (pre ++ mid) := by
    intro k
    unfold cacheOf
    rw [List.foldl_append, List.foldl_append, List.foldl_append]
    rfl
  have hsees : Sees (worldAfter pre).caches (did mid i) ∧
      ∀ bt, call.key? = some bt → storing (worldAfter pre).caches (did mid i) bt.id = cacheOf bt.id (pre ++ mid) := by
    cases hk : call.key? with
    | none =>
      refine ⟨sees_nothing (fun id c hm => ?_) _, fun bt hb => by cases hb⟩
      obtain ⟨bt, hb, _⟩ := hown id c (mem_did_iff.1 hm)
      rw [hk] at hb
      cases hb
    | some bt =>
      have := sees_mid h i bt.id mid _ _ (worldAfter pre).caches ht' (hq bt hk) (fun id c hm => by
        obtain ⟨bt', hb, hid⟩ := hown id c hm
        rw [hk] at hb
        cases hb
        exact hid.symm) (by rw [hpre]; rfl)
      rw [happ] at this
      exact ⟨this.1, fun bt' hb => by cases hb; exact this.2⟩
  have hfits := fits_of_sees (env := showing env (did mid i)) (did mid i) .execErr (worldAfter pre) hturn hsees.1
    (fun k => by show (readings (did mid i))[0 + k]?.getD 0 = _; rw [Nat.zero_add])
    (fun k r => by show (answersIn (did mid i))[([] : List Request).length + k]?.getD _ = _; rw [List.length_nil, Nat.zero_add])
  rw [← prog_showing (h := did mid i)] at hruns
  obtain ⟨n', hrun⟩ := fits_run hruns hfits
  exact ⟨_, _, ⟨_, _, rfl⟩, shows_of_fits hturn hfits, alone_of_run hrun, by simp [worldAfter], hsees.2⟩

/-! ### C91 -/

/-- A running call with the lock of its key free (or its own) can be driven to its end without anybody else. -/
theorem drive {i : Nat} {call : ApiCall} {r : ApiResult} : ∀ (h : List Ev) (s : Sys) (p : Prog ApiResult) (n : NetResult) (w w' : World),
    Sys.Reach env base s → .started i call ∈ s.trace → s.calls i = some p →
    (∀ bt, call.key? = some bt → s.holder bt.id = none ∨ s.holder bt.id = some i) →
    p.Runs h r → Fits env n w h w' → s.caches = w.caches →
    ∃ s', Sys.Reach env base s' ∧ s'.trace = s.trace ++ h.map (.did i) ∧ s'.calls i = some (.ret r) ∧ s'.caches = w'.caches ∧
      (∀ j, j ≠ i → s'.calls j = s.calls j) ∧
      (∀ id, (∀ bt, call.key? = some bt → bt.id ≠ id) → s'.holder id = s.holder id) ∧
      ∀ bt, call.key? = some bt → s'.holder bt.id = none ∨ s'.holder bt.id = some i
  | [], s, p, n, w, w', hr, hst, hp, hfree, hruns, hf, hca => by
    rcases Prog.Does.uncons hruns with ⟨_, he⟩ | ⟨_, _, _, he, _⟩
    · cases he
      cases hf
      exact ⟨s, hr, by simp, hp, hca, fun _ _ => rfl, fun _ _ => rfl, hfree⟩
    · cases he
  | e :: h, s, p, n, w, w', hr, hst, hp, hfree, hruns, hf, hca => by
    rcases Prog.Does.uncons hruns with ⟨he, _⟩ | ⟨e', h', q, he, hs, hd⟩
    · cases he
    cases he
    -- the key of the call and what it may do
    obtain ⟨call', hcall⟩ := (inv_reach hr).running i p hp
    have hcc := started_unique hr hst hcall.started
    subst hcc
    have hleg := (hcall.ok.step hs).1
    -- one step, then the rest
    have go : ∀ (ca : Nat → Option Cached) (ho : Nat → Option Nat) (n1 : NetResult) (w1 : World), s.Effect i e ca ho →
        Fits env n1 w1 h w' → ca = w1.caches →
        (∀ bt, call.key? = some bt → ho bt.id = none ∨ ho bt.id = some i) →
        (∀ id, (∀ bt, call.key? = some bt → bt.id ≠ id) → ho id = s.holder id) →
        ∃ s', Sys.Reach env base s' ∧ s'.trace = s.trace ++ (e :: h).map (.did i) ∧ s'.calls i = some (.ret r) ∧ s'.caches = w'.caches ∧
          (∀ j, j ≠ i → s'.calls j = s.calls j) ∧
          (∀ id, (∀ bt, call.key? = some bt → bt.id ≠ id) → s'.holder id = s.holder id) ∧
          ∀ bt, call.key? = some bt → s'.holder bt.id = none ∨ s'.holder bt.id = some i := by
      intro ca ho n1 w1 heff hf1 hca1 hfree1 hoth
      obtain ⟨s', h1, h2, h3, h4, h5, h6, h7⟩ := drive h ⟨ca, ho, fun j => if j = i then some q else s.calls j, s.trace ++ [.did i e]⟩
        q n1 w1 w' (.step _ _ hr (.act s i p q e ca ho hp hs heff)) (by simp [hst]) (by simp) hfree1 hd hf1 hca1
      refine ⟨s', h1, by rw [h2]; simp, h3, h4, fun j hj => ?_, fun id hid => ?_, h7⟩
      · rw [h5 j hj]; simp [hj]
      · rw [h6 id hid]; exact hoth id hid
    cases hs with
    | now k t => exact go _ _ _ _ (.clock s t) hf.2 hca hfree fun _ _ => rfl
    | recv k t => exact go _ _ _ _ (.status s t) hf.2 hca hfree fun _ _ => rfl
    | text k t => exact go _ _ _ _ (.body s t) hf.2 hca hfree fun _ _ => rfl
    | send rq k => exact go _ _ _ { w with log := w.log ++ [rq] } (.sent s rq) hf hca hfree fun _ _ => rfl
    | store id c k =>
      exact go _ _ _ { w with caches := fun i => if i = id then some c else w.caches i } (.stored s id c) hf (by rw [hca]) hfree fun _ _ => rfl
    | unlock id k =>
      rcases hleg with ⟨t, hc⟩ | ⟨bt, hk, hid, hn⟩
      · cases hc
      · refine go _ _ _ _ (.unlocked s id) hf hca (fun bt' hk' => ?_) (fun id' hid' => ?_)
        · rw [hk] at hk'; cases hk'; left; simp [hid]
        · have : id' ≠ id := fun h => hid' bt hk (by rw [h, hid])
          simp [this]
    | lock id k c =>
      obtain ⟨rfl, hf⟩ := hf
      rcases hleg with ⟨t, hc⟩ | ⟨bt, hk, hid, hn⟩
      · cases hc
      · have hfr : s.holder id = none := by
          rw [hid]
          rcases hfree bt hk with h0 | h0
          · exact h0
          · have := (((inv_reach hr).lock bt.id i).1 h0).2
            rw [hn] at this
            cases this
        have heff := Sys.Effect.locked (i := i) s id hfr
        rw [hca] at heff
        refine go _ _ _ _ heff hf rfl (fun bt' hk' => ?_) (fun id' hid' => ?_)
        · rw [hk] at hk'; cases hk'; right; simp [hid]
        · have : id' ≠ id := fun h => hid' bt hk (by rw [h, hid])
          simp [this]

/-- C91. Whenever the lock of its key is free, a call can begin and run to its end without anything else happening; it
then does and returns what it does and returns alone. -/
theorem C91_alone (h : Sys.Reach env base s) {i : Nat} {call : ApiCall} (hi : ∀ e ∈ s.trace, e.call ≠ i)
    (hb : ∀ bt, call.key? = some bt → bt.baseUrl = base bt.id) (hfree : ∀ bt, call.key? = some bt → s.holder bt.id = none)
    {w w' : World} {r : ApiResult} (hw : w.caches = s.caches) (ha : alone env call w = (r, w')) :
    ∃ evs s', Sys.Reach env base s' ∧ s'.trace = s.trace ++ solo i call evs r ∧ Shows env w evs ∧
      w'.log = w.log ++ sentIn evs ∧ s'.caches = w'.caches ∧ s'.holder = s.holder ∧ s'.calls = s.calls := by
  obtain ⟨evs, hruns, hfits⟩ := run_fits (env := env) (call.prog env) .execErr w
  obtain ⟨n', hrun⟩ := fits_run hruns hfits
  have ha' := alone_of_run hrun
  rw [ha] at ha'
  simp only [Prod.mk.injEq] at ha'
  rw [← ha'.1] at hruns
  rw [← ha'.2] at hfits
  obtain ⟨s1, h1, h2, h3, h4, h5, h6, h7⟩ := drive (base := base) (i := i) (call := call) evs
    { s with
      calls := fun j => if j = i then some (call.prog env) else s.calls j
      trace := s.trace ++ [.started i call] } (call.prog env) .execErr w w'
    (.step _ _ h (.start s i call hi hb)) (by simp) (by simp) (fun bt hk => .inl (hfree bt hk)) hruns hfits hw.symm
  have hr2 : Sys.Reach env base { s1 with
      calls := fun j => if j = i then none else s1.calls j
      trace := s1.trace ++ [.returned i r] } := .step _ _ h1 (.finish s1 i r h3)
  refine ⟨evs, _, hr2, ?_, shows_of_fits (turning_prog call _ _ hruns) hfits, (fits_counts hfits).1, h4, ?_, ?_⟩
  · simp [h2, solo]
  · funext id
    show s1.holder id = s.holder id
    by_cases hk : ∃ bt, call.key? = some bt ∧ bt.id = id
    · obtain ⟨bt, hk, rfl⟩ := hk
      rw [hfree bt hk]
      rcases h7 bt hk with h0 | h0
      · exact h0
      · obtain ⟨p, hp⟩ := (((inv_reach hr2).lock bt.id i).1 h0).1
        simp at hp
    · exact h6 id fun bt hb hid => hk ⟨bt, hb, hid⟩
  · funext j
    show (if j = i then none else s1.calls j) = s.calls j
    by_cases hj : j = i
    · rw [if_pos hj, hj, unused_not_running (inv_reach h) hi]
    · rw [if_neg hj, h5 j hj]
      simp [hj]

theorem solo_calls {i : Nat} {call : ApiCall} {h : List Ev} {r : ApiResult} {e : Event} (he : e ∈ solo i call h r) : e.call = i := by
  simp only [solo, List.cons_append, List.mem_cons, List.mem_append, List.mem_map, List.mem_nil_iff, or_false] at he
  rcases he with rfl | ⟨_, _, rfl⟩ | rfl <;> rfl

theorem in_turn : ∀ (calls : List ApiCall) (n : Nat) (s : Sys) (w : World), Sys.Reach env base s → (∀ e ∈ s.trace, e.call < n) →
    (∀ call ∈ calls, ∀ bt, call.key? = some bt → bt.baseUrl = base bt.id) → (∀ id, s.holder id = none) →
    (∀ i, s.calls i = none) → w.caches = s.caches →
    ∃ s' rs trace w', Sys.Reach env base s' ∧ AsAlone env n w calls rs trace w' ∧ s'.trace = s.trace ++ trace ∧
      s'.caches = w'.caches ∧ (∀ id, s'.holder id = none) ∧ ∀ i, s'.calls i = none
  | [], n, s, w, hr, _, _, hh, hc, hw => ⟨s, [], [], w, hr, .nil n w, by simp, hw.symm, hh, hc⟩
  | call :: calls, n, s, w, hr, hn, hb, hh, hc, hw => by
    obtain ⟨evs, s1, h1, h2, h3, h4, h5, h6, h7⟩ := C91_alone hr (i := n) (call := call) (fun e he => Nat.ne_of_lt (hn e he))
      (hb call (by simp)) (fun bt _ => hh bt.id) hw (r := (alone env call w).1) (w' := (alone env call w).2) rfl
    obtain ⟨s2, rs, trace, w2, g1, g2, g3, g4, g5, g6⟩ := in_turn calls (n + 1) s1 (alone env call w).2 h1
      (fun e he => by
        rw [h2, List.mem_append] at he
        rcases he with he | he
        · exact Nat.lt_succ_of_lt (hn e he)
        · rw [solo_calls he]; exact Nat.lt_succ_self n)
      (fun c hm => hb c (by simp [hm])) (by rw [h6]; exact hh) (by rw [h7]; exact hc) h5.symm
    exact ⟨s2, _, _, w2, g1, .cons n (Prod.eta _).symm h3 h4 g2, by rw [g3, h2, List.append_assoc], g4, g5, g6⟩

/-- C91. Any list of calls can be made one after the other in a fresh process, and then each does and returns what it
does and returns alone in the world that the calls before it left. -/
theorem C91_one_by_one (env : Env) (base : Nat → Str) (calls : List ApiCall)
    (hb : ∀ call ∈ calls, ∀ bt, call.key? = some bt → bt.baseUrl = base bt.id) :
    ∃ s rs w', Sys.Reach env base s ∧ AsAlone env 0 (worldAfter []) calls rs s.trace w' ∧ s.caches = w'.caches ∧
      (∀ id, s.holder id = none) ∧ ∀ i, s.calls i = none := by
  obtain ⟨s, rs, trace, w', h1, h2, h3, h4, h5, h6⟩ := in_turn (env := env) (base := base) calls 0 Sys.init (worldAfter []) .init
    (fun e he => by cases he) hb (fun _ => rfl) (fun _ => rfl) rfl
  have : s.trace = trace := by rw [h3]; rfl
  rw [← this] at h2
  exact ⟨s, rs, w', h1, h2, h4, h5, h6⟩

/-! Conversely. -/

/-- All steps, of all calls. -/
def allDid (trace : List Event) : List Ev :=
  trace.filterMap fun
    | .did _ e => some e
    | _ => none

theorem sees_all (h : Sys.Reach env base s) : ∀ (mid pre : List Event), s.trace = pre ++ mid →
    Sees (fun id => cacheOf id pre) (allDid mid) ∧ storing (fun id => cacheOf id pre) (allDid mid) = fun id => cacheOf id s.trace
  | [], pre, ht => ⟨trivial, by rw [ht, List.append_nil]; rfl⟩
  | e :: mid, pre, ht => by
    have ih := sees_all h mid (pre ++ [e]) (by rw [ht]; simp)
    simp only [cacheOf_snoc] at ih
    cases e with
    | started j call => exact ih
    | returned j r => exact ih
    | cancelled j => exact ih
    | did j e =>
      cases e with
      | locked id c => exact ⟨⟨locked_sees h (i := j) (post := mid) ht, ih.1⟩, ih.2⟩
      | stored id c =>
        have : (fun i => if i = id then some c else cacheOf i pre) = fun i => if id = i then some c else cacheOf i pre := by
          funext i
          by_cases hi : i = id
          · simp [hi]
          · rw [if_neg hi, if_neg fun h : id = i => hi h.symm]
        show Sees (fun i => if i = id then some c else cacheOf i pre) (allDid mid) ∧
          storing (fun i => if i = id then some c else cacheOf i pre) (allDid mid) = _
        rw [this]
        exact ih
      | clock t => exact ih
      | unlocked id => exact ih
      | sent r => exact ih
      | status t => exact ih
      | body t => exact ih

theorem allDid_solo (i : Nat) (call : ApiCall) (h : List Ev) (r : ApiResult) (trace : List Event) :
    allDid (solo i call h r ++ trace) = h ++ allDid trace := by
  have : allDid (h.map (Event.did i)) = h := by
    unfold allDid
    rw [List.filterMap_map]
    induction h with
    | nil => rfl
    | cons e h ih => simpa using ih
  have hsplit : ∀ a b : List Event, allDid (a ++ b) = allDid a ++ allDid b := fun a b => by simp [allDid]
  rw [solo, hsplit, hsplit, ← List.singleton_append, hsplit, this]
  simp [allDid]

theorem did_solo (i : Nat) (h : List Ev) : did (h.map (Event.did i)) i = h := by
  unfold did
  rw [List.filterMap_map]
  induction h with
  | nil => rfl
  | cons e h ih => simpa using ih

/-- The run of each call, and its turns. -/
theorem runs_one_by_one (h : Sys.Reach env base s) {n : Nat} {calls : List ApiCall} {rs : List ApiResult} {trace : List Event}
    (hone : OneByOne n calls rs trace) : ∀ pre, s.trace = pre ++ trace → Turns .idle (allDid trace) ∧
    ∀ env' : Env, (∀ call : ApiCall, call.prog env' = call.prog env) → ∀ n1 w w', Fits env' n1 w (allDid trace) w' →
      AsAlone env' n w calls rs trace w' := by
  induction hone with
  | nil n =>
    intro pre _
    refine ⟨trivial, fun env' _ n1 w w' hf => ?_⟩
    cases hf
    exact .nil n w
  | cons n call evs r hone ih =>
    rename_i calls rs trace
    intro pre ht
    have ht1 : s.trace = pre ++ .started n call :: evs.map (.did n) ++ .returned n r :: trace := by rw [ht]; simp [solo]
    have hruns := returned_runs h ht1 (call := call) (by simp)
    rw [did_between h ht1, did_solo n evs] at hruns
    have hturn := turning_prog call _ _ hruns
    obtain ⟨h1, h2⟩ := ih (pre ++ solo n call evs r) (by rw [ht, List.append_assoc])
    rw [allDid_solo]
    refine ⟨turns_append hturn h1, fun env' he n1 w w' hf => ?_⟩
    obtain ⟨n2, w1, hf1, hf2⟩ := fits_append hf
    rw [← he] at hruns
    obtain ⟨_, hrun⟩ := fits_run hruns hf1
    exact .cons n (alone_of_run hrun) (shows_of_fits hturn hf1) (fits_counts hf1).1 (h2 env' he n2 w1 w' hf2)

/-- C91, conversely. In every history in which calls are made one after the other, each does and returns what it does
and returns alone in the world that the calls before it left. -/
theorem C91_history (h : Sys.Reach env base s) {calls : List ApiCall} {rs : List ApiResult} (hone : OneByOne 0 calls rs s.trace) :
    ∃ env' w', (∃ now net, env' = { env with now := now, net := net }) ∧
      AsAlone env' 0 (worldAfter []) calls rs s.trace w' ∧ s.caches = w'.caches := by
  obtain ⟨h1, h2⟩ := runs_one_by_one h hone [] rfl
  have hfits := fits_of_sees (env := showing env (allDid s.trace)) (allDid s.trace) .execErr (worldAfter []) h1 (sees_all h s.trace [] rfl).1
    (fun k => by show (readings _)[0 + k]?.getD 0 = _; rw [Nat.zero_add])
    (fun k r => by show (answersIn _)[([] : List Request).length + k]?.getD _ = _; rw [List.length_nil, Nat.zero_add])
  refine ⟨_, _, ⟨_, _, rfl⟩, h2 _ (fun call => prog_showing call _) _ _ _ hfits, ?_⟩
  funext id
  rw [(inv_reach h).cache]
  exact (congrFun (sees_all h s.trace [] rfl).2 id).symm

end CSS
