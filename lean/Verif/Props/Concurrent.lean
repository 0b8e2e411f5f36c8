import Verif.Lemmas.Progress
import Verif.Lemmas.Schedule
import Verif.Conformance
/-
C33-C38, C40, C44 for all histories: any number of calls, in any interleaving, with any answers of the clock and the
network, any of them dropped at any `.await`.
-/
set_option linter.unusedSimpArgs false
namespace CSS
open Spec

variable {env : Env} {base : Nat → Str} {s : Sys}

/-- Where a pair that a call got comes from. -/
theorem gotPair_refreshed (h : Sys.Reach env base s) {pre post : List Event} (ht : s.trace = pre ++ post) {i id : Nat}
    {h1 : List Ev} (hpre : h1 <+: did pre i) {email token : Str} (hg : GotPair (base id) id h1 email token) :
    ∃ j c t0 life, Refreshed (base id) pre j id c t0 life ∧ c.email = email ∧ c.token = token := by
  obtain ⟨tl, htl⟩ := hpre
  rcases hg with ⟨before, c, t, rfl, he, hk, _, _⟩ | ⟨before, steps, c, t0, life, rfl, hof, hh, he, hk⟩
  · have hd : did pre i = before ++ .locked id (some c) :: ([.clock t, .unlocked id] ++ tl) := by rw [← htl]; simp
    obtain ⟨t1, t2, hp, _, _⟩ := did_split hd
    obtain ⟨j, t0, life, hr⟩ := locked_refreshed h (pre := t1) (i := i) (id := id) (c := c) (post := t2 ++ post) (by rw [ht, hp]; simp)
    exact ⟨j, c, t0, life, by rw [hp]; exact refreshed_append hr, he, hk⟩
  · exact ⟨i, c, t0, life, ⟨before, steps, .unlocked id :: tl, by rw [← htl]; simp, hof, hh⟩, he, hk⟩

/-- What it takes to send a request. -/
theorem sent_cases (h : Sys.Reach env base s) {pre post : List Event} {i : Nat} {r : Request}
    (ht : s.trace = pre ++ .did i (.sent r) :: post) :
    ∃ bt, StartedWith pre i bt ∧ bt.baseUrl = base bt.id ∧ LegalBt bt (did pre i) (.sent r) := by
  obtain ⟨_, _, call, _, _, _, _, _, hst, hb, hl, _⟩ := legal_of_reach h ht
  rcases hl with ⟨t, hc⟩ | ⟨bt, hk, hl⟩
  · cases hc
  · exact ⟨bt, ⟨call, hst, hk⟩, hb bt hk, hl⟩

theorem startedWith_unique (h : Sys.Reach env base s) {i : Nat} {a b : BoundToken} (h1 : StartedWith s.trace i a)
    (h2 : StartedWith s.trace i b) : a = b := by
  obtain ⟨c1, m1, k1⟩ := h1
  obtain ⟨c2, m2, k2⟩ := h2
  rw [started_unique h m1 m2] at k1
  rw [k1] at k2
  exact Option.some.inj k2

theorem startedWith_append {a b : List Event} {i : Nat} {bt : BoundToken} (h : StartedWith a i bt) :
    StartedWith (a ++ b) i bt := by
  obtain ⟨c, m, k⟩ := h
  exact ⟨c, by simp [m], k⟩

theorem post_method : (s% "POST") ≠ s% "GET" := by decide

theorem email_ne_token (b : Str) : metadataGet (emailUrl b) ≠ metadataGet (tokenUrl b) := by
  intro h
  have := congrArg Request.url h
  simp only [metadataGet, emailUrl, tokenUrl] at this
  have := List.append_cancel_left this
  exact absurd this (by decide)

/-! ### C40 -/

/-- C40, for all histories: a request is sent by a call with a bound-token key, and it is the e-mail request or the
token request (in this order) to the key's metadata server, or a signBlob request whose e-mail and token were
produced by one refresh of the same key. -/
theorem C40_history (h : Sys.Reach env base s) {pre post : List Event} {i : Nat} {r : Request}
    (ht : s.trace = pre ++ .did i (.sent r) :: post) :
    ∃ bt, StartedWith pre i bt ∧
      (r = metadataGet (emailUrl (base bt.id)) ∨
       (r = metadataGet (tokenUrl (base bt.id)) ∧ ∃ before status email, did pre i =
          before ++ [.sent (metadataGet (emailUrl (base bt.id))), .status (some status), .body (some email)] ∧
          200 ≤ status ∧ status ≤ 299) ∨
       ∃ email token payload j c t0 life, r = signBlobPost email token payload ∧
          Refreshed (base bt.id) pre j bt.id c t0 life ∧ c.email = email ∧ c.token = token) := by
  obtain ⟨bt, hst, hb, hl⟩ := sent_cases h ht
  refine ⟨bt, hst, ?_⟩
  rcases hl with ⟨hr, _, _⟩ | ⟨hr, _, before, status, email, hd, h1, h2, _⟩ | ⟨_, email, token, payload, hg, hr⟩
  · left; rw [hr, hb]
  · rw [hb] at hr hd
    exact .inr (.inl ⟨hr, before, status, email, hd, h1, h2⟩)
  · rw [hb] at hg
    obtain ⟨j, c, t0, life, h1, h2, h3⟩ := gotPair_refreshed h ht (List.prefix_refl _) hg
    exact .inr (.inr ⟨email, token, payload, j, c, t0, life, hr, h1, h2, h3⟩)

/-! ### C35, C36 -/

/-- C35. In every history, the e-mail and the token of a signBlob request (the only place where a token is used)
were produced by one and the same refresh of the caller's key, by this or another call. -/
theorem C35_one_refresh (h : Sys.Reach env base s) {pre post : List Event} {i : Nat} {r : Request}
    (ht : s.trace = pre ++ .did i (.sent r) :: post) (hm : r.method = s% "POST") :
    ∃ bt email token payload j c t0 life, StartedWith pre i bt ∧ r = signBlobPost email token payload ∧
      Refreshed (base bt.id) pre j bt.id c t0 life ∧ c.email = email ∧ c.token = token := by
  obtain ⟨bt, hst, hr | ⟨hr, _⟩ | ⟨email, token, payload, j, c, t0, life, hr, h1, h2, h3⟩⟩ := C40_history h ht
  · rw [hr] at hm; exact absurd hm.symm post_method
  · rw [hr] at hm; exact absurd hm.symm post_method
  · exact ⟨bt, email, token, payload, j, c, t0, life, hst, hr, h1, h2, h3⟩

/-- C36. In every history, a token used in a signBlob request either was fetched by the same call just before, or was
found in the cache, and then the clock that the call read between taking and releasing the lock was more than 30 s
before the expiry, which is the time of the refresh plus the lifetime that the metadata server had announced. -/
theorem C36_margin (h : Sys.Reach env base s) {pre post : List Event} {i : Nat} {email token payload : Str}
    (ht : s.trace = pre ++ .did i (.sent (signBlobPost email token payload)) :: post) :
    ∃ bt, StartedWith pre i bt ∧
      ((∃ before steps c t0 life, did pre i = before ++ steps ++ [.unlocked bt.id] ∧
          RefreshOf (base bt.id) bt.id steps c t0 life ∧ c.email = email ∧ c.token = token) ∨
       ∃ before c t j t0 life, did pre i = before ++ [.locked bt.id (some c), .clock t, .unlocked bt.id] ∧
          c.email = email ∧ c.token = token ∧ Refreshed (base bt.id) pre j bt.id c t0 life ∧
          t + 30 * 1000000000 < t0 + (life : Int) * 1000000000) := by
  obtain ⟨bt, hst, hb, hl⟩ := sent_cases h ht
  refine ⟨bt, hst, ?_⟩
  rcases hl with ⟨hr, _, _⟩ | ⟨hr, _⟩ | ⟨_, email', token', payload', hg, hr⟩
  · have := congrArg Request.method hr
    exact absurd this post_method
  · have := congrArg Request.method hr
    exact absurd this post_method
  · have hu := congrArg Request.url hr
    have hh := congrArg Request.headers hr
    simp only [signBlobPost, List.append_assoc] at hu hh
    have hu := List.append_cancel_right (List.append_cancel_left hu)
    simp only [List.cons.injEq, Prod.mk.injEq, true_and, and_true] at hh
    have hh := List.append_cancel_left hh
    subst hu hh
    rw [hb] at hg
    rcases hg with ⟨before, c, t, hd, he, hk, h0, hx⟩ | ⟨before, steps, c, t0, life, hd, hof, _, he, hk⟩
    · right
      obtain ⟨t1, t2, hp, _, _⟩ := did_split (e := .locked bt.id (some c)) (a := before) (b := [.clock t, .unlocked bt.id]) hd
      obtain ⟨j, t0, life, hr'⟩ := locked_refreshed h (pre := t1) (i := i) (id := bt.id) (c := c)
        (post := t2 ++ .did i (.sent (signBlobPost email token payload)) :: post) (by rw [ht, hp]; simp)
      refine ⟨before, c, t, j, t0, life, hd, he, hk, by rw [hp]; exact refreshed_append hr', ?_⟩
      obtain ⟨_, steps, _, _, hof, _⟩ := hr'
      rw [← hof.expires]
      exact hx
    · exact .inl ⟨before, steps, c, t0, life, hd, hof, he, hk⟩

/-! ### C37 -/

/-- C37. At most one call is refreshing a key. -/
theorem C37_exclusive (h : Sys.Reach env base s) {id i j : Nat} (hi : Refreshing (base id) s i id)
    (hj : Refreshing (base id) s j id) : i = j := by
  obtain ⟨ri, b1, r1, a1, d1, h1, _, u1⟩ := hi
  obtain ⟨rj, b2, r2, a2, d2, h2, _, u2⟩ := hj
  refine exclusive h ri rj (id := id) ?_ ?_
  · rw [d1]; exact holding_append h1 (by simp [u1])
  · rw [d2]; exact holding_append h2 (by simp [u2])

/-- C37. A refresh begins (with the e-mail request) only if, at that moment, the cache of the key is empty, or expires
at most 30 s after a clock reading that the call made since it took the lock. -/
theorem C37_needed (h : Sys.Reach env base s) {pre post : List Event} {i : Nat} {bt : BoundToken}
    (ht : s.trace = pre ++ .did i (.sent (metadataGet (emailUrl (base bt.id)))) :: post) (hst : StartedWith pre i bt) :
    cacheOf bt.id pre = none ∨
    ∃ before c t, cacheOf bt.id pre = some c ∧ did pre i = before ++ [.locked bt.id (some c), .clock t] ∧
      c.expires ≤ t + 30 * 1000000000 := by
  obtain ⟨s1, _, call, hr1, _, h1, _, hrun, hst', hb, hl, _⟩ := legal_of_reach h ht
  subst h1
  rcases hl with ⟨t, hc⟩ | ⟨bt', hk, hl⟩
  · cases hc
  have := startedWith_unique hr1 hst ⟨call, hst', hk⟩
  subst this
  have hb := hb bt hk
  rw [← (inv_reach hr1).cache]
  rcases hl with ⟨_, hm, _⟩ | ⟨hr, _⟩ | ⟨_, email, token, payload, _, hr⟩
  · rcases hm with ⟨before, hd⟩ | ⟨before, c, t, hd, _, _, hx⟩
    · exact .inl (view hr1 hrun hd (by simp) (by simp))
    · exact .inr ⟨before, c, t, view hr1 hrun hd (by simp) (by simp), hd, hx⟩
  · rw [hb] at hr
    exact absurd hr (email_ne_token _)
  · have := congrArg Request.method hr
    exact absurd this.symm post_method

/-- A call that acts after a write of a cache was not inside the critical section at the write, unless it is the writer. -/
theorem writer_alone (h : Sys.Reach env base s) {pre mid post : List Event} {i j id : Nat} {c : Cached} {e : Ev}
    (ht : s.trace = pre ++ .did i (.stored id c) :: mid ++ .did j e :: post) (hh : holding id (did pre j) = true) : i = j := by
  have ht' : s.trace = pre ++ .did i (.stored id c) :: (mid ++ .did j e :: post) := by rw [ht]; simp
  obtain ⟨s1, s2, call, hr1, hs, h1, _, hrun, _, _, hl, _⟩ := legal_of_reach h ht'
  subst h1
  have hj : Running s1 j := by
    refine running_before h hr1 (pre := s1.trace ++ .did i (.stored id c) :: mid) (rest := .did i (.stored id c) :: mid)
      (post := post) (e := e) (by rw [ht]) rfl ?_
    intro h0
    rw [h0] at hh
    cases hh
  rcases hl with ⟨t, hc⟩ | ⟨bt, _, hid, hi, _⟩
  · cases hc
  · subst hid
    exact exclusive hr1 hrun hj hi hh

theorem cacheOf_append_quiet {id : Nat} {a b : List Event} (hb : ∀ j c, .did j (.stored id c) ∉ b) :
    cacheOf id (a ++ b) = cacheOf id a := by
  induction b using list_snoc_induction with
  | nil => simp
  | snoc t x ih =>
    have hx : ∀ j c, x ≠ .did j (.stored id c) := fun j c hx => hb j c (by simp [hx])
    rw [← List.append_assoc, cacheOf_snoc]
    have ih := ih fun j c hm => hb j c (by simp [hm])
    cases x with
    | did j e =>
      cases e with
      | stored id' c' =>
        have : id' ≠ id := fun hid => hx j c' (by rw [hid])
        simp [this, ih]
      | _ => exact ih
    | _ => exact ih

theorem mem_did {trace : List Event} {i : Nat} {e : Ev} (h : e ∈ did trace i) : .did i e ∈ trace := by
  unfold did at h
  obtain ⟨x, hx, he⟩ := List.mem_filterMap.1 h
  cases x with
  | did j e' =>
    simp only at he
    split at he
    · rename_i hj; cases he; subst hj; exact hx
    · cases he
  | _ => cases he

/-- A block of steps that a call has just done after a write of the cache by `i`, and that begins inside the critical
section or with taking the lock, lies wholly after the write, unless it contains the write. -/
theorem block_after (h : Sys.Reach env base s) {pre mid post : List Event} {i j id : Nat} {c : Cached} {e : Ev}
    (ht : s.trace = pre ++ .did i (.stored id c) :: mid ++ .did j e :: post) {before block : List Ev}
    (hd : did (pre ++ .did i (.stored id c) :: mid) j = before ++ block)
    (hin : ∀ b1 b2, block = b1 ++ b2 → b1 ≠ [] → holding id (before ++ b1) = true)
    (hst : Ev.stored id c ∉ block) : ∃ z, did mid j = z ++ block := by
  rw [show pre ++ Event.did i (.stored id c) :: mid = (pre ++ [.did i (.stored id c)]) ++ mid by simp, did_append] at hd
  rcases append_overlap hd with hz | ⟨b1, b2, hne, hb, ha, _⟩
  · exact hz
  · exfalso
    by_cases hij : i = j
    · subst hij
      rw [did_snoc_self] at ha
      rcases List.eq_nil_or_concat b1 with rfl | ⟨b1', x, rfl⟩
      · exact hne rfl
      · rw [List.concat_eq_append, ← List.append_assoc] at ha
        have := List.append_inj' ha rfl
        simp only [List.cons.injEq, and_true] at this
        exact hst (by rw [hb, List.concat_eq_append, this.2]; simp)
    · rw [did_snoc_other _ _ hij] at ha
      exact hij (writer_alone h ht (by rw [ha]; exact hin b1 b2 hb hne))

theorem append_eq_pair {α : Type} {a b : α} {x y : List α} (h : [a, b] = x ++ y) (hx : x ≠ []) : x = [a] ∨ x = [a, b] := by
  cases x with
  | nil => exact absurd rfl hx
  | cons u x =>
    cases x with
    | nil => simp only [List.cons_append, List.nil_append, List.cons.injEq] at h; exact .inl (by rw [h.1])
    | cons v x =>
      cases x with
      | nil => simp only [List.cons_append, List.nil_append, List.cons.injEq] at h; exact .inr (by rw [h.1, h.2.1])
      | cons w x => simp at h

theorem append_eq_one {α : Type} {a : α} {x y : List α} (h : [a] = x ++ y) (hx : x ≠ []) : x = [a] := by
  cases x with
  | nil => exact absurd rfl hx
  | cons u x =>
    cases x with
    | nil => simp only [List.cons_append, List.nil_append, List.cons.injEq] at h; rw [h.1]
    | cons v x => simp at h

/-- After a write, and as long as the users of the key read clocks more than 30 s before the expiry, there is no e-mail
request and no other write. -/
theorem quiet_after (h : Sys.Reach env base s) {pre post : List Event} {i : Nat} {bt : BoundToken} {c : Cached}
    (ht : s.trace = pre ++ .did i (.stored bt.id c) :: post)
    (hclock : ∀ j t, StartedWith s.trace j bt → .did j (.clock t) ∈ post → t + 30 * 1000000000 < c.expires) :
    ∀ mid rest, post = mid ++ rest → (∀ j, StartedWith s.trace j bt → .did j (.sent (metadataGet (emailUrl (base bt.id)))) ∉ mid) ∧
      ∀ j c', StartedWith s.trace j bt → .did j (.stored bt.id c') ∉ mid := by
  intro mid
  induction mid using list_snoc_induction with
  | nil => simp
  | snoc mid x ih =>
    intro rest hpost
    have hpost' : post = mid ++ x :: rest := by rw [hpost]; simp
    obtain ⟨ih1, ih2⟩ := ih (x :: rest) hpost'
    have hx1 : ∀ j, StartedWith s.trace j bt → x ≠ .did j (.sent (metadataGet (emailUrl (base bt.id)))) := by
      intro j hj hx
      subst hx
      have ht' : s.trace = pre ++ .did i (.stored bt.id c) :: mid ++ .did j (.sent (metadataGet (emailUrl (base bt.id)))) :: rest := by
        rw [ht, hpost']; simp
      obtain ⟨s1, _, call, hr1, _, h1, _, hrun, hst, hb, _⟩ := legal_of_reach h ht'
      have hstj : StartedWith (pre ++ .did i (.stored bt.id c) :: mid) j bt := by
        obtain ⟨c0, m0, k0⟩ := hj
        have : c0 = call := started_unique h m0 (by rw [ht']; simp only [List.append_assoc, List.mem_append] at hst ⊢; rcases hst with hst | hst <;> simp_all)
        subst this
        exact ⟨c0, hst, k0⟩
      have hcache : cacheOf bt.id (pre ++ .did i (.stored bt.id c) :: mid) = some c := by
        rw [show pre ++ Event.did i (.stored bt.id c) :: mid = (pre ++ [.did i (.stored bt.id c)]) ++ mid by simp,
          cacheOf_append_quiet, cacheOf_snoc]
        · simp
        · intro j' c' hm
          obtain ⟨m1, m2, rfl⟩ := List.append_of_mem hm
          have htm : s.trace = (pre ++ .did i (.stored bt.id c) :: m1) ++ .did j' (.stored bt.id c') ::
              (m2 ++ .did j (.sent (metadataGet (emailUrl (base bt.id)))) :: rest) := by rw [ht, hpost']; simp
          obtain ⟨_, _, call', _, _, _, _, _, hst', hb', hl', _⟩ := legal_of_reach h htm
          rcases hl' with ⟨t, hc⟩ | ⟨bt', hk', hid, _⟩
          · cases hc
          · have hbb : bt' = bt := by
              have e1 : bt'.baseUrl = base bt'.id := hb' bt' hk'
              obtain ⟨c0, m0, k0⟩ := hstj
              have e2 : bt.baseUrl = base bt.id := by
                have : c0 = call := started_unique (s := s) h (by rw [ht']; exact List.mem_append_left _ m0)
                  (by rw [ht']; exact List.mem_append_left _ hst)
                subst this
                exact hb bt k0
              cases bt; cases bt'
              simp only at hid e1 e2 ⊢
              subst hid
              rw [e1, e2]
            subst hbb
            exact ih2 j' c' ⟨call', by rw [htm]; exact List.mem_append_left _ hst', hk'⟩ (by simp)
      rcases C37_needed h ht' hstj with hn | ⟨before, c', t, hc', hd, hx⟩
      · rw [hcache] at hn; cases hn
      · rw [hcache] at hc'
        cases hc'
        obtain ⟨z, hz⟩ := block_after h ht' hd (by
          intro b1 b2 hb hne
          rcases append_eq_pair hb hne with rfl | rfl
          · exact holding_locked _ [] _ (by simp)
          · exact holding_locked _ [.clock t] _ (by simp)) (by simp)
        have hmem : Event.did j (.clock t) ∈ mid := mem_did (by rw [hz]; simp)
        have := hclock j t hj (by rw [hpost']; simp [hmem])
        omega
    refine ⟨fun j hj hm => ?_, fun j c' hj hm => ?_⟩
    · simp only [List.mem_append, List.mem_singleton] at hm
      rcases hm with hm | hm
      · exact ih1 j hj hm
      · exact hx1 j hj hm.symm
    · simp only [List.mem_append, List.mem_singleton] at hm
      rcases hm with hm | hm
      · exact ih2 j c' hj hm
      · subst hm
        have ht' : s.trace = pre ++ .did i (.stored bt.id c) :: mid ++ .did j (.stored bt.id c') :: rest := by
          rw [ht, hpost']; simp
        obtain ⟨_, _, call, hr1, _, h1, _, _, hst, hb, hl, _⟩ := legal_of_reach h ht'
        rcases hl with ⟨t, hc⟩ | ⟨bt', hk, hid, _, before, steps, t0, life, happ, hof, hh, _⟩
        · cases hc
        · have hb' := hb bt' hk
          rw [← hid] at hb' hh hof
          obtain ⟨⟨s1, s2, doc, _, _, _, _, hsteps, _⟩, _⟩ := hof
          rw [hb'] at hsteps
          have hd : did (pre ++ .did i (.stored bt.id c) :: mid) j = before ++
              [.sent (metadataGet (emailUrl (base bt.id))), .status (some s1), .body (some c'.email),
               .sent (metadataGet (tokenUrl (base bt.id))), .status (some s2), .body (some doc), .clock t0] := by
            rw [hsteps] at happ
            unfold refreshSteps at happ
            rw [show before ++ [Ev.sent (metadataGet (emailUrl (base bt.id))), .status (some s1), .body (some c'.email),
               .sent (metadataGet (tokenUrl (base bt.id))), .status (some s2), .body (some doc), .clock t0, .stored bt.id c'] =
               before ++ [Ev.sent (metadataGet (emailUrl (base bt.id))), .status (some s1), .body (some c'.email),
               .sent (metadataGet (tokenUrl (base bt.id))), .status (some s2), .body (some doc), .clock t0] ++ [.stored bt.id c'] by simp] at happ
            exact (List.append_inj' happ rfl).1
          obtain ⟨z, hz⟩ := block_after h ht' hd (by
            intro b1 b2 hb hne
            refine holding_append hh ?_
            intro hm
            have : Ev.unlocked bt.id ∈ b1 ++ b2 := by simp [hm]
            rw [← hb] at this
            simp at this) (by simp)
          exact ih1 j hj (mem_did (by rw [hz]; simp))

/-- C37. After a refresh has stored a token, and as long as the calls with this key read clocks more than 30 s before
its expiry, they send nothing but signBlob requests: the e-mail and the token are not fetched again. -/
theorem C37_deduplicated (h : Sys.Reach env base s) {pre post : List Event} {i : Nat} {bt : BoundToken} {c : Cached}
    (ht : s.trace = pre ++ .did i (.stored bt.id c) :: post)
    (hclock : ∀ j t, StartedWith s.trace j bt → .did j (.clock t) ∈ post → t + 30 * 1000000000 < c.expires)
    {j : Nat} {r : Request} (hj : StartedWith s.trace j bt) (hr : .did j (.sent r) ∈ post) :
    ∃ email token payload, r = signBlobPost email token payload := by
  obtain ⟨mid, rest, hpost⟩ := List.append_of_mem hr
  have ht' : s.trace = pre ++ .did i (.stored bt.id c) :: mid ++ .did j (.sent r) :: rest := by rw [ht, hpost]; simp
  obtain ⟨bt', hst, hb, hl⟩ := sent_cases h ht'
  have : bt' = bt := startedWith_unique h (by rw [ht']; exact startedWith_append hst) hj
  subst this
  rcases hl with ⟨hreq, _, _⟩ | ⟨hreq, _, before, st, email, hd, _, _, hh⟩ | ⟨_, email, token, payload, _, hreq⟩
  · rw [hb] at hreq
    subst hreq
    exact absurd (by rw [hpost]; simp) ((quiet_after h ht hclock post [] (by simp)).1 j hj)
  · rw [hb] at hd
    obtain ⟨z, hz⟩ := block_after h ht' hd (by
      intro b1 b2 hb hne
      refine holding_append hh ?_
      intro hm
      have : Ev.unlocked bt'.id ∈ b1 ++ b2 := by simp [hm]
      rw [← hb] at this
      simp at this) (by simp)
    exact absurd (by rw [hpost]; exact List.mem_append_left _ (mem_did (by rw [hz]; simp)))
      ((quiet_after h ht hclock post [] (by simp)).1 j hj)
  · exact ⟨email, token, payload, hreq⟩

/-! ### C38 -/

/-- C38. Dropping a call leaves every cache and every other call as they are; the call holds no lock afterwards, and
the locks of the others stay theirs. -/
theorem C38_cancel {s' : Sys} {i : Nat} (h : Sys.Step env base s s') (ht : s'.trace = s.trace ++ [.cancelled i]) :
    s'.caches = s.caches ∧ ¬ Running s' i ∧ (∀ id, s'.holder id ≠ some i) ∧
      (∀ j, j ≠ i → s'.calls j = s.calls j ∧ ∀ id, s'.holder id = some j ↔ s.holder id = some j) := by
  rcases step_cases h with ⟨j, call, ht', _⟩ | ⟨j, e, p, q, ht', _⟩ | ⟨j, r, ht', _⟩ | ⟨j, p, ht', hca, _, _, hho, hc⟩
  all_goals
    rw [ht'] at ht
    have := List.append_cancel_left ht
    simp only [List.cons.injEq, reduceCtorEq, false_and, Event.cancelled.injEq, and_true] at this
  subst this
  refine ⟨hca, ?_, ?_, ?_⟩
  · rintro ⟨p', hp'⟩
    rw [hc] at hp'
    simp at hp'
  · intro id
    rw [hho]
    simp only
    split
    · simp
    · assumption
  · intro k hk
    refine ⟨by rw [hc]; simp [hk], fun id => ?_⟩
    rw [hho]
    simp only
    split
    · rename_i hh
      rw [hh]
      simp [Ne.symm hk]
    · exact Iff.rfl

/-- C38. A cache never holds anything partial: its content is the last thing stored in it, and that consists of the
e-mail, token and expiry of one complete refresh, done by one call inside one critical section. -/
theorem C38_cache_whole (h : Sys.Reach env base s) (id : Nat) :
    s.caches id = cacheOf id s.trace ∧
    ∀ c, s.caches id = some c → ∃ j t0 life, Refreshed (base id) s.trace j id c t0 life :=
  ⟨(inv_reach h).cache id, fun _ hc => cached_refreshed h hc⟩

/-- C38. A lock is held only by a call that is still running and has taken it: a call that has returned, failed,
panicked or was dropped holds none. -/
theorem C38_lock_owner (h : Sys.Reach env base s) (id i : Nat) :
    s.holder id = some i ↔ Running s i ∧ holding id (did s.trace i) = true := (inv_reach h).lock id i

/-- C38. Nobody waits forever for a lock that is never released: if a call is in progress, it can take a step, or it
waits for a lock whose holder can. -/
theorem C38_progress (h : Sys.Reach env base s) {i : Nat} (hi : Running s i) :
    ∃ j s' e, (j = i ∨ ∃ id, s.holder id = some j) ∧ Sys.Step env base s s' ∧ s'.trace = s.trace ++ [e] ∧
      ((∃ x, e = .did j x) ∨ ∃ r, e = .returned j r) := by
  obtain ⟨p, hp⟩ := hi
  by_cases hw : ∃ id k j, p = .lock id k ∧ s.holder id = some j
  · obtain ⟨id, k, j, rfl, hj⟩ := hw
    obtain ⟨⟨pj, hpj⟩, hhj⟩ := ((inv_reach h).lock id j).1 hj
    obtain ⟨call, hcall⟩ := (inv_reach h).running j pj hpj
    obtain ⟨s', e, h1, h2, h3⟩ := can_go (env := env) (base := base) hpj (by
      intro id' k' hl
      subst hl
      have hleg := (hcall.ok.step (.lock id' k' none)).1
      rcases hleg with ⟨t, hc⟩ | ⟨bt, hk, hid, hn⟩
      · cases hc
      · obtain ⟨bt', hk', hid'⟩ := hcall.own id hhj
        rw [hk] at hk'
        cases hk'
        rw [hid', hhj] at hn
        cases hn)
    exact ⟨j, s', e, .inr ⟨id, hj⟩, h1, h2, h3⟩
  · obtain ⟨s', e, h1, h2, h3⟩ := can_go (env := env) (base := base) hp (by
      intro id k hl
      cases hh : s.holder id with
      | none => rfl
      | some j => exact absurd ⟨id, k, j, hl, hh⟩ hw)
    exact ⟨i, s', e, .inl rfl, h1, h2, h3⟩

/-- C38. No call takes more than 26 steps, so with `C38_progress` every call ends once it is no longer dropped and
everybody keeps taking steps. -/
theorem C38_bounded (h : Sys.Reach env base s) (i : Nat) : (did s.trace i).length ≤ 26 := (steps_bound h i).1

/-! ### C34, C44 -/

/-- C34 and C44, for all histories: a cache is written only by a call with this key, holding its lock, as the last of
the eight steps of a successful refresh. In particular a failed refresh and a call with another key leave it alone. -/
theorem C44_history (h : Sys.Reach env base s) {pre post : List Event} {i id : Nat} {c : Cached}
    (ht : s.trace = pre ++ .did i (.stored id c) :: post) :
    ∃ bt before steps t0 life, StartedWith pre i bt ∧ bt.id = id ∧ did pre i ++ [.stored id c] = before ++ steps ∧
      RefreshOf (base id) id steps c t0 life ∧ holding id before = true := by
  obtain ⟨_, _, call, _, _, _, _, _, hst, hb, hl, _⟩ := legal_of_reach h ht
  rcases hl with ⟨t, hc⟩ | ⟨bt, hk, hid, _, before, steps, t0, life, happ, hof, hh, _⟩
  · cases hc
  · subst hid
    rw [hb bt hk] at hof
    exact ⟨bt, before, steps, t0, life, ⟨call, hst, hk⟩, rfl, happ, hof, hh⟩

/-- C44, for all histories: a call that takes the lock of a key uses that key, and what it finds there is what was last
stored for this very key, by whichever clone, or nothing if no call has stored anything for it. -/
theorem C44_lock_shows_own (h : Sys.Reach env base s) {pre post : List Event} {i id : Nat} {found : Option Cached}
    (ht : s.trace = pre ++ .did i (.locked id found) :: post) :
    (∃ bt, StartedWith pre i bt ∧ bt.id = id) ∧ found = cacheOf id pre := by
  obtain ⟨s1, _, call, hr1, _, h1, _, _, hst, _, hl, _, _, heff, _⟩ := legal_of_reach h ht
  refine ⟨?_, ?_⟩
  · rcases hl with ⟨t, hc⟩ | ⟨bt, hk, hid, _⟩
    · cases hc
    · exact ⟨bt, ⟨call, hst, hk⟩, hid.symm⟩
  · cases heff
    rw [← h1]
    exact (inv_reach hr1).cache id

/-! ### schedules

Two calls with the same key: call 0 (a URL) and call 1 (a form). -/

namespace Conformance

def baseOf : Nat → Str := fun _ => s% "http://metadata.google.internal"
def tokenDoc (life : Str) : Str := s% "{\"access_token\":\"tok\",\"expires_in\":" ++ life ++ s% ",\"token_type\":\"Bearer\"}"
def atNow : Time := 1640995200 * nsPerSec

/-- Call 0 refreshes up to the answer of the token request, while call 1 has begun and waits for the lock. -/
def refreshing (life : Str) : List Move :=
  [.start 0 (.url btUrlOptions), .clock 0 atNow, .go 0, .start 1 (.form btCalls), .clock 1 atNow, .go 0,
   .status 0 (some 200), .body 0 (some (s% "a@b.c")), .go 0, .status 0 (some 200), .body 0 (some (tokenDoc life))]

/-- Call 0 stores the token and leaves; call 1 goes in, finds the token and leaves. -/
def shared : List Move :=
  refreshing (s% "3599") ++ [.clock 0 atNow, .go 0, .go 0, .go 1, .clock 1 atNow, .go 1]

/-- Both go on to sign with the same pair, one after the other inside, both waiting for IAM at the same time. -/
def signing : List Move :=
  shared ++ [.go 1, .clock 1 atNow, .go 1, .go 0, .go 1, .clock 0 atNow, .go 0, .go 0]

/-- IAM answers call 0 first, then call 1; both return. -/
def finished : List Move :=
  signing ++ [.status 0 (some 200), .body 0 (some (s% "{\"keyId\":\"k\",\"signedBlob\":\"AAH/\"}")), .finish 0,
    .status 1 (some 200), .body 1 (some (s% "{\"keyId\":\"k\",\"signedBlob\":\"AQID\"}")), .finish 1]

/-- Call 0 is dropped while it waits for the token; call 1 goes in and refreshes. -/
def dropped : List Move :=
  (refreshing (s% "3599")).dropLast ++ [.cancel 0, .go 1, .go 1]

/-- A token that lives 0 s is used all the same by the call that has fetched it. -/
def shortLived : List Move :=
  refreshing (s% "0") ++ [.clock 0 atNow, .go 0, .go 0, .go 0, .clock 0 atNow, .go 0,
   .status 0 (some 200), .body 0 (some (s% "a@b.c")), .go 0, .status 0 (some 200), .body 0 (some (tokenDoc (s% "0"))),
   .clock 0 atNow, .go 0, .go 0, .go 0]

/-- What call `i` sent. -/
def sentBy (s : Sys) (i : Nat) : List Request :=
  (did s.trace i).filterMap fun
    | .sent r => some r
    | _ => none

def returnedOk (s : Sys) (i : Nat) : Bool :=
  s.trace.any fun
    | .returned j (.url (.ok _)) => j == i
    | .returned j (.form (.ok _)) => j == i
    | _ => false

end Conformance

open Conformance

/-- Non-vacuity of C35-C37: the two calls share one refresh, sign at the same time and both succeed. Call 1 sends
nothing but its signBlob request. -/
example : ∃ s, Sys.Reach btEnv baseOf s ∧ (returnedOk s 0 && returnedOk s 1 &&
    decide ((sentBy s 0).map (·.method) = [s% "GET", s% "GET", s% "POST"]) &&
    decide ((sentBy s 1).map (·.method) = [s% "POST"])) = true :=
  leads_reach (ms := finished) (by decide +kernel)

/-- Non-vacuity of C37, C38: a call is refreshing while another waits. -/
example : ∃ s, Sys.Reach btEnv baseOf s ∧ (decide (s.holder 0 = some 0) && (s.calls 1).isSome && (s.calls 0).isSome &&
    decide ((sentBy s 0).length = 2)) = true :=
  leads_reach (ms := refreshing (s% "3599")) (by decide +kernel)

/-- Non-vacuity of C38: a call is dropped in the middle of a refresh; the cache is still empty and the other call holds
the lock and has begun its own refresh. -/
example : ∃ s, Sys.Reach btEnv baseOf s ∧ (decide (s.holder 0 = some 1) && (s.caches 0).isNone && (s.calls 0).isNone &&
    decide ((sentBy s 1).length = 1)) = true :=
  leads_reach (ms := dropped) (by decide +kernel)

/-- Non-vacuity of C44: call 0 finds nothing, call 1 finds what call 0 has stored. -/
example : ∃ s, Sys.Reach btEnv baseOf s ∧ (s.trace.any (fun
      | .did 0 (.locked 0 none) => true
      | _ => false) && s.trace.any (fun
      | .did 1 (.locked 0 (some c)) => decide (c.token = s% "tok")
      | _ => false)) = true :=
  leads_reach (ms := shared) (by decide +kernel)

/-- C36: a fresh token is used whatever its lifetime. -/
theorem C36_fresh_token_any_life : ∃ s, Sys.Reach btEnv baseOf s ∧ (sentBy s 0).map (·.method) =
    [s% "GET", s% "GET", s% "GET", s% "GET", s% "POST"] ∧ (s.caches 0).map (·.expires) = some atNow := by
  obtain ⟨s, h1, h2⟩ := leads_reach (env := btEnv) (base := baseOf) (ms := shortLived) (P := fun s =>
    decide ((sentBy s 0).map (·.method) = [s% "GET", s% "GET", s% "GET", s% "GET", s% "POST"]) &&
    decide ((s.caches 0).map (·.expires) = some atNow)) (by decide +kernel)
  simp only [Bool.and_eq_true, decide_eq_true_eq] at h2
  exact ⟨s, h1, h2.1, h2.2⟩

end CSS
