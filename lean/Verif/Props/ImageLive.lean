import Verif.Spec.ImageLive
import Verif.Props.ImageUploaderExamples
import Verif.Props.Liveness
/-
C96: every request to the example server is answered, whatever other requests there are.
-/
namespace CSS
open CSS.ImageUploader CSS.Spec.ImageUploader

variable {crate : Crate} {cfg : Config}

/-- What a move does to the handler of a request that was there before. -/
theorem moves_task {m : ServerMove} {s s' : State} (h : Moves crate cfg m s s') {i : Nat} {r : Req} {t : Task}
    (ht : s.tasks[i]? = some (r, t)) :
    (m ≠ .worked i ∧ m ≠ .dropped i ∧ s'.tasks[i]? = some (r, t)) ∨
    (m = .dropped i ∧ s'.tasks[i]? = some (r, .dropped)) ∨
    (m = .worked i ∧ ¬ Finished t ∧ ∃ uuid form url, s'.tasks[i]? = some (r, (t.step cfg uuid s.images form url).1)) := by
  have hlt : i < s.tasks.length := by
    rcases Nat.lt_or_ge i s.tasks.length with h | h
    · exact h
    · rw [List.getElem?_eq_none h] at ht; cases ht
  cases h with
  | receive q =>
    left
    refine ⟨by simp, by simp, ?_⟩
    simp only
    rw [List.getElem?_append_left hlt]
    exact ht
  | step j q u uuid form url hj hu _ _ =>
    by_cases hij : j = i
    · subst hij
      rw [ht] at hj
      cases hj
      right; right
      refine ⟨rfl, hu, uuid, form, url, ?_⟩
      simp only
      rw [List.getElem?_set_self hlt]
    · left
      refine ⟨by simpa using hij, by simp, ?_⟩
      simp only
      rw [List.getElem?_set_ne hij]
      exact ht
  | drop j q u hj hu =>
    by_cases hij : j = i
    · subst hij
      rw [ht] at hj
      cases hj
      right; left
      refine ⟨rfl, ?_⟩
      simp only
      rw [List.getElem?_set_self hlt]
    · left
      refine ⟨by simp, by simpa using hij, ?_⟩
      simp only
      rw [List.getElem?_set_ne hij]
      exact ht

theorem moves_images {m : ServerMove} {s s' : State} (h : Moves crate cfg m s s') : s.images.length ≤ s'.images.length := by
  have hm : ∀ (id : Str) (l : List Image), (markUploaded id l).length = l.length := by
    intro id l
    induction l with
    | nil => rfl
    | cons a b ih => unfold markUploaded; split <;> simp [ih]
  cases h with
  | receive _ => exact Nat.le_refl _
  | drop _ _ _ _ _ => exact Nat.le_refl _
  | step j q u uuid form url hj hu _ _ =>
    simp only
    cases u with
    | create n t => simp only [Task.step]; split <;> exact Nat.le_refl _
    | push id fields => simp [Task.step]
    | list => exact Nat.le_refl _
    | update id => simp [Task.step, hm]
    | replied _ => exact Nat.le_refl _
    | dropped => exact Nat.le_refl _
    | sign rest urls =>
      cases rest with
      | nil => exact Nat.le_refl _
      | cons a b => simp only [Task.step]; split <;> try exact Nat.le_refl _
                    split <;> exact Nat.le_refl _

/-- How many steps a handler has still to do, with this many images. -/
def ImageUploader.Task.left (images : Nat) : Task → Nat
  | .create _ _ => 2
  | .push _ _ => 1
  | .list => images + 2
  | .sign rest _ => rest.length + 1
  | .update _ => 1
  | .replied _ => 0
  | .dropped => 0

theorem left_zero {n : Nat} {t : Task} : t.left n = 0 ↔ Finished t := by
  unfold Finished
  cases t <;> simp [Task.left]

theorem left_mono {n n' : Nat} (h : n ≤ n') (t : Task) : t.left n ≤ t.left n' := by
  cases t <;> simp [Task.left, h]

theorem left_step (t : Task) (ht : ¬ Finished t) (uuid : Str) (images : List Image) (form : Res Failure (List (Str × Str)))
    (url : Res Failure Str) (n : Nat) (hn : images.length ≤ n) : (t.step cfg uuid images form url).1.left n + 1 ≤ t.left n := by
  cases t with
  | create k c => simp only [Task.step]; split <;> simp [Task.left]
  | push id fields => simp [Task.step, Task.left]
  | list => simp [Task.step, Task.left]; exact hn
  | update id => simp [Task.step, Task.left]
  | replied r => exact absurd (.inl ⟨r, rfl⟩) ht
  | dropped => exact absurd (.inr rfl) ht
  | sign rest urls =>
    cases rest with
    | nil => simp [Task.step, Task.left]
    | cons a b =>
      simp only [Task.step]
      split
      · simp [Task.left]
      · split <;> simp [Task.left]

theorem worked_left {i n : Nat} {s s' : State} (h : Worked crate cfg i n s s') {r : Req} {t : Task}
    (ht : s.tasks[i]? = some (r, t)) :
    s.images.length ≤ s'.images.length ∧
      ∃ t', s'.tasks[i]? = some (r, t') ∧ ∀ k, s'.images.length ≤ k → n + t'.left k ≤ t.left k := by
  induction h with
  | refl => exact ⟨Nat.le_refl _, t, ht, fun k _ => by omega⟩
  | own _ hm ih =>
    obtain ⟨hi, t', h1, h2⟩ := ih ht
    have him := moves_images hm
    rcases moves_task hm h1 with ⟨h, _⟩ | ⟨h, _⟩ | ⟨_, hnf, uuid, form, url, h3⟩
    · exact absurd rfl h
    · cases h
    · refine ⟨by omega, _, h3, fun k hk => ?_⟩
      have := left_step (cfg := cfg) t' hnf uuid _ form url k (Nat.le_trans him hk)
      have := h2 k (by omega)
      omega
  | other m _ hm hne ih =>
    obtain ⟨hi, t', h1, h2⟩ := ih ht
    have him := moves_images hm
    rcases moves_task hm h1 with ⟨_, _, h3⟩ | ⟨_, h3⟩ | ⟨h, _⟩
    · exact ⟨by omega, t', h3, fun k hk => h2 k (by omega)⟩
    · refine ⟨by omega, _, h3, fun k hk => ?_⟩
      have := h2 k (by omega)
      change _ + 0 ≤ _
      omega
    · exact absurd h hne

/-- C96. A handler takes few steps of its own, whatever other handlers do meanwhile: two for a registration, one for a report, and
for a listing two more than there are images. -/
theorem C96_steps {i n : Nat} {s s' : State} {r : Req} (h : Worked crate cfg i n s s') (hr : s.tasks[i]? = some (r, r.task)) :
    n ≤ (match r with
      | .create _ _ => 2
      | .update _ => 1
      | .list => s'.images.length + 2) := by
  obtain ⟨_, t', _, h2⟩ := worked_left h hr
  have := h2 s'.images.length (Nat.le_refl _)
  cases r <;> simp only [Req.task, Task.left] at this ⊢ <;> omega

/-- C96. A handler is never stuck: if it has not finished it can take its next step, whatever the state of the other handlers. -/
theorem C96_not_stuck (env : Env) (s : State) (i : Nat) (r : Req) (t : Task) (ht : s.tasks[i]? = some (r, t)) (hnf : ¬ Finished t) :
    ∃ s', Moves (.alone env cfg) cfg (.worked i) s s' := by
  have huuid : ∃ uuid, IsUuid uuid := ⟨List.replicate 36 '0', by decide, by decide⟩
  obtain ⟨uuid, hu⟩ := huuid
  have hg : ∃ form url, (Crate.alone env cfg).Gives uuid form url t := by
    let w : World := ⟨fun _ => none, 0, [], 0⟩
    cases t with
    | create n c => exact ⟨_, .err .status500, w, rfl⟩
    | sign rest urls =>
      cases rest with
      | nil => exact ⟨.err .status500, .err .status500, trivial⟩
      | cons a b => exact ⟨.err .status500, _, fun _ => ⟨w, rfl⟩⟩
    | _ => exact ⟨.err .status500, .err .status500, trivial⟩
  obtain ⟨form, url, hg⟩ := hg
  exact ⟨_, .step i r t uuid form url ht hnf hu hg⟩

theorem handler_finishes (σ : Nat → State) (hnext : ∀ n, σ (n + 1) = σ n ∨ ∃ m, Moves crate cfg m (σ n) (σ (n + 1)))
    (hf : ServerFair crate cfg σ) (i n : Nat) (r : Req) (t : Task)
    (ht : (σ n).tasks[i]? = some (r, t)) : ∃ m t', n ≤ m ∧ (σ m).tasks[i]? = some (r, t') ∧ Finished t' := by
  have stays : ∀ d n t, (σ n).tasks[i]? = some (r, t) → ∃ t', (σ (n + d)).tasks[i]? = some (r, t') ∧
      ((t' = t ∨ Finished t') ∨ ∀ k, (σ (n + d)).images.length ≤ k → t'.left k + 1 ≤ t.left k) ∧
      (σ n).images.length ≤ (σ (n + d)).images.length := by
    intro d
    induction d with
    | zero => intro n t ht; exact ⟨t, ht, .inl (.inl rfl), Nat.le_refl _⟩
    | succ d ih =>
      intro n t ht
      obtain ⟨t', h1, h2, hi⟩ := ih n t ht
      rcases hnext (n + d) with he | ⟨m, hm⟩
      · rw [show n + (d + 1) = n + d + 1 by omega, he]
        exact ⟨t', h1, h2, hi⟩
      · have him := moves_images hm
        rw [show n + (d + 1) = n + d + 1 by omega]
        rcases moves_task hm h1 with ⟨_, _, h3⟩ | ⟨_, h3⟩ | ⟨_, hnf, uuid, form, url, h3⟩
        · refine ⟨t', h3, ?_, by omega⟩
          rcases h2 with h2 | h2
          · exact .inl h2
          · exact .inr fun k hk => h2 k (by omega)
        · exact ⟨_, h3, .inl (.inr (.inr rfl)), by omega⟩
        · refine ⟨_, h3, .inr fun k hk => ?_, by omega⟩
          have h4 := left_step (cfg := cfg) t' hnf uuid _ form url k (by omega : (σ (n + d)).images.length ≤ k)
          rcases h2 with (rfl | h2) | h2
          · exact h4
          · exact absurd h2 hnf
          · have := h2 k (by omega); omega
  have step : ∀ n t, (σ n).tasks[i]? = some (r, t) → ¬ Finished t → ∃ k t', n ≤ k ∧ (σ k).tasks[i]? = some (r, t') ∧
      (Finished t' ∨ (t'.left (σ k).images.length + 1 ≤ t.left (σ k).images.length ∧ t' ≠ .list)) := by
    intro n t ht hnf
    obtain ⟨k, hk, hm⟩ := hf i n r t ht hnf
    obtain ⟨d, rfl⟩ : ∃ d, k = n + d := ⟨k - n, by omega⟩
    obtain ⟨t', h1, h2, hi⟩ := stays d n t ht
    rcases hm with hm | hm
    · have him := moves_images hm
      rcases moves_task hm h1 with ⟨h, _⟩ | ⟨h, _⟩ | ⟨_, hnf', uuid, form, url, h3⟩
      · exact absurd rfl h
      · cases h
      · refine ⟨n + d + 1, _, by omega, h3, .inr ⟨?_, ?_⟩⟩
        · have h4 := left_step (cfg := cfg) t' hnf' uuid _ form url (σ (n + d + 1)).images.length (by omega)
          rcases h2 with (rfl | h2) | h2
          · exact h4
          · exact absurd h2 hnf'
          · have := h2 (σ (n + d + 1)).images.length (by omega); omega
        · intro he
          cases t' with
          | create a b => revert he; simp only [Task.step]; split <;> simp
          | sign rest urls =>
            cases rest with
            | nil => revert he; simp [Task.step]
            | cons a b => revert he; simp only [Task.step]; split <;> try simp
                          split <;> simp
          | _ => revert he; simp [Task.step]
    · rcases moves_task hm h1 with ⟨_, h, _⟩ | ⟨_, h3⟩ | ⟨h, _⟩
      · exact absurd rfl h
      · exact ⟨n + d + 1, _, by omega, h3, .inl (.inr rfl)⟩
      · cases h
  have fixed : ∀ t : Task, t ≠ .list → ∀ a b, t.left a = t.left b := by
    intro t ht a b
    cases t <;> first | rfl | exact absurd rfl ht
  have main : ∀ k n t, (σ n).tasks[i]? = some (r, t) → t ≠ .list → t.left 0 = k →
      ∃ m t', n ≤ m ∧ (σ m).tasks[i]? = some (r, t') ∧ Finished t' := by
    intro k
    induction k using Nat.strongRecOn with
    | _ k ih =>
      intro n t ht hl hk
      by_cases hnf : Finished t
      · exact ⟨n, t, Nat.le_refl _, ht, hnf⟩
      · obtain ⟨m, t', hm, h1, h2⟩ := step n t ht hnf
        rcases h2 with h2 | ⟨h2, hl'⟩
        · exact ⟨m, t', hm, h1, h2⟩
        · rw [fixed t' hl' _ 0, fixed t hl _ 0] at h2
          obtain ⟨m', t'', h3, h4⟩ := ih (t'.left 0) (by omega) m t' h1 hl' rfl
          exact ⟨m', t'', by omega, h4⟩
  by_cases hnf : Finished t
  · exact ⟨n, t, Nat.le_refl _, ht, hnf⟩
  · obtain ⟨m, t', hm, h1, h2⟩ := step n t ht hnf
    rcases h2 with h2 | ⟨_, hl'⟩
    · exact ⟨m, t', hm, h1, h2⟩
    · obtain ⟨m', t'', h3, h4⟩ := main _ m t' h1 hl' rfl
      exact ⟨m', t'', by omega, h4⟩

/-- C96. In every fair history of the server, every request is answered (or its client goes away). -/
theorem C96_answered (σ : Nat → State) (h : ServerHistory crate cfg σ) (hf : ServerFair crate cfg σ) (i n : Nat) (r : Req) (t : Task)
    (ht : (σ n).tasks[i]? = some (r, t)) : ∃ m t', n ≤ m ∧ (σ m).tasks[i]? = some (r, t') ∧ Finished t' :=
  handler_finishes σ h.next hf i n r t ht

/-- C96. That the calls of the crate return need not be assumed: if they are calls in a fair history of concurrent calls (C78), every
request is answered as soon as handlers are run that have nothing to wait for. -/
theorem C96_with_calls (env : Env) (base : Nat → Str) (calls : Nat → Sys) (hc : Spec.History env base calls)
    (hcf : Spec.Fair env base calls) (σ : Nat → State) (h : ServerHistory crate cfg σ) (hs : ServedWith calls crate cfg σ) (i n : Nat)
    (r : Req) (t : Task) (ht : (σ n).tasks[i]? = some (r, t)) : ∃ m t', n ≤ m ∧ (σ m).tasks[i]? = some (r, t') ∧ Finished t' := by
  refine C96_answered σ h (fun i n r t ht hnf => ?_) i n r t ht
  rcases hs i n r t ht hnf with h | ⟨call, k, hrun, hback⟩
  · exact h
  · obtain ⟨m, hm, hd⟩ := C78_every_call_ends calls hc hcf call k hrun
    exact hback m hm hd

/-- The moves are those of the runs of the server. -/
theorem moves_run {m : ServerMove} {s s' : State} {events : List ImageUploader.Event} (hr : Run crate cfg events s) (h : Moves crate cfg m s s') :
    ∃ more, Run crate cfg (events ++ more) s' := by
  cases h with
  | receive r => exact ⟨[], by rw [List.append_nil]; exact .receive r hr⟩
  | step i r t uuid form url h1 _ h3 h4 => exact ⟨_, .step i r t uuid form url hr h1 h3 h4⟩
  | drop i r t h1 h2 => exact ⟨[], by rw [List.append_nil]; exact .drop i r t hr h1 fun a ha => h2 (.inl ⟨a, ha⟩)⟩

/-! ### cases -/

/-- A listing and a report are received; the listing copies the images (there are none), the report is answered, the listing is. -/
def liveExample : Nat → State
  | 0 => ⟨[], [(.list, .list)]⟩
  | 1 => ⟨[], [(.list, .list), (.update (s% "a"), .update (s% "a"))]⟩
  | 2 => ⟨[], [(.list, .sign [] []), (.update (s% "a"), .update (s% "a"))]⟩
  | 3 => ⟨[], [(.list, .sign [] []), (.update (s% "a"), .replied .noContent)]⟩
  | _ => ⟨[], [(.list, .replied (.urls [])), (.update (s% "a"), .replied .noContent)]⟩

theorem notFinished {t : Task} (h : t.left 0 ≠ 0) : ¬ Finished t := fun hf => h (left_zero.2 hf)

theorem aUuid : IsUuid (List.replicate 36 '0') := ⟨by decide, by decide⟩

theorem liveExample_moves : Moves crate cfg .received (liveExample 0) (liveExample 1) ∧
    Moves crate cfg (.worked 0) (liveExample 1) (liveExample 2) ∧ Moves crate cfg (.worked 1) (liveExample 2) (liveExample 3) ∧
    Moves crate cfg (.worked 0) (liveExample 3) (liveExample 4) :=
  ⟨.receive (.update (s% "a")),
   .step 0 .list .list _ (.err .status500) (.err .status500) rfl (notFinished (by decide)) aUuid trivial,
   .step 1 (.update (s% "a")) (.update (s% "a")) _ (.err .status500) (.err .status500) rfl (notFinished (by decide)) aUuid trivial,
   .step 0 .list (.sign [] []) _ (.err .status500) (.err .status500) rfl (notFinished (by decide)) aUuid trivial⟩

/-- C96: the hypotheses of `C96_answered` are met. -/
example : ServerHistory crate cfg liveExample ∧ ServerFair crate cfg liveExample := by
  obtain ⟨m0, m1, m2, m3⟩ := liveExample_moves (crate := crate) (cfg := cfg)
  refine ⟨⟨⟨[], .receive .list .start⟩, fun n => ?_⟩, fun i n r t ht hnf => ?_⟩
  · match n with
    | 0 => exact .inr ⟨_, m0⟩
    | 1 => exact .inr ⟨_, m1⟩
    | 2 => exact .inr ⟨_, m2⟩
    | 3 => exact .inr ⟨_, m3⟩
    | k + 4 => exact .inl rfl
  · match n, i with
    | 0, 0 => exact ⟨1, by omega, .inl m1⟩
    | 1, 0 => exact ⟨1, by omega, .inl m1⟩
    | 2, 0 => exact ⟨3, by omega, .inl m3⟩
    | 3, 0 => exact ⟨3, by omega, .inl m3⟩
    | 0, k + 1 => simp [liveExample] at ht
    | 1, 1 => exact ⟨2, by omega, .inl m2⟩
    | 2, 1 => exact ⟨2, by omega, .inl m2⟩
    | 1, k + 2 => simp [liveExample] at ht
    | 2, k + 2 => simp [liveExample] at ht
    | 3, 1 => simp [liveExample] at ht; rw [← ht.2] at hnf; exact absurd (.inl ⟨_, rfl⟩) hnf
    | 3, k + 2 => simp [liveExample] at ht
    | k + 4, 0 => simp [liveExample] at ht; rw [← ht.2] at hnf; exact absurd (.inl ⟨_, rfl⟩) hnf
    | k + 4, 1 => simp [liveExample] at ht; rw [← ht.2] at hnf; exact absurd (.inl ⟨_, rfl⟩) hnf
    | k + 4, j + 2 => simp [liveExample] at ht

/-- C96: the bound of `C96_steps` is reached, also by a listing (two steps without images). -/
example : Worked crate cfg 0 2 (liveExample 0) (liveExample 4) := by
  obtain ⟨m0, m1, m2, m3⟩ := liveExample_moves (crate := crate) (cfg := cfg)
  exact .own (.other _ (.own (.other _ (.refl _) m0 (by simp)) m1) m2 (by simp)) m3

end CSS
