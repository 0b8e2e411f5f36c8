import Verif.Spec.ImageUploader
import Verif.Conformance
/-
C69: what the example server lists. C70: what it registers, and the forms it returns.
-/
set_option linter.unusedSimpArgs false
namespace CSS
open Spec.ImageUploader ImageUploader

/-! ### The images are determined by the events -/

/-- What an event does to the images. -/
def ImageUploader.Event.apply (images : List Image) : Event → List Image
  | .created _ id => images ++ [⟨id, false⟩]
  | .updated _ id => markUploaded id images
  | .listed _ => images

/-- The images after these events. -/
def ImageUploader.replay (tr : List Event) : List Image := tr.foldl Event.apply []

theorem step_images (cfg : Config) (uuid : Str) (images : List Image) (form : Res Failure (List (Str × Str)))
    (url : Res Failure Str) (i : Nat) (t : Task) : (t.step cfg uuid images form url).2 = (t.events i).foldl Event.apply images := by
  cases t with
  | create n c =>
    simp only [Task.step, Task.events, List.foldl_nil]
    split <;> rfl
  | push id fs => rfl
  | list => rfl
  | sign rest urls =>
    cases rest with
    | nil => rfl
    | cons im rest =>
      simp only [Task.step, Task.events, List.foldl_nil]
      split
      · rfl
      · split <;> rfl
  | update id => rfl
  | replied r => rfl
  | dropped => rfl

theorem run_images {crate : Crate} {cfg : Config} {tr : List Event} {s : State} (h : Run crate cfg tr s) : s.images = replay tr := by
  induction h with
  | start => rfl
  | receive r _ ih => exact ih
  | step i r t uuid form url _ _ _ _ ih =>
    unfold replay at *
    rw [List.foldl_append, ← ih]
    exact step_images ..
  | drop i r t _ _ _ ih => exact ih

theorem markUploaded_ids (id : Str) (l : List Image) : (markUploaded id l).map (·.id) = l.map (·.id) := by
  induction l with
  | nil => rfl
  | cons a l ih =>
    simp only [markUploaded]
    split
    · rfl
    · simp [ih]

theorem mem_markUploaded {id x : Str} {l : List Image} (hn : (l.map (·.id)).Nodup) :
    ⟨x, true⟩ ∈ markUploaded id l ↔ ⟨x, true⟩ ∈ l ∨ (x = id ∧ id ∈ l.map (·.id)) := by
  induction l with
  | nil => simp [markUploaded]
  | cons a l ih =>
    obtain ⟨aid, au⟩ := a
    simp only [List.map_cons, List.nodup_cons] at hn
    simp only [markUploaded]
    split
    · rename_i h
      subst h
      simp only [List.mem_cons, Image.mk.injEq, and_true, List.map_cons, true_or]
      constructor
      · rintro (h | h)
        · exact .inr h
        · exact .inl (.inr h)
      · rintro ((⟨h, _⟩ | h) | h)
        · exact .inl h
        · exact .inr h
        · exact .inl h
    · rename_i h
      simp only [List.mem_cons, ih hn.2, List.map_cons]
      have : ¬ id = aid := fun e => h e.symm
      simp [this, or_assoc]

theorem createdIds_append (a b : List Event) : createdIds (a ++ b) = createdIds a ++ createdIds b := by
  simp [createdIds]

theorem replay_snoc (tr : List Event) (e : Event) : replay (tr ++ [e]) = e.apply (replay tr) := by
  simp [replay]

theorem snoc_induction {α : Type} {P : List α → Prop} (nil : P []) (snoc : ∀ l a, P l → P (l ++ [a])) (l : List α) : P l := by
  suffices ∀ l : List α, P l.reverse by simpa using this l.reverse
  intro l
  induction l with
  | nil => exact nil
  | cons a l ih => rw [List.reverse_cons]; exact snoc _ _ ih

theorem replay_ids (tr : List Event) : (replay tr).map (·.id) = createdIds tr := by
  induction tr using snoc_induction with
  | nil => rfl
  | snoc tr e ih =>
    rw [replay_snoc, createdIds_append, ← ih]
    cases e with
    | created i id => simp [Event.apply, createdIds]
    | updated i id => simp [Event.apply, markUploaded_ids, createdIds]
    | listed i => simp [Event.apply, createdIds]

theorem mem_createdIds {tr : List Event} {id : Str} : id ∈ createdIds tr ↔ ∃ a i b, tr = a ++ .created i id :: b := by
  constructor
  · intro h
    simp only [createdIds, List.mem_filterMap] at h
    obtain ⟨e, he, h⟩ := h
    cases e with
    | created i x =>
      simp only [Option.some.injEq] at h
      subst h
      obtain ⟨a, b, rfl⟩ := List.append_of_mem he
      exact ⟨a, i, b, rfl⟩
    | updated i x => simp at h
    | listed i => simp at h
  · rintro ⟨a, i, b, rfl⟩
    simp [createdIds]

theorem uploaded_snoc {tr : List Event} {e : Event} {x : Str} :
    UploadedIn (tr ++ [e]) x ↔ UploadedIn tr x ∨ ((∃ j, e = .updated j x) ∧ x ∈ createdIds tr) := by
  constructor
  · rintro ⟨before, between, after, i, j, h⟩
    rcases List.eq_nil_or_concat after with rfl | ⟨after', e', rfl⟩
    · have h' : tr ++ [e] = (before ++ .created i x :: between) ++ [.updated j x] := by rw [h]; simp
      obtain ⟨h1, h2⟩ := List.append_inj' h' rfl
      exact .inr ⟨⟨j, (List.cons.inj h2).1⟩, mem_createdIds.2 ⟨before, i, between, h1⟩⟩
    · have h' : tr ++ [e] = (before ++ .created i x :: (between ++ .updated j x :: after')) ++ [e'] := by rw [h]; simp
      obtain ⟨h1, _⟩ := List.append_inj' h' rfl
      exact .inl ⟨before, between, after', i, j, h1⟩
  · rintro (⟨before, between, after, i, j, rfl⟩ | ⟨⟨j, rfl⟩, h⟩)
    · exact ⟨before, between, after ++ [e], i, j, by simp⟩
    · obtain ⟨a, i, b, rfl⟩ := mem_createdIds.1 h
      exact ⟨a, b, [], i, j, by simp⟩

theorem mem_replay {tr : List Event} (hn : (createdIds tr).Nodup) (x : Str) : ⟨x, true⟩ ∈ replay tr ↔ UploadedIn tr x := by
  induction tr using snoc_induction with
  | nil =>
    simp only [replay, List.foldl_nil, List.not_mem_nil, false_iff]
    rintro ⟨_, _, _, _, _, h⟩
    simp at h
  | snoc tr e ih =>
    have hn' : (createdIds tr).Nodup := by
      rw [createdIds_append] at hn
      exact (List.nodup_append.1 hn).1
    rw [replay_snoc, uploaded_snoc, ← ih hn']
    cases e with
    | created i id => simp [Event.apply]
    | updated i id =>
      rw [Event.apply, mem_markUploaded (by rw [replay_ids]; exact hn'), replay_ids]
      constructor
      · rintro (h | ⟨rfl, h⟩)
        · exact .inl h
        · exact .inr ⟨⟨i, rfl⟩, h⟩
      · rintro (h | ⟨⟨j, hj⟩, h⟩)
        · exact .inl h
        · cases hj; exact .inr ⟨rfl, h⟩
    | listed i => simp [Event.apply]

/-! ### What each handler has done -/

/-- `urls` are signed URLs of these images, one for each. -/
def Signed (crate : Crate) (urls : List Str) (images : List Image) : Prop :=
  urls.length = images.length ∧ ∀ (k : Nat) (url : Str) (im : Image), urls[k]? = some url → images[k]? = some im →
    crate.url im.id (.ok url)

theorem Signed.nil {crate : Crate} : Signed crate [] [] := ⟨rfl, by simp⟩

theorem Signed.snoc {crate : Crate} {urls : List Str} {images : List Image} {url : Str} {im : Image}
    (h : Signed crate urls images) (hu : crate.url im.id (.ok url)) :
    Signed crate (urls ++ [url]) (images ++ [im]) := by
  refine ⟨by simp [h.1], fun k u i hk hi => ?_⟩
  rw [List.getElem?_append] at hk hi
  split at hk
  · rename_i hlt
    rw [if_pos (by rw [← h.1]; exact hlt)] at hi
    exact h.2 k u i hk hi
  · rename_i hge
    rw [if_neg (by rw [← h.1]; exact hge)] at hi
    rw [h.1] at hk
    generalize k - images.length = m at hk hi
    cases m with
    | zero =>
      simp only [List.getElem?_cons_zero, Option.some.injEq] at hk hi
      subst hk; subst hi
      exact hu
    | succ m => simp at hk

/-- What is known of the handler of request `i`, given the events so far. -/
def TaskInv (crate : Crate) (cfg : Config) (tr : List Event) (i : Nat) (r : Req) : Task → Prop
  | .create n c => r = .create n c ∧ eventsOf tr i = []
  | .push id fs => ∃ n c, r = .create n c ∧ IsUuid id ∧ crate.form id n c (.ok fs) ∧ eventsOf tr i = []
  | .list => r = .list ∧ eventsOf tr i = []
  | .sign rest urls => r = .list ∧ eventsOf tr i = [.listed i] ∧ ∃ before after done, tr = before ++ .listed i :: after ∧
      replay before = done ++ rest ∧ Signed crate urls (done.filter (·.uploaded))
  | .update id => r = .update id ∧ eventsOf tr i = []
  | .replied (.form fs m u) => ∃ n c id, r = .create n c ∧ IsUuid id ∧ crate.form id n c (.ok fs) ∧
      m = s% "POST" ∧ u = s% "https://storage.googleapis.com/" ++ cfg.bucketName ∧ eventsOf tr i = [.created i id]
  | .replied (.urls urls) => r = .list ∧ eventsOf tr i = [.listed i] ∧ ∃ before after, tr = before ++ .listed i :: after ∧
      Signed crate urls ((replay before).filter (·.uploaded))
  | .replied .noContent => ∃ id, r = .update id ∧ eventsOf tr i = [.updated i id]
  | .replied .internalServerError => ((∃ n c, r = .create n c) ∧ eventsOf tr i = []) ∨ (r = .list ∧ eventsOf tr i = [.listed i])
  | .replied .aborted => ((∃ n c, r = .create n c) ∧ eventsOf tr i = []) ∨ (r = .list ∧ eventsOf tr i = [.listed i])
  | .dropped => eventsOf tr i = [] ∨ (r = .list ∧ eventsOf tr i = [.listed i])

theorem eventsOf_append (a b : List Event) (i : Nat) : eventsOf (a ++ b) i = eventsOf a i ++ eventsOf b i := by
  simp [eventsOf]

theorem eventsOf_events (t : Task) (i : Nat) : eventsOf (t.events i) i = t.events i := by
  cases t <;> simp [Task.events, eventsOf]

theorem eventsOf_other {t : Task} {i j : Nat} (h : j ≠ i) : eventsOf (t.events j) i = [] := by
  cases t <;> simp [Task.events, eventsOf, h]

/-- Events of other requests change nothing. -/
theorem TaskInv.more {crate : Crate} {cfg : Config} {tr : List Event} {i : Nat} {r : Req} {t : Task} (h : TaskInv crate cfg tr i r t)
    (es : List Event) (he : eventsOf es i = []) : TaskInv crate cfg (tr ++ es) i r t := by
  have e : eventsOf (tr ++ es) i = eventsOf tr i := by rw [eventsOf_append, he, List.append_nil]
  cases t with
  | create n c => exact ⟨h.1, e.trans h.2⟩
  | push id fs =>
    obtain ⟨n, c, a, b, c', d⟩ := h
    exact ⟨n, c, a, b, c', e.trans d⟩
  | list => exact ⟨h.1, e.trans h.2⟩
  | sign rest urls =>
    obtain ⟨a, b, before, after, done, c, d, f⟩ := h
    exact ⟨a, e.trans b, before, after ++ es, done, by rw [c]; simp, d, f⟩
  | update id => exact ⟨h.1, e.trans h.2⟩
  | dropped =>
    rcases h with h | ⟨a, b⟩
    · exact .inl (e.trans h)
    · exact .inr ⟨a, e.trans b⟩
  | replied a =>
    cases a with
    | form fs m u =>
      obtain ⟨n, c, id, a1, a2, a3, a4, a5, a6⟩ := h
      exact ⟨n, c, id, a1, a2, a3, a4, a5, e.trans a6⟩
    | urls us =>
      obtain ⟨a, b, before, after, c, d⟩ := h
      exact ⟨a, e.trans b, before, after ++ es, by rw [c]; simp, d⟩
    | noContent =>
      obtain ⟨id, a, b⟩ := h
      exact ⟨id, a, e.trans b⟩
    | internalServerError =>
      rcases h with ⟨a, b⟩ | ⟨a, b⟩
      · exact .inl ⟨a, e.trans b⟩
      · exact .inr ⟨a, e.trans b⟩
    | aborted =>
      rcases h with ⟨a, b⟩ | ⟨a, b⟩
      · exact .inl ⟨a, e.trans b⟩
      · exact .inr ⟨a, e.trans b⟩

theorem settle_ok {ε α : Type} {x : Res ε α} {a : α} (h : settle x = .ok a) : x = .ok a := by
  cases x with
  | ok b => cases h; rfl
  | err e => cases h
  | panic s => cases h

theorem attempt_ok {ε α : Type} {x : M ε α} {w w' : World} {a : α} (h : attempt x w = (.ok a, w')) : x w = (.ok a, w') := by
  unfold attempt at h
  rw [Prod.mk.injEq] at h
  exact Prod.ext (settle_ok h.1) h.2

theorem createForm_ok {env : Env} {cfg : Config} {id : Str} {n : Nat} {c : Str} {w w' : World} {fs : List (Str × Str)}
    (h : createForm env cfg id n c w = (.ok fs, w')) :
    FormFor env cfg id n c fs (env.now w.ticks) (env.now (w.ticks + 1)) := by
  unfold createForm at h
  rw [M.bind_run] at h
  unfold inOneMinute at h
  by_cases hl : env.now w.ticks + 60 * nsPerSec < timeLimit
  · rw [if_pos hl] at h
    exact ⟨w, w', rfl, rfl, attempt_ok h⟩
  · rw [if_neg hl] at h
    simp at h

theorem signUrl_ok {env : Env} {cfg : Config} {id url : Str} {w w' : World} (h : signUrl env cfg id w = (.ok url, w')) :
    UrlFor env cfg id url (env.now w.ticks) (env.now (w.ticks + 1)) := by
  unfold signUrl at h
  rw [M.bind_run] at h
  unfold inOneMinute at h
  by_cases hl : env.now w.ticks + 60 * nsPerSec < timeLimit
  · rw [if_pos hl] at h
    exact ⟨w, w', rfl, rfl, attempt_ok h⟩
  · rw [if_neg hl] at h
    simp at h

/-- The next step of a handler keeps what is known. -/
theorem TaskInv.step {crate : Crate} {cfg : Config} {tr : List Event} {i : Nat} {r : Req} {t : Task} (h : TaskInv crate cfg tr i r t)
    (uuid : Str) (hu : IsUuid uuid) (form : Res Failure (List (Str × Str))) (url : Res Failure Str)
    (hg : crate.Gives uuid form url t) :
    TaskInv crate cfg (tr ++ t.events i) i r (t.step cfg uuid (replay tr) form url).1 := by
  have e : eventsOf (tr ++ t.events i) i = eventsOf tr i ++ t.events i := by rw [eventsOf_append, eventsOf_events]
  cases t with
  | create n c =>
    obtain ⟨h1, h2⟩ := h
    rw [h2] at e
    simp only [Task.step]
    split
    · exact ⟨n, c, h1, hu, hg, e⟩
    · exact .inl ⟨⟨n, c, h1⟩, e⟩
    · exact .inl ⟨⟨n, c, h1⟩, e⟩
  | push id fs =>
    obtain ⟨n, c, h1, h2, h3, h4⟩ := h
    rw [h4] at e
    exact ⟨n, c, id, h1, h2, h3, rfl, rfl, e⟩
  | list =>
    obtain ⟨h1, h2⟩ := h
    rw [h2] at e
    exact ⟨h1, e, tr, [], [], rfl, rfl, Signed.nil⟩
  | sign rest urls =>
    obtain ⟨h1, h2, before, after, done, h3, h4, h5⟩ := h
    rw [h2] at e
    have hev : Task.events i (.sign rest urls) = [] := rfl
    rw [hev, List.append_nil] at e ⊢
    cases rest with
    | nil =>
      rw [List.append_nil] at h4
      exact ⟨h1, e, before, after, h3, by rw [h4]; exact h5⟩
    | cons im rest =>
      simp only [Task.step]
      split
      · rename_i hup
        exact ⟨h1, e, before, after, done ++ [im], h3, by rw [h4]; simp, by simpa [List.filter_append, hup] using h5⟩
      · rename_i hup
        have hup : im.uploaded = true := by simpa using hup
        split
        · refine ⟨h1, e, before, after, done ++ [im], h3, by rw [h4]; simp, ?_⟩
          rw [List.filter_append, List.filter_cons_of_pos hup]
          exact h5.snoc (hg hup)
        · exact .inr ⟨h1, e⟩
        · exact .inr ⟨h1, e⟩
  | update id =>
    obtain ⟨h1, h2⟩ := h
    rw [h2] at e
    exact ⟨id, h1, e⟩
  | replied a =>
    have hev : Task.events i (.replied a) = [] := rfl
    rw [hev, List.append_nil]
    exact h
  | dropped =>
    have hev : Task.events i .dropped = [] := rfl
    rw [hev, List.append_nil]
    exact h

/-- A dropped handler did nothing to the images. -/
theorem TaskInv.drop {crate : Crate} {cfg : Config} {tr : List Event} {i : Nat} {r : Req} {t : Task} (h : TaskInv crate cfg tr i r t)
    (ht : ∀ a, t ≠ .replied a) : TaskInv crate cfg tr i r .dropped := by
  cases t with
  | create n c => exact .inl h.2
  | push id fs => obtain ⟨_, _, _, _, _, h⟩ := h; exact .inl h
  | list => exact .inl h.2
  | sign rest urls => exact .inr ⟨h.1, h.2.1⟩
  | update id => exact .inl h.2
  | replied a => exact absurd rfl (ht a)
  | dropped => exact h

theorem TaskInv.initial {crate : Crate} {cfg : Config} {tr : List Event} {i : Nat} (r : Req) (h : eventsOf tr i = []) :
    TaskInv crate cfg tr i r r.task := by
  cases r <;> exact ⟨rfl, h⟩

theorem run_inv {crate : Crate} {cfg : Config} {tr : List Event} {s : State} (h : Run crate cfg tr s) :
    (∀ i r t, s.tasks[i]? = some (r, t) → TaskInv crate cfg tr i r t) ∧ (∀ i, s.tasks.length ≤ i → eventsOf tr i = []) := by
  induction h with
  | start => exact ⟨by simp, by simp [eventsOf]⟩
  | @receive tr s r h ih =>
    refine ⟨fun i r' t hi => ?_, fun i hi => ih.2 i (by simp at hi; omega)⟩
    rw [List.getElem?_append] at hi
    split at hi
    · exact ih.1 i r' t hi
    · rename_i hge
      have h0 := ih.2 i (by omega)
      generalize i - s.tasks.length = m at hi
      cases m with
      | zero => simp only [List.getElem?_cons_zero, Option.some.injEq, Prod.mk.injEq] at hi; obtain ⟨rfl, rfl⟩ := hi; exact TaskInv.initial _ h0
      | succ m => simp at hi
  | @step tr s i r t uuid form url h hi hu hg ih =>
    have hlt : i < s.tasks.length := by
      by_cases hc : i < s.tasks.length
      · exact hc
      · rw [List.getElem?_eq_none (by omega)] at hi; simp at hi
    refine ⟨fun k r' t' hk => ?_, fun k hk => ?_⟩
    · by_cases hki : k = i
      · subst hki
        simp only [List.getElem?_set_self hlt, Option.some.injEq, Prod.mk.injEq] at hk
        obtain ⟨rfl, rfl⟩ := hk
        rw [run_images h]
        exact (ih.1 k _ t hi).step uuid hu form url hg
      · simp only at hk
        rw [List.getElem?_set_ne (Ne.symm hki)] at hk
        exact (ih.1 k r' t' hk).more _ (eventsOf_other (Ne.symm hki))
    · simp only [List.length_set] at hk
      rw [eventsOf_append, ih.2 k hk, eventsOf_other (by omega)]
      rfl
  | @drop tr s i r t h hi ht ih =>
    have hlt : i < s.tasks.length := by
      by_cases hc : i < s.tasks.length
      · exact hc
      · rw [List.getElem?_eq_none (by omega)] at hi; simp at hi
    refine ⟨fun k r' t' hk => ?_, fun k hk => ih.2 k (by simpa using hk)⟩
    by_cases hki : k = i
    · subst hki
      simp only [List.getElem?_set_self hlt, Option.some.injEq, Prod.mk.injEq] at hk
      obtain ⟨rfl, rfl⟩ := hk
      exact (ih.1 k _ t hi).drop ht
    · simp only at hk
      rw [List.getElem?_set_ne (Ne.symm hki)] at hk
      exact ih.1 k r' t' hk

/-! ### The properties -/

theorem alone_url {env : Env} {cfg : Config} {id url : Str} (h : (Crate.alone env cfg).url id (.ok url)) :
    ∃ now start, UrlFor env cfg id url now start := by
  obtain ⟨w, h⟩ := h
  exact ⟨_, _, signUrl_ok (w' := (signUrl env cfg id w).2) (Prod.ext h rfl)⟩

theorem alone_form {env : Env} {cfg : Config} {id : Str} {n : Nat} {c : Str} {fs : List (Str × Str)}
    (h : (Crate.alone env cfg).form id n c (.ok fs)) : ∃ now start, FormFor env cfg id n c fs now start := by
  obtain ⟨w, h⟩ := h
  exact ⟨_, _, createForm_ok (w' := (createForm env cfg id n c w).2) (Prod.ext h rfl)⟩

/-- What a listing answers with. -/
theorem listing (crate : Crate) (cfg : Config) (tr : List Event) (s : State) (h : Run crate cfg tr s)
    (hn : (createdIds tr).Nodup) (i : Nat) (r : Req) (urls : List Str) (hi : s.tasks[i]? = some (r, .replied (.urls urls))) :
    ∃ (before after : List Event) (ids : List Str), tr = before ++ .listed i :: after ∧ ids.Sublist (createdIds before) ∧
      (∀ id, id ∈ ids ↔ UploadedIn before id) ∧ urls.length = ids.length ∧
      ∀ (k : Nat) (url id : Str), urls[k]? = some url → ids[k]? = some id → crate.url id (.ok url) := by
  obtain ⟨_, _, before, after, rfl, hs⟩ := (run_inv h).1 i r _ hi
  have hn' : (createdIds before).Nodup := by
    rw [createdIds_append] at hn
    exact (List.nodup_append.1 hn).1
  refine ⟨before, after, ((replay before).filter (·.uploaded)).map (·.id), rfl, ?_, ?_, by rw [hs.1, List.length_map], ?_⟩
  · rw [← replay_ids]
    exact List.filter_sublist.map _
  · intro id
    rw [← mem_replay hn' id]
    simp only [List.mem_map, List.mem_filter]
    constructor
    · rintro ⟨⟨x, u⟩, ⟨hm, hu⟩, rfl⟩
      have : u = true := hu
      subst this
      exact hm
    · exact fun hm => ⟨_, ⟨hm, rfl⟩, rfl⟩
  · intro k url id hk hid
    rw [List.getElem?_map] at hid
    obtain ⟨im, him, rfl⟩ := Option.map_eq_some_iff.1 hid
    exact hs.2 k url im hk him

/-- C69. In every history, if the random ids are distinct, a listing answers with one URL for each image that was registered
and reported as uploaded before the images were read, and for no other, in the order in which they were registered. -/
theorem C69_listing (env : Env) (cfg : Config) (tr : List Event) (s : State) (h : Run (.alone env cfg) cfg tr s)
    (hn : (createdIds tr).Nodup) (i : Nat) (r : Req) (urls : List Str) (hi : s.tasks[i]? = some (r, .replied (.urls urls))) :
    ∃ (before after : List Event) (ids : List Str), tr = before ++ .listed i :: after ∧ ids.Sublist (createdIds before) ∧
      (∀ id, id ∈ ids ↔ UploadedIn before id) ∧ urls.length = ids.length ∧
      ∀ (k : Nat) (url id : Str), urls[k]? = some url → ids[k]? = some id → ∃ now start, UrlFor env cfg id url now start := by
  obtain ⟨before, after, ids, h1, h2, h3, h4, h5⟩ := listing _ cfg tr s h hn i r urls hi
  exact ⟨before, after, ids, h1, h2, h3, h4, fun k url id hk hid => alone_url (h5 k url id hk hid)⟩

/-- What a registration answers with. -/
theorem creating (crate : Crate) (cfg : Config) (tr : List Event) (s : State) (h : Run crate cfg tr s) (i n : Nat) (c : Str)
    (a : Reply) (hi : s.tasks[i]? = some (.create n c, .replied a)) :
    (∃ id fields, a = .form fields (s% "POST") (s% "https://storage.googleapis.com/" ++ cfg.bucketName) ∧
      IsUuid id ∧ crate.form id n c (.ok fields) ∧ eventsOf tr i = [.created i id]) ∨
    ((a = .internalServerError ∨ a = .aborted) ∧ eventsOf tr i = []) := by
  have hv := (run_inv h).1 i _ _ hi
  cases a with
  | form fs m u =>
    obtain ⟨n', c', id, h1, h2, h3, rfl, rfl, h6⟩ := hv
    cases h1
    exact .inl ⟨id, fs, rfl, h2, h3, h6⟩
  | urls us => exact absurd hv.1 (by simp)
  | noContent => obtain ⟨id, h1, _⟩ := hv; exact absurd h1 (by simp)
  | internalServerError =>
    rcases hv with ⟨_, h2⟩ | ⟨h1, _⟩
    · exact .inr ⟨.inl rfl, h2⟩
    · exact absurd h1 (by simp)
  | aborted =>
    rcases hv with ⟨_, h2⟩ | ⟨h1, _⟩
    · exact .inr ⟨.inr rfl, h2⟩
    · exact absurd h1 (by simp)

/-- C70. In every history, an answered registration either returned a form for a new id and registered exactly this id, or
returned no form and registered nothing. -/
theorem C70_create (env : Env) (cfg : Config) (tr : List Event) (s : State) (h : Run (.alone env cfg) cfg tr s) (i n : Nat) (c : Str)
    (a : Reply) (hi : s.tasks[i]? = some (.create n c, .replied a)) :
    (∃ id fields now start, a = .form fields (s% "POST") (s% "https://storage.googleapis.com/" ++ cfg.bucketName) ∧
      IsUuid id ∧ FormFor env cfg id n c fields now start ∧ eventsOf tr i = [.created i id]) ∨
    ((a = .internalServerError ∨ a = .aborted) ∧ eventsOf tr i = []) := by
  rcases creating _ cfg tr s h i n c a hi with ⟨id, fields, h1, h2, h3, h4⟩ | h
  · obtain ⟨now, start, h3⟩ := alone_form h3
    exact .inl ⟨id, fields, now, start, h1, h2, h3, h4⟩
  · exact .inr h

/-- C70. An answered report of an upload took effect exactly once and got the answer 204, whether the image exists or not. -/
theorem C70_update (crate : Crate) (cfg : Config) (tr : List Event) (s : State) (h : Run crate cfg tr s) (i : Nat) (id : Str)
    (a : Reply) (hi : s.tasks[i]? = some (.update id, .replied a)) :
    a = .noContent ∧ eventsOf tr i = [.updated i id] := by
  have hv := (run_inv h).1 i _ _ hi
  cases a with
  | form fs m u => obtain ⟨n', c', _, h1, _⟩ := hv; exact absurd h1 (by simp)
  | urls us => exact absurd hv.1 (by simp)
  | noContent =>
    obtain ⟨id', h1, h2⟩ := hv
    cases h1
    exact ⟨rfl, h2⟩
  | internalServerError =>
    rcases hv with ⟨⟨_, _, h1⟩, _⟩ | ⟨h1, _⟩
    · exact absurd h1 (by simp)
    · exact absurd h1 (by simp)
  | aborted =>
    rcases hv with ⟨⟨_, _, h1⟩, _⟩ | ⟨h1, _⟩
    · exact absurd h1 (by simp)
    · exact absurd h1 (by simp)

/-- C70. Only the requests that were made have events: an image is registered by a registration, reported by a report of this
image, and the images are read by a listing. A request that was dropped before it was answered registered and reported
nothing. -/
theorem C70_events (crate : Crate) (cfg : Config) (tr : List Event) (s : State) (h : Run crate cfg tr s) :
    (∀ i id, .created i id ∈ tr → ∃ n c fields, IsUuid id ∧ s.tasks[i]? = some (.create n c, .replied (.form fields
      (s% "POST") (s% "https://storage.googleapis.com/" ++ cfg.bucketName)))) ∧
    (∀ i id, .updated i id ∈ tr → s.tasks[i]? = some (.update id, .replied .noContent)) ∧
    (∀ i, .listed i ∈ tr → ∃ t, s.tasks[i]? = some (.list, t)) := by
  have hrun := run_inv h
  have get : ∀ i e, e ∈ eventsOf tr i → ∃ r t, s.tasks[i]? = some (r, t) ∧ TaskInv crate cfg tr i r t := by
    intro i e he
    by_cases hlt : i < s.tasks.length
    · exact ⟨_, _, List.getElem?_eq_getElem hlt, hrun.1 i _ _ (List.getElem?_eq_getElem hlt)⟩
    · rw [hrun.2 i (by omega)] at he; simp at he
  refine ⟨fun i id hm => ?_, fun i id hm => ?_, fun i hm => ?_⟩
  · have he : .created i id ∈ eventsOf tr i := by simp [eventsOf, hm]
    obtain ⟨r, t, ht, hv⟩ := get i _ he
    cases t with
    | create n c => rw [hv.2] at he; simp at he
    | push id' fs => obtain ⟨_, _, _, _, _, h4⟩ := hv; rw [h4] at he; simp at he
    | list => rw [hv.2] at he; simp at he
    | sign rest urls => rw [hv.2.1] at he; simp at he
    | update id' => rw [hv.2] at he; simp at he
    | dropped =>
      rcases hv with hv | ⟨_, hv⟩
      · rw [hv] at he; simp at he
      · rw [hv] at he; simp at he
    | replied a =>
      cases a with
      | form fs m u =>
        obtain ⟨n, c, id', rfl, h2, h3, rfl, rfl, h6⟩ := hv
        rw [h6] at he
        simp only [List.mem_singleton, Event.created.injEq, true_and] at he
        subst he
        exact ⟨n, c, fs, h2, ht⟩
      | urls us => rw [hv.2.1] at he; simp at he
      | noContent => obtain ⟨id', _, h2⟩ := hv; rw [h2] at he; simp at he
      | internalServerError =>
        rcases hv with ⟨_, hv⟩ | ⟨_, hv⟩
        · rw [hv] at he; simp at he
        · rw [hv] at he; simp at he
      | aborted =>
        rcases hv with ⟨_, hv⟩ | ⟨_, hv⟩
        · rw [hv] at he; simp at he
        · rw [hv] at he; simp at he
  · have he : .updated i id ∈ eventsOf tr i := by simp [eventsOf, hm]
    obtain ⟨r, t, ht, hv⟩ := get i _ he
    cases t with
    | create n c => rw [hv.2] at he; simp at he
    | push id' fs => obtain ⟨_, _, _, _, _, h4⟩ := hv; rw [h4] at he; simp at he
    | list => rw [hv.2] at he; simp at he
    | sign rest urls => rw [hv.2.1] at he; simp at he
    | update id' => rw [hv.2] at he; simp at he
    | dropped =>
      rcases hv with hv | ⟨_, hv⟩
      · rw [hv] at he; simp at he
      · rw [hv] at he; simp at he
    | replied a =>
      cases a with
      | form fs m u => obtain ⟨_, _, _, _, _, _, _, _, h6⟩ := hv; rw [h6] at he; simp at he
      | urls us => rw [hv.2.1] at he; simp at he
      | noContent =>
        obtain ⟨id', rfl, h2⟩ := hv
        rw [h2] at he
        simp only [List.mem_singleton, Event.updated.injEq, true_and] at he
        subst he
        exact ht
      | internalServerError =>
        rcases hv with ⟨_, hv⟩ | ⟨_, hv⟩
        · rw [hv] at he; simp at he
        · rw [hv] at he; simp at he
      | aborted =>
        rcases hv with ⟨_, hv⟩ | ⟨_, hv⟩
        · rw [hv] at he; simp at he
        · rw [hv] at he; simp at he
  · have he : .listed i ∈ eventsOf tr i := by simp [eventsOf, hm]
    obtain ⟨r, t, ht, hv⟩ := get i _ he
    cases t with
    | create n c => rw [hv.2] at he; simp at he
    | push id' fs => obtain ⟨_, _, _, _, _, h4⟩ := hv; rw [h4] at he; simp at he
    | list => rw [hv.2] at he; simp at he
    | sign rest urls => obtain ⟨rfl, _⟩ := hv; exact ⟨_, ht⟩
    | update id' => rw [hv.2] at he; simp at he
    | dropped =>
      rcases hv with hv | ⟨rfl, hv⟩
      · rw [hv] at he; simp at he
      · exact ⟨_, ht⟩
    | replied a =>
      cases a with
      | form fs m u => obtain ⟨_, _, _, _, _, _, _, _, h6⟩ := hv; rw [h6] at he; simp at he
      | urls us => obtain ⟨rfl, _⟩ := hv; exact ⟨_, ht⟩
      | noContent => obtain ⟨id', _, h2⟩ := hv; rw [h2] at he; simp at he
      | internalServerError =>
        rcases hv with ⟨_, hv⟩ | ⟨rfl, hv⟩
        · rw [hv] at he; simp at he
        · exact ⟨_, ht⟩
      | aborted =>
        rcases hv with ⟨_, hv⟩ | ⟨rfl, hv⟩
        · rw [hv] at he; simp at he
        · exact ⟨_, ht⟩

end CSS
