import Verif.Props.ImageRestart
import Verif.Props.ImageSite
/-
What the events of a request tell in a history of the example server with crashes.
-/
set_option linter.unusedSimpArgs false
namespace CSS
open Spec ImageUploader Spec.ImageUploader

/-- The events of all lives of the process. -/
def allEvents (tr : List Episode) : List Event :=
  tr.filterMap fun e => match e with
    | .event e => some e
    | .restarted => none

theorem allEvents_append (a b : List Episode) : allEvents (a ++ b) = allEvents a ++ allEvents b := by
  simp [allEvents]

theorem allEvents_life (life : List Event) : allEvents (life.map .event) = life := by
  unfold allEvents
  rw [List.filterMap_map]
  induction life with
  | nil => rfl
  | cons e l ih => simpa using ih

theorem mem_allEvents {tr : List Episode} {e : Event} : e ∈ allEvents tr ↔ .event e ∈ tr := by
  unfold allEvents
  rw [List.mem_filterMap]
  constructor
  · rintro ⟨x, hx, he⟩
    cases x with
    | event e' => cases he; exact hx
    | restarted => cases he
  · exact fun h => ⟨_, h, rfl⟩

theorem createdIds_allEvents (tr : List Episode) : createdIds (allEvents tr) = registeredIds tr := by
  unfold createdIds allEvents registeredIds
  rw [List.filterMap_filterMap]
  congr 1
  funext e
  cases e with
  | event e => cases e <;> rfl
  | restarted => rfl

/-- The events of a request, by what its handler is doing. -/
def EventsTell (es : List Event) (i : Nat) (r : Req) : Task → Prop
  | .create n c => r = .create n c ∧ es = []
  | .push _ _ => (∃ n c, r = .create n c) ∧ es = []
  | .list => r = .list ∧ es = []
  | .sign _ _ => r = .list ∧ es = [.listed i]
  | .update id => r = .update id ∧ es = []
  | .replied a =>
    (∃ n c id fields m u, r = .create n c ∧ a = .form fields m u ∧ es = [.created i id]) ∨
    (∃ n c, r = .create n c ∧ es = []) ∨ (∃ id, r = .update id ∧ a = .noContent ∧ es = [.updated i id]) ∨
    (r = .list ∧ es = [.listed i])
  | .dropped => es = [] ∨ (r = .list ∧ es = [.listed i])

theorem EventsTell.step {cfg : Config} {uuid : Str} {images : List Image} {form : Res Failure (List (Str × Str))} {url : Res Failure Str}
    {es : List Event} {i : Nat} {r : Req} {t : Task} (h : EventsTell es i r t) :
    EventsTell (es ++ t.events i) i r (t.step cfg uuid images form url).1 := by
  cases t with
  | create n c =>
    obtain ⟨rfl, rfl⟩ := h
    simp only [Task.step, Task.events]
    split
    · exact ⟨⟨n, c, rfl⟩, rfl⟩
    · exact .inr (.inl ⟨n, c, rfl, rfl⟩)
    · exact .inr (.inl ⟨n, c, rfl, rfl⟩)
  | push id fields =>
    obtain ⟨⟨n, c, rfl⟩, rfl⟩ := h
    exact .inl ⟨n, c, id, _, _, _, rfl, rfl, rfl⟩
  | list =>
    obtain ⟨rfl, rfl⟩ := h
    exact ⟨rfl, rfl⟩
  | sign rest urls =>
    obtain ⟨rfl, rfl⟩ := h
    cases rest with
    | nil => exact .inr (.inr (.inr ⟨rfl, rfl⟩))
    | cons im rest =>
      simp only [Task.step, Task.events]
      split
      · exact ⟨rfl, rfl⟩
      · split
        · exact ⟨rfl, rfl⟩
        · exact .inr (.inr (.inr ⟨rfl, rfl⟩))
        · exact .inr (.inr (.inr ⟨rfl, rfl⟩))
  | update id =>
    obtain ⟨rfl, rfl⟩ := h
    exact .inr (.inr (.inl ⟨id, rfl, rfl, rfl⟩))
  | replied a =>
    rw [show Task.events i (.replied a) = [] from rfl, List.append_nil]
    exact h
  | dropped =>
    rw [show Task.events i .dropped = [] from rfl, List.append_nil]
    exact h

theorem EventsTell.drop {es : List Event} {i : Nat} {r : Req} {t : Task} (h : EventsTell es i r t) (ht : ∀ a, t ≠ .replied a) :
    EventsTell es i r .dropped := by
  cases t with
  | create n c => exact .inl h.2
  | push id fs => exact .inl h.2
  | list => exact .inl h.2
  | sign rest urls => exact .inr h
  | update id => exact .inl h.2
  | replied a => exact absurd rfl (ht a)
  | dropped => exact h

theorem lives_events {crate : Crate} {cfg : Config} {tr : List Episode} {s : State} (h : Lives crate cfg tr s) :
    (∀ i r t, s.tasks[i]? = some (r, t) → EventsTell (eventsOf (allEvents tr) i) i r t) ∧
    ∀ i, s.tasks.length ≤ i → eventsOf (allEvents tr) i = [] := by
  induction h with
  | start => exact ⟨by simp, fun i _ => rfl⟩
  | @receive tr s r _ ih =>
    refine ⟨fun i r' t hi => ?_, fun i hi => ih.2 i (by simp at hi; omega)⟩
    rcases append_cases hi with ⟨rfl, hb⟩ | hi
    · cases hb
      have h0 := ih.2 s.tasks.length (Nat.le_refl _)
      cases r <;> exact ⟨rfl, h0⟩
    · exact ih.1 i r' t hi
  | @step tr s i r t uuid form url _ hi hu hg ih =>
    rw [allEvents_append, allEvents_life]
    refine ⟨fun j r' t' hj => ?_, fun j hj => ?_⟩
    · rcases set_cases hj with ⟨rfl, hb⟩ | ⟨hne, hj⟩
      · cases hb
        rw [eventsOf_append]
        have := (ih.1 j r t hi).step (cfg := cfg) (uuid := uuid) (images := s.images) (form := form) (url := url)
        rwa [show eventsOf (t.events j) j = t.events j by cases t <;> simp [Task.events, eventsOf]]
      · rw [eventsOf_append, eventsOf_other (Ne.symm hne), List.append_nil]
        exact ih.1 j r' t' hj
    · have hlt := some_lt hi
      simp only [List.length_set] at hj
      rw [eventsOf_append, ih.2 j hj, eventsOf_other (by omega)]
      rfl
  | @drop tr s i r t _ hi ht ih =>
    refine ⟨fun j r' t' hj => ?_, fun j hj => ih.2 j (by simpa using hj)⟩
    rcases set_cases hj with ⟨rfl, hb⟩ | ⟨_, hj⟩
    · cases hb
      exact (ih.1 j r t hi).drop ht
    · exact ih.1 j r' t' hj
  | @restart tr s _ ih =>
    rw [allEvents_append, show allEvents [.restarted] = [] from rfl, List.append_nil]
    refine ⟨fun i r' t' hi => ?_, fun i hi => ih.2 i (by simpa [State.restart] using hi)⟩
    simp only [State.restart, List.getElem?_map, Option.map_eq_some_iff] at hi
    obtain ⟨⟨r, t⟩, hi, he⟩ := hi
    have ht := ih.1 i r t hi
    cases t with
    | replied a =>
      simp only [Prod.mk.injEq] at he
      obtain ⟨rfl, rfl⟩ := he
      exact ht
    | _ =>
      simp only [Prod.mk.injEq] at he
      obtain ⟨rfl, rfl⟩ := he
      exact ht.drop (by simp)

theorem episode_of {crate : Crate} {cfg : Config} {tr : List Episode} {s : State} (h : Lives crate cfg tr s) {e : Event} {i : Nat}
    (he : e ∈ eventsOf (allEvents tr) i) : ∃ r t, s.tasks[i]? = some (r, t) ∧ EventsTell (eventsOf (allEvents tr) i) i r t := by
  have hlt : i < s.tasks.length := by
    apply Classical.byContradiction
    intro hge
    rw [(lives_events h).2 i (by omega)] at he
    cases he
  exact ⟨s.tasks[i].1, s.tasks[i].2, List.getElem?_eq_getElem hlt, (lives_events h).1 i _ _ (List.getElem?_eq_getElem hlt)⟩

/-- An image was registered by a request that was answered with a form, and with no other image. -/
theorem lives_created {crate : Crate} {cfg : Config} {tr : List Episode} {s : State} (h : Lives crate cfg tr s) {i : Nat} {id : Str}
    (he : .event (.created i id) ∈ tr) :
    eventsOf (allEvents tr) i = [.created i id] ∧ ∃ n c fields m u, s.tasks[i]? = some (.create n c, .replied (.form fields m u)) := by
  have hm : Event.created i id ∈ eventsOf (allEvents tr) i := by simp [eventsOf, mem_allEvents, he]
  obtain ⟨r, t, ht, hr⟩ := episode_of h hm
  cases t with
  | create n c => rw [hr.2] at hm; cases hm
  | push id fs => rw [hr.2] at hm; cases hm
  | list => rw [hr.2] at hm; cases hm
  | sign rest urls => rw [hr.2] at hm; simp at hm
  | update id => rw [hr.2] at hm; cases hm
  | replied a =>
    rcases hr with ⟨n, c, id', fields, m, u, rfl, rfl, h1⟩ | ⟨n, c, rfl, h1⟩ | ⟨id, rfl, _, h1⟩ | ⟨rfl, h1⟩
    · rw [h1, List.mem_singleton, Event.created.injEq] at hm
      exact ⟨by rw [h1, hm.2], n, c, fields, m, u, ht⟩
    · rw [h1] at hm; cases hm
    · rw [h1] at hm; simp at hm
    · rw [h1] at hm; simp at hm
  | dropped =>
    rcases hr with h1 | ⟨_, h1⟩
    · rw [h1] at hm; cases hm
    · rw [h1] at hm; simp at hm

/-- A report was made by a request that was answered. -/
theorem lives_updated {crate : Crate} {cfg : Config} {tr : List Episode} {s : State} (h : Lives crate cfg tr s) {i : Nat} {id : Str}
    (he : .event (.updated i id) ∈ tr) : s.tasks[i]? = some (.update id, .replied .noContent) := by
  have hm : Event.updated i id ∈ eventsOf (allEvents tr) i := by simp [eventsOf, mem_allEvents, he]
  obtain ⟨r, t, ht, hr⟩ := episode_of h hm
  cases t with
  | create n c => rw [hr.2] at hm; cases hm
  | push id fs => rw [hr.2] at hm; cases hm
  | list => rw [hr.2] at hm; cases hm
  | sign rest urls => rw [hr.2] at hm; simp at hm
  | update id => rw [hr.2] at hm; cases hm
  | replied a =>
    rcases hr with ⟨n, c, id', fields, m, u, rfl, rfl, h1⟩ | ⟨n, c, rfl, h1⟩ | ⟨id', rfl, rfl, h1⟩ | ⟨rfl, h1⟩
    · rw [h1] at hm; simp at hm
    · rw [h1] at hm; cases hm
    · rw [h1, List.mem_singleton, Event.updated.injEq] at hm
      rw [ht, hm.2]
    · rw [h1] at hm; simp at hm
  | dropped =>
    rcases hr with h1 | ⟨_, h1⟩
    · rw [h1] at hm; cases hm
    · rw [h1] at hm; simp at hm

/-- An answered report was made. -/
theorem lives_report {crate : Crate} {cfg : Config} {tr : List Episode} {s : State} (h : Lives crate cfg tr s) {i : Nat} {id : Str}
    {a : Reply} (hi : s.tasks[i]? = some (.update id, .replied a)) : eventsOf (allEvents tr) i = [.updated i id] := by
  rcases (lives_events h).1 i _ _ hi with ⟨n, c, id', fields, m, u, hr, _⟩ | ⟨n, c, hr, _⟩ | ⟨id', hr, _, h1⟩ | ⟨hr, _⟩
  · cases hr
  · cases hr
  · cases hr; exact h1
  · cases hr

/-- An answered listing read the images once. -/
theorem lives_listed {crate : Crate} {cfg : Config} {tr : List Episode} {s : State} (h : Lives crate cfg tr s) {i : Nat}
    {a : Reply} (hi : s.tasks[i]? = some (.list, .replied a)) : eventsOf (allEvents tr) i = [.listed i] := by
  rcases (lives_events h).1 i _ _ hi with ⟨n, c, id', fields, m, u, hr, _⟩ | ⟨n, c, hr, _⟩ | ⟨id', hr, _, h1⟩ | ⟨_, h1⟩
  · cases hr
  · cases hr
  · cases hr
  · exact h1

/-- What a listing answers with, whatever the crate is. -/
theorem lives_listing {crate : Crate} {cfg : Config} {tr : List Episode} {s : State} (h : Lives crate cfg tr s)
    (hn : (registeredIds tr).Nodup) {i : Nat} {r : Req} {urls : List Str} (hi : s.tasks[i]? = some (r, .replied (.urls urls))) :
    ∃ (before : List Episode) (life : List Event) (after : List Episode) (ids : List Str),
      tr = before ++ life.map .event ++ .event (.listed i) :: after ∧ StartsLife before ∧ ids.Sublist (createdIds life) ∧
      (∀ id, id ∈ ids ↔ UploadedIn life id) ∧ urls.length = ids.length ∧
      ∀ (j : Nat) (url id : Str), urls[j]? = some url → ids[j]? = some id → crate.url id (.ok url) := by
  obtain ⟨before, life, rest, s₁, htr, hb, hrun, hi⟩ := lives_handled h hi
  have hn' : (createdIds life).Nodup := by
    rw [htr, registeredIds_append, registeredIds_append, registeredIds_life] at hn
    exact (List.nodup_append.1 (List.nodup_append.1 hn).1).2.1
  obtain ⟨b, a, ids, h1, h2, h3, h4, h5⟩ := listing _ cfg life s₁ hrun hn' i r urls hi
  exact ⟨before, b, a.map .event ++ rest, ids, by rw [htr, h1]; simp, hb, h2, h3, h4, h5⟩

theorem map_snoc_event {tr : List Event} {a : List Episode} {b : List Event} (h : tr.map Episode.event = a ++ b.map .event) :
    ∃ tr', tr = tr' ++ b ∧ a = tr'.map .event := by
  obtain ⟨x, y, h1, h2, h3⟩ := List.map_eq_append_iff.1 h
  refine ⟨x, ?_, h2.symm⟩
  have : y = b := by
    have := congrArg allEvents h3
    rwa [allEvents_life, allEvents_life] at this
  rw [h1, this]

/-- C99. Without crashes, the histories are exactly those of the server as in C69-C72. -/
theorem C99_without_crashes (crate : Crate) (cfg : Config) (tr : List Event) (s : State) :
    Lives crate cfg (tr.map .event) s ↔ Run crate cfg tr s := by
  constructor
  · intro h
    generalize htr : tr.map Episode.event = tr' at h
    induction h generalizing tr with
    | start => rw [List.map_eq_nil_iff.1 htr]; exact .start
    | receive r _ ih => exact .receive r (ih tr htr)
    | step i r t uuid form url _ hi hu hg ih =>
      obtain ⟨x, rfl, h2⟩ := map_snoc_event htr
      exact .step i r t uuid form url (ih x h2.symm) hi hu hg
    | drop i r t _ hi ht ih => exact .drop i r t (ih tr htr) hi ht
    | restart _ _ =>
      exact absurd (by rw [htr]; simp) (show Episode.restarted ∉ tr.map Episode.event by simp)
  · intro h
    induction h with
    | start => exact .start
    | receive r _ ih => exact .receive r ih
    | step i r t uuid form url _ hi hu hg ih => rw [List.map_append]; exact .step i r t uuid form url ih hi hu hg
    | drop i r t _ hi ht ih => exact .drop i r t ih hi ht

end CSS
