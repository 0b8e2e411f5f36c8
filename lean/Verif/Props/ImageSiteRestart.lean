import Verif.Spec.ImageSiteRestart
import Verif.Props.ImageRestartEvents
/-
C100: the pages of the example when the process of the example server may crash.
-/
set_option linter.unusedSimpArgs false
namespace CSS
open Spec ImageUploader Spec.ImageUploader

structure SiteLivesInv (crate : Crate) (cfg : Config) (own : Nat → Option Nat) (tr : List Episode) (s : Site) : Prop where
  run : Lives crate cfg tr s.server
  uploads : ∀ k f u, s.uploads[k]? = some (f, u) → UploadInv cfg own (allEvents tr) s.server.tasks s.store k f u
  updates : ∀ (j : Nat) (id : Str) (t : Task), s.server.tasks[j]? = some (.update id, t) →
    ∃ k f u, s.uploads[k]? = some (f, u) ∧ Past u ∧ Holds cfg own (allEvents tr) s.store k f id
  owned : ∀ i k, own i = some k → i < s.server.tasks.length ∧ ∃ f u, s.uploads[k]? = some (f, u) ∧ u ≠ .chosen
  once : ∀ i j k, own i = some k → own j = some k → i = j

/-- What a page that is about to post its form knows. -/
theorem lives_uploading_facts {crate : Crate} (hkeyed : FormsKeyed crate) {cfg : Config} {tr : List Episode} {s : State}
    (h : Lives crate cfg tr s) {i n : Nat} {c m url : Str} {fields : List (Str × Str)}
    (hi : s.tasks[i]? = some (.create n c, .replied (.form fields m url))) :
    ∃ id, m = s% "POST" ∧ bucketOf url = some cfg.bucketName ∧ IsUuid id ∧ crate.form id n c (.ok fields) ∧
      .created i id ∈ allEvents tr ∧ findKey fields = some id ∧ fieldValues (formEntries fields) (s% "key") = [id] := by
  obtain ⟨before, life, rest, s₁, htr, _, hrun, hi⟩ := lives_handled h hi
  obtain ⟨id, h1, h2, h3, h4, h5, h6⟩ := uploading_facts hkeyed hrun hi
  refine ⟨id, h1, h2, h3, h4, ?_, h6⟩
  rw [htr, allEvents_append, allEvents_append, allEvents_life]
  simp [h5]

/-- A posted form changes no image of another upload. -/
theorem lives_upload_others {crate : Crate} (hkeyed : FormsKeyed crate) {cfg : Config} {own : Nat → Option Nat} {tr : List Episode}
    {s : State} (hrun : Lives crate cfg tr s) (hn : (registeredIds tr).Nodup) {k i n : Nat} {c m url bucket filename account : Str}
    {N E : Nat} {fields : List (Str × Str)} {file : Bytes} {time : Int} {store store' : Store} (hown : own i = some k)
    (hi : s.tasks[i]? = some (.create n c, .replied (.form fields m url)))
    (hh : Handles account N E (.form ⟨bucket, formEntries fields, file.length, time⟩ filename file) store store') {k' : Nat} (hk : k' ≠ k)
    (id' : Str) (ho : Owns own (allEvents tr) k' id') (_ : IsUuid id') :
    store' (utf8 cfg.bucketName) (utf8 id') = store (utf8 cfg.bucketName) (utf8 id') := by
  obtain ⟨id, _, hb', hid, _, hcr, _, hv⟩ := lives_uploading_facts hkeyed hrun hi
  apply Classical.byContradiction
  intro hne
  obtain ⟨_, key, hkey, hobj⟩ := hh.others _ _ hne
  rw [hv, List.mem_singleton] at hkey
  rw [hkey, expand_uuid _ hid] at hobj
  obtain rfl := utf8_inj hobj
  obtain ⟨i', ho', hc'⟩ := ho
  obtain rfl := created_unique (by rw [createdIds_allEvents]; exact hn) hcr hc'
  rw [hown] at ho'
  exact hk (Option.some.inj ho').symm

/-- The invariant of the site with crashes. -/
theorem site_lives_inv {crate : Crate} (hkeyed : FormsKeyed crate) {cfg : Config} {account : Str} {N E : Nat} {tr : List Episode} {s : Site}
    (h : Site.Lives crate cfg account N E tr s) : (registeredIds tr).Nodup → ∃ own, SiteLivesInv crate cfg own tr s := by
  induction h with
  | start store =>
    intro _
    exact ⟨fun _ => none, .start, by simp, by simp, by simp, by simp⟩
  | @choose tr s file h ih =>
    intro hn
    obtain ⟨own, hi⟩ := ih hn
    refine ⟨own, hi.run, ?_, ?_, ?_, hi.once⟩
    · intro k f u hk
      rcases append_cases hk with ⟨_, hb⟩ | hk
      · cases hb; trivial
      · exact hi.uploads k f u hk
    · intro j id t hj
      obtain ⟨k, f, u, h1, h2⟩ := hi.updates j id t hj
      exact ⟨k, f, u, append_keeps h1, h2⟩
    · intro i k hk
      obtain ⟨h1, f, u, h2, h3⟩ := hi.owned i k hk
      exact ⟨h1, f, u, append_keeps h2, h3⟩
  | @send tr s k file u r h hk hr ih =>
    intro hn
    obtain ⟨own, hi⟩ := ih hn
    have hrun := Lives.receive r hi.run
    have hold := hi.uploads k file u hk
    have hlast : (s.server.tasks ++ [(r, r.task)])[s.server.tasks.length]? = some (r, r.task) := by simp
    have hnone : eventsOf (allEvents tr) s.server.tasks.length = [] := (lives_events hi.run).2 s.server.tasks.length (Nat.le_refl _)
    have past : Past u → Past (u.sent s.server.tasks.length) := by
      cases u <;> intro hp <;> first | exact hp | trivial
    have notChosen : u.sent s.server.tasks.length ≠ .chosen := by
      cases u <;> simp [Upload.sent, Upload.request] at hr ⊢
    by_cases hc : u = .chosen
    · -- a new registration
      subst hc
      have hreq : r = .create file.content.length file.type := by
        simp only [Upload.request] at hr
        split at hr
        · cases hr
        · exact (Option.some.inj hr).symm
      subst hreq
      have hfresh : own s.server.tasks.length = none := by
        cases ho : own s.server.tasks.length with
        | none => rfl
        | some k' => exact absurd (hi.owned _ _ ho).1 (by omega)
      have hlater : Later own (fun i => if i = s.server.tasks.length then some k else own i) (allEvents tr) (allEvents tr) s.server.tasks
          (s.server.tasks ++ [(Req.create file.content.length file.type, Task.create file.content.length file.type)]) := by
        refine ⟨fun i k' hk' => ?_, ⟨[], by simp⟩, fun _ _ t h => ⟨t, append_keeps h, fun _ h => h⟩⟩
        rw [if_neg, hk']
        rintro rfl
        rw [hfresh] at hk'; cases hk'
      have hnok : ∀ i, own i ≠ some k := fun i ho => by
        obtain ⟨_, f, v, hv, hne⟩ := hi.owned i k ho
        rw [hk] at hv
        cases hv
        exact hne rfl
      refine ⟨fun i => if i = s.server.tasks.length then some k else own i, hrun, ?_, ?_, ?_, ?_⟩
      · intro k' f v hv
        rcases set_cases hv with ⟨rfl, hb⟩ | ⟨_, hv⟩
        · cases hb
          exact ⟨if_pos rfl, _, hlast⟩
        · exact hlater.upload (fun _ _ _ => rfl) (hi.uploads k' f v hv)
      · intro j id t hj
        rcases append_cases hj with ⟨_, hb⟩ | hj
        · cases hb
        · obtain ⟨k', f, v, h1, h2, h3⟩ := hi.updates j id t hj
          obtain ⟨v', h4, h5⟩ := past_set hk past h1 h2
          exact ⟨k', f, v', h4, h5, hlater.holds (fun _ _ _ => rfl) h3⟩
      · intro i k' ho
        show i < (s.server.tasks ++ [_]).length ∧ _
        rw [List.length_append]
        split at ho
        · rename_i hil
          cases ho
          exact ⟨by simp; omega, file, _, List.getElem?_set_self (some_lt hk), notChosen⟩
        · obtain ⟨h1, h2⟩ := hi.owned i k' ho
          exact ⟨by omega, chosen_set hk notChosen h2⟩
      · intro i j k' h1 h2
        split at h1 <;> split at h2
        · omega
        · cases h1; exact absurd h2 (hnok j)
        · cases h2; exact absurd h1 (hnok i)
        · exact hi.once i j k' h1 h2
    · refine ⟨own, hrun, ?_, ?_, ?_, hi.once⟩
      · intro k' f v hv
        rcases set_cases hv with ⟨rfl, hb⟩ | ⟨_, hv⟩
        · cases hb
          cases u with
          | chosen => exact absurd rfl hc
          | uploaded id =>
            cases hr
            obtain ⟨i, _, hcr⟩ := hold.1
            exact ⟨id, hold, ⟨allEvents tr, [], by simp, by
              obtain ⟨a, b, hab⟩ := List.append_of_mem hcr
              exact mem_createdIds.2 ⟨a, i, b, hab⟩, hnone⟩, _, hlast⟩
          | reported =>
            cases hr
            obtain ⟨id, h1, h2⟩ := hold
            exact ⟨id, h1, ⟨allEvents tr, [], by simp, h2, hnone⟩, _, hlast⟩
          | registering i => cases hr
          | uploading a b c => cases hr
          | reporting i => cases hr
          | listing i => cases hr
          | shown urls => cases hr
          | failed => cases hr
        · exact receive_later.upload (fun _ _ _ => rfl) (hi.uploads k' f v hv)
      · intro j id t hj
        rcases append_cases hj with ⟨_, hb⟩ | hj
        · have hreq : r = .update id := (congrArg Prod.fst hb).symm
          subst hreq
          cases u with
          | uploaded id' =>
            cases hr
            exact ⟨k, file, _, List.getElem?_set_self (some_lt hk), trivial, hold⟩
          | chosen => exact absurd rfl hc
          | reported => cases hr
          | registering i => cases hr
          | uploading a b c => cases hr
          | reporting i => cases hr
          | listing i => cases hr
          | shown urls => cases hr
          | failed => cases hr
        · obtain ⟨k', f, v, h1, h2, h3⟩ := hi.updates j id t hj
          obtain ⟨v', h4, h5⟩ := past_set hk past h1 h2
          exact ⟨k', f, v', h4, h5, h3⟩
      · intro i k' ho
        obtain ⟨h1, h2⟩ := hi.owned i k' ho
        refine ⟨?_, chosen_set hk notChosen h2⟩
        show i < (s.server.tasks ++ [_]).length
        rw [List.length_append]
        omega
  | @answer tr s k i file u r reply h hk hw ht ih =>
    intro hn
    obtain ⟨own, hi⟩ := ih hn
    have hold := hi.uploads k file u hk
    have notChosen : u.answered reply ≠ .chosen := by
      cases u <;> cases reply <;> simp [Upload.answered]
    have past : Past u → Past (u.answered reply) := by
      cases u <;> cases reply <;> simp [Upload.answered, Past]
    refine ⟨own, hi.run, ?_, ?_, ?_, hi.once⟩
    · intro k' f v hv
      rcases set_cases hv with ⟨rfl, hb⟩ | ⟨_, hv⟩
      · cases hb
        cases u with
        | registering i' =>
          cases hw
          obtain ⟨ho, t, ht'⟩ := hold
          rw [ht] at ht'
          cases reply with
          | form fields m url =>
            simp only [Option.some.injEq, Prod.mk.injEq] at ht'
            obtain ⟨rfl, _⟩ := ht'
            exact ⟨i, ho, ht⟩
          | _ => trivial
        | reporting i' =>
          cases hw
          obtain ⟨id, h1, ⟨a, b, hab, ha, hae⟩, t, ht'⟩ := hold
          rw [ht] at ht'
          cases reply with
          | noContent =>
            simp only [Option.some.injEq, Prod.mk.injEq] at ht'
            obtain ⟨rfl, _⟩ := ht'
            refine ⟨id, h1, ?_⟩
            have hev := lives_report hi.run ht
            have hm := since_split hab hae (by rw [hev]; exact List.mem_singleton_self _)
            show UploadedIn (allEvents tr) id
            rw [hab]
            exact uploadedIn_of ha hm
          | _ => trivial
        | listing i' =>
          cases hw
          obtain ⟨id, h1, h2, t, ht'⟩ := hold
          rw [ht] at ht'
          cases reply with
          | urls urls =>
            simp only [Option.some.injEq, Prod.mk.injEq] at ht'
            obtain ⟨rfl, _⟩ := ht'
            exact ⟨id, i, h1, h2, ht⟩
          | _ => trivial
        | chosen => cases hw
        | uploading a b c => cases hw
        | uploaded id => cases hw
        | reported => cases hw
        | shown urls => cases hw
        | failed => cases hw
      · exact hi.uploads k' f v hv
    · intro j id t hj
      obtain ⟨k', f, v, h1, h2, h3⟩ := hi.updates j id t hj
      obtain ⟨v', h4, h5⟩ := past_set hk past h1 h2
      exact ⟨k', f, v', h4, h5, h3⟩
    · intro j k' ho
      obtain ⟨h1, h2⟩ := hi.owned j k' ho
      exact ⟨h1, chosen_set hk notChosen h2⟩
  | @upload tr s k file fields url bucket time store h hk hb ha hh ih =>
    intro hn
    obtain ⟨own, hi⟩ := ih hn
    obtain ⟨i, ho, ht⟩ := hi.uploads k file _ hk
    obtain ⟨id, _, hb', hid, _, hcr, hfind, hv⟩ := lives_uploading_facts hkeyed hi.run ht
    rw [hfind]
    have hbk : bucket = cfg.bucketName := by rw [hb] at hb'; exact Option.some.inj hb'
    have hpost := hh.post ha _ _ _ id rfl hv
    rw [expand_uuid _ hid] at hpost
    simp only [hbk] at hpost
    refine ⟨own, hi.run, ?_, ?_, ?_, hi.once⟩
    · intro k' f v hv'
      rcases set_cases hv' with ⟨rfl, hb⟩ | ⟨hne, hv'⟩
      · cases hb
        exact ⟨⟨i, ho, hcr⟩, hid, hpost⟩
      · exact (Later.refl own (allEvents tr) s.server.tasks).upload (lives_upload_others hkeyed hi.run hn ho ht hh hne) (hi.uploads k' f v hv')
    · intro j id' t hj
      obtain ⟨k', f, v, h1, h2, h3⟩ := hi.updates j id' t hj
      have hne : k' ≠ k := by
        rintro rfl
        rw [hk] at h1
        cases h1
        exact h2
      obtain ⟨v', h4, h5⟩ := past_set (u' := .uploaded id) hk (fun _ => trivial) h1 h2
      exact ⟨k', f, v', h4, h5, (Later.refl own (allEvents tr) s.server.tasks).holds (lives_upload_others hkeyed hi.run hn ho ht hh hne) h3⟩
    · intro j k' ho
      obtain ⟨h1, h2⟩ := hi.owned j k' ho
      exact ⟨h1, chosen_set hk (by simp) h2⟩
  | @uploadFails tr s k file fields url bucket time store h hk hb hh ih =>
    intro hn
    obtain ⟨own, hi⟩ := ih hn
    obtain ⟨i, ho, ht⟩ := hi.uploads k file _ hk
    refine ⟨own, hi.run, ?_, ?_, ?_, hi.once⟩
    · intro k' f v hv'
      rcases set_cases hv' with ⟨rfl, hb⟩ | ⟨hne, hv'⟩
      · cases hb; trivial
      · exact (Later.refl own (allEvents tr) s.server.tasks).upload (lives_upload_others hkeyed hi.run hn ho ht hh hne) (hi.uploads k' f v hv')
    · intro j id' t hj
      obtain ⟨k', f, v, h1, h2, h3⟩ := hi.updates j id' t hj
      have hne : k' ≠ k := by
        rintro rfl
        rw [hk] at h1
        cases h1
        exact h2
      obtain ⟨v', h4, h5⟩ := past_set (u' := .failed) hk (fun _ => trivial) h1 h2
      exact ⟨k', f, v', h4, h5, (Later.refl own (allEvents tr) s.server.tasks).holds (lives_upload_others hkeyed hi.run hn ho ht hh hne) h3⟩
    · intro j k' ho
      obtain ⟨h1, h2⟩ := hi.owned j k' ho
      exact ⟨h1, chosen_set hk (by simp) h2⟩
  | @fail tr s k file u h hk ih =>
    intro hn
    obtain ⟨own, hi⟩ := ih hn
    refine ⟨own, hi.run, ?_, ?_, ?_, hi.once⟩
    · intro k' f v hv
      rcases set_cases hv with ⟨rfl, hb⟩ | ⟨_, hv⟩
      · cases hb; trivial
      · exact hi.uploads k' f v hv
    · intro j id t hj
      obtain ⟨k', f, v, h1, h2, h3⟩ := hi.updates j id t hj
      obtain ⟨v', h4, h5⟩ := past_set (u' := .failed) hk (fun _ => trivial) h1 h2
      exact ⟨k', f, v', h4, h5, h3⟩
    · intro j k' ho
      obtain ⟨h1, h2⟩ := hi.owned j k' ho
      exact ⟨h1, chosen_set hk (by simp) h2⟩
  | @visit tr s r h hr ih =>
    intro hn
    obtain ⟨own, hi⟩ := ih hn
    refine ⟨own, Lives.receive r hi.run, ?_, ?_, ?_, hi.once⟩
    · exact fun k f u hk => receive_later.upload (fun _ _ _ => rfl) (hi.uploads k f u hk)
    · intro j id t hj
      rcases append_cases hj with ⟨_, hb⟩ | hj
      · exact absurd (congrArg Prod.fst hb).symm (hr id)
      · exact hi.updates j id t hj
    · intro i k ho
      obtain ⟨h1, h2⟩ := hi.owned i k ho
      refine ⟨?_, h2⟩
      show i < (s.server.tasks ++ [_]).length
      rw [List.length_append]
      omega
  | @step tr s i r t uuid form url h ht hu hg ih =>
    intro hn
    have hn' : (registeredIds tr).Nodup := by
      rw [registeredIds_append] at hn
      exact (List.nodup_append.1 hn).1
    obtain ⟨own, hi⟩ := ih hn'
    have hlater : Later own own (allEvents tr) (allEvents (tr ++ (t.events i).map .event)) s.server.tasks
        (s.server.tasks.set i (r, (t.step cfg uuid s.server.images form url).1)) :=
      ⟨fun _ _ h => h, ⟨_, allEvents_append _ _⟩, step_keeps ht⟩
    refine ⟨own, Lives.step i r t uuid form url hi.run ht hu hg, ?_, ?_, ?_, hi.once⟩
    · exact fun k f u hk => hlater.upload (fun _ _ _ => rfl) (hi.uploads k f u hk)
    · intro j id t' hj
      have : ∃ t'' : Task, s.server.tasks[j]? = some (.update id, t'') := by
        rcases set_cases hj with ⟨rfl, hb⟩ | ⟨_, hj⟩
        · cases hb; exact ⟨t, ht⟩
        · exact ⟨t', hj⟩
      obtain ⟨t'', hj⟩ := this
      obtain ⟨k', f, v, h1, h2, h3⟩ := hi.updates j id t'' hj
      exact ⟨k', f, v, h1, h2, hlater.holds (fun _ _ _ => rfl) h3⟩
    · intro j k ho
      obtain ⟨h1, h2⟩ := hi.owned j k ho
      exact ⟨by simpa using h1, h2⟩
  | @drop tr s i r t h ht hr ih =>
    intro hn
    obtain ⟨own, hi⟩ := ih hn
    have hlater : Later own own (allEvents tr) (allEvents tr) s.server.tasks (s.server.tasks.set i (r, .dropped)) := by
      refine ⟨fun _ _ h => h, ⟨[], by simp⟩, fun j r' t' hj => ?_⟩
      by_cases hij : i = j
      · subst hij
        rw [ht] at hj
        cases hj
        exact ⟨_, List.getElem?_set_self (some_lt ht), fun a ha => absurd ha (hr a)⟩
      · exact ⟨t', by rw [List.getElem?_set_ne hij, hj], fun a h => h⟩
    refine ⟨own, Lives.drop i r t hi.run ht hr, ?_, ?_, ?_, hi.once⟩
    · exact fun k f u hk => hlater.upload (fun _ _ _ => rfl) (hi.uploads k f u hk)
    · intro j id t' hj
      have : ∃ t'' : Task, s.server.tasks[j]? = some (.update id, t'') := by
        rcases set_cases hj with ⟨rfl, hb⟩ | ⟨_, hj⟩
        · cases hb; exact ⟨t, ht⟩
        · exact ⟨t', hj⟩
      obtain ⟨t'', hj⟩ := this
      exact hi.updates j id t'' hj
    · intro j k ho
      obtain ⟨h1, h2⟩ := hi.owned j k ho
      exact ⟨by simpa using h1, h2⟩
  | @elsewhere tr s store h hs ih =>
    intro hn
    obtain ⟨own, hi⟩ := ih hn
    refine ⟨own, hi.run, ?_, ?_, hi.owned, hi.once⟩
    · exact fun k f u hk => (Later.refl own (allEvents tr) s.server.tasks).upload (fun id _ h => hs id h) (hi.uploads k f u hk)
    · intro j id t hj
      obtain ⟨k', f, v, h1, h2, h3⟩ := hi.updates j id t hj
      exact ⟨k', f, v, h1, h2, (Later.refl own (allEvents tr) s.server.tasks).holds (fun id _ h => hs id h) h3⟩
  | @restart tr s h ih =>
    intro hn
    have hn' : (registeredIds tr).Nodup := by
      rw [registeredIds_append] at hn
      exact (List.nodup_append.1 hn).1
    obtain ⟨own, hi⟩ := ih hn'
    have hsame : allEvents (tr ++ [.restarted]) = allEvents tr := by
      rw [allEvents_append, show allEvents [.restarted] = [] from rfl, List.append_nil]
    have hlater : Later own own (allEvents tr) (allEvents (tr ++ [.restarted])) s.server.tasks s.server.restart.tasks := by
      refine ⟨fun _ _ h => h, ⟨[], by rw [hsame]; simp⟩, fun j r' t' hj => ?_⟩
      simp only [State.restart, List.getElem?_map, hj, Option.map_some]
      exact ⟨_, rfl, by rintro a rfl; rfl⟩
    refine ⟨own, Lives.restart hi.run, ?_, ?_, ?_, hi.once⟩
    · exact fun k f u hk => hlater.upload (fun _ _ _ => rfl) (hi.uploads k f u hk)
    · intro j id t' hj
      have : ∃ t'' : Task, s.server.tasks[j]? = some (.update id, t'') := by
        simp only [State.restart, List.getElem?_map, Option.map_eq_some_iff] at hj
        obtain ⟨⟨r, t⟩, hj, he⟩ := hj
        cases he
        exact ⟨t, hj⟩
      obtain ⟨t'', hj⟩ := this
      obtain ⟨k', f, v, h1, h2, h3⟩ := hi.updates j id t'' hj
      exact ⟨k', f, v, h1, h2, hlater.holds (fun _ _ _ => rfl) h3⟩
    · intro j k ho
      obtain ⟨h1, h2⟩ := hi.owned j k ho
      exact ⟨by simpa [State.restart] using h1, h2⟩

/-! ### C100: the properties -/

theorem allEvents_split {tr : List Episode} {a b : List Event} (h : allEvents tr = a ++ b) :
    ∃ x y, tr = x ++ y ∧ allEvents x = a ∧ allEvents y = b := by
  obtain ⟨x, y, h1, h2, h3⟩ := List.filterMap_eq_append_iff.1 h
  exact ⟨x, y, h1, h2, h3⟩

theorem allEvents_cons {tr : List Episode} {e : Event} {b : List Event} (h : allEvents tr = e :: b) :
    ∃ x y, tr = x ++ .event e :: y ∧ allEvents y = b := by
  induction tr with
  | nil => cases h
  | cons ep tr ih =>
    cases ep with
    | event e' =>
      have h : e' :: allEvents tr = e :: b := h
      rw [List.cons.injEq] at h
      exact ⟨[], tr, by rw [h.1]; rfl, h.2⟩
    | restarted =>
      obtain ⟨x, y, h1, h2⟩ := ih h
      exact ⟨.restarted :: x, y, by rw [h1]; rfl, h2⟩

theorem not_restarted (life : List Event) : Episode.restarted ∉ life.map Episode.event := by simp

theorem lives_owns_one {crate : Crate} {cfg : Config} {own : Nat → Option Nat} {tr : List Episode} {s : Site}
    (hi : SiteLivesInv crate cfg own tr s) {k : Nat} {id id' : Str} (h : Owns own (allEvents tr) k id) (h' : Owns own (allEvents tr) k id') :
    id = id' := by
  obtain ⟨i, h1, h2⟩ := h
  obtain ⟨i', h3, h4⟩ := h'
  obtain rfl := hi.once i i' k h1 h3
  have e1 := (lives_created hi.run (mem_allEvents.1 h2)).1
  have e2 := (lives_created hi.run (mem_allEvents.1 h4)).1
  rw [e1] at e2
  simpa using e2

/-- What is listed is stored. -/
theorem lives_listed_is_stored {crate : Crate} (hkeyed : FormsKeyed crate) {cfg : Config} {account : Str} {N E : Nat} {tr : List Episode}
    {s : Site} (h : Site.Lives crate cfg account N E tr s) (hn : (registeredIds tr).Nodup) {i : Nat} {r : Req} {urls : List Str}
    (hi : s.server.tasks[i]? = some (r, .replied (.urls urls))) :
    ∃ ks : List Nat, ks.length = urls.length ∧ ks.Nodup ∧
      ∀ (a : Nat) (url : Str) (k : Nat), urls[a]? = some url → ks[a]? = some k →
        ∃ file u id, s.uploads[k]? = some (file, u) ∧ IsUuid id ∧ crate.url id (.ok url) ∧
          s.store (utf8 cfg.bucketName) (utf8 id) = some file.content := by
  obtain ⟨own, inv⟩ := site_lives_inv hkeyed h hn
  obtain ⟨before, life, after, ids, htr, _, hsub, hids, hlen, hurl⟩ := lives_listing inv.run hn hi
  have hex : ∀ id, id ∈ ids → ∃ k f u, s.uploads[k]? = some (f, u) ∧ Holds cfg own (allEvents tr) s.store k f id := by
    intro id hid
    obtain ⟨j, hj⟩ := uploaded_events ((hids id).1 hid)
    have hj : .event (.updated j id) ∈ tr := by rw [htr]; simp [hj]
    obtain ⟨k, f, u, h1, _, h2⟩ := inv.updates j id _ (lives_updated inv.run hj)
    exact ⟨k, f, u, h1, h2⟩
  have hK : ∃ K : Str → Nat, ∀ id, id ∈ ids →
      ∃ f u, s.uploads[K id]? = some (f, u) ∧ Holds cfg own (allEvents tr) s.store (K id) f id := by
    have : ∀ id, ∃ k, id ∈ ids → ∃ f u, s.uploads[k]? = some (f, u) ∧ Holds cfg own (allEvents tr) s.store k f id := by
      intro id
      by_cases hid : id ∈ ids
      · obtain ⟨k, h⟩ := hex id hid
        exact ⟨k, fun _ => h⟩
      · exact ⟨0, fun h => absurd h hid⟩
    exact ⟨fun id => Classical.choose (this id), fun id => Classical.choose_spec (this id)⟩
  obtain ⟨K, hK⟩ := hK
  have hnd : ids.Nodup := by
    rw [htr, registeredIds_append, registeredIds_append, registeredIds_life] at hn
    exact hsub.nodup (List.nodup_append.1 (List.nodup_append.1 hn).1).2.1
  refine ⟨ids.map K, by rw [List.length_map, hlen], ?_, ?_⟩
  · unfold List.Nodup
    rw [List.pairwise_map]
    refine List.Pairwise.imp_of_mem ?_ hnd
    intro x y hx hy hxy hk
    obtain ⟨_, _, _, h1, _⟩ := hK x hx
    obtain ⟨_, _, _, h2, _⟩ := hK y hy
    rw [hk] at h1
    exact hxy (lives_owns_one inv h1 h2)
  · intro a url k hu hk
    rw [List.getElem?_map] at hk
    obtain ⟨id, hid, rfl⟩ := Option.map_eq_some_iff.1 hk
    obtain ⟨f, u, h1, _, h2, h3⟩ := hK id (List.mem_of_getElem? hid)
    exact ⟨f, u, id, h1, h2, hurl a url id hu hid, h3⟩

/-- The own file is listed exactly if there was no crash since its registration. -/
theorem lives_own_image {crate : Crate} (hkeyed : FormsKeyed crate) {cfg : Config}
    (hpath : ∀ id url, crate.url id (.ok url) → IsUuid id → LeadsTo cfg url id) {account : Str} {N E : Nat} {tr : List Episode}
    {s : Site} (h : Site.Lives crate cfg account N E tr s) (hn : (registeredIds tr).Nodup) {k : Nat} {file : ChosenFile}
    {urls : List Str} (hk : s.uploads[k]? = some (file, .shown urls)) :
    ∃ id i l before between after, tr = before ++ .event (.created i id) :: between ++ .event (.listed l) :: after ∧
      (∃ j, .event (.updated j id) ∈ between) ∧ s.server.tasks[l]? = some (.list, .replied (.urls urls)) ∧ IsUuid id ∧
      s.store (utf8 cfg.bucketName) (utf8 id) = some file.content ∧
      (.restarted ∉ between → ∃ url ∈ urls, crate.url id (.ok url)) ∧
      (.restarted ∈ between → ∀ url ∈ urls, ¬ LeadsTo cfg url id) := by
  obtain ⟨own, inv⟩ := site_lives_inv hkeyed h hn
  obtain ⟨id, l, ⟨_, hid, hst⟩, ⟨a, b, hab, hup, hev⟩, ht⟩ := inv.uploads k file _ hk
  obtain ⟨before, life, after, ids, htr, hb, hsub, hids, hlen, hurl⟩ := lives_listing inv.run hn ht
  -- the registration and the report are before the listing
  have hall : a ++ b = allEvents (before ++ life.map .event) ++ .listed l :: allEvents after := by
    rw [← hab, htr, allEvents_append]
    rfl
  obtain ⟨c, hc⟩ := prefix_before hall hev
  obtain ⟨p, q, r, i, j, rfl⟩ := hup
  obtain ⟨x₁, y₁, hxy, _, hy₁⟩ := allEvents_split (a := p) (b := .created i id :: (q ++ .updated j id :: r ++ c)) (by rw [hc]; simp)
  obtain ⟨x₂, y, hxy₂, hy⟩ := allEvents_cons hy₁
  have hpre : before ++ life.map .event = (x₁ ++ x₂) ++ .event (.created i id) :: y := by rw [hxy, hxy₂]; simp
  have hupd : .event (.updated j id) ∈ y := mem_allEvents.1 (by rw [hy]; simp)
  refine ⟨id, i, l, x₁ ++ x₂, y, after, by rw [htr, hpre], ⟨j, hupd⟩, ht, hid, hst, fun hno => ?_, fun hyes url hu hl => ?_⟩
  · have hlife : UploadedIn life id := by
      have key : ∀ c', life.map Episode.event = c' ++ .event (.created i id) :: y → UploadedIn life id := by
        intro c' hc'
        have h1 := congrArg allEvents hc'
        rw [allEvents_life, allEvents_append, show allEvents (.event (.created i id) :: y) = .created i id :: allEvents y from rfl] at h1
        obtain ⟨u, v, huv⟩ := List.append_of_mem (mem_allEvents.2 hupd)
        exact ⟨allEvents c', u, v, i, j, by rw [h1, huv]⟩
      rcases List.append_eq_append_iff.1 hpre with ⟨c', _, h2⟩ | ⟨c', h1, h2⟩
      · exact key c' h2
      · cases c' with
        | nil => exact key [] (by simpa using h2.symm)
        | cons e c' =>
          simp only [List.cons_append, List.cons.injEq] at h2
          obtain ⟨rfl, h2⟩ := h2
          rcases hb with rfl | ⟨earlier, rfl⟩
          · simp at h1
          · have hlast := congrArg List.getLast? h1
            rw [List.getLast?_concat, List.getLast?_append] at hlast
            have hm : Episode.restarted ∈ .event (.created i id) :: c' := by
              apply List.mem_of_getLast?
              cases hg : (Episode.event (.created i id) :: c').getLast? with
              | none => simp at hg
              | some e => rw [hg] at hlast; simpa using hlast.symm
            rcases List.mem_cons.1 hm with hm | hm
            · cases hm
            · exact absurd (by rw [h2]; exact List.mem_append_left _ hm) hno
    obtain ⟨n, hn1, hn2⟩ := List.getElem_of_mem ((hids id).2 hlife)
    have hn3 : n < urls.length := by omega
    exact ⟨urls[n], List.getElem_mem hn3, hurl n _ id (List.getElem?_eq_getElem hn3) (by rw [List.getElem?_eq_getElem hn1, hn2])⟩
  · have hbefore : .event (.created i id) ∈ before := by
      rcases List.append_eq_append_iff.1 hpre with ⟨c', _, h2⟩ | ⟨c', h1, h2⟩
      · exact absurd (by rw [h2]; simp [hyes]) (not_restarted life)
      · cases c' with
        | nil => exact absurd (by rw [List.nil_append] at h2; rw [← h2]; simp [hyes]) (not_restarted life)
        | cons e c' =>
          simp only [List.cons_append, List.cons.injEq] at h2
          rw [h1, h2.1]
          simp
    obtain ⟨n, hn1, hn2⟩ := List.getElem_of_mem hu
    have hn3 : n < ids.length := by omega
    have hu' := hurl n url ids[n] (by rw [List.getElem?_eq_getElem hn1, hn2]) (List.getElem?_eq_getElem hn3)
    have hm : ids[n] ∈ createdIds life := hsub.subset (List.getElem_mem hn3)
    obtain ⟨e, he, hide⟩ := List.mem_filterMap.1 hm
    cases e with
    | created q' id' =>
      obtain rfl : id' = ids[n] := by simpa using hide
      have hmem : .event (.created q' ids[n]) ∈ tr := by rw [htr]; simp [he]
      obtain ⟨_, n', c', fields, m', u', ht'⟩ := lives_created inv.run hmem
      obtain ⟨id'', _, _, hid'', _, hcr, _⟩ := lives_uploading_facts hkeyed inv.run ht'
      have heq : id'' = ids[n] := by
        have e1 := (lives_created inv.run (mem_allEvents.1 hcr)).1
        rw [(lives_created inv.run hmem).1] at e1
        simpa using e1.symm
      rw [heq] at hid''
      obtain ⟨path, hp1, hp2⟩ := hl
      obtain ⟨path', hp3, hp4⟩ := hpath _ _ hu' hid''
      rw [hp1, Option.some.injEq] at hp3
      subst hp3
      rw [hp2] at hp4
      have hsame : id = ids[n] := List.append_cancel_left (utf8_inj hp4)
      rw [htr, registeredIds_append, registeredIds_append, registeredIds_life] at hn
      refine absurd rfl ((List.nodup_append.1 (List.nodup_append.1 hn).1).2.2 id ?_ _ (hsame ▸ hm))
      exact List.mem_filterMap.2 ⟨_, hbefore, rfl⟩
    | updated q' id' => cases hide
    | listed q' => cases hide

/-- C100. In every history of the site with crashes of the example server, if the random ids are distinct: every URL that a listing
answers with is a signed URL for an image whose stored content is exactly the file that was chosen in some upload. Different URLs belong
to different uploads. -/
theorem C100_listed_is_stored (env : Env) (cfg : Config) (account : Str) (N E : Nat) (tr : List Episode) (s : Site)
    (h : Site.Lives (.alone env cfg) cfg account N E tr s) (hn : (registeredIds tr).Nodup) (i : Nat) (r : Req) (urls : List Str)
    (hi : s.server.tasks[i]? = some (r, .replied (.urls urls))) :
    ∃ ks : List Nat, ks.length = urls.length ∧ ks.Nodup ∧
      ∀ (a : Nat) (url : Str) (k : Nat), urls[a]? = some url → ks[a]? = some k →
        ∃ file u id now start, s.uploads[k]? = some (file, u) ∧ IsUuid id ∧ UrlFor env cfg id url now start ∧
          s.store (utf8 cfg.bucketName) (utf8 id) = some file.content := by
  obtain ⟨ks, h1, h2, h3⟩ := lives_listed_is_stored (keyed_alone env cfg) h hn hi
  refine ⟨ks, h1, h2, fun a url k hu hk => ?_⟩
  obtain ⟨file, u, id, h4, h5, h6, h7⟩ := h3 a url k hu hk
  obtain ⟨now, start, h6⟩ := alone_url h6
  exact ⟨file, u, id, now, start, h4, h5, h6, h7⟩

/-- C100. An upload that has come to its end has registered an image, reported it and then shows the answer of a listing. Its file is stored.
If the server did not crash between the registration and the listing, the list has a URL for its own file; if it did, it has none. -/
theorem C100_own_image (env : Env) (cfg : Config) (account : Str) (N E : Nat) (tr : List Episode) (s : Site)
    (h : Site.Lives (.alone env cfg) cfg account N E tr s) (hn : (registeredIds tr).Nodup) (hb : IsBucketName cfg.bucketName) (k : Nat)
    (file : ChosenFile) (urls : List Str) (hk : s.uploads[k]? = some (file, .shown urls)) :
    ∃ id i l before between after, tr = before ++ .event (.created i id) :: between ++ .event (.listed l) :: after ∧
      (∃ j, .event (.updated j id) ∈ between) ∧ s.server.tasks[l]? = some (.list, .replied (.urls urls)) ∧ IsUuid id ∧
      s.store (utf8 cfg.bucketName) (utf8 id) = some file.content ∧
      (.restarted ∉ between → ∃ url ∈ urls, ∃ now start, UrlFor env cfg id url now start) ∧
      (.restarted ∈ between → ∀ url ∈ urls, ¬ LeadsTo cfg url id) := by
  obtain ⟨id, i, l, before, between, after, h1, h2, h3, h4, h5, h6, h7⟩ := lives_own_image (keyed_alone env cfg)
    (fun id url hu hid => by
      obtain ⟨now, start, hf⟩ := alone_url hu
      exact C71_path env cfg id url now start hf hb hid) h hn hk
  refine ⟨id, i, l, before, between, after, h1, h2, h3, h4, h5, fun hno => ?_, h7⟩
  obtain ⟨url, hu, hf⟩ := h6 hno
  exact ⟨url, hu, alone_url hf⟩

/-- C100. Crashes lose no file: when the storage server has accepted the file of an upload, then, as long as its page goes on, the object
with the registered id is exactly this file, whatever else happens. -/
theorem C100_stays_stored (env : Env) (cfg : Config) (account : Str) (N E : Nat) (tr : List Episode) (s : Site)
    (h : Site.Lives (.alone env cfg) cfg account N E tr s) (hn : (registeredIds tr).Nodup) (k : Nat) (file : ChosenFile) (u : Upload)
    (hk : s.uploads[k]? = some (file, u)) (hu : HasUploaded u) :
    ∃ i id, .event (.created i id) ∈ tr ∧ (∀ id', u = .uploaded id' → id' = id) ∧
      s.store (utf8 cfg.bucketName) (utf8 id) = some file.content := by
  obtain ⟨own, inv⟩ := site_lives_inv (keyed_alone env cfg) h hn
  have hv := inv.uploads k file u hk
  cases u with
  | uploaded id =>
    obtain ⟨⟨i, _, h1⟩, _, h2⟩ := hv
    exact ⟨i, id, mem_allEvents.1 h1, fun id' he => by cases he; rfl, h2⟩
  | reporting j =>
    obtain ⟨id, ⟨⟨i, _, h1⟩, _, h2⟩, _⟩ := hv
    exact ⟨i, id, mem_allEvents.1 h1, fun id' he => (by cases he), h2⟩
  | reported =>
    obtain ⟨id, ⟨⟨i, _, h1⟩, _, h2⟩, _⟩ := hv
    exact ⟨i, id, mem_allEvents.1 h1, fun id' he => (by cases he), h2⟩
  | listing l =>
    obtain ⟨id, ⟨⟨i, _, h1⟩, _, h2⟩, _⟩ := hv
    exact ⟨i, id, mem_allEvents.1 h1, fun id' he => (by cases he), h2⟩
  | shown urls =>
    obtain ⟨id, l, ⟨⟨i, _, h1⟩, _, h2⟩, _⟩ := hv
    exact ⟨i, id, mem_allEvents.1 h1, fun id' he => (by cases he), h2⟩
  | chosen => cases hu
  | registering i => cases hu
  | uploading a b c => cases hu
  | failed => cases hu

/-- C100. With a service account key whose public key the storage server knows: in every history of the site with crashes, the storage
server answers a GET of a listed URL, in its minute, with exactly the file that was chosen in some upload. -/
theorem C100_get (env : Env) (cfg : Config) (email pem : Str) (key : Bytes) (N E : Nat) (tr : List Episode) (s : Site)
    (h : Site.Lives (.alone env cfg) cfg email N E tr s) (hn : (registeredIds tr).Nodup) (hb : IsBucketName cfg.bucketName)
    (hk : cfg.signingKey = .serviceAccount email pem) (hring : Rsa.Correct env) (hpem : env.pemParse pem = some key)
    (hpub : Rsa.PublicKeyIn key N E) (hemail : '%' ∉ email) (i : Nat) (r : Req) (urls : List Str)
    (hi : s.server.tasks[i]? = some (r, .replied (.urls urls))) (url : Str) (hu : url ∈ urls) :
    ∃ (k : Nat) (file : ChosenFile) (u : Upload) (id : Str) (now start : Time), s.uploads[k]? = some (file, u) ∧ UrlFor env cfg id url now start ∧
      ∀ time : Int, start / 1000000000 ≤ time →
        time < start / 1000000000 + (now + 60000000000 - start) / 1000000000 →
        ∀ content, Answers email N E s.store ⟨s% "GET", url, [(s% "host", s% "storage.googleapis.com")], time⟩ content ↔
          content = file.content := by
  obtain ⟨ks, hlen, _, hks⟩ := C100_listed_is_stored env cfg email N E tr s h hn i r urls hi
  obtain ⟨a, ha1, ha2⟩ := List.getElem_of_mem hu
  obtain ⟨file, u, id, now, start, h1, h2, h3, h4⟩ := hks a url ks[a] (by rw [List.getElem?_eq_getElem ha1, ha2])
    (List.getElem?_eq_getElem (by omega))
  refine ⟨_, file, u, id, now, start, h1, h3, fun time ht1 ht2 content => ?_⟩
  obtain ⟨w, w', rfl, rfl, hurl⟩ := h3
  refine (C76_get env _ _ w' url email pem key N E time hurl ⟨rfl, rfl, by show '%' ∉ s% "auto"; decide, uuid_addressable hb h2⟩ rfl hk
    hring hpem hpub hemail ⟨ht1, ht2⟩ s.store content).trans ?_
  rw [h4, Option.some.injEq]
  exact eq_comm

/-- C100. What a page posts is accepted: when a page has got its form, the storage server accepts the form and the file as the
page sends them, exactly from the second in which the form was signed until a minute after the registration. -/
theorem C100_upload_accepted (env : Env) (cfg : Config) (email pem : Str) (key : Bytes) (N E : Nat) (tr : List Episode) (s : Site)
    (h : Site.Lives (.alone env cfg) cfg email N E tr s) (hn : (registeredIds tr).Nodup)
    (hk : cfg.signingKey = .serviceAccount email pem) (hring : Rsa.Correct env) (hpem : env.pemParse pem = some key)
    (hpub : Rsa.PublicKeyIn key N E) (k : Nat) (file : ChosenFile) (fields : List (Str × Str)) (method url : Str)
    (hu : s.uploads[k]? = some (file, .uploading fields method url)) :
    method = s% "POST" ∧ ∃ bucket id now start, bucketOf url = some bucket ∧ findKey fields = some id ∧
      FormFor env cfg id file.content.length file.type fields now start ∧
      ∀ time : Int,
        (Sent.form ⟨bucket, formEntries fields, file.content.length, time⟩ file.name file.content).Accepted email N E ↔
          start / 1000000000 ≤ time ∧ time < (now + 60000000000) / 1000000000 := by
  obtain ⟨own, inv⟩ := site_lives_inv (keyed_alone env cfg) h hn
  obtain ⟨i, _, ht⟩ := inv.uploads k file _ hu
  obtain ⟨id, hm, hb, hid, hf, _, hfind, _⟩ := lives_uploading_facts (keyed_alone env cfg) inv.run ht
  obtain ⟨now, start, hf⟩ := alone_form hf
  refine ⟨hm, cfg.bucketName, id, now, start, hb, hfind, hf, fun time => ?_⟩
  rw [formEntries_nodup (formFor_names hf)]
  show AcceptsPost email N E ⟨cfg.bucketName, fields, file.content.length, time⟩ ∧ _ ↔ _
  rw [C70_form_accepted env cfg id _ _ fields now start email pem key N E hf hk hring hpem hpub file.content.length time]
  constructor
  · rintro ⟨⟨h1, h2, _⟩, _⟩; exact ⟨h1, h2⟩
  · rintro ⟨h1, h2⟩; exact ⟨⟨h1, h2, rfl⟩, rfl⟩

/-- C100. Without crashes, the histories are exactly those of C81. -/
theorem C100_without_crashes (crate : Crate) (cfg : Config) (account : Str) (N E : Nat) (tr : List Event) (s : Site) :
    Site.Lives crate cfg account N E (tr.map .event) s ↔ Site.Run crate cfg account N E tr s := by
  constructor
  · intro h
    generalize htr : tr.map Episode.event = tr' at h
    induction h generalizing tr with
    | start store => rw [List.map_eq_nil_iff.1 htr]; exact .start store
    | choose file _ ih => exact .choose file (ih tr htr)
    | send k file u r _ hk hr ih => exact .send k file u r (ih tr htr) hk hr
    | answer k i file u r reply _ hk hw ht ih => exact .answer k i file u r reply (ih tr htr) hk hw ht
    | upload k file fields url bucket time store _ hk hb ha hh ih => exact .upload k file fields url bucket time store (ih tr htr) hk hb ha hh
    | uploadFails k file fields url bucket time store _ hk hb hh ih => exact .uploadFails k file fields url bucket time store (ih tr htr) hk hb hh
    | fail k file u _ hk ih => exact .fail k file u (ih tr htr) hk
    | visit r _ hr ih => exact .visit r (ih tr htr) hr
    | step i r t uuid form url _ hi hu hg ih =>
      obtain ⟨x, rfl, h2⟩ := map_snoc_event htr
      exact .step i r t uuid form url (ih x h2.symm) hi hu hg
    | drop i r t _ hi ht ih => exact .drop i r t (ih tr htr) hi ht
    | elsewhere store _ hs ih => exact .elsewhere store (ih tr htr) hs
    | restart _ _ =>
      exact absurd (by rw [htr]; simp) (show Episode.restarted ∉ tr.map Episode.event by simp)
  · intro h
    induction h with
    | start store => exact .start store
    | choose file _ ih => exact .choose file ih
    | send k file u r _ hk hr ih => exact .send k file u r ih hk hr
    | answer k i file u r reply _ hk hw ht ih => exact .answer k i file u r reply ih hk hw ht
    | upload k file fields url bucket time store _ hk hb ha hh ih => exact .upload k file fields url bucket time store ih hk hb ha hh
    | uploadFails k file fields url bucket time store _ hk hb hh ih => exact .uploadFails k file fields url bucket time store ih hk hb hh
    | fail k file u _ hk ih => exact .fail k file u ih hk
    | visit r _ hr ih => exact .visit r ih hr
    | step i r t uuid form url _ hi hu hg ih => rw [List.map_append]; exact .step i r t uuid form url ih hi hu hg
    | drop i r t _ hi ht ih => exact .drop i r t ih hi ht
    | elsewhere store _ hs ih => exact .elsewhere store ih hs

end CSS
