import Verif.Spec.ImageSiteLive
import Verif.Props.ImageSiteShared
import Verif.Props.ImageLive
import Verif.Props.ServerFailures
/-
C98: every upload on a page of the example comes to its end, it fails only for a reason, and without one its file is shown.
-/
set_option linter.unusedSimpArgs false
namespace CSS
open Spec ImageUploader Spec.ImageUploader

variable {crate : Crate} {cfg : Config} {account : Str} {N E : Nat} {σ : Nat → Site} {what : Nat → Happens}

/-! ### Moves -/

/-- The moves are those of the runs of the site. -/
theorem siteMoves_run {h : Happens} {s s' : Site} {tr : List ImageUploader.Event} (hr : Site.Run crate cfg account N E tr s)
    (hm : SiteMoves crate cfg account N E h s s') : ∃ more, Site.Run crate cfg account N E (tr ++ more) s' := by
  cases hm with
  | idle => exact ⟨[], by simpa using hr⟩
  | choose file => exact ⟨[], by simpa using hr.choose file⟩
  | visit r h => exact ⟨[], by simpa using hr.visit r h⟩
  | elsewhere store h => exact ⟨[], by simpa using hr.elsewhere store h⟩
  | server m server hne hm =>
    cases hm with
    | receive r => exact absurd rfl hne
    | step i r t uuid form url h1 _ h3 h4 => exact ⟨_, hr.step i r t uuid form url h1 h3 h4⟩
    | drop i r t h1 h2 => exact ⟨[], by simpa using hr.drop i r t h1 fun a ha => h2 (.inl ⟨a, ha⟩)⟩
  | send k file u r h1 h2 => exact ⟨[], by simpa using hr.send k file u r h1 h2⟩
  | get k i file u r reply h1 h2 h3 => exact ⟨[], by simpa using hr.answer k i file u r reply h1 h2 h3⟩
  | post k file fields url bucket time store h1 h2 h3 h4 =>
    exact ⟨[], by rw [List.append_nil]; exact hr.upload k file fields url bucket time store h1 h2 h3 h4⟩
  | postRefused k file fields url bucket time store h1 h2 _ h4 =>
    exact ⟨[], by simpa using hr.uploadFails k file fields url bucket time store h1 h2 h4⟩
  | postLost k file fields url bucket time store h1 h2 h4 =>
    exact ⟨[], by simpa using hr.uploadFails k file fields url bucket time store h1 h2 h4⟩
  | lose k file u h1 _ => exact ⟨[], by simpa using hr.fail k file u h1⟩
  | refuse k file h1 _ => exact ⟨[], by simpa using hr.fail k file .chosen h1⟩

theorem siteHistory_run (h : SiteHistory crate cfg account N E σ what) (m : Nat) :
    ∃ tr, Site.Run crate cfg account N E tr (σ m) := by
  induction m with
  | zero =>
    obtain ⟨store, h0⟩ := h.begins
    rw [h0]
    exact ⟨[], .start store⟩
  | succ m ih =>
    obtain ⟨tr, hr⟩ := ih
    obtain ⟨more, hr⟩ := siteMoves_run hr (h.next m)
    exact ⟨_, hr⟩

theorem site_server {tr : List ImageUploader.Event} {s : Site} (h : Site.Run crate cfg account N E tr s) : Run crate cfg tr s.server := by
  induction h with
  | start store => exact .start
  | choose file _ ih => exact ih
  | send k file u r _ _ _ ih => exact .receive r ih
  | answer k i file u r reply _ _ _ _ ih => exact ih
  | upload k file fields url bucket time store _ _ _ _ _ ih => exact ih
  | uploadFails k file fields url bucket time store _ _ _ _ ih => exact ih
  | fail k file u _ _ ih => exact ih
  | visit r _ _ ih => exact .receive r ih
  | step i r t uuid form url _ h1 h2 h3 ih => exact .step i r t uuid form url ih h1 h2 h3
  | drop i r t _ h1 h2 ih => exact .drop i r t ih h1 h2
  | elsewhere store _ _ ih => exact ih

theorem run_ids {tr : List ImageUploader.Event} {s : State} (h : Run crate cfg tr s) : s.images.map (·.id) = createdIds tr := by
  rw [run_images h, replay_ids]

/-- What each move does to the handlers. -/
theorem siteMoves_server {h : Happens} {s s' : Site} (hm : SiteMoves crate cfg account N E h s s') :
    s'.server = s.server ∨ ∃ m, Moves crate cfg m s.server s'.server := by
  cases hm with
  | idle => exact .inl rfl
  | choose file => exact .inl rfl
  | visit r h => exact .inr ⟨_, .receive r⟩
  | elsewhere store h => exact .inl rfl
  | server m server _ hm => exact .inr ⟨m, hm⟩
  | send k file u r h1 h2 => exact .inr ⟨_, .receive r⟩
  | get k i file u r reply h1 h2 h3 => exact .inl rfl
  | post k file fields url bucket time store h1 h2 h3 h4 => exact .inl rfl
  | postRefused k file fields url bucket time store h1 h2 _ h4 => exact .inl rfl
  | postLost k file fields url bucket time store h1 h2 h4 => exact .inl rfl
  | lose k file u h1 _ => exact .inl rfl
  | refuse k file h1 _ => exact .inl rfl

theorem siteHistory_server (h : SiteHistory crate cfg account N E σ what) : ServerHistory crate cfg fun m => (σ m).server where
  begins := by
    obtain ⟨store, h0⟩ := h.begins
    simp only [h0]
    exact ⟨[], .start⟩
  next m := siteMoves_server (h.next m)

theorem siteFair_server (h : SiteHistory crate cfg account N E σ what) (hf : SiteFair crate cfg σ what) :
    ServerFair crate cfg fun m => (σ m).server := by
  intro i n r t ht hnf
  obtain ⟨m, hm, hw⟩ := hf.handlers i n r t ht hnf
  refine ⟨m, hm, ?_⟩
  have hn := h.next m
  have inv : ∀ {x : ServerMove} {s s' : Site}, SiteMoves crate cfg account N E (.server x) s s' → Moves crate cfg x s.server s'.server := by
    intro x s s' hm
    cases hm with
    | server _ server _ hm => exact hm
  rcases hw with hw | hw <;> rw [hw] at hn
  · exact .inl (inv hn)
  · exact .inr (inv hn)

/-! ### The end of an upload -/

/-- How often a page has still to go on. -/
def ImageUploader.Upload.left : Upload → Nat
  | .chosen => 7
  | .registering _ => 6
  | .uploading _ _ _ => 5
  | .uploaded _ => 4
  | .reporting _ => 3
  | .reported => 2
  | .listing _ => 1
  | .shown _ => 0
  | .failed => 0

theorem upload_left {u : Upload} : u.left = 0 ↔ UploadEnded u := by
  unfold UploadEnded
  cases u <;> simp [Upload.left]

/-- What each move does to an upload that was there before. -/
theorem siteMoves_upload {h : Happens} {s s' : Site} (hm : SiteMoves crate cfg account N E h s s') {k : Nat} {file : ChosenFile}
    {u : Upload} (hk : s.uploads[k]? = some (file, u)) :
    (¬ h.goesOn k ∧ s'.uploads[k]? = some (file, u)) ∨ (h.goesOn k ∧ ∃ u', s'.uploads[k]? = some (file, u') ∧ u'.left < u.left) := by
  have hlt := some_lt hk
  have change : ∀ {k' : Nat} {f : ChosenFile} {v v' : Upload}, s.uploads[k']? = some (f, v) → v'.left < v.left →
      ((¬ k' = k ∧ (s.uploads.set k' (f, v'))[k]? = some (file, u)) ∨
        (k' = k ∧ ∃ u', (s.uploads.set k' (f, v'))[k]? = some (file, u') ∧ u'.left < u.left)) := by
    intro k' f v v' hv hl
    by_cases he : k' = k
    · subst he
      rw [hk] at hv
      cases hv
      exact .inr ⟨rfl, v', by rw [List.getElem?_set_self hlt], hl⟩
    · exact .inl ⟨he, by rw [List.getElem?_set_ne he]; exact hk⟩
  cases hm with
  | idle => exact .inl ⟨id, hk⟩
  | choose f => exact .inl ⟨id, append_keeps hk⟩
  | visit r h => exact .inl ⟨id, hk⟩
  | elsewhere store h => exact .inl ⟨id, hk⟩
  | server m server _ hm => exact .inl ⟨id, hk⟩
  | send k' f v r h1 h2 =>
    refine change h1 ?_
    cases v <;> simp [Upload.request] at h2 <;> simp [Upload.sent, Upload.left]
  | get k' i f v r reply h1 h2 h3 =>
    refine change h1 ?_
    cases v <;> simp [Upload.waits] at h2 <;> cases reply <;> simp [Upload.answered, Upload.left]
  | post k' f fields url bucket time store h1 h2 h3 h4 =>
    refine change h1 ?_
    split <;> simp [Upload.left]
  | postRefused k' f fields url bucket time store h1 h2 _ h4 => exact change h1 (by simp [Upload.left])
  | postLost k' f fields url bucket time store h1 h2 h4 => exact change h1 (by simp [Upload.left])
  | lose k' f v h1 h2 =>
    refine change h1 ?_
    have : v.left ≠ 0 := fun h => h2 (upload_left.1 h)
    exact Nat.pos_of_ne_zero this
  | refuse k' f h1 _ => exact change h1 (by simp [Upload.left])

theorem upload_later (h : SiteHistory crate cfg account N E σ what) {k m : Nat} {file : ChosenFile} {u : Upload}
    (hk : (σ m).uploads[k]? = some (file, u)) (d : Nat) :
    ∃ u', (σ (m + d)).uploads[k]? = some (file, u') ∧ (u' = u ∨ u'.left < u.left) := by
  induction d with
  | zero => exact ⟨u, hk, .inl rfl⟩
  | succ d ih =>
    obtain ⟨u', h1, h2⟩ := ih
    rcases siteMoves_upload (h.next (m + d)) h1 with ⟨_, h3⟩ | ⟨_, u'', h3, h4⟩
    · exact ⟨u', h3, h2⟩
    · refine ⟨u'', h3, .inr ?_⟩
      rcases h2 with rfl | h2
      · exact h4
      · omega

/-- C98. In every fair history of the site every upload comes to its end, whatever happens meanwhile. -/
theorem C98_ends (h : SiteHistory crate cfg account N E σ what) (hf : SiteFair crate cfg σ what) (k m : Nat) (file : ChosenFile)
    (u : Upload) (hk : (σ m).uploads[k]? = some (file, u)) :
    ∃ m' u', m ≤ m' ∧ (σ m').uploads[k]? = some (file, u') ∧ UploadEnded u' := by
  generalize hl : u.left = l
  induction l using Nat.strongRecOn generalizing m u with
  | _ l ih =>
    have less : ∀ m' u', m ≤ m' → (σ m').uploads[k]? = some (file, u') → u'.left < u.left →
        ∃ m' u', m ≤ m' ∧ (σ m').uploads[k]? = some (file, u') ∧ UploadEnded u' := by
      intro m' u' h1 h2 h3
      obtain ⟨m'', u'', h4, h5⟩ := ih u'.left (by omega) m' u' h2 rfl
      exact ⟨m'', u'', by omega, h5⟩
    have goes : ∀ m₁, m ≤ m₁ → (σ m₁).uploads[k]? = some (file, u) → ¬ UploadEnded u →
        (∀ i r t, u.waits = some i → (σ m₁).server.tasks[i]? = some (r, t) → Finished t) →
        ∃ m' u', m ≤ m' ∧ (σ m').uploads[k]? = some (file, u') ∧ UploadEnded u' := by
      intro m₁ h1 h2 h3 h4
      obtain ⟨m₂, h5, h6⟩ := hf.pages k m₁ file u h2 h3 h4
      obtain ⟨d, rfl⟩ : ∃ d, m₂ = m₁ + d := ⟨m₂ - m₁, by omega⟩
      obtain ⟨u', h7, h8⟩ := upload_later h h2 d
      rcases h8 with rfl | h8
      · rcases siteMoves_upload (h.next (m₁ + d)) h7 with ⟨h9, _⟩ | ⟨_, u'', h9, h10⟩
        · exact absurd h6 h9
        · exact less _ u'' (by omega) h9 h10
      · exact less _ u' (by omega) h7 h8
    by_cases he : UploadEnded u
    · exact ⟨m, u, Nat.le_refl _, hk, he⟩
    by_cases hw : ∀ i r t, u.waits = some i → (σ m).server.tasks[i]? = some (r, t) → Finished t
    · exact goes m (Nat.le_refl _) hk he hw
    · obtain ⟨i, r, t, hi, ht⟩ : ∃ i r t, u.waits = some i ∧ (σ m).server.tasks[i]? = some (r, t) := by
        apply Classical.byContradiction
        intro hno
        exact hw fun i r t h1 h2 => absurd ⟨i, r, t, h1, h2⟩ hno
      obtain ⟨m₁, t', h1, h2, h3⟩ := C96_answered _ (siteHistory_server h) (siteFair_server h hf) i m r t ht
      obtain ⟨d, rfl⟩ : ∃ d, m₁ = m + d := ⟨m₁ - m, by omega⟩
      obtain ⟨u', h4, h5⟩ := upload_later h hk d
      rcases h5 with rfl | h5
      · refine goes _ h1 h4 he fun i' r' t'' hi' ht'' => ?_
        rw [hi] at hi'
        cases hi'
        simp only [h2] at ht''
        cases ht''
        exact h3
      · exact less _ u' (by omega) h4 h5

theorem page_not_stuck (hkeyed : FormsKeyed crate) {tr : List ImageUploader.Event} {s : Site} (hrun : Site.Run crate cfg account N E tr s)
    (hn : (createdIds tr).Nodup) (k : Nat) (file : ChosenFile) (u : Upload) (hk : s.uploads[k]? = some (file, u)) (hu : ¬ UploadEnded u)
    (hw : ∀ i r t, u.waits = some i → s.server.tasks[i]? = some (r, t) → ∃ reply, t = .replied reply) :
    ∃ h s', SiteMoves crate cfg account N E h s s' ∧ h.goesOn k ∧ h ≠ .loses k := by
  obtain ⟨own, inv⟩ := site_inv hkeyed hrun hn
  have ui := inv.uploads k file u hk
  cases u with
  | chosen =>
    by_cases ht : file.type = []
    · exact ⟨_, _, .refuse k file hk ht, rfl, by simp⟩
    · exact ⟨_, _, .send k file .chosen (.create file.content.length file.type) hk (by simp [Upload.request, ht]), rfl, by simp⟩
  | registering i =>
    obtain ⟨_, t, ht⟩ := ui
    obtain ⟨reply, rfl⟩ := hw i _ t rfl ht
    exact ⟨_, _, .get k i file _ _ reply hk rfl ht, rfl, by simp⟩
  | uploading fields method url =>
    obtain ⟨i, _, ht⟩ := ui
    obtain ⟨id, rfl, hb, _, _, _, _, _⟩ := uploading_facts hkeyed inv.run ht
    let m := Sent.form ⟨cfg.bucketName, formEntries fields, file.content.length, 0⟩ file.name file.content
    obtain ⟨store, hst⟩ := handles_exists account N E m s.store
    by_cases hacc : m.Accepted account N E
    · exact ⟨_, _, .post k file fields url _ 0 store hk hb hacc hst, rfl, by simp⟩
    · exact ⟨_, _, .postRefused k file fields url _ 0 store hk hb hacc hst, rfl, by simp⟩
  | uploaded id => exact ⟨_, _, .send k file (.uploaded id) (.update id) hk rfl, rfl, by simp⟩
  | reporting i =>
    obtain ⟨_, _, _, t, ht⟩ := ui
    obtain ⟨reply, rfl⟩ := hw i _ t rfl ht
    exact ⟨_, _, .get k i file _ _ reply hk rfl ht, rfl, by simp⟩
  | reported => exact ⟨_, _, .send k file .reported .list hk rfl, rfl, by simp⟩
  | listing i =>
    obtain ⟨_, _, _, t, ht⟩ := ui
    obtain ⟨reply, rfl⟩ := hw i _ t rfl ht
    exact ⟨_, _, .get k i file _ _ reply hk rfl ht, rfl, by simp⟩
  | shown urls => exact absurd (.inl ⟨urls, rfl⟩) hu
  | failed => exact absurd (.inr rfl) hu

/-- C98. An upload is never stuck: unless its handler has not finished or was dropped, its page can go on, and without losing anything. -/
theorem C98_not_stuck (env : Env) (cfg : Config) (account : Str) (N E : Nat) (tr : List ImageUploader.Event) (s : Site)
    (hrun : Site.Run (.alone env cfg) cfg account N E tr s) (hn : (createdIds tr).Nodup) (k : Nat) (file : ChosenFile) (u : Upload)
    (hk : s.uploads[k]? = some (file, u)) (hu : ¬ UploadEnded u)
    (hw : ∀ i r t, u.waits = some i → s.server.tasks[i]? = some (r, t) → ∃ reply, t = .replied reply) :
    ∃ h s', SiteMoves (.alone env cfg) cfg account N E h s s' ∧ h.goesOn k ∧ h ≠ .loses k :=
  page_not_stuck (keyed_alone env cfg) hrun hn k file u hk hu hw

/-- A history that comes to rest when everything is finished is fair. -/
theorem fair_of_rest (h : SiteHistory crate cfg account N E σ what) (M : Nat) (hrest : ∀ m, M ≤ m → σ m = σ M)
    (htasks : ∀ p ∈ (σ M).server.tasks, Finished p.2) (hups : ∀ p ∈ (σ M).uploads, UploadEnded p.2) : SiteFair crate cfg σ what where
  handlers i m r t ht hnf := by
    apply Classical.byContradiction
    intro hno
    have stays : ∀ d, (σ (m + d)).server.tasks[i]? = some (r, t) := by
      intro d
      induction d with
      | zero => exact ht
      | succ d ih =>
        have hn := h.next (m + d)
        have hl : ∀ x, what (m + d) = .server x → x ≠ .worked i ∧ x ≠ .dropped i := fun x hx =>
          ⟨fun e => hno ⟨m + d, by omega, .inl (by rw [hx, e])⟩, fun e => hno ⟨m + d, by omega, .inr (by rw [hx, e])⟩⟩
        rw [show m + (d + 1) = m + d + 1 by omega]
        generalize what (m + d) = w at hn hl
        generalize σ (m + d) = s at hn ih
        generalize σ (m + d + 1) = s' at hn
        cases hn with
        | idle => exact ih
        | choose file => exact ih
        | visit r h => exact append_keeps ih
        | elsewhere store h => exact ih
        | server x server _ hm =>
          rcases moves_task hm ih with ⟨_, _, h3⟩ | ⟨h3, _⟩ | ⟨h3, _⟩
          · exact h3
          · exact absurd h3 (hl x rfl).2
          · exact absurd h3 (hl x rfl).1
        | send k file u r h1 h2 => exact append_keeps ih
        | get k i file u r reply h1 h2 h3 => exact ih
        | post k file fields url bucket time store h1 h2 h3 h4 => exact ih
        | postRefused k file fields url bucket time store h1 h2 _ h4 => exact ih
        | postLost k file fields url bucket time store h1 h2 h4 => exact ih
        | lose k file u h1 _ => exact ih
        | refuse k file h1 _ => exact ih
    have := stays M
    rw [hrest (m + M) (by omega)] at this
    exact hnf (htasks _ (List.mem_of_getElem? this))
  pages k m file u hk hne _ := by
    apply Classical.byContradiction
    intro hno
    have stays : ∀ d, (σ (m + d)).uploads[k]? = some (file, u) := by
      intro d
      induction d with
      | zero => exact hk
      | succ d ih =>
        rcases siteMoves_upload (h.next (m + d)) ih with ⟨_, h3⟩ | ⟨h3, _⟩
        · exact h3
        · exact absurd ⟨m + d, by omega, h3⟩ hno
    have := stays M
    rw [hrest (m + M) (by omega)] at this
    exact hne (hups _ (List.mem_of_getElem? this))

/-! ### Why an upload fails -/

/-- The answers that fit a request. -/
def ReplyFits (r : Req) : Reply → Prop
  | .form _ _ _ => ∃ n c, r = .create n c
  | .urls _ => r = .list
  | .noContent => ∃ id, r = .update id
  | .internalServerError | .aborted => ∀ id, r ≠ .update id

theorem reply_fits {tr : List ImageUploader.Event} {s : State} (hrun : Run crate cfg tr s) {i : Nat} {r : Req} {reply : Reply}
    (hi : s.tasks[i]? = some (r, .replied reply)) : ReplyFits r reply := by
  have hv := (run_inv hrun).1 i r _ hi
  cases reply with
  | form a b c => obtain ⟨_, n, c, h, _⟩ := hv; exact ⟨_, _, h⟩
  | urls a => exact hv.1
  | noContent => obtain ⟨id, h, _⟩ := hv; exact ⟨id, h⟩
  | internalServerError => rintro id rfl; rcases hv with ⟨⟨_, _, h⟩, _⟩ | ⟨h, _⟩ <;> cases h
  | aborted => rintro id rfl; rcases hv with ⟨⟨_, _, h⟩, _⟩ | ⟨h, _⟩ <;> cases h

theorem failing_of {s s' : Site} {h : Happens} (hm : SiteMoves crate cfg account N E h s s') {k : Nat} {file : ChosenFile} {u : Upload}
    (hk : s.uploads[k]? = some (file, u)) (hu : u ≠ .failed) (hk' : s'.uploads[k]? = some (file, .failed))
    (hreply : ∀ (i : Nat) (r : Req) (reply : Reply), s.server.tasks[i]? = some (r, .replied reply) → ReplyFits r reply)
    (hreq : (∀ i, u = .registering i → ∃ t, s.server.tasks[i]? = some (.create file.content.length file.type, t)) ∧
      (∀ i, u = .reporting i → ∃ id t, s.server.tasks[i]? = some (.update id, t)) ∧
      ∀ i, u = .listing i → ∃ t, s.server.tasks[i]? = some (.list, t))
    (hup : ∀ fields method url, u = .uploading fields method url → bucketOf url = some cfg.bucketName ∧ ∃ id, findKey fields = some id) :
    h = .loses k ∨ (h = .refuses k ∧ file.type = []) ∨
    (∃ reply i r, h = .gets k reply ∧ s.server.tasks[i]? = some (r, .replied reply) ∧
      (reply = .internalServerError ∨ reply = .aborted) ∧
      ((u = .registering i ∧ r = .create file.content.length file.type) ∨ (u = .listing i ∧ r = .list))) ∨
    ∃ time fields url, h = .posts k time ∧ u = .uploading fields (s% "POST") url ∧ bucketOf url = some cfg.bucketName ∧
      ¬ (Sent.form ⟨cfg.bucketName, formEntries fields, file.content.length, time⟩ file.name file.content).Accepted account N E := by
  have same : s.uploads[k]? = some (file, .failed) → False := fun h => hu (by rw [hk] at h; cases h; rfl)
  cases hm with
  | idle => exact (same hk').elim
  | choose f =>
    rw [append_keeps hk] at hk'
    cases hk'
    exact absurd rfl hu
  | visit r h => exact (same hk').elim
  | elsewhere store h => exact (same hk').elim
  | server m server _ hm => exact (same hk').elim
  | send k' f v r h1 h2 =>
    rcases set_cases hk' with ⟨rfl, hb⟩ | ⟨_, hk'⟩
    · cases v <;> simp [Upload.request] at h2 <;> cases hb
    · exact (same hk').elim
  | get k' i f v r reply h1 h2 h3 =>
    rcases set_cases hk' with ⟨rfl, hb⟩ | ⟨_, hk'⟩
    · rw [hk] at h1
      cases h1
      have hf : u.answered reply = .failed := (congrArg Prod.snd hb).symm
      refine .inr (.inr (.inl ⟨reply, i, r, rfl, h3, ?_⟩))
      have hv := hreply i r _ h3
      cases u with
      | registering j =>
        cases h2
        obtain ⟨t, ht⟩ := hreq.1 i rfl
        rw [h3] at ht
        cases ht
        cases reply with
        | form a b c => simp [Upload.answered] at hf
        | urls a => cases hv
        | noContent => obtain ⟨_, h⟩ := hv; cases h
        | internalServerError => exact ⟨.inl rfl, .inl ⟨rfl, rfl⟩⟩
        | aborted => exact ⟨.inr rfl, .inl ⟨rfl, rfl⟩⟩
      | reporting j =>
        cases h2
        obtain ⟨id, t, ht⟩ := hreq.2.1 i rfl
        rw [h3] at ht
        cases ht
        cases reply with
        | form a b c => obtain ⟨_, _, h⟩ := hv; cases h
        | urls a => cases hv
        | noContent => simp [Upload.answered] at hf
        | internalServerError => exact absurd rfl (hv id)
        | aborted => exact absurd rfl (hv id)
      | listing j =>
        cases h2
        obtain ⟨t, ht⟩ := hreq.2.2 i rfl
        rw [h3] at ht
        cases ht
        cases reply with
        | form a b c => obtain ⟨_, _, h⟩ := hv; cases h
        | urls a => simp [Upload.answered] at hf
        | noContent => obtain ⟨_, h⟩ := hv; cases h
        | internalServerError => exact ⟨.inl rfl, .inr ⟨rfl, rfl⟩⟩
        | aborted => exact ⟨.inr rfl, .inr ⟨rfl, rfl⟩⟩
      | _ => cases h2
    · exact (same hk').elim
  | post k' f fields url bucket time store h1 h2 h3 h4 =>
    rcases set_cases hk' with ⟨rfl, hb⟩ | ⟨_, hk'⟩
    · rw [hk] at h1
      cases h1
      obtain ⟨_, id, hfind⟩ := hup _ _ _ rfl
      rw [hfind] at hb
      cases hb
    · exact (same hk').elim
  | postRefused k' f fields url bucket time store h1 h2 h3 h4 =>
    rcases set_cases hk' with ⟨rfl, hb⟩ | ⟨_, hk'⟩
    · rw [hk] at h1
      cases h1
      obtain ⟨hbk, _⟩ := hup _ _ _ rfl
      rw [hbk] at h2
      cases h2
      exact .inr (.inr (.inr ⟨time, fields, url, rfl, rfl, hbk, h3⟩))
    · exact (same hk').elim
  | postLost k' f fields url bucket time store h1 h2 h4 =>
    rcases set_cases hk' with ⟨rfl, hb⟩ | ⟨_, hk'⟩
    · exact .inl rfl
    · exact (same hk').elim
  | lose k' f v h1 h2 =>
    rcases set_cases hk' with ⟨rfl, hb⟩ | ⟨_, hk'⟩
    · exact .inl rfl
    · exact (same hk').elim
  | refuse k' f h1 h2 =>
    rcases set_cases hk' with ⟨rfl, hb⟩ | ⟨_, hk'⟩
    · rw [hk] at h1
      cases h1
      exact .inr (.inl ⟨rfl, h2⟩)
    · exact (same hk').elim

theorem upload_requests {own : Nat → Option Nat} {tr : List ImageUploader.Event} {tasks : List (Req × Task)} {store : Store} {k : Nat}
    {file : ChosenFile} {u : Upload} (ui : UploadInv cfg own tr tasks store k file u) :
    (∀ i, u = .registering i → ∃ t, tasks[i]? = some (.create file.content.length file.type, t)) ∧
      (∀ i, u = .reporting i → ∃ id t, tasks[i]? = some (.update id, t)) ∧
      ∀ i, u = .listing i → ∃ t, tasks[i]? = some (.list, t) := by
  refine ⟨?_, ?_, ?_⟩ <;> rintro i rfl
  · obtain ⟨_, t, ht⟩ := ui; exact ⟨t, ht⟩
  · obtain ⟨id, _, _, t, ht⟩ := ui; exact ⟨id, t, ht⟩
  · obtain ⟨id, _, _, t, ht⟩ := ui; exact ⟨t, ht⟩

theorem failing (hkeyed : FormsKeyed crate) {tr : List ImageUploader.Event} {s s' : Site} (hrun : Site.Run crate cfg account N E tr s)
    (hn : (createdIds tr).Nodup) {h : Happens} (hm : SiteMoves crate cfg account N E h s s') {k : Nat} {file : ChosenFile} {u : Upload}
    (hk : s.uploads[k]? = some (file, u)) (hu : u ≠ .failed) (hk' : s'.uploads[k]? = some (file, .failed)) :
    h = .loses k ∨ (h = .refuses k ∧ file.type = []) ∨
    (∃ reply i r, h = .gets k reply ∧ s.server.tasks[i]? = some (r, .replied reply) ∧
      (reply = .internalServerError ∨ reply = .aborted) ∧
      ((u = .registering i ∧ r = .create file.content.length file.type) ∨ (u = .listing i ∧ r = .list))) ∨
    ∃ time fields url, h = .posts k time ∧ u = .uploading fields (s% "POST") url ∧ bucketOf url = some cfg.bucketName ∧
      ¬ (Sent.form ⟨cfg.bucketName, formEntries fields, file.content.length, time⟩ file.name file.content).Accepted account N E := by
  obtain ⟨own, inv⟩ := site_inv hkeyed hrun hn
  have ui := inv.uploads k file u hk
  refine failing_of hm hk hu hk' (fun i r reply hi => reply_fits inv.run hi) (upload_requests ui) ?_
  rintro fields method url rfl
  obtain ⟨i, _, ht⟩ := ui
  obtain ⟨id, _, hbk, _, _, _, hfind, _⟩ := uploading_facts hkeyed inv.run ht
  exact ⟨hbk, id, hfind⟩

/-! ### The calls of the crate run meanwhile -/

theorem shared_mono {env : Env} {base : Nat → Str} {calls : Nat → Sys} (hc : Spec.History env base calls) {m m' : Nat} (hm : m ≤ m') :
    (∀ id n t r, (Crate.shared (calls m).trace cfg).form id n t r → (Crate.shared (calls m').trace cfg).form id n t r) ∧
    ∀ id r, (Crate.shared (calls m).trace cfg).url id r → (Crate.shared (calls m').trace cfg).url id r := by
  have hs := (history_prefix hc hm).subset
  constructor
  · rintro id n t r ⟨now, h1, h2 | ⟨i, x, h2, h3, h4⟩⟩
    · exact ⟨now, h1, .inl h2⟩
    · exact ⟨now, h1, .inr ⟨i, x, hs h2, hs h3, h4⟩⟩
  · rintro id r ⟨now, h1, h2 | ⟨i, x, h2, h3, h4⟩⟩
    · exact ⟨now, h1, .inl h2⟩
    · exact ⟨now, h1, .inr ⟨i, x, hs h2, hs h3, h4⟩⟩

/-- A run that uses calls of an infinite history uses calls of a part of it. -/
theorem run_during {env : Env} {base : Nat → Str} {calls : Nat → Sys} (hc : Spec.History env base calls) {tr : List ImageUploader.Event}
    {s : Site} (h : Site.Run (Crate.during calls cfg) cfg account N E tr s) :
    ∃ M, ∀ M', M ≤ M' → Site.Run (.shared (calls M').trace cfg) cfg account N E tr s := by
  induction h with
  | start store => exact ⟨0, fun _ _ => .start store⟩
  | choose file _ ih => obtain ⟨M, h⟩ := ih; exact ⟨M, fun M' hM => (h M' hM).choose file⟩
  | send k file u r _ h1 h2 ih => obtain ⟨M, h⟩ := ih; exact ⟨M, fun M' hM => (h M' hM).send k file u r h1 h2⟩
  | answer k i file u r reply _ h1 h2 h3 ih => obtain ⟨M, h⟩ := ih; exact ⟨M, fun M' hM => (h M' hM).answer k i file u r reply h1 h2 h3⟩
  | upload k file fields url bucket time store _ h1 h2 h3 h4 ih =>
    obtain ⟨M, h⟩ := ih; exact ⟨M, fun M' hM => (h M' hM).upload k file fields url bucket time store h1 h2 h3 h4⟩
  | uploadFails k file fields url bucket time store _ h1 h2 h3 ih =>
    obtain ⟨M, h⟩ := ih; exact ⟨M, fun M' hM => (h M' hM).uploadFails k file fields url bucket time store h1 h2 h3⟩
  | fail k file u _ h1 ih => obtain ⟨M, h⟩ := ih; exact ⟨M, fun M' hM => (h M' hM).fail k file u h1⟩
  | visit r _ h1 ih => obtain ⟨M, h⟩ := ih; exact ⟨M, fun M' hM => (h M' hM).visit r h1⟩
  | drop i r t _ h1 h2 ih => obtain ⟨M, h⟩ := ih; exact ⟨M, fun M' hM => (h M' hM).drop i r t h1 h2⟩
  | elsewhere store _ h1 ih => obtain ⟨M, h⟩ := ih; exact ⟨M, fun M' hM => (h M' hM).elsewhere store h1⟩
  | step i r t uuid form url _ h1 h2 h3 ih =>
    obtain ⟨M, h⟩ := ih
    obtain ⟨K, hK⟩ : ∃ K, ∀ K', K ≤ K' → (Crate.shared (calls K').trace cfg).Gives uuid form url t := by
      cases t with
      | create n c =>
        obtain ⟨K, hK⟩ := h3
        exact ⟨K, fun K' h => (shared_mono hc h).1 _ _ _ _ hK⟩
      | sign rest urls =>
        cases rest with
        | nil => exact ⟨0, fun _ _ => trivial⟩
        | cons a b =>
          by_cases ha : a.uploaded = true
          · obtain ⟨K, hK⟩ := h3 ha
            exact ⟨K, fun K' h _ => (shared_mono hc h).2 _ _ hK⟩
          · exact ⟨0, fun _ _ h => absurd h ha⟩
      | _ => exact ⟨0, fun _ _ => trivial⟩
    exact ⟨max M K, fun M' hM => (h M' (by omega)).step i r t uuid form url h1 h2 (hK M' (by omega))⟩

theorem keyed_during {env : Env} {base : Nat → Str} {calls : Nat → Sys} (hc : Spec.History env base calls) (cfg : Config) :
    FormsKeyed (Crate.during calls cfg) := by
  rintro id n c fs ⟨M, h⟩
  exact keyed_shared (history_reach hc M) cfg id n c fs h

/-- C98. An upload fails only for a reason: a `fetch` failed or the page was closed, the file has no type, the example server answered
500 (or the connection was aborted) to its registration or its listing, or the form was posted when it was not yet or no longer good.
Reports are always answered well. -/
theorem C98_why (env : Env) (cfg : Config) (email pem : Str) (key : Bytes) (N E : Nat) (σ : Nat → Site) (what : Nat → Happens)
    (h : SiteHistory (.alone env cfg) cfg email N E σ what) (hd : DistinctIds σ) (hk : cfg.signingKey = .serviceAccount email pem)
    (hring : Rsa.Correct env) (hpem : env.pemParse pem = some key) (hpub : Rsa.PublicKeyIn key N E) (k m : Nat) (file : ChosenFile)
    (u : Upload) (hu : (σ m).uploads[k]? = some (file, u)) (hne : u ≠ .failed) (hf : (σ (m + 1)).uploads[k]? = some (file, .failed)) :
    what m = .loses k ∨ (what m = .refuses k ∧ file.type = []) ∨
    (∃ reply, what m = .gets k reply ∧ (reply = .internalServerError ∨ reply = .aborted) ∧
      ((∃ i, u = .registering i) ∨ ∃ i, u = .listing i)) ∨
    ∃ time fields method url, what m = .posts k time ∧ u = .uploading fields method url ∧
      ∃ id now start, FormFor env cfg id file.content.length file.type fields now start ∧
        ¬ (start / 1000000000 ≤ time ∧ time < (now + 60000000000) / 1000000000) := by
  obtain ⟨tr, hrun⟩ := siteHistory_run h m
  have hn : (createdIds tr).Nodup := by rw [← run_ids (site_server hrun)]; exact hd m
  rcases failing (keyed_alone env cfg) hrun hn (h.next m) hu hne hf with h1 | h1 | ⟨reply, i, r, h1, _, h2, h3⟩ | ⟨time, fields, url, h1, rfl, hb, h3⟩
  · exact .inl h1
  · exact .inr (.inl h1)
  · refine .inr (.inr (.inl ⟨reply, h1, h2, ?_⟩))
    rcases h3 with ⟨h3, _⟩ | ⟨h3, _⟩
    · exact .inl ⟨i, h3⟩
    · exact .inr ⟨i, h3⟩
  · obtain ⟨_, bucket, id, now, start, h4, _, h5, h6⟩ :=
      C81_upload_accepted env cfg email pem key N E tr (σ m) hrun hn hk hring hpem hpub k file fields _ url hu
    rw [hb] at h4
    cases h4
    exact .inr (.inr (.inr ⟨time, fields, _, url, h1, rfl, id, now, start, h5, fun hw => h3 ((h6 time).2 hw)⟩))

/-- C98. The same when the calls of the crate run concurrently, with any key that one account owns. An answer 500 or an aborted connection
has a cause in the calls of the crate. -/
theorem C98_why_owner (env : Env) (base : Nat → Str) (calls : Nat → Sys) (hc : Spec.History env base calls) (cfg : Config)
    (account : Str) (N E : Nat) (ho : ∀ M, KeyOwner env base (calls M).trace cfg.signingKey account N E) (σ : Nat → Site)
    (what : Nat → Happens) (h : SiteHistory (Crate.during calls cfg) cfg account N E σ what) (hd : DistinctIds σ) (k m : Nat)
    (file : ChosenFile) (u : Upload) (hu : (σ m).uploads[k]? = some (file, u)) (hne : u ≠ .failed)
    (hf : (σ (m + 1)).uploads[k]? = some (file, .failed)) :
    what m = .loses k ∨ (what m = .refuses k ∧ file.type = []) ∨
    (∃ M, (what m = .gets k .aborted ∨ what m = .gets k .internalServerError ∧
        ((∃ i id now j e, u = .registering i ∧ IsUuid id ∧
          .started j (.form [.bucket cfg.bucketName, .contentLength file.content.length, .contentType file.type, .key id,
            .policyDocumentSigningOptions
              { accessibleAt := none, expiration := now + 60000000000, region := none, signingKey := cfg.signingKey,
                useSignBlob := cfg.useSignBlob }]) ∈ (calls M).trace ∧
          .returned j (.form (.err e)) ∈ (calls M).trace) ∨
        ∃ i id now j e, u = .listing i ∧
          .started j (.url
            { bucketName := cfg.bucketName, objectName := id, region := none, expires := now + 60000000000, httpMethod := s% "GET",
              accessibleAt := none, signingKey := cfg.signingKey, useSignBlob := cfg.useSignBlob, headers := [],
              queryParameters := [] }) ∈ (calls M).trace ∧
          .returned j (.url (.err e)) ∈ (calls M).trace)) ∧
      ((∃ i, u = .registering i) ∨ ∃ i, u = .listing i)) ∨
    ∃ time fields method url, what m = .posts k time ∧ u = .uploading fields method url ∧
      ∃ M id now start, FormFrom (calls M).trace cfg id file.content.length file.type fields now start ∧
        ¬ (start / 1000000000 ≤ time ∧ time < (now + 60000000000) / 1000000000) := by
  obtain ⟨tr, hrun⟩ := siteHistory_run h m
  have hn : (createdIds tr).Nodup := by rw [← run_ids (site_server hrun)]; exact hd m
  obtain ⟨M, hM⟩ := run_during hc hrun
  have hrun' := hM M (Nat.le_refl _)
  have hre := history_reach hc M
  rcases failing (keyed_during hc cfg) hrun hn (h.next m) hu hne hf with h1 | h1 | ⟨reply, i, r, h1, ht, h2, h3⟩ | ⟨time, fields, url, h1, rfl, hb, h3⟩
  · exact .inl h1
  · exact .inr (.inl h1)
  · refine .inr (.inr (.inl ⟨M, ?_, ?_⟩))
    · rcases h2 with rfl | rfl
      · refine .inr ⟨h1, ?_⟩
        rcases C88_internal_server_error (calls M) cfg tr _ (site_server hrun') hn i r ht with
          ⟨n, c, id, now, j, e, rfl, hid, g1, g2⟩ | ⟨id, now, j, e, rfl, _, g1, g2⟩
        · rcases h3 with ⟨h3, h4⟩ | ⟨_, h4⟩
          · cases h4
            exact .inl ⟨i, id, now, j, e, h3, hid, g1, g2⟩
          · cases h4
        · rcases h3 with ⟨_, h4⟩ | ⟨h3, _⟩
          · cases h4
          · exact .inr ⟨i, id, now, j, e, h3, g1, g2⟩
      · exact .inl h1
    · rcases h3 with ⟨h3, _⟩ | ⟨h3, _⟩
      · exact .inl ⟨i, h3⟩
      · exact .inr ⟨i, h3⟩
  · obtain ⟨_, bucket, id, now, start, h4, _, h5, h6⟩ :=
      C86_upload_accepted env base (calls M) hre cfg account N E tr (σ m) hrun' hn (ho M) k file fields _ url hu
    rw [hb] at h4
    cases h4
    exact .inr (.inr (.inr ⟨time, fields, _, url, h1, rfl, M, id, now, start, h5, fun hw => h3 ((h6 time).2 hw)⟩))

/-! ### Without a reason to fail the file is shown -/

theorem first_failure (h : SiteHistory crate cfg account N E σ what) {k m : Nat} {file : ChosenFile} {u : Upload}
    (hu : (σ m).uploads[k]? = some (file, u)) (hne : u ≠ .failed) (d : Nat) (hf : (σ (m + d)).uploads[k]? = some (file, .failed)) :
    ∃ m' u', m ≤ m' ∧ (σ m').uploads[k]? = some (file, u') ∧ u' ≠ .failed ∧ (σ (m' + 1)).uploads[k]? = some (file, .failed) := by
  induction d with
  | zero =>
    rw [Nat.add_zero, hu] at hf
    cases hf
    exact absurd rfl hne
  | succ d ih =>
    obtain ⟨u', h1, _⟩ := upload_later h hu d
    by_cases he : u' = .failed
    · subst he; exact ih h1
    · exact ⟨m + d, u', by omega, h1, he, hf⟩

/-- C98. So in every fair history an upload is shown, with the list in which its own file is, if none of its requests is lost, its file has
a type, the example server does not answer 500 to it, and its form is posted in its minute. -/
theorem C98_shown (env : Env) (cfg : Config) (email pem : Str) (key : Bytes) (N E : Nat) (σ : Nat → Site) (what : Nat → Happens)
    (h : SiteHistory (.alone env cfg) cfg email N E σ what) (hd : DistinctIds σ) (hf : SiteFair (.alone env cfg) cfg σ what)
    (hk : cfg.signingKey = .serviceAccount email pem) (hring : Rsa.Correct env) (hpem : env.pemParse pem = some key)
    (hpub : Rsa.PublicKeyIn key N E) (k m : Nat) (file : ChosenFile) (hu : (σ m).uploads[k]? = some (file, .chosen))
    (htype : file.type ≠ []) (hlost : ∀ m, what m ≠ .loses k)
    (hserver : ∀ m, what m ≠ .gets k .internalServerError ∧ what m ≠ .gets k .aborted)
    (hpost : ∀ m' time fields method url, what m' = .posts k time → (σ m').uploads[k]? = some (file, .uploading fields method url) →
      ∃ id now start, FormFor env cfg id file.content.length file.type fields now start ∧
        start / 1000000000 ≤ time ∧ time < (now + 60000000000) / 1000000000) :
    ∃ m' urls, m ≤ m' ∧ (σ m').uploads[k]? = some (file, .shown urls) ∧
      ∃ url ∈ urls, ∃ id now start, IsUuid id ∧ UrlFor env cfg id url now start ∧
        (σ m').store (utf8 cfg.bucketName) (utf8 id) = some file.content := by
  have ids : ∀ m tr, Site.Run (.alone env cfg) cfg email N E tr (σ m) → (createdIds tr).Nodup := fun m tr hrun => by
    rw [← run_ids (site_server hrun)]; exact hd m
  obtain ⟨m', u', h1, h2, ⟨urls, rfl⟩ | rfl⟩ := C98_ends h hf k m file _ hu
  · obtain ⟨tr, hrun⟩ := siteHistory_run h m'
    exact ⟨m', urls, h1, h2, C81_own_image env cfg email N E tr _ hrun (ids m' tr hrun) k file urls h2⟩
  · obtain ⟨d, rfl⟩ : ∃ d, m' = m + d := ⟨m' - m, by omega⟩
    obtain ⟨m₁, u₁, _, g1, g2, g3⟩ := first_failure h hu (by simp) d h2
    obtain ⟨tr, hrun⟩ := siteHistory_run h m₁
    rcases failing (keyed_alone env cfg) hrun (ids m₁ tr hrun) (h.next m₁) g1 g2 g3 with
      h3 | h3 | ⟨reply, i, r, h3, _, h4, _⟩ | ⟨time, fields, url, h3, rfl, hb, h4⟩
    · exact absurd h3 (hlost m₁)
    · exact absurd h3.2 htype
    · rcases h4 with rfl | rfl
      · exact absurd h3 (hserver m₁).1
      · exact absurd h3 (hserver m₁).2
    · obtain ⟨id, now, start, h5, h6, h7⟩ := hpost m₁ time fields _ url h3 g1
      refine absurd ?_ h4
      rw [formEntries_nodup (formFor_names h5)]
      exact ⟨(C70_form_accepted env cfg id _ _ fields now start email pem key N E h5 hk hring hpem hpub file.content.length time).2
        ⟨h6, h7, rfl⟩, rfl⟩

/-- C98. The same when the calls of the crate run concurrently, with any key that one account owns. -/
theorem C98_shown_owner (env : Env) (base : Nat → Str) (calls : Nat → Sys) (hc : Spec.History env base calls) (cfg : Config)
    (account : Str) (N E : Nat) (ho : ∀ M, KeyOwner env base (calls M).trace cfg.signingKey account N E) (σ : Nat → Site)
    (what : Nat → Happens) (h : SiteHistory (Crate.during calls cfg) cfg account N E σ what) (hd : DistinctIds σ)
    (hf : SiteFair (Crate.during calls cfg) cfg σ what) (k m : Nat) (file : ChosenFile)
    (hu : (σ m).uploads[k]? = some (file, .chosen)) (htype : file.type ≠ []) (hlost : ∀ m, what m ≠ .loses k)
    (hserver : ∀ m, what m ≠ .gets k .internalServerError ∧ what m ≠ .gets k .aborted)
    (hpost : ∀ m' time fields method url, what m' = .posts k time → (σ m').uploads[k]? = some (file, .uploading fields method url) →
      ∃ M id now start, FormFrom (calls M).trace cfg id file.content.length file.type fields now start ∧
        start / 1000000000 ≤ time ∧ time < (now + 60000000000) / 1000000000) :
    ∃ m' urls, m ≤ m' ∧ (σ m').uploads[k]? = some (file, .shown urls) ∧
      ∃ url ∈ urls, ∃ M id now start, IsUuid id ∧ UrlFrom (calls M).trace cfg id url now start ∧
        (σ m').store (utf8 cfg.bucketName) (utf8 id) = some file.content := by
  have ids : ∀ m tr, Site.Run (Crate.during calls cfg) cfg account N E tr (σ m) → (createdIds tr).Nodup := fun m tr hrun => by
    rw [← run_ids (site_server hrun)]; exact hd m
  obtain ⟨m', u', h1, h2, ⟨urls, rfl⟩ | rfl⟩ := C98_ends h hf k m file _ hu
  · obtain ⟨tr, hrun⟩ := siteHistory_run h m'
    obtain ⟨M, hM⟩ := run_during hc hrun
    obtain ⟨url, g1, id, now, start, g2⟩ := C86_own_image env base (calls M) (history_reach hc M) cfg account N E tr _
      (hM M (Nat.le_refl _)) (ids m' tr hrun) k file urls h2
    exact ⟨m', urls, h1, h2, url, g1, M, id, now, start, g2⟩
  · obtain ⟨d, rfl⟩ : ∃ d, m' = m + d := ⟨m' - m, by omega⟩
    obtain ⟨m₁, u₁, _, g1, g2, g3⟩ := first_failure h hu (by simp) d h2
    obtain ⟨tr, hrun⟩ := siteHistory_run h m₁
    rcases failing (keyed_during hc cfg) hrun (ids m₁ tr hrun) (h.next m₁) g1 g2 g3 with
      h3 | h3 | ⟨reply, i, r, h3, _, h4, _⟩ | ⟨time, fields, url, h3, rfl, hb, h4⟩
    · exact absurd h3 (hlost m₁)
    · exact absurd h3.2 htype
    · rcases h4 with rfl | rfl
      · exact absurd h3 (hserver m₁).1
      · exact absurd h3 (hserver m₁).2
    · obtain ⟨M, id, now, start, h5, h6, h7⟩ := hpost m₁ time fields _ url h3 g1
      refine absurd ?_ h4
      rw [formEntries_nodup (formFrom_names (history_reach hc M) h5)]
      exact ⟨(C86_form_accepted env base (calls M) (history_reach hc M) cfg account N E (ho M) id _ _ fields now start h5
        file.content.length time).2 ⟨h6, h7, rfl⟩, rfl⟩

end CSS
