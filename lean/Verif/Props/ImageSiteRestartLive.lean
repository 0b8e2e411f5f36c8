import Verif.Spec.ImageSiteRestartLive
import Verif.Props.ImageSiteRestart
import Verif.Props.ImageSiteLive
/-
C101: every upload on a page of the example comes to its end also when the server may crash, it fails only for a reason, and without one
its file is stored.
-/
set_option linter.unusedSimpArgs false
namespace CSS
open Spec ImageUploader Spec.ImageUploader

variable {crate : Crate} {cfg : Config} {account : Str} {N E : Nat} {σ : Nat → Site} {what : Nat → Option Happens}

/-! ### Moves -/

theorem siteMoves_lives {h : Happens} {s s' : Site} {tr : List Episode} (hr : Site.Lives crate cfg account N E tr s)
    (hm : SiteMoves crate cfg account N E h s s') : Site.Lives crate cfg account N E (tr ++ episodeAt (some h) s) s' := by
  cases hm with
  | idle => simpa [episodeAt] using hr
  | choose file => simpa [episodeAt] using hr.choose file
  | visit r h => simpa [episodeAt] using hr.visit r h
  | elsewhere store h => simpa [episodeAt] using hr.elsewhere store h
  | server m server hne hm =>
    cases hm with
    | receive r => exact absurd rfl hne
    | step i r t uuid form url h1 _ h3 h4 =>
      have := hr.step i r t uuid form url h1 h3 h4
      simpa only [episodeAt, h1] using this
    | drop i r t h1 h2 => simpa [episodeAt] using hr.drop i r t h1 fun a ha => h2 (.inl ⟨a, ha⟩)
  | send k file u r h1 h2 => simpa [episodeAt] using hr.send k file u r h1 h2
  | get k i file u r reply h1 h2 h3 => simpa [episodeAt] using hr.answer k i file u r reply h1 h2 h3
  | post k file fields url bucket time store h1 h2 h3 h4 =>
    simp only [episodeAt, List.append_nil]
    exact hr.upload k file fields url bucket time store h1 h2 h3 h4
  | postRefused k file fields url bucket time store h1 h2 _ h4 =>
    simpa [episodeAt] using hr.uploadFails k file fields url bucket time store h1 h2 h4
  | postLost k file fields url bucket time store h1 h2 h4 =>
    simpa [episodeAt] using hr.uploadFails k file fields url bucket time store h1 h2 h4
  | lose k file u h1 _ => simpa [episodeAt] using hr.fail k file u h1
  | refuse k file h1 _ => simpa [episodeAt] using hr.fail k file .chosen h1

theorem crashHistory_lives (h : CrashHistory crate cfg account N E σ what) (m : Nat) :
    Site.Lives crate cfg account N E (pastAt σ what m) (σ m) := by
  induction m with
  | zero =>
    obtain ⟨store, h0⟩ := h.begins
    rw [h0]
    exact .start store
  | succ m ih =>
    rcases h.next m with ⟨hh, hw, hm⟩ | ⟨hw, hm⟩
    · have := siteMoves_lives ih hm
      simpa only [pastAt, hw] using this
    · rw [hm]
      simpa only [pastAt, hw, episodeAt] using ih.restart

theorem restart_finished (s : State) {i : Nat} {r : Req} {t : Task} (hi : s.tasks[i]? = some (r, t)) :
    ∃ t', s.restart.tasks[i]? = some (r, t') ∧ Finished t' := by
  cases t with
  | replied a => exact ⟨.replied a, by simp [State.restart, hi], .inl ⟨a, rfl⟩⟩
  | _ => exact ⟨.dropped, by simp [State.restart, hi], .inr rfl⟩

theorem crash_tasks (h : CrashHistory crate cfg account N E σ what) {i m : Nat} {r : Req} {t : Task}
    (hi : (σ m).server.tasks[i]? = some (r, t)) (d : Nat) : ∃ t', (σ (m + d)).server.tasks[i]? = some (r, t') := by
  induction d with
  | zero => exact ⟨t, hi⟩
  | succ d ih =>
    obtain ⟨t', h1⟩ := ih
    rcases h.next (m + d) with ⟨hh, _, hm⟩ | ⟨_, hm⟩
    · rcases siteMoves_server hm with he | ⟨x, hx⟩
      · exact ⟨t', by rw [show m + (d + 1) = m + d + 1 by omega, he]; exact h1⟩
      · rcases moves_task hx h1 with ⟨_, _, h3⟩ | ⟨_, h3⟩ | ⟨_, _, _, _, _, h3⟩
        · exact ⟨_, h3⟩
        · exact ⟨_, h3⟩
        · exact ⟨_, h3⟩
    · obtain ⟨t'', h2, _⟩ := restart_finished _ h1
      exact ⟨t'', by rw [show m + (d + 1) = m + d + 1 by omega, hm]; exact h2⟩

/-- Every handler finishes, also by a crash. -/
theorem crash_finishes (h : CrashHistory crate cfg account N E σ what) (hf : CrashFair σ what) (i m : Nat) (r : Req) (t : Task)
    (hi : (σ m).server.tasks[i]? = some (r, t)) : ∃ m' t', m ≤ m' ∧ (σ m').server.tasks[i]? = some (r, t') ∧ Finished t' := by
  by_cases hc : ∃ m', m ≤ m' ∧ what m' = none
  · obtain ⟨m', hm, hw⟩ := hc
    obtain ⟨d, rfl⟩ : ∃ d, m' = m + d := ⟨m' - m, by omega⟩
    obtain ⟨t', h1⟩ := crash_tasks h hi d
    rcases h.next (m + d) with ⟨hh, hw', _⟩ | ⟨_, hm'⟩
    · rw [hw] at hw'; cases hw'
    · obtain ⟨t'', h2, h3⟩ := restart_finished _ h1
      exact ⟨m + d + 1, t'', by omega, by rw [hm']; exact h2, h3⟩
  · have calm : ∀ m', m ≤ m' → ∃ hh, what m' = some hh ∧ SiteMoves crate cfg account N E hh (σ m') (σ (m' + 1)) := by
      intro m' hm
      rcases h.next m' with h1 | ⟨h1, _⟩
      · exact h1
      · exact absurd ⟨m', hm, h1⟩ hc
    have inv : ∀ {x : ServerMove} {s s' : Site}, SiteMoves crate cfg account N E (.server x) s s' → Moves crate cfg x s.server s'.server := by
      intro x s s' hm
      cases hm with
      | server _ server _ hm => exact hm
    obtain ⟨m', t', _, h2, h3⟩ := handler_finishes (crate := crate) (cfg := cfg) (fun d => (σ (m + d)).server)
      (fun d => by
        obtain ⟨hh, _, hm⟩ := calm (m + d) (by omega)
        exact siteMoves_server hm)
      (fun i d r t ht hnf => by
        obtain ⟨m', hm, hw⟩ := hf.handlers i (m + d) r t ht hnf
        obtain ⟨hh, hw', hmv⟩ := calm m' (by omega)
        refine ⟨m' - m, by omega, ?_⟩
        show Moves crate cfg (.worked i) (σ (m + (m' - m))).server (σ (m + (m' - m + 1))).server ∨
          Moves crate cfg (.dropped i) (σ (m + (m' - m))).server (σ (m + (m' - m + 1))).server
        rw [show m + (m' - m) = m' by omega, show m + (m' - m + 1) = m' + 1 by omega]
        rcases hw with hw | hw | hw <;> rw [hw] at hw' <;> cases hw'
        · exact .inl (inv hmv)
        · exact .inr (inv hmv)) i 0 r t hi
    exact ⟨m + m', t', by omega, h2, h3⟩

/-! ### The end of an upload -/

/-- What each point of a history does to an upload that was there before. -/
theorem crash_upload (h : CrashHistory crate cfg account N E σ what) {k m : Nat} {file : ChosenFile} {u : Upload}
    (hk : (σ m).uploads[k]? = some (file, u)) :
    ((∀ hh, what m = some hh → ¬ hh.goesOn k) ∧ (σ (m + 1)).uploads[k]? = some (file, u)) ∨
      ∃ u', (σ (m + 1)).uploads[k]? = some (file, u') ∧ u'.left < u.left := by
  rcases h.next m with ⟨hh, hw, hm⟩ | ⟨hw, hm⟩
  · rcases siteMoves_upload hm hk with ⟨h1, h2⟩ | ⟨_, h2⟩
    · refine .inl ⟨fun x hx => ?_, h2⟩
      rw [hw] at hx
      cases hx
      exact h1
    · exact .inr h2
  · exact .inl ⟨fun x hx => (by rw [hw] at hx; cases hx), by rw [hm]; exact hk⟩

theorem crash_upload_later (h : CrashHistory crate cfg account N E σ what) {k m : Nat} {file : ChosenFile} {u : Upload}
    (hk : (σ m).uploads[k]? = some (file, u)) (d : Nat) :
    ∃ u', (σ (m + d)).uploads[k]? = some (file, u') ∧ (u' = u ∨ u'.left < u.left) := by
  induction d with
  | zero => exact ⟨u, hk, .inl rfl⟩
  | succ d ih =>
    obtain ⟨u', h1, h2⟩ := ih
    rcases crash_upload h h1 with ⟨_, h3⟩ | ⟨u'', h3, h4⟩
    · exact ⟨u', h3, h2⟩
    · refine ⟨u'', h3, .inr ?_⟩
      rcases h2 with rfl | h2
      · exact h4
      · omega

/-- C101. In every fair history of the site every upload comes to its end, whatever happens meanwhile, and however often the example
server crashes. -/
theorem C101_ends (h : CrashHistory crate cfg account N E σ what) (hf : CrashFair σ what) (k m : Nat) (file : ChosenFile)
    (u : Upload) (hk : (σ m).uploads[k]? = some (file, u)) :
    ∃ m' u', m ≤ m' ∧ (σ m').uploads[k]? = some (file, u') ∧ UploadEnded u' := by
  generalize hl : u.left = l
  induction l using Nat.strongRecOn generalizing m u with
  | _ l ih =>
    have less : ∀ m' u', m ≤ m' → (σ m').uploads[k]? = some (file, u') → u'.left < u.left →
        ∃ m' u', m ≤ m' ∧ (σ m').uploads[k]? = some (file, u') ∧ UploadEnded u' := by
      intro m' u' h1 h2 h3
      obtain ⟨m'', u'', h4, h5⟩ := ih u'.left (by omega) m' u' h2 rfl
      exact ⟨m'', u'', by omega, h5⟩
    have goes : ∀ m₁, m ≤ m₁ → (σ m₁).uploads[k]? = some (file, u) → ¬ UploadEnded u →
        (∀ i r t, u.waits = some i → (σ m₁).server.tasks[i]? = some (r, t) → Finished t) →
        ∃ m' u', m ≤ m' ∧ (σ m').uploads[k]? = some (file, u') ∧ UploadEnded u' := by
      intro m₁ h1 h2 h3 h4
      obtain ⟨m₂, hh, h5, hw, h6⟩ := hf.pages k m₁ file u h2 h3 h4
      obtain ⟨d, rfl⟩ : ∃ d, m₂ = m₁ + d := ⟨m₂ - m₁, by omega⟩
      obtain ⟨u', h7, h8⟩ := crash_upload_later h h2 d
      rcases h8 with rfl | h8
      · rcases crash_upload h h7 with ⟨h9, _⟩ | ⟨u'', h9, h10⟩
        · exact absurd h6 (h9 hh hw)
        · exact less _ u'' (by omega) h9 h10
      · exact less _ u' (by omega) h7 h8
    by_cases he : UploadEnded u
    · exact ⟨m, u, Nat.le_refl _, hk, he⟩
    by_cases hw : ∀ i r t, u.waits = some i → (σ m).server.tasks[i]? = some (r, t) → Finished t
    · exact goes m (Nat.le_refl _) hk he hw
    · obtain ⟨i, r, t, hi, ht⟩ : ∃ i r t, u.waits = some i ∧ (σ m).server.tasks[i]? = some (r, t) := by
        apply Classical.byContradiction
        intro hno
        exact hw fun i r t h1 h2 => absurd ⟨i, r, t, h1, h2⟩ hno
      obtain ⟨m₁, t', h1, h2, h3⟩ := crash_finishes h hf i m r t ht
      obtain ⟨d, rfl⟩ : ∃ d, m₁ = m + d := ⟨m₁ - m, by omega⟩
      obtain ⟨u', h4, h5⟩ := crash_upload_later h hk d
      rcases h5 with rfl | h5
      · refine goes _ h1 h4 he fun i' r' t'' hi' ht'' => ?_
        rw [hi] at hi'
        cases hi'
        rw [h2] at ht''
        cases ht''
        exact h3
      · exact less _ u' (by omega) h4 h5

/-! ### Why an upload fails -/

theorem lives_failing (hkeyed : FormsKeyed crate) {tr : List Episode} {s s' : Site} (hrun : Site.Lives crate cfg account N E tr s)
    (hn : (registeredIds tr).Nodup) {h : Happens} (hm : SiteMoves crate cfg account N E h s s') {k : Nat} {file : ChosenFile} {u : Upload}
    (hk : s.uploads[k]? = some (file, u)) (hu : u ≠ .failed) (hk' : s'.uploads[k]? = some (file, .failed)) :
    h = .loses k ∨ (h = .refuses k ∧ file.type = []) ∨
    (∃ reply i r, h = .gets k reply ∧ s.server.tasks[i]? = some (r, .replied reply) ∧
      (reply = .internalServerError ∨ reply = .aborted) ∧
      ((u = .registering i ∧ r = .create file.content.length file.type) ∨ (u = .listing i ∧ r = .list))) ∨
    ∃ time fields url, h = .posts k time ∧ u = .uploading fields (s% "POST") url ∧ bucketOf url = some cfg.bucketName ∧
      ¬ (Sent.form ⟨cfg.bucketName, formEntries fields, file.content.length, time⟩ file.name file.content).Accepted account N E := by
  obtain ⟨own, inv⟩ := site_lives_inv hkeyed hrun hn
  have ui := inv.uploads k file u hk
  refine failing_of hm hk hu hk' (fun i r reply hi => ?_) (upload_requests ui) ?_
  · obtain ⟨_, _, _, _, _, _, hr, hi⟩ := lives_handled inv.run hi
    exact reply_fits hr hi
  · rintro fields method url rfl
    obtain ⟨i, _, ht⟩ := ui
    obtain ⟨id, _, hbk, _, _, _, hfind, _⟩ := lives_uploading_facts hkeyed inv.run ht
    exact ⟨hbk, id, hfind⟩

theorem crash_failing (hkeyed : FormsKeyed crate) (h : CrashHistory crate cfg account N E σ what) (hd : AllDistinctIds σ what) {k m : Nat}
    {file : ChosenFile} {u : Upload} (hu : (σ m).uploads[k]? = some (file, u)) (hne : u ≠ .failed)
    (hf : (σ (m + 1)).uploads[k]? = some (file, .failed)) :
    what m = some (.loses k) ∨ (what m = some (.refuses k) ∧ file.type = []) ∨
    (∃ reply i r, what m = some (.gets k reply) ∧ (σ m).server.tasks[i]? = some (r, .replied reply) ∧
      (reply = .internalServerError ∨ reply = .aborted) ∧
      ((u = .registering i ∧ r = .create file.content.length file.type) ∨ (u = .listing i ∧ r = .list))) ∨
    ∃ time fields url, what m = some (.posts k time) ∧ u = .uploading fields (s% "POST") url ∧ bucketOf url = some cfg.bucketName ∧
      ¬ (Sent.form ⟨cfg.bucketName, formEntries fields, file.content.length, time⟩ file.name file.content).Accepted account N E := by
  rcases h.next m with ⟨hh, hw, hm⟩ | ⟨hw, hm⟩
  · rcases lives_failing hkeyed (crashHistory_lives h m) (hd m) hm hu hne hf with rfl | ⟨rfl, h1⟩ | ⟨reply, i, r, rfl, h1⟩ |
      ⟨time, fields, url, rfl, h1⟩
    · exact .inl hw
    · exact .inr (.inl ⟨hw, h1⟩)
    · exact .inr (.inr (.inl ⟨reply, i, r, hw, h1⟩))
    · exact .inr (.inr (.inr ⟨time, fields, url, hw, h1⟩))
  · rw [hm] at hf
    have hf : (σ m).uploads[k]? = some (file, .failed) := hf
    rw [hu] at hf
    cases hf
    exact absurd rfl hne

/-- C101. An upload fails only for a reason, and a crash of the example server is none by itself: only if a `fetch` failed (for example
because the crash took its request) or the page was closed, the file has no type, the example server answered 500 (or the connection was
aborted) to its registration or its listing, or the form was posted when it was not yet or no longer good. -/
theorem C101_why (env : Env) (cfg : Config) (email pem : Str) (key : Bytes) (N E : Nat) (σ : Nat → Site) (what : Nat → Option Happens)
    (h : CrashHistory (.alone env cfg) cfg email N E σ what) (hd : AllDistinctIds σ what) (hk : cfg.signingKey = .serviceAccount email pem)
    (hring : Rsa.Correct env) (hpem : env.pemParse pem = some key) (hpub : Rsa.PublicKeyIn key N E) (k m : Nat) (file : ChosenFile)
    (u : Upload) (hu : (σ m).uploads[k]? = some (file, u)) (hne : u ≠ .failed) (hf : (σ (m + 1)).uploads[k]? = some (file, .failed)) :
    what m = some (.loses k) ∨ (what m = some (.refuses k) ∧ file.type = []) ∨
    (∃ reply, what m = some (.gets k reply) ∧ (reply = .internalServerError ∨ reply = .aborted) ∧
      ((∃ i, u = .registering i) ∨ ∃ i, u = .listing i)) ∨
    ∃ time fields method url, what m = some (.posts k time) ∧ u = .uploading fields method url ∧
      ∃ id now start, FormFor env cfg id file.content.length file.type fields now start ∧
        ¬ (start / 1000000000 ≤ time ∧ time < (now + 60000000000) / 1000000000) := by
  rcases crash_failing (keyed_alone env cfg) h hd hu hne hf with h1 | h1 | ⟨reply, i, r, h1, _, h2, h3⟩ | ⟨time, fields, url, h1, rfl, hb, h3⟩
  · exact .inl h1
  · exact .inr (.inl h1)
  · refine .inr (.inr (.inl ⟨reply, h1, h2, ?_⟩))
    rcases h3 with ⟨h3, _⟩ | ⟨h3, _⟩
    · exact .inl ⟨i, h3⟩
    · exact .inr ⟨i, h3⟩
  · obtain ⟨_, bucket, id, now, start, h4, _, h5, h6⟩ :=
      C100_upload_accepted env cfg email pem key N E _ (σ m) (crashHistory_lives h m) (hd m) hk hring hpem hpub k file fields _ url hu
    rw [hb] at h4
    cases h4
    exact .inr (.inr (.inr ⟨time, fields, _, url, h1, rfl, id, now, start, h5, fun hw => h3 ((h6 time).2 hw)⟩))

/-! ### Without a reason to fail the file is stored -/

theorem crash_first_failure (h : CrashHistory crate cfg account N E σ what) {k m : Nat} {file : ChosenFile} {u : Upload}
    (hu : (σ m).uploads[k]? = some (file, u)) (hne : u ≠ .failed) (d : Nat) (hf : (σ (m + d)).uploads[k]? = some (file, .failed)) :
    ∃ m' u', m ≤ m' ∧ (σ m').uploads[k]? = some (file, u') ∧ u' ≠ .failed ∧ (σ (m' + 1)).uploads[k]? = some (file, .failed) := by
  induction d with
  | zero =>
    rw [Nat.add_zero, hu] at hf
    cases hf
    exact absurd rfl hne
  | succ d ih =>
    obtain ⟨u', h1, _⟩ := crash_upload_later h hu d
    by_cases he : u' = .failed
    · subst he; exact ih h1
    · exact ⟨m + d, u', by omega, h1, he, hf⟩

/-- C101. So in every fair history, however often the server crashes, an upload comes to show a list and its file is stored, if none of its
requests is lost, its file has a type, the example server does not answer 500 to it, and its form is posted in its minute. The list has a
URL for its own file if the server did not crash between the registration of the file and the listing, and none if it did. -/
theorem C101_shown (env : Env) (cfg : Config) (email pem : Str) (key : Bytes) (N E : Nat) (σ : Nat → Site) (what : Nat → Option Happens)
    (h : CrashHistory (.alone env cfg) cfg email N E σ what) (hd : AllDistinctIds σ what) (hf : CrashFair σ what)
    (hk : cfg.signingKey = .serviceAccount email pem) (hring : Rsa.Correct env) (hpem : env.pemParse pem = some key)
    (hpub : Rsa.PublicKeyIn key N E) (hb : IsBucketName cfg.bucketName) (k m : Nat) (file : ChosenFile)
    (hu : (σ m).uploads[k]? = some (file, .chosen))
    (htype : file.type ≠ []) (hlost : ∀ m, what m ≠ some (.loses k))
    (hserver : ∀ m, what m ≠ some (.gets k .internalServerError) ∧ what m ≠ some (.gets k .aborted))
    (hpost : ∀ m' time fields method url, what m' = some (.posts k time) →
      (σ m').uploads[k]? = some (file, .uploading fields method url) →
      ∃ id now start, FormFor env cfg id file.content.length file.type fields now start ∧
        start / 1000000000 ≤ time ∧ time < (now + 60000000000) / 1000000000) :
    ∃ m' urls, m ≤ m' ∧ (σ m').uploads[k]? = some (file, .shown urls) ∧
      ∃ id i l before between after,
        pastAt σ what m' = before ++ .event (.created i id) :: between ++ .event (.listed l) :: after ∧ IsUuid id ∧
        (σ m').store (utf8 cfg.bucketName) (utf8 id) = some file.content ∧
        (.restarted ∉ between → ∃ url ∈ urls, ∃ now start, UrlFor env cfg id url now start) ∧
        (.restarted ∈ between → ∀ url ∈ urls, ¬ LeadsTo cfg url id) := by
  obtain ⟨m', u', h1, h2, ⟨urls, rfl⟩ | rfl⟩ := C101_ends h hf k m file _ hu
  · obtain ⟨id, i, l, before, between, after, g1, _, _, g2⟩ := C100_own_image env cfg email N E _ _ (crashHistory_lives h m') (hd m') hb k file urls h2
    exact ⟨m', urls, h1, h2, id, i, l, before, between, after, g1, g2⟩
  · obtain ⟨d, rfl⟩ : ∃ d, m' = m + d := ⟨m' - m, by omega⟩
    obtain ⟨m₁, u₁, _, g1, g2, g3⟩ := crash_first_failure h hu (by simp) d h2
    rcases crash_failing (keyed_alone env cfg) h hd g1 g2 g3 with
      h3 | h3 | ⟨reply, i, r, h3, _, h4, _⟩ | ⟨time, fields, url, h3, rfl, hb, h4⟩
    · exact absurd h3 (hlost m₁)
    · exact absurd h3.2 htype
    · rcases h4 with rfl | rfl
      · exact absurd h3 (hserver m₁).1
      · exact absurd h3 (hserver m₁).2
    · obtain ⟨id, now, start, h5, h6, h7⟩ := hpost m₁ time fields _ url h3 g1
      refine absurd ?_ h4
      rw [formEntries_nodup (formFor_names h5)]
      exact ⟨(C70_form_accepted env cfg id _ _ fields now start email pem key N E h5 hk hring hpem hpub file.content.length time).2
        ⟨h6, h7, rfl⟩, rfl⟩

end CSS
