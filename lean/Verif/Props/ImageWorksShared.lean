import Verif.Spec.ImageWorksShared
import Verif.Props.ImageWorksSite
import Verif.Props.ImageSiteRestartLiveShared
import Verif.Props.ServerFailures
/-
C108: the example server with a service account never fails, among any concurrent calls.
-/
namespace CSS
open Spec ImageUploader Spec.ImageUploader

theorem usableKey_congr {e₁ e₂ : Env} (h : SameComputation e₁ e₂) {pem : Str} (hkey : UsableKey e₂ pem) : UsableKey e₁ pem := by
  unfold UsableKey at *
  rw [h.pemParse, h.rsaFromPkcs8, h.rsaSign]
  exact hkey

theorem form_built {env : Env} {cfg : Config} {email pem : Str} (hk : cfg.signingKey = .serviceAccount email pem)
    (hu : cfg.useSignBlob = false) (hkey : UsableKey env pem) (id : Str) (n : Nat) (c : Str) (ends : Time) (w : World)
    (g1 : 0 ≤ env.now w.ticks) (g2 : env.now w.ticks < ends) (g3 : ends < endOf9999) :
    ∃ fs, ((Builder.ofCalls (createCalls cfg id n c ends)).build env w).1 = .ok fs := by
  obtain ⟨der, h1, h2, h3⟩ := hkey
  have hrej := formRejection_none_iff (cs := createCalls cfg id n c ends)
    (o := { accessibleAt := none, expiration := ends, region := none, signingKey := cfg.signingKey,
            useSignBlob := cfg.useSignBlob }) (t := env.now w.ticks) (by rw [hk]; rfl)
  have hb := build_signed_eq env (createCalls cfg id n c ends)
    { accessibleAt := none, expiration := ends, region := none, signingKey := cfg.signingKey,
      useSignBlob := cfg.useSignBlob } w rfl
  change formRejection _ _ (validFrom env none w) = none ↔ _ at hrej
  rw [hb, hrej.2 ⟨g1, g2, g3, by show some _ ≠ none; simp, by show some _ ≠ none; simp⟩]
  simp only [hk, hu, SigningKey.authorizer, M.pure_run]
  rw [if_neg (by rintro ⟨m, hm, _⟩; cases hm)]
  generalize utf8 _ = message
  obtain ⟨signature, h4⟩ := h3 message
  rw [keySigns_iff.2 (.locally email pem der message signature h1 h2 h4)]
  exact ⟨_, rfl⟩

theorem url_built {env : Env} {cfg : Config} {email pem : Str} (hk : cfg.signingKey = .serviceAccount email pem)
    (hu : cfg.useSignBlob = false) (hkey : UsableKey env pem) (hs : (utf8 cfg.bucketName).length + (utf8 email).length ≤ 6400)
    (id : Str) (hid : IsUuid id) (ends : Time) (w : World) (g1 : 0 ≤ env.now w.ticks) (g2 : env.now w.ticks < endOf9999)
    (g3 : env.now w.ticks ≤ ends) (g4 : ends < env.now w.ticks + 604801 * 1000000000) :
    ∃ url, (buildSignedUrl env (listOptions cfg id ends) w).1 = .ok url := by
  obtain ⟨der, h1, h2, h3⟩ := hkey
  rw [C62_service_account env _ _ email pem (env.now w.ticks) rfl hk hu]
  have hb := uuid_bytes hid
  have hauto : (utf8 (s% "auto")).length = 4 := by decide
  have hv : ValidUrl env (listOptions cfg id ends) (env.now w.ticks) := by
    refine ⟨g1, g2, g3, g4, ?_, ?_, ?_, .inl (Nat.zero_le _)⟩
    · show s% "GET" ∈ methods
      decide
    · have hlen := userUrl_length env (listOptions cfg id ends)
      have e : (utf8 (userUrl env (listOptions cfg id ends))).length ≤
          100 + 3 * ((utf8 cfg.bucketName).length + (utf8 id).length) + 3 * 0 := hlen
      omega
    · intro h hh
      cases hh
  refine ⟨hv, ?_, fun h hh => (by cases hh), ?_⟩
  · intro hlong
    refine C31_small_no_panic env (listOptions cfg id ends) w email pem hk hu ?_ .urlToBeValid ?_
    · show (utf8 cfg.bucketName).length + (utf8 id).length + (utf8 email).length + (utf8 (s% "auto")).length + 0 + 0 ≤ 6500
      omega
    · refine (C31_panic_iff env _ _ _ (env.now w.ticks) rfl).2 (.inr ⟨hv, ?_⟩)
      show match cfg.signingKey with | .hmac _ _ => _ | .serviceAccount _ _ => _ | .boundToken _ => _
      rw [hk]
      exact .inl ⟨hlong, rfl⟩
  · obtain ⟨signature, h4⟩ := h3 (utf8 (partsOf env (listOptions cfg id ends) (env.now w.ticks) email).stringToSign)
    exact ⟨_, der, signature, (urlParts_iff ⟨g1, g2⟩ (by show cfg.signingKey.xGoogAlgorithm = _; rw [hk]; rfl)).2 rfl, h1, h2, h4⟩

theorem first_reading {pre post : List CSS.Event} {i : Nat} {e : Ev} (h : (did pre i).head? = some e) :
    (did (pre ++ post) i).head? = some e := by
  rw [did_append]
  cases hd : did pre i with
  | nil => rw [hd] at h; cases h
  | cons a l => rw [hd] at h; exact h

/-- C108. A call of the server for a form, among any concurrent calls of the crate, returns one if key and clock are in order. -/
theorem C108_shared_form (env : Env) (base : Nat → Str) (sys : Sys) (h : Sys.Reach env base sys) (cfg : Config) (email pem : Str)
    (hk : cfg.signingKey = .serviceAccount email pem) (hu : cfg.useSignBlob = false) (hkey : UsableKey env pem)
    (hclock : SteadyCalls cfg sys.trace) (id : Str) (n : Nat) (c : Str) (now : Time) (j : Nat) (x : Res FormError (List (Str × Str)))
    (h1 : .started j (.form (createCalls cfg id n c (now + 60000000000))) ∈ sys.trace) (h2 : .returned j (.form x) ∈ sys.trace) :
    ∃ fs, x = .ok fs := by
  obtain ⟨pre, post, ht, hst⟩ := returned_at h h1 h2
  obtain ⟨env2, w2, w3, hsame, hv, hb⟩ := C87_form_replay h ht hst
  rcases hv _ rfl with hv | ⟨_, hv⟩
  · cases hv
  · obtain ⟨c1, c2, c3, _⟩ := hclock j _ now _ h1 (.form id n c) (by rw [ht]; exact first_reading hv)
    change 0 ≤ env2.now w2.ticks at c1
    change env2.now w2.ticks < _ at c2
    obtain ⟨fs, hfs⟩ := form_built hk hu (usableKey_congr hsame hkey) id n c (now + 60000000000) w2 c1 c2 c3
    rw [hb] at hfs
    exact ⟨fs, hfs⟩

/-- C108. A call of the server for the URL of an image, among any concurrent calls of the crate, returns one if key and clock are in
order. -/
theorem C108_shared_url (env : Env) (base : Nat → Str) (sys : Sys) (h : Sys.Reach env base sys) (cfg : Config) (email pem : Str)
    (hk : cfg.signingKey = .serviceAccount email pem) (hu : cfg.useSignBlob = false) (hkey : UsableKey env pem)
    (hs : (utf8 cfg.bucketName).length + (utf8 email).length ≤ 6400)
    (hclock : SteadyCalls cfg sys.trace) (id : Str) (hid : IsUuid id) (now : Time) (j : Nat) (x : Res BuildUrlError Str)
    (h1 : .started j (.url (listOptions cfg id (now + 60000000000))) ∈ sys.trace) (h2 : .returned j (.url x) ∈ sys.trace) :
    ∃ url, x = .ok url := by
  obtain ⟨pre, post, ht, hst⟩ := returned_at h h1 h2
  obtain ⟨env2, w2, w3, hsame, hv, hb⟩ := C87_url_replay h ht hst
  rcases hv with hv | ⟨_, hv⟩
  · cases hv
  · obtain ⟨c1, c2, c3, c4⟩ := hclock j _ now _ h1 (.url id) (by rw [ht]; exact first_reading hv)
    change 0 ≤ env2.now w2.ticks at c1
    change env2.now w2.ticks < _ at c2
    change _ ≤ env2.now w2.ticks + _ at c4
    obtain ⟨url, hurl⟩ := url_built hk hu (usableKey_congr hsame hkey) hs id hid (now + 60000000000) w2 c1 (by omega) (by omega) (by omega)
    rw [hb] at hurl
    exact ⟨url, hurl⟩

theorem shared_works {env : Env} {base : Nat → Str} {s : Sys} (h : Sys.Reach env base s) {cfg : Config} {email pem : Str}
    (hk : cfg.signingKey = .serviceAccount email pem) (hu : cfg.useSignBlob = false) (hkey : UsableKey env pem)
    (hs : (utf8 cfg.bucketName).length + (utf8 email).length ≤ 6400) (hclock : SteadyCalls cfg s.trace) :
    (Crate.sharedAt (fun now => now + 60000000000 < 9223372036854775808 * 1000000000) s.trace cfg).Works where
  form id n c r hid := by
    rintro ⟨now, hnow, ⟨hl, _⟩ | ⟨j, x, h1, h2, rfl⟩⟩
    · unfold timeLimit nsPerSec at hl
      omega
    · obtain ⟨fs, rfl⟩ := C108_shared_form env base s h cfg email pem hk hu hkey hclock id n c now j x h1 h2
      exact ⟨fs, rfl⟩
  url id r hid := by
    rintro ⟨now, hnow, ⟨hl, _⟩ | ⟨j, x, h1, h2, rfl⟩⟩
    · unfold timeLimit nsPerSec at hl
      omega
    · obtain ⟨url, rfl⟩ := C108_shared_url env base s h cfg email pem hk hu hkey hs hclock id hid now j x h1 h2
      exact ⟨url, rfl⟩

/-- C108. Such a server never answers 500 and never aborts, among any concurrent calls of the crate in its process (as in C88, it does not
read the clock in the last minute of `SystemTime`). -/
theorem C108_shared_never_fails (env : Env) (base : Nat → Str) (sys : Sys) (h : Sys.Reach env base sys) (cfg : Config) (email pem : Str)
    (hk : cfg.signingKey = .serviceAccount email pem) (hu : cfg.useSignBlob = false) (hkey : UsableKey env pem)
    (hs : (utf8 cfg.bucketName).length + (utf8 email).length ≤ 6400) (hclock : SteadyCalls cfg sys.trace)
    (tr : List ImageUploader.Event) (s : State)
    (hrun : Run (.sharedAt (fun now => now + 60000000000 < 9223372036854775808 * 1000000000) sys.trace cfg) cfg tr s) (i : Nat) (r : Req) :
    s.tasks[i]? ≠ some (r, .replied .internalServerError) ∧ s.tasks[i]? ≠ some (r, .replied .aborted) := by
  have inv := (works_not_failed (shared_works h hk hu hkey hs hclock) hrun).2
  exact ⟨fun hi => (inv _ (List.mem_of_getElem? hi)).2.2 rfl, fun hi => (inv _ (List.mem_of_getElem? hi)).2.1 rfl⟩

/-! ### A crate that can do less -/

/-- Everything that the first crate returns the second can return, too. -/
structure Below (a b : Crate) : Prop where
  form : ∀ id n c r, a.form id n c r → b.form id n c r
  url : ∀ id r, a.url id r → b.url id r

theorem gives_mono {a b : Crate} (h : Below a b) {uuid : Str} {form : Res Failure (List (Str × Str))} {url : Res Failure Str} {t : Task}
    (hg : a.Gives uuid form url t) : b.Gives uuid form url t := by
  cases t with
  | create n c => exact h.form _ _ _ _ hg
  | sign rest urls =>
    cases rest with
    | nil => trivial
    | cons im rest => exact fun hup => h.url _ _ (hg hup)
  | _ => trivial

theorem moves_mono {a b : Crate} (h : Below a b) {cfg : Config} {m : ServerMove} {s s' : State} (hm : Moves a cfg m s s') :
    Moves b cfg m s s' := by
  cases hm with
  | receive r => exact .receive r
  | step i r t uuid form url h1 h2 h3 h4 => exact .step i r t uuid form url h1 h2 h3 (gives_mono h h4)
  | drop i r t h1 h2 => exact .drop i r t h1 h2

theorem siteMoves_mono {a b : Crate} (h : Below a b) {cfg : Config} {account : Str} {N E : Nat} {x : Happens} {s s' : Site}
    (hm : SiteMoves a cfg account N E x s s') : SiteMoves b cfg account N E x s s' := by
  cases hm with
  | idle => exact .idle
  | choose file => exact .choose file
  | visit r h1 => exact .visit r h1
  | elsewhere store h1 => exact .elsewhere store h1
  | server m server h1 h2 => exact .server m server h1 (moves_mono h h2)
  | send k file u r h1 h2 => exact .send k file u r h1 h2
  | get k i file u r reply h1 h2 h3 => exact .get k i file u r reply h1 h2 h3
  | post k file fields url bucket time store h1 h2 h3 h4 => exact .post k file fields url bucket time store h1 h2 h3 h4
  | postRefused k file fields url bucket time store h1 h2 h3 h4 => exact .postRefused k file fields url bucket time store h1 h2 h3 h4
  | postLost k file fields url bucket time store h1 h2 h3 => exact .postLost k file fields url bucket time store h1 h2 h3
  | lose k file u h1 h2 => exact .lose k file u h1 h2
  | refuse k file h1 h2 => exact .refuse k file h1 h2

theorem crashHistory_mono {a b : Crate} (h : Below a b) {cfg : Config} {account : Str} {N E : Nat} {σ : Nat → Site}
    {what : Nat → Option Happens} (hc : CrashHistory a cfg account N E σ what) : CrashHistory b cfg account N E σ what where
  begins := hc.begins
  next m := by
    rcases hc.next m with ⟨x, h1, h2⟩ | h1
    · exact .inl ⟨x, h1, siteMoves_mono h h2⟩
    · exact .inr h1

theorem inSaneLives_below (calls : Nat → Sys) (cfg : Config) : Below (.inSaneLives calls cfg) (.inLives calls cfg) where
  form := by
    rintro id n c r ⟨k, now, _, h⟩
    exact ⟨k, now, trivial, h⟩
  url := by
    rintro id r ⟨k, now, _, h⟩
    exact ⟨k, now, trivial, h⟩

theorem lives_not_failed {crate : Crate} (hworks : crate.Works) {cfg : Config} {tr : List Episode} {s : State} (h : Lives crate cfg tr s)
    (i : Nat) (r : Req) :
    s.tasks[i]? ≠ some (r, .replied .internalServerError) ∧ s.tasks[i]? ≠ some (r, .replied .aborted) := by
  constructor
  · intro hi
    obtain ⟨_, life, _, s₁, _, _, hrun, hi⟩ := lives_handled h hi
    exact ((works_not_failed hworks hrun).2 _ (List.mem_of_getElem? hi)).2.2 rfl
  · intro hi
    obtain ⟨_, life, _, s₁, _, _, hrun, hi⟩ := lives_handled h hi
    exact ((works_not_failed hworks hrun).2 _ (List.mem_of_getElem? hi)).2.1 rfl

theorem history_not_failed {crate : Crate} (hworks : crate.Works) (hkeyed : FormsKeyed crate) {cfg : Config} {account : Str} {N E : Nat}
    {σ : Nat → Site} {what : Nat → Option Happens} (h : CrashHistory crate cfg account N E σ what) (hd : AllDistinctIds σ what) (k m : Nat) :
    what m ≠ some (.gets k .internalServerError) ∧ what m ≠ some (.gets k .aborted) := by
  obtain ⟨own, inv⟩ := site_lives_inv hkeyed (crashHistory_lives h m) (hd m)
  have hnot := lives_not_failed hworks inv.run
  constructor
  all_goals
    intro hw
    rcases h.next m with ⟨x, hx, hm⟩ | ⟨hx, _⟩
    · rw [hw] at hx
      cases hx
      obtain ⟨i, r, hi⟩ := gets_answer hm
      first
        | exact (hnot i r).1 hi
        | exact (hnot i r).2 hi
    · rw [hw] at hx
      cases hx

theorem keyed_inSaneLives {env : Nat → Env} {base : Nat → Nat → Str} {calls : Nat → Sys}
    (hc : ∀ k, Sys.Reach (env k) (base k) (calls k)) (cfg : Config) : FormsKeyed (.inSaneLives calls cfg) := by
  intro id n c fs h
  exact keyed_inLives hc cfg id n c fs ((inSaneLives_below calls cfg).form _ _ _ _ h)

/-! ### C108 in many lives -/

theorem sane_lives_work {env : Nat → Env} {base : Nat → Nat → Str} {calls : Nat → Sys} (hc : ∀ k, Sys.Reach (env k) (base k) (calls k))
    {cfg : Config} {email pem : Str} (hk : cfg.signingKey = .serviceAccount email pem) (hu : cfg.useSignBlob = false)
    (hkey : ∀ k, UsableKey (env k) pem) (hs : (utf8 cfg.bucketName).length + (utf8 email).length ≤ 6400)
    (hclock : ∀ k, SteadyCalls cfg (calls k).trace) : (Crate.inSaneLives calls cfg).Works where
  form id n c r hid := by
    rintro ⟨k, h⟩
    exact (shared_works (hc k) hk hu (hkey k) hs (hclock k)).form id n c r hid h
  url id r hid := by
    rintro ⟨k, h⟩
    exact (shared_works (hc k) hk hu (hkey k) hs (hclock k)).url id r hid h

/-- C108. It never answers 500 and never aborts in any of its lives, each with its own concurrent calls, however often it crashes. -/
theorem C108_shared_restarted (env : Nat → Env) (base : Nat → Nat → Str) (calls : Nat → Sys)
    (hc : ∀ k, Sys.Reach (env k) (base k) (calls k)) (cfg : Config) (email pem : Str)
    (hk : cfg.signingKey = .serviceAccount email pem) (hu : cfg.useSignBlob = false) (hkey : ∀ k, UsableKey (env k) pem)
    (hs : (utf8 cfg.bucketName).length + (utf8 email).length ≤ 6400) (hclock : ∀ k, SteadyCalls cfg (calls k).trace)
    (tr : List Episode) (s : State) (h : Lives (.inSaneLives calls cfg) cfg tr s) (i : Nat) (r : Req) :
    s.tasks[i]? ≠ some (r, .replied .internalServerError) ∧ s.tasks[i]? ≠ some (r, .replied .aborted) :=
  lives_not_failed (sane_lives_work hc hk hu hkey hs hclock) h i r

/-- C108. So an upload whose requests are not lost, whose file has a type and whose form is posted in its minute comes to show a
list and its file is stored, despite crashes and among concurrent calls. -/
theorem C108_shared_shown (env : Nat → Env) (base : Nat → Nat → Str) (calls : Nat → Sys)
    (hc : ∀ k, Sys.Reach (env k) (base k) (calls k)) (cfg : Config) (email pem : Str) (N E : Nat) (σ : Nat → Site)
    (what : Nat → Option Happens) (h : CrashHistory (.inSaneLives calls cfg) cfg email N E σ what) (hd : AllDistinctIds σ what)
    (hf : CrashFair σ what) (ho : ∀ k, KeyOwner (env k) (base k) (calls k).trace cfg.signingKey email N E)
    (hk : cfg.signingKey = .serviceAccount email pem) (hu : cfg.useSignBlob = false) (hkey : ∀ k, UsableKey (env k) pem)
    (hs : (utf8 cfg.bucketName).length + (utf8 email).length ≤ 6400) (hclock : ∀ k, SteadyCalls cfg (calls k).trace)
    (hb : IsBucketName cfg.bucketName) (k m : Nat) (file : ChosenFile) (hup : (σ m).uploads[k]? = some (file, .chosen))
    (htype : file.type ≠ []) (hlost : ∀ m, what m ≠ some (.loses k))
    (hpost : ∀ m' time fields method url, what m' = some (.posts k time) →
      (σ m').uploads[k]? = some (file, .uploading fields method url) →
      ∃ l id now start, FormFrom (calls l).trace cfg id file.content.length file.type fields now start ∧
        start / 1000000000 ≤ time ∧ time < (now + 60000000000) / 1000000000) :
    ∃ m' urls, m ≤ m' ∧ (σ m').uploads[k]? = some (file, .shown urls) ∧
      ∃ id i j before between after,
        pastAt σ what m' = before ++ .event (.created i id) :: between ++ .event (.listed j) :: after ∧ IsUuid id ∧
        (σ m').store (utf8 cfg.bucketName) (utf8 id) = some file.content ∧
        (.restarted ∉ between → ∃ url ∈ urls, ∃ l now start, UrlFrom (calls l).trace cfg id url now start) ∧
        (.restarted ∈ between → ∀ url ∈ urls, ¬ LeadsTo cfg url id) := by
  exact C101_shared_shown env base calls hc cfg email N E σ what (crashHistory_mono (inSaneLives_below calls cfg) h) hd hf ho hb k m file hup
    htype hlost (history_not_failed (sane_lives_work hc hk hu hkey hs hclock) (keyed_inSaneLives hc cfg) h hd k) hpost

end CSS
