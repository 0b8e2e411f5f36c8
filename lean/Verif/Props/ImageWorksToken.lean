import Verif.Props.ImageWorksShared
import Verif.Props.Recovery
/-
C109: the example server with a bound token works as long as its clock, the metadata server and the signing service do.
-/
namespace CSS
open Spec ImageUploader Spec.ImageUploader

/-- C109. A call of the server for a form returns one if its clock is in order and its own requests were answered well, whatever other
calls do and whatever went wrong before. -/
theorem C109_form (env : Env) (base : Nat → Str) (sys : Sys) (h : Sys.Reach env base sys) (hsane : SaneHistory sys.trace) (cfg : Config)
    (bt : BoundToken) (hk : cfg.signingKey = .boundToken bt) (hu : cfg.useSignBlob = true) (hclock : SteadyCalls cfg sys.trace)
    (hwell : CallsAnsweredWell env cfg bt sys.trace) (id : Str) (n : Nat) (c : Str) (now : Time) (j : Nat)
    (x : Res FormError (List (Str × Str)))
    (h1 : .started j (.form (createCalls cfg id n c (now + 60000000000))) ∈ sys.trace) (h2 : .returned j (.form x) ∈ sys.trace) :
    ∃ fs, x = .ok fs := by
  obtain ⟨pre, post, ht, hst⟩ := returned_at h h1 h2
  have hw := hwell j _ now h1 (.form id n c)
  rw [did_returned h ht] at hw
  have hin : CallInOrder env bt (did pre j) (.form (createCalls cfg id n c (now + 60000000000))) := by
    refine ⟨_, rfl, hk, hu, by show some _ ≠ none; simp, by show some _ ≠ none; simp, (by intro m hm; cases hm), ?_⟩
    rintro t (hv | ⟨_, hv⟩)
    · cases hv
    · obtain ⟨c1, c2, c3, _⟩ := hclock j _ now t h1 (.form id n c) (by rw [ht]; exact first_reading hv)
      exact ⟨c1, c2, c3⟩
  have := C89_succeeds h hsane ht hst hin hw
  cases this with
  | form fs => exact ⟨fs, rfl⟩

/-- C109. The same for a call for the URL of an image, if bucket name and account are not absurdly long. -/
theorem C109_url (env : Env) (base : Nat → Str) (sys : Sys) (h : Sys.Reach env base sys) (hsane : SaneHistory sys.trace) (cfg : Config)
    (bt : BoundToken) (hk : cfg.signingKey = .boundToken bt) (hu : cfg.useSignBlob = true)
    (hs : ∀ email, IdentityIn base sys.trace cfg.signingKey email → (utf8 cfg.bucketName).length + (utf8 email).length ≤ 6400)
    (hb : (utf8 cfg.bucketName).length ≤ 6400)
    (hclock : SteadyCalls cfg sys.trace) (hwell : CallsAnsweredWell env cfg bt sys.trace) (id : Str) (hid : IsUuid id) (now : Time) (j : Nat)
    (x : Res BuildUrlError Str)
    (h1 : .started j (.url (listOptions cfg id (now + 60000000000))) ∈ sys.trace) (h2 : .returned j (.url x) ∈ sys.trace) :
    ∃ url, x = .ok url := by
  obtain ⟨pre, post, ht, hst⟩ := returned_at h h1 h2
  have hw := hwell j _ now h1 (.url id)
  rw [did_returned h ht] at hw
  have hbytes := uuid_bytes hid
  have hauto : (utf8 (s% "auto")).length = 4 := by decide
  have hin : CallInOrder env bt (did pre j) (.url (listOptions cfg id (now + 60000000000))) := by
    refine ⟨hk, hu, (by intro y hy; cases hy), ?_⟩
    rintro t (hv | ⟨_, hv⟩)
    · cases hv
    · obtain ⟨c1, c2, c3, c4⟩ := hclock j _ now t h1 (.url id) (by rw [ht]; exact first_reading hv)
      have g2 : t < endOf9999 := by omega
      have hvalid : ValidUrl env (listOptions cfg id (now + 60000000000)) t := by
        refine ⟨c1, g2, ?_, ?_, ?_, ?_, ?_, .inl (Nat.zero_le _)⟩
        · show t ≤ now + 60000000000
          omega
        · show now + 60000000000 < t + _
          omega
        · show s% "GET" ∈ methods
          decide
        · have hlen := userUrl_length env (listOptions cfg id (now + 60000000000))
          have e : (utf8 (userUrl env (listOptions cfg id (now + 60000000000)))).length ≤
              100 + 3 * ((utf8 cfg.bucketName).length + (utf8 id).length) + 3 * 0 := hlen
          omega
        · intro y hy
          cases hy
      refine ⟨hvalid, ?_⟩
      intro before email hpre hn hl
      obtain ⟨call', hst2, hbase, _⟩ := returned_done h ht
      have : call' = .url (listOptions cfg id (now + 60000000000)) := started_unique h (i := j) (by rw [ht]; simp [hst2]) h1
      subst this
      have hname := named_identity h (pre := pre) (post := .returned j (.url x) :: post) ht (key := cfg.signingKey)
        (fun b hb => hbase b hb) hpre hn
      have hlong : (utf8 cfg.bucketName).length + (utf8 email).length ≤ 6400 := by
        refine hs email ?_
        rw [hk] at hname ⊢
        obtain ⟨j', c, t0, life, href, hc⟩ := hname
        exact ⟨j', c, t0, life, ht ▸ refreshed_append href, hc⟩
      have h4 := (urlRejection_none.1 (validUrl_iff.1 hvalid).1).2.2.2.1
      have := fullUrl_length env (listOptions cfg id (now + 60000000000)) t email ⟨c1, g2⟩ h4
      rw [tooLong_iff ⟨c1, g2⟩] at hl
      have e : (utf8 (fullUrl env (listOptions cfg id (now + 60000000000)) (required (listOptions cfg id (now + 60000000000)) t email))).length ≤
          1000 + 3 * ((utf8 cfg.bucketName).length + (utf8 id).length) + 9 * ((utf8 email).length + (utf8 (s% "auto")).length) + 3 * 0 + 3 * 0 :=
        this
      omega
  have := C89_succeeds h hsane ht hst hin hw
  cases this with
  | url url => exact ⟨url, rfl⟩

theorem token_works {env : Env} {base : Nat → Str} {s : Sys} (h : Sys.Reach env base s) (hsane : SaneHistory s.trace) {cfg : Config}
    {bt : BoundToken} (hk : cfg.signingKey = .boundToken bt) (hu : cfg.useSignBlob = true)
    (hs : ∀ email, IdentityIn base s.trace cfg.signingKey email → (utf8 cfg.bucketName).length + (utf8 email).length ≤ 6400)
    (hb : (utf8 cfg.bucketName).length ≤ 6400) (hclock : SteadyCalls cfg s.trace) (hwell : CallsAnsweredWell env cfg bt s.trace) :
    (Crate.sharedAt (fun now => now + 60000000000 < 9223372036854775808 * 1000000000) s.trace cfg).Works where
  form id n c r hid := by
    rintro ⟨now, hnow, ⟨hl, _⟩ | ⟨j, x, h1, h2, rfl⟩⟩
    · unfold timeLimit nsPerSec at hl
      omega
    · obtain ⟨fs, rfl⟩ := C109_form env base s h hsane cfg bt hk hu hclock hwell id n c now j x h1 h2
      exact ⟨fs, rfl⟩
  url id r hid := by
    rintro ⟨now, hnow, ⟨hl, _⟩ | ⟨j, x, h1, h2, rfl⟩⟩
    · unfold timeLimit nsPerSec at hl
      omega
    · obtain ⟨url, rfl⟩ := C109_url env base s h hsane cfg bt hk hu hs hb hclock hwell id hid now j x h1 h2
      exact ⟨url, rfl⟩

/-- C109. A server with a bound token whose requests are answered well and whose clocks are in order never answers 500 and never aborts,
among any concurrent calls of the crate in its process, some of which may fail. -/
theorem C109_never_fails (env : Env) (base : Nat → Str) (sys : Sys) (h : Sys.Reach env base sys) (hsane : SaneHistory sys.trace)
    (cfg : Config) (bt : BoundToken) (hk : cfg.signingKey = .boundToken bt) (hu : cfg.useSignBlob = true)
    (hs : ∀ email, IdentityIn base sys.trace cfg.signingKey email → (utf8 cfg.bucketName).length + (utf8 email).length ≤ 6400)
    (hb : (utf8 cfg.bucketName).length ≤ 6400) (hclock : SteadyCalls cfg sys.trace) (hwell : CallsAnsweredWell env cfg bt sys.trace)
    (tr : List ImageUploader.Event) (s : State)
    (hrun : Run (.sharedAt (fun now => now + 60000000000 < 9223372036854775808 * 1000000000) sys.trace cfg) cfg tr s) (i : Nat) (r : Req) :
    s.tasks[i]? ≠ some (r, .replied .internalServerError) ∧ s.tasks[i]? ≠ some (r, .replied .aborted) := by
  have inv := (works_not_failed (token_works h hsane hk hu hs hb hclock hwell) hrun).2
  exact ⟨fun hi => (inv _ (List.mem_of_getElem? hi)).2.2 rfl, fun hi => (inv _ (List.mem_of_getElem? hi)).2.1 rfl⟩

theorem sane_token_lives_work {env : Nat → Env} {base : Nat → Nat → Str} {calls : Nat → Sys}
    (hc : ∀ k, Sys.Reach (env k) (base k) (calls k)) (hsane : ∀ k, SaneHistory (calls k).trace) {cfg : Config} {bt : BoundToken}
    (hk : cfg.signingKey = .boundToken bt) (hu : cfg.useSignBlob = true)
    (hs : ∀ k email, IdentityIn (base k) (calls k).trace cfg.signingKey email → (utf8 cfg.bucketName).length + (utf8 email).length ≤ 6400)
    (hb : (utf8 cfg.bucketName).length ≤ 6400) (hclock : ∀ k, SteadyCalls cfg (calls k).trace)
    (hwell : ∀ k, CallsAnsweredWell (env k) cfg bt (calls k).trace) : (Crate.inSaneLives calls cfg).Works where
  form id n c r hid := by
    rintro ⟨k, h⟩
    exact (token_works (hc k) (hsane k) hk hu (hs k) hb (hclock k) (hwell k)).form id n c r hid h
  url id r hid := by
    rintro ⟨k, h⟩
    exact (token_works (hc k) (hsane k) hk hu (hs k) hb (hclock k) (hwell k)).url id r hid h

/-- C109. It never answers 500 and never aborts in any of its lives, each with its own token and concurrent calls, however often it
crashes. -/
theorem C109_restarted (env : Nat → Env) (base : Nat → Nat → Str) (calls : Nat → Sys)
    (hc : ∀ k, Sys.Reach (env k) (base k) (calls k)) (hsane : ∀ k, SaneHistory (calls k).trace) (cfg : Config) (bt : BoundToken)
    (hk : cfg.signingKey = .boundToken bt) (hu : cfg.useSignBlob = true)
    (hs : ∀ k email, IdentityIn (base k) (calls k).trace cfg.signingKey email → (utf8 cfg.bucketName).length + (utf8 email).length ≤ 6400)
    (hb : (utf8 cfg.bucketName).length ≤ 6400) (hclock : ∀ k, SteadyCalls cfg (calls k).trace)
    (hwell : ∀ k, CallsAnsweredWell (env k) cfg bt (calls k).trace)
    (tr : List Episode) (s : State) (h : Lives (.inSaneLives calls cfg) cfg tr s) (i : Nat) (r : Req) :
    s.tasks[i]? ≠ some (r, .replied .internalServerError) ∧ s.tasks[i]? ≠ some (r, .replied .aborted) :=
  lives_not_failed (sane_token_lives_work hc hsane hk hu hs hb hclock hwell) h i r

/-- C109. So an upload whose requests are not lost, whose file has a type and whose form is posted in its minute comes to show a
list and its file is stored, despite crashes and among concurrent calls. -/
theorem C109_shown (env : Nat → Env) (base : Nat → Nat → Str) (calls : Nat → Sys)
    (hc : ∀ k, Sys.Reach (env k) (base k) (calls k)) (hsane : ∀ k, SaneHistory (calls k).trace) (cfg : Config) (bt : BoundToken)
    (account : Str) (N E : Nat) (σ : Nat → Site)
    (what : Nat → Option Happens) (h : CrashHistory (.inSaneLives calls cfg) cfg account N E σ what) (hd : AllDistinctIds σ what)
    (hf : CrashFair σ what) (ho : ∀ k, KeyOwner (env k) (base k) (calls k).trace cfg.signingKey account N E)
    (hk : cfg.signingKey = .boundToken bt) (hu : cfg.useSignBlob = true)
    (hs : (utf8 cfg.bucketName).length + (utf8 account).length ≤ 6400)
    (hclock : ∀ k, SteadyCalls cfg (calls k).trace) (hwell : ∀ k, CallsAnsweredWell (env k) cfg bt (calls k).trace)
    (hb : IsBucketName cfg.bucketName) (k m : Nat) (file : ChosenFile) (hup : (σ m).uploads[k]? = some (file, .chosen))
    (htype : file.type ≠ []) (hlost : ∀ m, what m ≠ some (.loses k))
    (hpost : ∀ m' time fields method url, what m' = some (.posts k time) →
      (σ m').uploads[k]? = some (file, .uploading fields method url) →
      ∃ l id now start, FormFrom (calls l).trace cfg id file.content.length file.type fields now start ∧
        start / 1000000000 ≤ time ∧ time < (now + 60000000000) / 1000000000) :
    ∃ m' urls, m ≤ m' ∧ (σ m').uploads[k]? = some (file, .shown urls) ∧
      ∃ id i j before between after,
        pastAt σ what m' = before ++ .event (.created i id) :: between ++ .event (.listed j) :: after ∧ IsUuid id ∧
        (σ m').store (utf8 cfg.bucketName) (utf8 id) = some file.content ∧
        (.restarted ∉ between → ∃ url ∈ urls, ∃ l now start, UrlFrom (calls l).trace cfg id url now start) ∧
        (.restarted ∈ between → ∀ url ∈ urls, ¬ LeadsTo cfg url id) := by
  have hsmall : ∀ k email, IdentityIn (base k) (calls k).trace cfg.signingKey email →
      (utf8 cfg.bucketName).length + (utf8 email).length ≤ 6400 := by
    intro l email hid
    have hown := ho l
    rw [hk] at hid hown
    obtain ⟨j, c, t0, life, href, rfl⟩ := hid
    rw [hown.1 j c t0 life href]
    exact hs
  exact C101_shared_shown env base calls hc cfg account N E σ what (crashHistory_mono (inSaneLives_below calls cfg) h) hd hf ho hb k m file hup
    htype hlost (history_not_failed (sane_token_lives_work hc hsane hk hu hsmall (by omega) hclock hwell) (keyed_inSaneLives hc cfg) h hd k)
    hpost

end CSS
