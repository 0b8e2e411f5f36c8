import Verif.Props.ImageWorks
import Verif.Props.ImageSiteRestartLive
/-
C108: with a usable key of a service account and a steady clock, uploads fail only for reasons outside of the example server.
-/
namespace CSS
open Spec ImageUploader Spec.ImageUploader

theorem gets_answer {crate : Crate} {cfg : Config} {account : Str} {N E k : Nat} {reply : Reply} {s s' : Site}
    (h : SiteMoves crate cfg account N E (.gets k reply) s s') : ∃ (i : Nat) (r : Req), s.server.tasks[i]? = some (r, Task.replied reply) := by
  cases h with
  | get k i file u r reply _ _ h => exact ⟨i, r, h⟩

/-- C108. Such a server never answers 500 and never aborts, however often it crashes and is started again. -/
theorem C108_restarted_never_fails (env : Env) (cfg : Config) (email pem : Str) (hk : cfg.signingKey = .serviceAccount email pem)
    (hu : cfg.useSignBlob = false) (hkey : UsableKey env pem) (hs : (utf8 cfg.bucketName).length + (utf8 email).length ≤ 6400)
    (hclock : SteadyClock env) (tr : List Episode) (s : State) (h : Lives (.alone env cfg) cfg tr s) (i : Nat) (r : Req) :
    s.tasks[i]? ≠ some (r, .replied .internalServerError) ∧ s.tasks[i]? ≠ some (r, .replied .aborted) := by
  constructor
  · intro hi
    obtain ⟨_, life, _, s₁, _, _, hrun, hi⟩ := lives_handled h hi
    exact (C108_never_fails env cfg email pem hk hu hkey hs hclock life s₁ hrun i r).1 hi
  · intro hi
    obtain ⟨_, life, _, s₁, _, _, hrun, hi⟩ := lives_handled h hi
    exact (C108_never_fails env cfg email pem hk hu hkey hs hclock life s₁ hrun i r).2 hi

/-- C108. So an upload whose requests are not lost, whose file has a type and whose form is posted in its minute comes to show a list with a
URL of its own file, which is stored. -/
theorem C108_shown (env : Env) (cfg : Config) (email pem : Str) (key : Bytes) (N E : Nat) (σ : Nat → Site) (what : Nat → Happens)
    (h : SiteHistory (.alone env cfg) cfg email N E σ what) (hd : DistinctIds σ) (hf : SiteFair (.alone env cfg) cfg σ what)
    (hk : cfg.signingKey = .serviceAccount email pem) (hu : cfg.useSignBlob = false) (hkey : UsableKey env pem)
    (hs : (utf8 cfg.bucketName).length + (utf8 email).length ≤ 6400) (hclock : SteadyClock env)
    (hring : Rsa.Correct env) (hpem : env.pemParse pem = some key)
    (hpub : Rsa.PublicKeyIn key N E) (k m : Nat) (file : ChosenFile) (hup : (σ m).uploads[k]? = some (file, .chosen))
    (htype : file.type ≠ []) (hlost : ∀ m, what m ≠ .loses k)
    (hpost : ∀ m' time fields method url, what m' = .posts k time → (σ m').uploads[k]? = some (file, .uploading fields method url) →
      ∃ id now start, FormFor env cfg id file.content.length file.type fields now start ∧
        start / 1000000000 ≤ time ∧ time < (now + 60000000000) / 1000000000) :
    ∃ m' urls, m ≤ m' ∧ (σ m').uploads[k]? = some (file, .shown urls) ∧
      ∃ url ∈ urls, ∃ id now start, IsUuid id ∧ UrlFor env cfg id url now start ∧
        (σ m').store (utf8 cfg.bucketName) (utf8 id) = some file.content := by
  refine C98_shown env cfg email pem key N E σ what h hd hf hk hring hpem hpub k m file hup htype hlost (fun m => ?_) hpost
  obtain ⟨tr, hrun⟩ := siteHistory_run h m
  have hnot := C108_never_fails env cfg email pem hk hu hkey hs hclock tr _ (site_server hrun)
  have hnext := h.next m
  constructor
  · intro hw
    rw [hw] at hnext
    obtain ⟨i, r, hi⟩ := gets_answer hnext
    exact (hnot i r).1 hi
  · intro hw
    rw [hw] at hnext
    obtain ⟨i, r, hi⟩ := gets_answer hnext
    exact (hnot i r).2 hi

/-- C108. The same despite crashes: the upload comes to show a list and its file is stored; the list has a URL of it unless the server
crashed between the registration and the listing. -/
theorem C108_restarted_shown (env : Env) (cfg : Config) (email pem : Str) (key : Bytes) (N E : Nat) (σ : Nat → Site)
    (what : Nat → Option Happens)
    (h : CrashHistory (.alone env cfg) cfg email N E σ what) (hd : AllDistinctIds σ what) (hf : CrashFair σ what)
    (hk : cfg.signingKey = .serviceAccount email pem) (hu : cfg.useSignBlob = false) (hkey : UsableKey env pem)
    (hs : (utf8 cfg.bucketName).length + (utf8 email).length ≤ 6400) (hclock : SteadyClock env)
    (hring : Rsa.Correct env) (hpem : env.pemParse pem = some key)
    (hpub : Rsa.PublicKeyIn key N E) (hb : IsBucketName cfg.bucketName) (k m : Nat) (file : ChosenFile)
    (hup : (σ m).uploads[k]? = some (file, .chosen))
    (htype : file.type ≠ []) (hlost : ∀ m, what m ≠ some (.loses k))
    (hpost : ∀ m' time fields method url, what m' = some (.posts k time) →
      (σ m').uploads[k]? = some (file, .uploading fields method url) →
      ∃ id now start, FormFor env cfg id file.content.length file.type fields now start ∧
        start / 1000000000 ≤ time ∧ time < (now + 60000000000) / 1000000000) :
    ∃ m' urls, m ≤ m' ∧ (σ m').uploads[k]? = some (file, .shown urls) ∧
      ∃ id i l before between after,
        pastAt σ what m' = before ++ .event (.created i id) :: between ++ .event (.listed l) :: after ∧ IsUuid id ∧
        (σ m').store (utf8 cfg.bucketName) (utf8 id) = some file.content ∧
        (.restarted ∉ between → ∃ url ∈ urls, ∃ now start, UrlFor env cfg id url now start) ∧
        (.restarted ∈ between → ∀ url ∈ urls, ¬ LeadsTo cfg url id) := by
  refine C101_shown env cfg email pem key N E σ what h hd hf hk hring hpem hpub hb k m file hup htype hlost (fun m => ?_) hpost
  obtain ⟨own, inv⟩ := site_lives_inv (keyed_alone env cfg) (crashHistory_lives h m) (hd m)
  have hnot := C108_restarted_never_fails env cfg email pem hk hu hkey hs hclock _ _ inv.run
  constructor
  · intro hw
    rcases h.next m with ⟨x, hx, hm⟩ | ⟨hx, _⟩
    · rw [hw] at hx
      cases hx
      obtain ⟨i, r, hi⟩ := gets_answer hm
      exact (hnot i r).1 hi
    · rw [hw] at hx
      cases hx
  · intro hw
    rcases h.next m with ⟨x, hx, hm⟩ | ⟨hx, _⟩
    · rw [hw] at hx
      cases hx
      obtain ⟨i, r, hi⟩ := gets_answer hm
      exact (hnot i r).2 hi
    · rw [hw] at hx
      cases hx

end CSS
