import Verif.Props.ImageSiteRestartLive
import Verif.Props.ImageSiteRestartShared
import Verif.Props.ServerFailures
/-
C101 for a server whose calls of the crate run concurrently and share a bound token (`USE_SIGN_BLOB=true`). `calls k` are states of the
concurrent calls of the lives of the server: any number of them, of any number of lives. That every upload comes to its end (`C101_ends`)
holds for any calls.
-/
namespace CSS
open Spec ImageUploader Spec.ImageUploader

/-- C99. Also with crashes an answer 500 has a cause in the calls of the crate, of some life of the server: a registration, that the call
for the form returned an error; a listing, that a call for the URL of an image did. -/
theorem C99_shared_failures (calls : Nat → Sys) (cfg : Config) (tr : List Episode) (s : State) (h : Lives (.inLives calls cfg) cfg tr s)
    (hn : (registeredIds tr).Nodup) (i : Nat) (req : Req) (hi : s.tasks[i]? = some (req, .replied .internalServerError)) :
    (∃ n c id now l j e, req = .create n c ∧ IsUuid id ∧
      .started j (.form [.bucket cfg.bucketName, .contentLength n, .contentType c, .key id, .policyDocumentSigningOptions
        { accessibleAt := none, expiration := now + 60000000000, region := none, signingKey := cfg.signingKey,
          useSignBlob := cfg.useSignBlob }]) ∈ (calls l).trace ∧
      .returned j (.form (.err e)) ∈ (calls l).trace) ∨
    ∃ id now l j e, req = .list ∧ IsUuid id ∧
      .started j (.url
        { bucketName := cfg.bucketName, objectName := id, region := none, expires := now + 60000000000, httpMethod := s% "GET",
          accessibleAt := none, signingKey := cfg.signingKey, useSignBlob := cfg.useSignBlob, headers := [],
          queryParameters := [] }) ∈ (calls l).trace ∧
      .returned j (.url (.err e)) ∈ (calls l).trace := by
  have settled : ∀ {ε α : Type} {x : Res ε α}, settle x = .err .status500 → ∃ e, x = .err e := by
    intro ε α x hx
    cases x with
    | ok a => cases hx
    | err e => exact ⟨e, rfl⟩
    | panic site => cases hx
  obtain ⟨before, life, rest, s₁, htr, hb, hrun, hi⟩ := lives_handled h hi
  have hn' : (createdIds life).Nodup := by
    rw [htr, registeredIds_append, registeredIds_append, registeredIds_life] at hn
    exact (List.nodup_append.1 (List.nodup_append.1 hn).1).2.1
  rcases failed_handler hrun hn' (.inl rfl) hi with ⟨n, c, id, r, rfl, hid, hg, hf⟩ | ⟨id, r, rfl, _, hid, hg, hf⟩
  · rcases hf with ⟨_, rfl⟩ | ⟨h, _⟩
    · obtain ⟨l, now, _, ⟨_, h1⟩ | ⟨j, x, h1, h2, h3⟩⟩ := hg
      · cases h1
      · obtain ⟨e, rfl⟩ := settled h3.symm
        exact .inl ⟨n, c, id, now, l, j, e, rfl, hid, h1, h2⟩
    · cases h
  · rcases hf with ⟨_, rfl⟩ | ⟨h, _⟩
    · obtain ⟨l, now, _, ⟨_, h1⟩ | ⟨j, x, h1, h2, h3⟩⟩ := hg
      · cases h1
      · obtain ⟨e, rfl⟩ := settled h3.symm
        exact .inr ⟨id, now, l, j, e, rfl, hid, h1, h2⟩
    · cases h

/-- C101. An upload fails only for a reason, also when the calls of each life of the server run concurrently, with any key that one account
owns. An answer 500 has a cause in the calls of the crate. -/
theorem C101_shared_why (env : Nat → Env) (base : Nat → Nat → Str) (calls : Nat → Sys)
    (hc : ∀ k, Sys.Reach (env k) (base k) (calls k)) (cfg : Config) (account : Str) (N E : Nat) (σ : Nat → Site)
    (what : Nat → Option Happens) (h : CrashHistory (.inLives calls cfg) cfg account N E σ what) (hd : AllDistinctIds σ what)
    (ho : ∀ k, KeyOwner (env k) (base k) (calls k).trace cfg.signingKey account N E) (k m : Nat) (file : ChosenFile)
    (u : Upload) (hu : (σ m).uploads[k]? = some (file, u)) (hne : u ≠ .failed) (hf : (σ (m + 1)).uploads[k]? = some (file, .failed)) :
    what m = some (.loses k) ∨ (what m = some (.refuses k) ∧ file.type = []) ∨
    (what m = some (.gets k .aborted) ∧ ((∃ i, u = .registering i) ∨ ∃ i, u = .listing i)) ∨
    (what m = some (.gets k .internalServerError) ∧
      ((∃ i id now l j e, u = .registering i ∧ IsUuid id ∧
        .started j (.form [.bucket cfg.bucketName, .contentLength file.content.length, .contentType file.type, .key id,
          .policyDocumentSigningOptions
            { accessibleAt := none, expiration := now + 60000000000, region := none, signingKey := cfg.signingKey,
              useSignBlob := cfg.useSignBlob }]) ∈ (calls l).trace ∧
        .returned j (.form (.err e)) ∈ (calls l).trace) ∨
      ∃ i id now l j e, u = .listing i ∧ IsUuid id ∧
        .started j (.url
          { bucketName := cfg.bucketName, objectName := id, region := none, expires := now + 60000000000, httpMethod := s% "GET",
            accessibleAt := none, signingKey := cfg.signingKey, useSignBlob := cfg.useSignBlob, headers := [],
            queryParameters := [] }) ∈ (calls l).trace ∧
        .returned j (.url (.err e)) ∈ (calls l).trace)) ∨
    ∃ time fields method url, what m = some (.posts k time) ∧ u = .uploading fields method url ∧
      ∃ l id now start, FormFrom (calls l).trace cfg id file.content.length file.type fields now start ∧
        ¬ (start / 1000000000 ≤ time ∧ time < (now + 60000000000) / 1000000000) := by
  rcases crash_failing (keyed_inLives hc cfg) h hd hu hne hf with h1 | h1 | ⟨reply, i, r, h1, ht, h2, h3⟩ | ⟨time, fields, url, h1, rfl, hb, h3⟩
  · exact .inl h1
  · exact .inr (.inl h1)
  · rcases h2 with rfl | rfl
    · refine .inr (.inr (.inr (.inl ⟨h1, ?_⟩)))
      obtain ⟨own, inv⟩ := site_lives_inv (keyed_inLives hc cfg) (crashHistory_lives h m) (hd m)
      rcases C99_shared_failures calls cfg _ _ inv.run (hd m) i r ht with
        ⟨n, c, id, now, l, j, e, rfl, hid, g1, g2⟩ | ⟨id, now, l, j, e, rfl, hid, g1, g2⟩
      · rcases h3 with ⟨h3, h4⟩ | ⟨_, h4⟩
        · cases h4
          exact .inl ⟨i, id, now, l, j, e, h3, hid, g1, g2⟩
        · cases h4
      · rcases h3 with ⟨_, h4⟩ | ⟨h3, _⟩
        · cases h4
        · exact .inr ⟨i, id, now, l, j, e, h3, hid, g1, g2⟩
    · refine .inr (.inr (.inl ⟨h1, ?_⟩))
      rcases h3 with ⟨h3, _⟩ | ⟨h3, _⟩
      · exact .inl ⟨i, h3⟩
      · exact .inr ⟨i, h3⟩
  · obtain ⟨_, bucket, id, l, now, start, h4, _, h5, h6⟩ :=
      C100_shared_upload_accepted env base calls hc cfg account N E _ (σ m) (crashHistory_lives h m) (hd m) ho k file fields _ url hu
    rw [hb] at h4
    cases h4
    exact .inr (.inr (.inr (.inr ⟨time, fields, _, url, h1, rfl, l, id, now, start, h5, fun hw => h3 ((h6 time).2 hw)⟩)))

/-- C101. Without a reason to fail an upload comes to show a list and its file is stored, also when the calls of each life of the server run
concurrently, with any key that one account owns. -/
theorem C101_shared_shown (env : Nat → Env) (base : Nat → Nat → Str) (calls : Nat → Sys)
    (hc : ∀ k, Sys.Reach (env k) (base k) (calls k)) (cfg : Config) (account : Str) (N E : Nat) (σ : Nat → Site)
    (what : Nat → Option Happens) (h : CrashHistory (.inLives calls cfg) cfg account N E σ what) (hd : AllDistinctIds σ what)
    (hf : CrashFair σ what) (ho : ∀ k, KeyOwner (env k) (base k) (calls k).trace cfg.signingKey account N E)
    (hb : IsBucketName cfg.bucketName) (k m : Nat) (file : ChosenFile) (hu : (σ m).uploads[k]? = some (file, .chosen))
    (htype : file.type ≠ []) (hlost : ∀ m, what m ≠ some (.loses k))
    (hserver : ∀ m, what m ≠ some (.gets k .internalServerError) ∧ what m ≠ some (.gets k .aborted))
    (hpost : ∀ m' time fields method url, what m' = some (.posts k time) →
      (σ m').uploads[k]? = some (file, .uploading fields method url) →
      ∃ l id now start, FormFrom (calls l).trace cfg id file.content.length file.type fields now start ∧
        start / 1000000000 ≤ time ∧ time < (now + 60000000000) / 1000000000) :
    ∃ m' urls, m ≤ m' ∧ (σ m').uploads[k]? = some (file, .shown urls) ∧
      ∃ id i j before between after,
        pastAt σ what m' = before ++ .event (.created i id) :: between ++ .event (.listed j) :: after ∧ IsUuid id ∧
        (σ m').store (utf8 cfg.bucketName) (utf8 id) = some file.content ∧
        (.restarted ∉ between → ∃ url ∈ urls, ∃ l now start, UrlFrom (calls l).trace cfg id url now start) ∧
        (.restarted ∈ between → ∀ url ∈ urls, ¬ LeadsTo cfg url id) := by
  obtain ⟨m', u', h1, h2, ⟨urls, rfl⟩ | rfl⟩ := C101_ends h hf k m file _ hu
  · obtain ⟨id, i, j, before, between, after, g1, _, _, g2⟩ :=
      C100_shared_own_image env base calls hc cfg account N E _ _ (crashHistory_lives h m') (hd m') hb k file urls h2
    exact ⟨m', urls, h1, h2, id, i, j, before, between, after, g1, g2⟩
  · obtain ⟨d, rfl⟩ : ∃ d, m' = m + d := ⟨m' - m, by omega⟩
    obtain ⟨m₁, u₁, _, g1, g2, g3⟩ := crash_first_failure h hu (by simp) d h2
    rcases crash_failing (keyed_inLives hc cfg) h hd g1 g2 g3 with
      h3 | h3 | ⟨reply, i, r, h3, _, h4, _⟩ | ⟨time, fields, url, h3, rfl, hb, h4⟩
    · exact absurd h3 (hlost m₁)
    · exact absurd h3.2 htype
    · rcases h4 with rfl | rfl
      · exact absurd h3 (hserver m₁).1
      · exact absurd h3 (hserver m₁).2
    · obtain ⟨l, id, now, start, h5, h6, h7⟩ := hpost m₁ time fields _ url h3 g1
      refine absurd ?_ h4
      rw [formEntries_nodup (formFrom_names (hc l) h5)]
      exact ⟨(C86_form_accepted (env l) (base l) (calls l) (hc l) cfg account N E (ho l) id _ _ fields now start h5
        file.content.length time).2 ⟨h6, h7, rfl⟩, rfl⟩

end CSS
