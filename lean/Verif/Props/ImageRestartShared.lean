import Verif.Model.ImageRestartShared
import Verif.Props.ImageRestart
import Verif.Props.ImageSiteShared
/-
C99 for a server whose calls of the crate run concurrently and share a bound token (`USE_SIGN_BLOB=true`), with a new token in each
life of its process.
-/
namespace CSS
open Spec ImageUploader Spec.ImageUploader

/-- C99. In every history with crashes, where the calls of each life run concurrently in any way, a listing answers with one URL for
each image that was registered and reported as uploaded since the process was last started, and for no other; each of the URLs was
returned by a call for this image. -/
theorem C99_shared_listing (env : Nat → Env) (base : Nat → Nat → Str) (calls : Nat → Sys)
    (hc : ∀ k, Sys.Reach (env k) (base k) (calls k)) (cfg : Config) (tr : List Episode) (s : State)
    (h : Lives (.inLives calls cfg) cfg tr s) (hn : (registeredIds tr).Nodup) (i : Nat) (r : Req) (urls : List Str)
    (hi : s.tasks[i]? = some (r, .replied (.urls urls))) :
    ∃ (before : List Episode) (life : List ImageUploader.Event) (after : List Episode) (ids : List Str),
      tr = before ++ life.map .event ++ .event (.listed i) :: after ∧ StartsLife before ∧ ids.Sublist (createdIds life) ∧
      (∀ id, id ∈ ids ↔ UploadedIn life id) ∧ urls.length = ids.length ∧
      ∀ (j : Nat) (url id : Str), urls[j]? = some url → ids[j]? = some id →
        ∃ k now start, UrlFrom (calls k).trace cfg id url now start := by
  obtain ⟨before, life, rest, s₁, htr, hb, hrun, hi⟩ := lives_handled h hi
  have hn' : (createdIds life).Nodup := by
    rw [htr, registeredIds_append, registeredIds_append, registeredIds_life] at hn
    exact (List.nodup_append.1 (List.nodup_append.1 hn).1).2.1
  obtain ⟨b, a, ids, h1, h2, h3, h4, h5⟩ := listing _ cfg life s₁ hrun hn' i r urls hi
  refine ⟨before, b, a.map .event ++ rest, ids, by rw [htr, h1]; simp, hb, h2, h3, h4, fun j url id hj hid => ?_⟩
  obtain ⟨k, hk⟩ := h5 j url id hj hid
  exact ⟨k, shared_url (hc k) hk⟩

/-- C99. Likewise, a form that was returned is a form that a call returned for the image registered with it. If one account owns the key
during this life, the storage server accepts the form, also after any number of crashes, exactly from the second in which it was signed
until a minute after the registration, with a file of exactly the registered length. -/
theorem C99_shared_form (env : Nat → Env) (base : Nat → Nat → Str) (calls : Nat → Sys)
    (hc : ∀ k, Sys.Reach (env k) (base k) (calls k)) (cfg : Config) (tr : List Episode) (s : State)
    (h : Lives (.inLives calls cfg) cfg tr s) (i n : Nat) (c m u : Str) (fs : List (Str × Str))
    (hi : s.tasks[i]? = some (.create n c, .replied (.form fs m u))) :
    ∃ k id now start, .event (.created i id) ∈ tr ∧ FormFrom (calls k).trace cfg id n c fs now start ∧
      ∀ (account : Str) (N E : Nat), KeyOwner (env k) (base k) (calls k).trace cfg.signingKey account N E →
        ∀ (size : Nat) (time : Int), AcceptsPost account N E ⟨cfg.bucketName, fs, size, time⟩ ↔
          start / 1000000000 ≤ time ∧ time < (now + 60000000000) / 1000000000 ∧ size = n := by
  obtain ⟨before, life, rest, s₁, htr, _, hrun, hi⟩ := lives_handled h hi
  rcases creating _ cfg life s₁ hrun i n c _ hi with ⟨id, fields, h1, _, ⟨k, hk⟩, h4⟩ | ⟨h | h, _⟩
  · obtain ⟨rfl, _⟩ : fs = fields ∧ _ := by simpa using h1
    obtain ⟨now, start, hf⟩ := shared_form (hc k) hk
    refine ⟨k, id, now, start, ?_, hf, fun account N E ho size time =>
      C86_form_accepted (env k) (base k) (calls k) (hc k) cfg account N E ho id n c fs now start hf size time⟩
    have hm : Event.created i id ∈ eventsOf life i := by rw [h4]; simp
    rw [htr]
    have := (List.mem_filter.1 hm).1
    simp [this]
  · cases h
  · cases h

/-- C99. Likewise, each listed URL was returned by a call for an image registered in this or an earlier life. If one account owns the key
during the life of this call, the storage server accepts a GET of it, also after any number of crashes, exactly from the second in which
it was signed for the whole seconds left of the minute. -/
theorem C99_shared_url (env : Nat → Env) (base : Nat → Nat → Str) (calls : Nat → Sys)
    (hc : ∀ k, Sys.Reach (env k) (base k) (calls k)) (cfg : Config) (hb : IsBucketName cfg.bucketName) (tr : List Episode) (s : State)
    (h : Lives (.inLives calls cfg) cfg tr s) (hn : (registeredIds tr).Nodup) (i : Nat) (r : Req) (urls : List Str)
    (hi : s.tasks[i]? = some (r, .replied (.urls urls))) (url : Str) (hu : url ∈ urls) :
    ∃ k j id now start, .event (.created j id) ∈ tr ∧ UrlFrom (calls k).trace cfg id url now start ∧
      ∀ (account : Str) (N E : Nat), KeyOwner (env k) (base k) (calls k).trace cfg.signingKey account N E → '%' ∉ account →
        ∀ time : Int, Accepts account N E ⟨s% "GET", url, [(s% "host", s% "storage.googleapis.com")], time⟩ ↔
          start / 1000000000 ≤ time ∧ time < start / 1000000000 + (now + 60000000000 - start) / 1000000000 := by
  obtain ⟨before, life, rest, s₁, htr, _, hrun, hi⟩ := lives_handled h hi
  have hn' : (createdIds life).Nodup := by
    rw [htr, registeredIds_append, registeredIds_append, registeredIds_life] at hn
    exact (List.nodup_append.1 (List.nodup_append.1 hn).1).2.1
  obtain ⟨b, a, ids, h1, h2, h3, h4, h5⟩ := listing _ cfg life s₁ hrun hn' i r urls hi
  obtain ⟨j, hj, hju⟩ := List.getElem_of_mem hu
  have hj' : j < ids.length := by omega
  obtain ⟨k, hk⟩ := h5 j url ids[j] (by rw [List.getElem?_eq_getElem hj, hju]) (List.getElem?_eq_getElem hj')
  obtain ⟨now, start, hf⟩ := shared_url (hc k) hk
  have hm : ids[j] ∈ createdIds b := h2.subset (List.getElem_mem hj')
  obtain ⟨e, he, hid⟩ := List.mem_filterMap.1 hm
  cases e with
  | created q id' =>
    obtain rfl : id' = ids[j] := by simpa using hid
    have hmem : Event.created q ids[j] ∈ life := by rw [h1]; simp [he]
    refine ⟨k, q, ids[j], now, start, by rw [htr]; simp [hmem], hf, fun account N E ho hp time =>
      C86_url_accepted (env k) (base k) (calls k) (hc k) cfg account N E ho hp hb _ url ?_ now start hf time⟩
    obtain ⟨_, _, _, huuid, _⟩ := (C70_events _ cfg life s₁ hrun).1 q _ hmem
    exact huuid
  | _ => cases hid

end CSS
