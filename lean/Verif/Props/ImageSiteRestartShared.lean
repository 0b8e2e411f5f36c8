import Verif.Props.ImageSiteRestart
import Verif.Props.ImageRestartShared
/-
C100 for a server whose calls of the crate run concurrently and share a bound token (`USE_SIGN_BLOB=true`), with a new token in each
life of its process.
-/
namespace CSS
open Spec ImageUploader Spec.ImageUploader

theorem keyed_inLives {env : Nat → Env} {base : Nat → Nat → Str} {calls : Nat → Sys} (hc : ∀ k, Sys.Reach (env k) (base k) (calls k))
    (cfg : Config) : FormsKeyed (.inLives calls cfg) := by
  rintro id n c fs ⟨k, h⟩
  exact keyed_shared (hc k) cfg id n c fs h

theorem urlFrom_path {env : Env} {base : Nat → Str} {s : Sys} (h : Sys.Reach env base s) {cfg : Config} (hb : IsBucketName cfg.bucketName)
    {id url : Str} (hid : IsUuid id) {now start : Time} (hu : UrlFrom s.trace cfg id url now start) : LeadsTo cfg url id := by
  obtain ⟨_, _, j, pre, post, ht, hst, _⟩ := hu
  obtain ⟨env', w, w', _, _, hbuild⟩ := C54_url_replay h ht hst
  exact listOptions_path (t := now + 60000000000) hbuild hb hid

/-- C100. What is listed is stored, also with crashes: in every history of the site, where the calls of each life of the server run
concurrently in any way, the URLs of a listing are for the files of different uploads, each of which is stored. -/
theorem C100_shared_listed_is_stored (env : Nat → Env) (base : Nat → Nat → Str) (calls : Nat → Sys)
    (hc : ∀ k, Sys.Reach (env k) (base k) (calls k)) (cfg : Config) (account : Str) (N E : Nat) (tr : List Episode) (s : Site)
    (h : Site.Lives (.inLives calls cfg) cfg account N E tr s) (hn : (registeredIds tr).Nodup) (i : Nat) (r : Req) (urls : List Str)
    (hi : s.server.tasks[i]? = some (r, .replied (.urls urls))) :
    ∃ ks : List Nat, ks.length = urls.length ∧ ks.Nodup ∧
      ∀ (a : Nat) (url : Str) (k : Nat), urls[a]? = some url → ks[a]? = some k →
        ∃ file u id l now start, s.uploads[k]? = some (file, u) ∧ IsUuid id ∧ UrlFrom (calls l).trace cfg id url now start ∧
          s.store (utf8 cfg.bucketName) (utf8 id) = some file.content := by
  obtain ⟨ks, h1, h2, h3⟩ := lives_listed_is_stored (keyed_inLives hc cfg) h hn hi
  refine ⟨ks, h1, h2, fun a url k hu hk => ?_⟩
  obtain ⟨file, u, id, h4, h5, ⟨l, h6⟩, h7⟩ := h3 a url k hu hk
  obtain ⟨now, start, h6⟩ := shared_url (hc l) h6
  exact ⟨file, u, id, l, now, start, h4, h5, h6, h7⟩

/-- C100. Likewise, an upload that has come to its end shows a URL for its own file if the server did not crash between the registration
and the listing, and none if it did; the file is stored. -/
theorem C100_shared_own_image (env : Nat → Env) (base : Nat → Nat → Str) (calls : Nat → Sys)
    (hc : ∀ k, Sys.Reach (env k) (base k) (calls k)) (cfg : Config) (account : Str) (N E : Nat) (tr : List Episode) (s : Site)
    (h : Site.Lives (.inLives calls cfg) cfg account N E tr s) (hn : (registeredIds tr).Nodup) (hb : IsBucketName cfg.bucketName) (k : Nat)
    (file : ChosenFile) (urls : List Str) (hk : s.uploads[k]? = some (file, .shown urls)) :
    ∃ id i l before between after, tr = before ++ .event (.created i id) :: between ++ .event (.listed l) :: after ∧
      (∃ j, .event (.updated j id) ∈ between) ∧ s.server.tasks[l]? = some (.list, .replied (.urls urls)) ∧ IsUuid id ∧
      s.store (utf8 cfg.bucketName) (utf8 id) = some file.content ∧
      (.restarted ∉ between → ∃ url ∈ urls, ∃ m now start, UrlFrom (calls m).trace cfg id url now start) ∧
      (.restarted ∈ between → ∀ url ∈ urls, ¬ LeadsTo cfg url id) := by
  obtain ⟨id, i, l, before, between, after, h1, h2, h3, h4, h5, h6, h7⟩ := lives_own_image (keyed_inLives hc cfg)
    (fun id url hu hid => by
      obtain ⟨m, hu⟩ := hu
      obtain ⟨now, start, hf⟩ := shared_url (hc m) hu
      exact urlFrom_path (hc m) hb hid hf) h hn hk
  refine ⟨id, i, l, before, between, after, h1, h2, h3, h4, h5, fun hno => ?_, h7⟩
  obtain ⟨url, hu, m, hf⟩ := h6 hno
  exact ⟨url, hu, m, shared_url (hc m) hf⟩

/-- C100. Likewise, if one account owns the key during every life of the server: the storage server answers a GET of a listed URL, in its
minute, with exactly the file that was chosen in some upload. -/
theorem C100_shared_get (env : Nat → Env) (base : Nat → Nat → Str) (calls : Nat → Sys)
    (hc : ∀ k, Sys.Reach (env k) (base k) (calls k)) (cfg : Config) (account : Str) (N E : Nat) (tr : List Episode) (s : Site)
    (h : Site.Lives (.inLives calls cfg) cfg account N E tr s) (hn : (registeredIds tr).Nodup)
    (ho : ∀ k, KeyOwner (env k) (base k) (calls k).trace cfg.signingKey account N E) (hpct : '%' ∉ account)
    (hb : IsBucketName cfg.bucketName) (i : Nat) (r : Req) (urls : List Str)
    (hi : s.server.tasks[i]? = some (r, .replied (.urls urls))) (url : Str) (hu : url ∈ urls) :
    ∃ (k : Nat) (file : ChosenFile) (u : Upload) (id : Str) (l : Nat) (now start : Time), s.uploads[k]? = some (file, u) ∧
      UrlFrom (calls l).trace cfg id url now start ∧
      ∀ time : Int, start / 1000000000 ≤ time →
        time < start / 1000000000 + (now + 60000000000 - start) / 1000000000 →
        ∀ content, Answers account N E s.store ⟨s% "GET", url, [(s% "host", s% "storage.googleapis.com")], time⟩ content ↔
          content = file.content := by
  obtain ⟨ks, hlen, _, hks⟩ := C100_shared_listed_is_stored env base calls hc cfg account N E tr s h hn i r urls hi
  obtain ⟨a, ha1, ha2⟩ := List.getElem_of_mem hu
  obtain ⟨file, u, id, l, now, start, h1, h2, h3, h4⟩ := hks a url ks[a] (by rw [List.getElem?_eq_getElem ha1, ha2])
    (List.getElem?_eq_getElem (by omega))
  refine ⟨_, file, u, id, l, now, start, h1, h3, fun time ht1 ht2 content => ?_⟩
  have hacc := (C86_url_accepted (env l) (base l) (calls l) (hc l) cfg account N E (ho l) hpct hb id url h2 now start h3 time).2 ⟨ht1, ht2⟩
  obtain ⟨_, _, j, pre, post, ht, hst, _⟩ := h3
  obtain ⟨env', w, w', _, _, hbuild⟩ := C54_url_replay (hc l) ht hst
  have hp : PlainAccess (listOptions cfg id (now + 60000000000)) :=
    ⟨rfl, rfl, by show '%' ∉ s% "auto"; decide, uuid_addressable hb h2⟩
  rw [answers_iff hacc rfl (plain_simple hbuild hp time) ((C76_object_iff env' _ w w' url hbuild).2 hp.names).2]
  show s.store (utf8 cfg.bucketName) (utf8 id) = some content ↔ _
  rw [h4, Option.some.injEq]
  exact eq_comm

/-- C100. Likewise, what a page posts is accepted, also after any number of crashes, exactly from the second in which the form was signed
until a minute after the registration. -/
theorem C100_shared_upload_accepted (env : Nat → Env) (base : Nat → Nat → Str) (calls : Nat → Sys)
    (hc : ∀ k, Sys.Reach (env k) (base k) (calls k)) (cfg : Config) (account : Str) (N E : Nat) (tr : List Episode) (s : Site)
    (h : Site.Lives (.inLives calls cfg) cfg account N E tr s) (hn : (registeredIds tr).Nodup)
    (ho : ∀ k, KeyOwner (env k) (base k) (calls k).trace cfg.signingKey account N E) (k : Nat) (file : ChosenFile)
    (fields : List (Str × Str)) (method url : Str) (hu : s.uploads[k]? = some (file, .uploading fields method url)) :
    method = s% "POST" ∧ ∃ bucket id l now start, bucketOf url = some bucket ∧ findKey fields = some id ∧
      FormFrom (calls l).trace cfg id file.content.length file.type fields now start ∧
      ∀ time : Int,
        (Sent.form ⟨bucket, formEntries fields, file.content.length, time⟩ file.name file.content).Accepted account N E ↔
          start / 1000000000 ≤ time ∧ time < (now + 60000000000) / 1000000000 := by
  obtain ⟨own, inv⟩ := site_lives_inv (keyed_inLives hc cfg) h hn
  obtain ⟨i, _, ht⟩ := inv.uploads k file _ hu
  obtain ⟨id, hm, hb, hid, ⟨l, hf⟩, _, hfind, _⟩ := lives_uploading_facts (keyed_inLives hc cfg) inv.run ht
  obtain ⟨now, start, hf⟩ := shared_form (hc l) hf
  refine ⟨hm, cfg.bucketName, id, l, now, start, hb, hfind, hf, fun time => ?_⟩
  rw [formEntries_nodup (formFrom_names (hc l) hf)]
  show AcceptsPost account N E ⟨cfg.bucketName, fields, file.content.length, time⟩ ∧ _ ↔ _
  rw [C86_form_accepted (env l) (base l) (calls l) (hc l) cfg account N E (ho l) id _ _ fields now start hf file.content.length time]
  constructor
  · rintro ⟨⟨h1, h2, _⟩, _⟩; exact ⟨h1, h2⟩
  · rintro ⟨h1, h2⟩; exact ⟨⟨h1, h2, rfl⟩, rfl⟩

end CSS
