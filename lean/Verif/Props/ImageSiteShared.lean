import Verif.Spec.ImageSiteShared
import Verif.Props.ImageSite
import Verif.Props.KeyOwner
import Verif.Props.SignedAccess
/-
C86: the example server and the site when the calls of the crate run concurrently in one process, with a service account key or
with a bound token that they share (`USE_SIGN_BLOB=true`).
-/
set_option linter.unusedSimpArgs false
namespace CSS
open Spec ImageUploader Spec.ImageUploader

/-! ### What the calls have returned -/

theorem returned_at {env : Env} {base : Nat → Str} {s : Sys} (h : Sys.Reach env base s) {i : Nat} {call : ApiCall} {r : ApiResult}
    (hs : .started i call ∈ s.trace) (hr : .returned i r ∈ s.trace) :
    ∃ pre post, s.trace = pre ++ .returned i r :: post ∧ .started i call ∈ pre := by
  obtain ⟨pre, post, ht⟩ := List.append_of_mem hr
  obtain ⟨call', hst, _⟩ := returned_done h ht
  have : call' = call := started_unique h (i := i) (by rw [ht]; simp [hst]) hs
  exact ⟨pre, post, ht, this ▸ hst⟩

theorem shared_url {env : Env} {base : Nat → Str} {s : Sys} (h : Sys.Reach env base s) {cfg : Config} {id url : Str}
    (hu : (Crate.shared s.trace cfg).url id (.ok url)) : ∃ now start, UrlFrom s.trace cfg id url now start := by
  obtain ⟨now, _, ⟨_, h1⟩ | ⟨i, x, h1, h2, h3⟩⟩ := hu
  · cases h1
  · rw [settle_ok h3.symm] at h2
    obtain ⟨pre, post, ht, hst⟩ := returned_at h h1 h2
    obtain ⟨env', w, _, _, hv, _⟩ := C54_url_replay h ht hst
    exact ⟨now, _, did pre i, hv, i, pre, post, ht, hst, rfl⟩

theorem shared_form {env : Env} {base : Nat → Str} {s : Sys} (h : Sys.Reach env base s) {cfg : Config} {id : Str} {n : Nat} {c : Str}
    {fs : List (Str × Str)} (hf : (Crate.shared s.trace cfg).form id n c (.ok fs)) :
    ∃ now start, FormFrom s.trace cfg id n c fs now start := by
  obtain ⟨now, _, ⟨_, h1⟩ | ⟨i, x, h1, h2, h3⟩⟩ := hf
  · cases h1
  · rw [settle_ok h3.symm] at h2
    obtain ⟨pre, post, ht, hst⟩ := returned_at h h1 h2
    obtain ⟨env', w, _, _, hv, _⟩ := C54_form_replay h ht hst
    exact ⟨now, _, did pre i, hv _ rfl, i, pre, post, ht, hst, rfl⟩

/-- A form of the server is also the result of a call that runs alone. -/
theorem formFrom_alone {env : Env} {base : Nat → Str} {s : Sys} (h : Sys.Reach env base s) {cfg : Config} {id : Str} {n : Nat} {c : Str}
    {fs : List (Str × Str)} {now start : Time} (hf : FormFrom s.trace cfg id n c fs now start) :
    ∃ env' w w', (Builder.ofCalls (createCalls cfg id n c (now + 60 * nsPerSec))).build env' w = (.ok fs, w') := by
  obtain ⟨_, _, i, pre, post, ht, hst, _⟩ := hf
  obtain ⟨env', w, w', _, _, hb⟩ := C54_form_replay h ht hst
  exact ⟨env', w, w', hb⟩

theorem keyed_shared {env : Env} {base : Nat → Str} {s : Sys} (h : Sys.Reach env base s) (cfg : Config) :
    FormsKeyed (.shared s.trace cfg) := by
  intro id n c fs hf
  obtain ⟨now, start, hf⟩ := shared_form h hf
  obtain ⟨env', w, w', hb⟩ := formFrom_alone h hf
  exact form_key rfl hb rfl

theorem formFrom_names {env : Env} {base : Nat → Str} {s : Sys} (h : Sys.Reach env base s) {cfg : Config} {id : Str} {n : Nat} {c : Str}
    {fs : List (Str × Str)} {now start : Time} (hf : FormFrom s.trace cfg id n c fs now start) : (fs.map (·.1)).Nodup := by
  obtain ⟨env', w, w', hb⟩ := formFrom_alone h hf
  exact build_names hb

/-! ### The properties -/

/-- C86. The example server lists exactly the images reported as uploaded before it read them (as C69 says), each by a URL that a
call returned for it, in every interleaving of its handlers and in every history of concurrent calls. -/
theorem C86_listing (env : Env) (base : Nat → Str) (s : Sys) (h : Sys.Reach env base s) (cfg : Config)
    (tr : List ImageUploader.Event) (st : State) (hrun : Run (.shared s.trace cfg) cfg tr st) (hn : (createdIds tr).Nodup) (i : Nat)
    (r : Req) (urls : List Str) (hi : st.tasks[i]? = some (r, .replied (.urls urls))) :
    ∃ (before after : List ImageUploader.Event) (ids : List Str), tr = before ++ .listed i :: after ∧
      ids.Sublist (createdIds before) ∧ (∀ id, id ∈ ids ↔ UploadedIn before id) ∧ urls.length = ids.length ∧
      ∀ (k : Nat) (url id : Str), urls[k]? = some url → ids[k]? = some id →
        ∃ now start, UrlFrom s.trace cfg id url now start := by
  obtain ⟨before, after, ids, h1, h2, h3, h4, h5⟩ := listing _ cfg tr st hrun hn i r urls hi
  exact ⟨before, after, ids, h1, h2, h3, h4, fun k url id hk hid => shared_url h (h5 k url id hk hid)⟩

/-- C86. Likewise, an answered registration either returned a form that a call returned for a new id and registered exactly this
id, or returned no form and registered nothing. -/
theorem C86_create (env : Env) (base : Nat → Str) (s : Sys) (h : Sys.Reach env base s) (cfg : Config)
    (tr : List ImageUploader.Event) (st : State) (hrun : Run (.shared s.trace cfg) cfg tr st) (i n : Nat) (c : Str) (a : Reply)
    (hi : st.tasks[i]? = some (.create n c, .replied a)) :
    (∃ id fields now start, a = .form fields (s% "POST") (s% "https://storage.googleapis.com/" ++ cfg.bucketName) ∧
      IsUuid id ∧ FormFrom s.trace cfg id n c fields now start ∧ eventsOf tr i = [.created i id]) ∨
    ((a = .internalServerError ∨ a = .aborted) ∧ eventsOf tr i = []) := by
  rcases creating _ cfg tr st hrun i n c a hi with ⟨id, fields, h1, h2, h3, h4⟩ | h
  · obtain ⟨now, start, h3⟩ := shared_form h h3
    exact .inl ⟨id, fields, now, start, h1, h2, h3, h4⟩
  · exact .inr h

/-- C86. If one account owns the key of the server (for a bound token: the metadata server always names this account, and the
signing service signs with its private key), the storage server accepts a form of the server exactly from the second in which it
was signed until a minute after the registration, with a file of exactly the registered length. -/
theorem C86_form_accepted (env : Env) (base : Nat → Str) (s : Sys) (h : Sys.Reach env base s) (cfg : Config) (account : Str)
    (N E : Nat) (ho : KeyOwner env base s.trace cfg.signingKey account N E) (id : Str) (n : Nat) (c : Str) (fs : List (Str × Str))
    (now start : Time) (hf : FormFrom s.trace cfg id n c fs now start) (size : Nat) (time : Int) :
    AcceptsPost account N E ⟨cfg.bucketName, fs, size, time⟩ ↔
      start / 1000000000 ≤ time ∧ time < (now + 60000000000) / 1000000000 ∧ size = n := by
  obtain ⟨hist, hv, hret⟩ := hf
  obtain ⟨start', hv', hacc⟩ := C83_form_accepted_iff h hret rfl ho
  rw [validFrom_unique (more := []) hv (by simpa using hv'), hacc ⟨cfg.bucketName, fs, size, time⟩ rfl rfl]
  constructor
  · rintro ⟨a, b, d, _⟩
    exact ⟨a, b, (d _ rfl).2.2.symm.trans (natDec_decimal n).2.2⟩
  · rintro ⟨a, b, rfl⟩
    refine ⟨a, b, ?_, ?_⟩
    · intro text ht
      rw [← Option.some.inj ht]
      exact natDec_decimal size
    · intro m hm
      cases hm

/-- C86. Likewise, the storage server accepts a GET of a listed URL exactly from the second in which it was signed for the whole
seconds left of the minute. -/
theorem C86_url_accepted (env : Env) (base : Nat → Str) (s : Sys) (h : Sys.Reach env base s) (cfg : Config) (account : Str)
    (N E : Nat) (ho : KeyOwner env base s.trace cfg.signingKey account N E) (hpct : '%' ∉ account) (hb : IsBucketName cfg.bucketName)
    (id url : Str) (hid : IsUuid id) (now start : Time) (hu : UrlFrom s.trace cfg id url now start) (time : Int) :
    Accepts account N E ⟨s% "GET", url, [(s% "host", s% "storage.googleapis.com")], time⟩ ↔
      start / 1000000000 ≤ time ∧ time < start / 1000000000 + (now + 60000000000 - start) / 1000000000 := by
  obtain ⟨hist, hv, hret⟩ := hu
  obtain ⟨start', hv', hacc⟩ := C83_url_accepted_iff h hret (listOptions_regular (t := now + 60000000000) hb hid) ho hpct
  rw [validFrom_unique (more := []) hv (by simpa using hv')]
  exact hacc time

/-- C86. What is listed is stored (as C81 says): in every history of the site over every history of concurrent calls. -/
theorem C86_listed_is_stored (env : Env) (base : Nat → Str) (s : Sys) (h : Sys.Reach env base s) (cfg : Config) (account : Str)
    (N E : Nat) (tr : List ImageUploader.Event) (site : Site) (hrun : Site.Run (.shared s.trace cfg) cfg account N E tr site)
    (hn : (createdIds tr).Nodup) (i : Nat) (r : Req) (urls : List Str)
    (hi : site.server.tasks[i]? = some (r, .replied (.urls urls))) :
    ∃ ks : List Nat, ks.length = urls.length ∧ ks.Nodup ∧
      ∀ (a : Nat) (url : Str) (k : Nat), urls[a]? = some url → ks[a]? = some k →
        ∃ file u id now start, site.uploads[k]? = some (file, u) ∧ IsUuid id ∧ UrlFrom s.trace cfg id url now start ∧
          site.store (utf8 cfg.bucketName) (utf8 id) = some file.content := by
  obtain ⟨ks, h1, h2, h3⟩ := listed_is_stored (keyed_shared h cfg) cfg account N E tr site hrun hn i r urls hi
  refine ⟨ks, h1, h2, fun a url k hu hk => ?_⟩
  obtain ⟨file, u, id, h4, h5, h6, h7⟩ := h3 a url k hu hk
  obtain ⟨now, start, h6⟩ := shared_url h h6
  exact ⟨file, u, id, now, start, h4, h5, h6, h7⟩

/-- C86. When an upload has come to its end, the list that it shows has a URL for its own file. -/
theorem C86_own_image (env : Env) (base : Nat → Str) (s : Sys) (h : Sys.Reach env base s) (cfg : Config) (account : Str)
    (N E : Nat) (tr : List ImageUploader.Event) (site : Site) (hrun : Site.Run (.shared s.trace cfg) cfg account N E tr site)
    (hn : (createdIds tr).Nodup) (k : Nat) (file : ChosenFile) (urls : List Str)
    (hk : site.uploads[k]? = some (file, .shown urls)) :
    ∃ url ∈ urls, ∃ id now start, IsUuid id ∧ UrlFrom s.trace cfg id url now start ∧
      site.store (utf8 cfg.bucketName) (utf8 id) = some file.content := by
  obtain ⟨url, h1, id, h2, h3, h4⟩ := own_image (keyed_shared h cfg) cfg account N E tr site hrun hn k file urls hk
  obtain ⟨now, start, h3⟩ := shared_url h h3
  exact ⟨url, h1, id, now, start, h2, h3, h4⟩

/-- C86. If one account owns the key of the server: the storage server answers a GET of a listed URL, in its minute, with exactly
the file that was chosen in some upload. -/
theorem C86_get (env : Env) (base : Nat → Str) (s : Sys) (h : Sys.Reach env base s) (cfg : Config) (account : Str)
    (N E : Nat) (tr : List ImageUploader.Event) (site : Site) (hrun : Site.Run (.shared s.trace cfg) cfg account N E tr site)
    (hn : (createdIds tr).Nodup) (ho : KeyOwner env base s.trace cfg.signingKey account N E) (hpct : '%' ∉ account)
    (hb : IsBucketName cfg.bucketName) (i : Nat) (r : Req) (urls : List Str)
    (hi : site.server.tasks[i]? = some (r, .replied (.urls urls))) (url : Str) (hu : url ∈ urls) :
    ∃ (k : Nat) (file : ChosenFile) (u : Upload) (id : Str) (now start : Time), site.uploads[k]? = some (file, u) ∧
      UrlFrom s.trace cfg id url now start ∧
      ∀ time : Int, start / 1000000000 ≤ time →
        time < start / 1000000000 + (now + 60000000000 - start) / 1000000000 →
        ∀ content, Answers account N E site.store ⟨s% "GET", url, [(s% "host", s% "storage.googleapis.com")], time⟩ content ↔
          content = file.content := by
  obtain ⟨ks, hlen, _, hks⟩ := C86_listed_is_stored env base s h cfg account N E tr site hrun hn i r urls hi
  obtain ⟨a, ha1, ha2⟩ := List.getElem_of_mem hu
  obtain ⟨file, u, id, now, start, h1, h2, h3, h4⟩ := hks a url ks[a] (by rw [List.getElem?_eq_getElem ha1, ha2])
    (List.getElem?_eq_getElem (by omega))
  refine ⟨_, file, u, id, now, start, h1, h3, fun time ht1 ht2 content => ?_⟩
  have hacc := (C86_url_accepted env base s h cfg account N E ho hpct hb id url h2 now start h3 time).2 ⟨ht1, ht2⟩
  obtain ⟨_, _, j, pre, post, ht, hst, _⟩ := h3
  obtain ⟨env', w, w', _, _, hbuild⟩ := C54_url_replay h ht hst
  have hp : PlainAccess (listOptions cfg id (now + 60000000000)) :=
    ⟨rfl, rfl, by show '%' ∉ s% "auto"; decide, uuid_addressable hb h2⟩
  rw [answers_iff hacc rfl (plain_simple hbuild hp time) ((C76_object_iff env' _ w w' url hbuild).2 hp.names).2]
  show site.store (utf8 cfg.bucketName) (utf8 id) = some content ↔ _
  rw [h4, Option.some.injEq]
  exact eq_comm

/-- C86. What a page posts is accepted: when a page has got its form, the storage server accepts the form and the file as the
page sends them, exactly from the second in which the form was signed until a minute after the registration. -/
theorem C86_upload_accepted (env : Env) (base : Nat → Str) (s : Sys) (h : Sys.Reach env base s) (cfg : Config) (account : Str)
    (N E : Nat) (tr : List ImageUploader.Event) (site : Site) (hrun : Site.Run (.shared s.trace cfg) cfg account N E tr site)
    (hn : (createdIds tr).Nodup) (ho : KeyOwner env base s.trace cfg.signingKey account N E) (k : Nat) (file : ChosenFile)
    (fields : List (Str × Str)) (method url : Str) (hu : site.uploads[k]? = some (file, .uploading fields method url)) :
    method = s% "POST" ∧ ∃ bucket id now start, bucketOf url = some bucket ∧ findKey fields = some id ∧
      FormFrom s.trace cfg id file.content.length file.type fields now start ∧
      ∀ time : Int,
        (Sent.form ⟨bucket, formEntries fields, file.content.length, time⟩ file.name file.content).Accepted account N E ↔
          start / 1000000000 ≤ time ∧ time < (now + 60000000000) / 1000000000 := by
  obtain ⟨own, inv⟩ := site_inv (keyed_shared h cfg) hrun hn
  obtain ⟨i, _, ht⟩ := inv.uploads k file _ hu
  obtain ⟨id, hm, hb, hid, hf, _, hfind, _⟩ := uploading_facts (keyed_shared h cfg) inv.run ht
  obtain ⟨now, start, hf⟩ := shared_form h hf
  refine ⟨hm, cfg.bucketName, id, now, start, hb, hfind, hf, fun time => ?_⟩
  rw [formEntries_nodup (formFrom_names h hf)]
  show AcceptsPost account N E ⟨cfg.bucketName, fields, file.content.length, time⟩ ∧ _ ↔ _
  rw [C86_form_accepted env base s h cfg account N E ho id _ _ fields now start hf file.content.length time]
  constructor
  · rintro ⟨⟨h1, h2, _⟩, _⟩; exact ⟨h1, h2⟩
  · rintro ⟨h1, h2⟩; exact ⟨⟨h1, h2, rfl⟩, rfl⟩

end CSS
