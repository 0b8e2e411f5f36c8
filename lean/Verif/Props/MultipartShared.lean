import Verif.Props.Multipart
import Verif.Props.KeyOwner
import Verif.Props.ImageSiteShared
/-
C97 for calls that run concurrently, with any key that one account owns (for a bound token: the metadata server always names this
account, and the signing service signs with its private key).
-/
set_option linter.unusedSimpArgs false
namespace CSS
open Spec ImageUploader Spec.ImageUploader

/-- C97. As `C97_accepted_iff`, for a form that a call returned in a history of concurrent calls. -/
theorem C97_accepted_owner (env : Env) (base : Nat → Str) (s : Sys) (h : Sys.Reach env base s) (cs : List Call) (fs : List (Str × Str))
    (hist : List Ev) (o : SigningOptions) (hret : ReturnedAfter s.trace (.form cs) (.form (.ok fs)) hist)
    (hopt : (cs.filterMap callOptions).getLast? = some o) (account : Str) (n e : Nat)
    (ho : KeyOwner env base s.trace o.signingKey account n e) (bucket b : Str) (file : ChosenFile)
    (hbucket : lastValue cs (s% "bucket") = some bucket) (hb : FreshBoundary b fs file.content) (ht : ∀ c ∈ file.type, c ∉ s% "\r\n") :
    ∃ start fields filename content, ValidFrom o.accessibleAt hist start ∧
      BodyForm b (multipartBody b fs file) fields filename content ∧
      (∀ fields' filename' content', BodyForm b (multipartBody b fs file) fields' filename' content' →
        fields' = fields ∧ filename' = filename ∧ content' = content) ∧
      content = file.content ∧
      ∀ time : Int, AcceptsPost account n e ⟨bucket, fields, content.length, time⟩ ↔
        start / 1000000000 ≤ time ∧ time < o.expiration / 1000000000 ∧
        (∀ text, lastValue cs (s% "Content-Length") = some text → Decimal text file.content.length) ∧
        (∀ m ∈ cs.filterMap callMeta, ∀ m' ∈ cs.filterMap callMeta, m.1 = m'.1 → m.2 = m'.2) ∧
        ∀ f ∈ fs, PlainField f := by
  obtain ⟨env', w, w', _, hbuild, _, _⟩ := form_replay_owned h hret hopt ho
  obtain ⟨start, hv, hacc⟩ := C83_form_accepted_iff h hret hopt ho
  obtain ⟨fields, filename, content, h1, h2, h3, h4⟩ := posted_iff (start := start) hopt hbuild hb ht
    fun time => hacc ⟨bucket, fs, file.content.length, time⟩ rfl hbucket
  exact ⟨start, fields, filename, content, hv, h1, h2, h3, h4⟩

/-- C97. As `C97_page`, in every history of the site over every history of concurrent calls. -/
theorem C97_page_owner (env : Env) (base : Nat → Str) (s : Sys) (h : Sys.Reach env base s) (cfg : Config) (account : Str)
    (N E : Nat) (tr : List ImageUploader.Event) (site : Site) (hrun : Site.Run (.shared s.trace cfg) cfg account N E tr site)
    (hn : (createdIds tr).Nodup) (ho : KeyOwner env base s.trace cfg.signingKey account N E)
    (he : ∀ c ∈ account, c ∉ s% "\r\n") (hbn : ∀ c ∈ cfg.bucketName, c ∉ s% "\r\n") (k : Nat) (file : ChosenFile)
    (fields : List (Str × Str)) (method url b : Str) (hu : site.uploads[k]? = some (file, .uploading fields method url))
    (ht : ∀ c ∈ file.type, c ∉ s% "\r\n") (hb : FreshBoundary b fields file.content) :
    ∃ bucket id now start fields' filename content, bucketOf url = some bucket ∧ findKey fields = some id ∧
      FormFrom s.trace cfg id file.content.length file.type fields now start ∧
      BodyForm b (uploadBody b fields file) fields' filename content ∧
      (∀ fields₂ filename₂ content₂, BodyForm b (uploadBody b fields file) fields₂ filename₂ content₂ →
        fields₂ = fields' ∧ filename₂ = filename ∧ content₂ = content) ∧
      ∀ (time : Int) (store store' : Store),
        Handles account N E (.form ⟨bucket, fields', content.length, time⟩ filename content) store store' →
        if start / 1000000000 ≤ time ∧ time < (now + 60000000000) / 1000000000 then
          store' (utf8 bucket) (utf8 id) = some file.content ∧
          ∀ bucket' object, store' bucket' object ≠ store bucket' object → bucket' = utf8 bucket ∧ object = utf8 id
        else store' = store := by
  obtain ⟨_, bucket, id, now, start, h1, h2, h3, h4⟩ :=
    C86_upload_accepted env base s h cfg account N E tr site hrun hn ho k file fields method url hu
  obtain ⟨own, inv⟩ := site_inv (keyed_shared h cfg) hrun hn
  obtain ⟨i, _, hi⟩ := inv.uploads k file _ hu
  obtain ⟨id', _, _, hid, _, _, hfind, hkey⟩ := uploading_facts (keyed_shared h cfg) inv.run hi
  obtain rfl : id = id' := by rw [h2] at hfind; exact Option.some.inj hfind
  obtain ⟨hist, hv, hret⟩ := h3
  obtain ⟨env', w, w', _, hbuild, hau, _⟩ := form_replay_owned h hret rfl ho
  have hplain := created_plain (t := now + 60000000000) hbuild (fun a ha => by rw [hau a ha]; exact he) hbn ht hid
  obtain ⟨fields', filename, content, g1, g2, g3⟩ := upload_read (formFrom_names h ⟨hist, hv, hret⟩) hplain hb ht hid hkey h4
  exact ⟨bucket, id, now, start, fields', filename, content, h1, h2, ⟨hist, hv, hret⟩, g1, g2, g3⟩

end CSS
