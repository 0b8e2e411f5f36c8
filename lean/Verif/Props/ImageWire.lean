import Verif.Spec.ImageWire
import Verif.Props.Boundary
import Verif.Props.Cors
import Verif.Props.ImageHttpSite
import Verif.Props.MultipartShared
/-
C103: the site of the example over the wire does what it does without.
-/
set_option linter.unusedSimpArgs false
namespace CSS
open Spec Spec.ImageUploader ImageUploader

/-- The forms that the server returns consist of different, plain fields. -/
def FormsPlain (crate : Crate) : Prop :=
  ∀ id n c fs, IsUuid id → (∀ x ∈ c, x ∉ s% "\r\n") → crate.form id n c (.ok fs) →
    (fs.map (·.1)).Nodup ∧ ∀ f ∈ fs, PlainField f

private theorem usual_uploads {mime : MimeTypes} {s : Site} {store : Store} {k : Nat} {file : ChosenFile} {u u' : Upload}
    (hk : s.uploads[k]? = some (file, u)) :
    Site.Usual mime { s with store := store, uploads := s.uploads.set k (file, u') } ↔ Site.Usual mime s := by
  unfold Site.Usual
  rw [map_fst_set hk]

private theorem usual_tasks {mime : MimeTypes} {s : Site} {images : List Image} {i : Nat} {r : Req} {t t' : Task}
    (hi : s.server.tasks[i]? = some (r, t)) :
    Site.Usual mime { s with server := ⟨images, s.server.tasks.set i (r, t')⟩ } ↔ Site.Usual mime s := by
  unfold Site.Usual
  simp only [map_fst_set hi]

private theorem usual_restart {mime : MimeTypes} {s : Site} : Site.Usual mime { s with server := s.server.restart } ↔ Site.Usual mime s := by
  unfold Site.Usual State.restart
  simp only [List.map_map, Function.comp_def]

private theorem registered_prefix {tr es : List Episode} (h : (registeredIds (tr ++ es)).Nodup) : (registeredIds tr).Nodup := by
  rw [registeredIds_append] at h
  exact (List.nodup_append.1 h).1

/-- Which name a file has does not matter to an image. -/
theorem handles_name {account : Str} {N E : Nat} {r : Posted} {name name' id : Str} {content : Bytes} {st st' : Store}
    (hid : IsUuid id) (hkey : fieldValues r.fields (s% "key") = [id]) (h : Handles account N E (.form r name content) st st') :
    Handles account N E (.form r name' content) st st' where
  rejected := h.rejected
  others := by
    intro bucket object hne
    obtain ⟨hb, key, hk, ho⟩ := h.others bucket object hne
    refine ⟨hb, key, hk, ?_⟩
    rw [hkey, List.mem_singleton] at hk
    rw [ho, hk, expand_uuid _ hid, expand_uuid _ hid]
  put := by intro _ _ _ _ _ he; cases he
  post := by
    intro ha r' filename file key he hk
    cases he
    obtain rfl : key = id := by rw [hkey] at hk; exact (List.cons.inj hk).1.symm
    have := h.post ha r name content key rfl hkey
    rw [expand_uuid _ hid] at this ⊢
    exact this

/-- What is known of an upload that will be posted. -/
theorem posting {crate : Crate} (hkeyed : FormsKeyed crate) (hplain : FormsPlain crate) {cfg : Config} {account : Str} {N E : Nat}
    {tr : List Episode} {s : Site} (h : Site.Lives crate cfg account N E tr s) (hn : (registeredIds tr).Nodup) {k : Nat}
    {file : ChosenFile} {fields : List (Str × Str)} {method url : Str} (hk : s.uploads[k]? = some (file, .uploading fields method url))
    (ht : ∀ c ∈ file.type, c ∉ s% "\r\n") :
    ∃ id, method = s% "POST" ∧ (∃ (i : Nat) (r : Req), s.server.tasks[i]? = some (r, ImageUploader.Task.replied (.form fields method url))) ∧ IsUuid id ∧ findKey fields = some id ∧ fieldValues fields (s% "key") = [id] ∧ formEntries fields = fields ∧
      ∀ b, FreshBoundary b fields file.content → ∀ f n c,
        BodyForm b (uploadBody b fields file) f n c ↔ f = fields ∧ n = escapeName file.name ∧ c = file.content := by
  obtain ⟨own, inv⟩ := site_lives_inv hkeyed h hn
  obtain ⟨i, _, hi⟩ := inv.uploads k file _ hk
  obtain ⟨id, hm, _, hid, hf, _, hfind, hkey⟩ := lives_uploading_facts hkeyed inv.run hi
  obtain ⟨h1, h2⟩ := hplain id _ _ fields hid ht hf
  have hsame := formEntries_nodup h1
  rw [hsame] at hkey
  exact ⟨id, hm, ⟨i, _, hi⟩, hid, hfind, hkey, hsame, fun b hb f n c => upload_body h1 h2 hb ht⟩

private theorem after_none (fields : List (Str × Str)) : Upload.afterUpload fields none = .failed := rfl

private theorem after_other (fields : List (Str × Str)) {answer : Nat × Str} (h : answer.1 ≠ 204) :
    Upload.afterUpload fields (some answer) = .failed := by
  obtain ⟨st, body⟩ := answer
  exact if_pos h

private theorem after_ok (fields : List (Str × Str)) :
    Upload.afterUpload fields (some (204, [])) = match findKey fields with | some id => .uploaded id | none => .failed := by
  simp only [Upload.afterUpload]; rfl

/-- C103, one direction. -/
theorem wire_lives {crate : Crate} (hkeyed : FormsKeyed crate) (hplain : FormsPlain crate) {mime : MimeTypes} {cors : List CorsEntry}
    {cfg : Config} {account : Str} {N E : Nat} {tr : List Episode} {s : Site} (h : Site.WireLives mime cors crate cfg account N E tr s)
    (hn : (registeredIds tr).Nodup) : Site.Lives crate cfg account N E tr s ∧ Site.Usual mime s := by
  induction h with
  | start store => exact ⟨.start store, by simp [Site.Usual]⟩
  | @choose tr s file _ hf ih =>
    obtain ⟨hr, h1, h2⟩ := ih hn
    refine ⟨.choose file hr, fun f hm => ?_, h2⟩
    simp only [List.map_append, List.map_cons, List.map_nil, List.mem_append, List.mem_singleton] at hm
    rcases hm with hm | rfl
    · exact h1 f hm
    · exact hf
  | @send tr s k file u q r _ hk hq hrt ih =>
    obtain ⟨hr, h1, h2⟩ := ih hn
    have hf : file.Fits := (h1 file (List.mem_map.2 ⟨_, List.mem_of_getElem? hk, rfl⟩)).1
    have huuid : ∀ id, u = .uploaded id → IsUuid id := by
      rintro id rfl
      obtain ⟨own, inv⟩ := site_lives_inv hkeyed hr hn
      exact (inv.uploads k file _ hk).2.1
    have hreq : u.request file = some r := by
      cases e : u.request file with
      | none => rw [C94_untyped mime file u q hq e hf.1] at hrt; cases hrt
      | some r' =>
        rw [C94_sent mime file u q r' hq e huuid hf.1 hf.2] at hrt
        cases hrt; rfl
    refine ⟨.send k file u r hr hk hreq, ?_, fun x hm => ?_⟩
    · simp only [map_fst_set hk]; exact h1
    · simp only [List.map_append, List.map_cons, List.map_nil, List.mem_append, List.mem_singleton] at hm
      rcases hm with hm | rfl
      · exact h2 x hm
      · exact ⟨q, hrt⟩
  | @refuse tr s k file u q f _ hk hq hrt ih =>
    obtain ⟨hr, hs⟩ := ih hn
    exact ⟨.fail k file u hr hk, (usual_uploads (store := s.store) hk).2 hs⟩
  | @answer tr s k i file u r reply resp _ hk hw ht hweb ih =>
    obtain ⟨hr, hs⟩ := ih hn
    rw [C94_received u reply resp hweb]
    exact ⟨.answer k i file u r reply hr hk hw ht, (usual_uploads (store := s.store) hk).2 hs⟩
  | @post tr s k file fields method url origin boundary bucket fields' filename content time store answer got _ hk hm hb hbd _ hbody hh ha hg
      ih =>
    obtain ⟨hr, hs⟩ := ih hn
    refine ⟨?_, (usual_uploads hk).2 hs⟩
    have ht := (hs.1 file (List.mem_map.2 ⟨_, List.mem_of_getElem? hk, rfl⟩)).2
    obtain ⟨id, _, _, hid, _, hkey, hsame, hall⟩ := posting hkeyed hplain hr hn hk ht
    obtain ⟨rfl, rfl, rfl⟩ := (hall boundary hbd.1 fields' filename content).1 hbody
    subst hm
    have hh' := handles_name (name' := file.name) hid hkey hh
    rcases hg with ⟨_, rfl⟩ | ⟨_, rfl⟩
    · by_cases hacc : (Sent.form ⟨bucket, fields', file.content.length, time⟩ (escapeName file.name) file.content).Accepted account N E
      · rw [ha.1 hacc, after_ok]
        exact .upload k file fields' url bucket time store hr hk hb (by rw [hsame]; exact hacc) (by rw [hsame]; exact hh')
      · rw [after_other fields' (ha.2 hacc)]
        exact .uploadFails k file fields' url bucket time store hr hk hb (by rw [hsame]; exact hh')
    · rw [after_none]
      exact .uploadFails k file fields' url bucket time store hr hk hb (by rw [hsame]; exact hh')
  | @lost tr s k file fields method url origin boundary bucket fields' filename content time store _ hk hm hb hbd _ hbody hh ih =>
    obtain ⟨hr, hs⟩ := ih hn
    refine ⟨?_, (usual_uploads hk).2 hs⟩
    have ht := (hs.1 file (List.mem_map.2 ⟨_, List.mem_of_getElem? hk, rfl⟩)).2
    obtain ⟨id, _, _, hid, _, hkey, hsame, hall⟩ := posting hkeyed hplain hr hn hk ht
    obtain ⟨rfl, rfl, rfl⟩ := (hall boundary hbd.1 fields' filename content).1 hbody
    subst hm
    rw [after_none]
    exact .uploadFails k file fields' url bucket time store hr hk hb (by rw [hsame]; exact handles_name hid hkey hh)
  | @unread tr s k file fields method url boundary answer _ hk _ _ ha ih =>
    obtain ⟨hr, hs⟩ := ih hn
    rw [after_other fields ha]
    exact ⟨.fail k file _ hr hk, (usual_uploads (store := s.store) hk).2 hs⟩
  | @fail tr s k file u _ hk ih =>
    obtain ⟨hr, hs⟩ := ih hn
    exact ⟨.fail k file u hr hk, (usual_uploads (store := s.store) hk).2 hs⟩
  | @visit tr s q r _ hrt hu ih =>
    obtain ⟨hr, h1, h2⟩ := ih hn
    refine ⟨.visit r hr hu, h1, fun x hm => ?_⟩
    simp only [List.map_append, List.map_cons, List.map_nil, List.mem_append, List.mem_singleton] at hm
    rcases hm with hm | rfl
    · exact h2 x hm
    · exact ⟨q, hrt⟩
  | @step tr s i r t uuid form url _ hi hu hg ih =>
    obtain ⟨hr, hs⟩ := ih (registered_prefix hn)
    exact ⟨.step i r t uuid form url hr hi hu hg, (usual_tasks hi).2 hs⟩
  | @drop tr s i r t _ hi ht ih =>
    obtain ⟨hr, hs⟩ := ih hn
    exact ⟨.drop i r t hr hi ht, (usual_tasks hi).2 hs⟩
  | @elsewhere tr s store _ hst ih =>
    obtain ⟨hr, hs⟩ := ih hn
    exact ⟨.elsewhere store hr hst, hs⟩
  | @restart tr s _ ih =>
    obtain ⟨hr, hs⟩ := ih (registered_prefix hn)
    exact ⟨.restart hr, usual_restart.2 hs⟩

private theorem small_of {s s' : Site} (h : ∀ r a, (r, .replied a) ∈ s.server.tasks → (r, .replied a) ∈ s'.server.tasks)
    (hs : s'.SmallForms) : s.SmallForms := fun r fields method url hm => hs r fields method url (h _ _ hm)

private theorem kept_set {l : List (Req × Task)} {i : Nat} {r r' : Req} {t t' : Task} {a : Reply} (hi : l[i]? = some (r, t))
    (ht : ∀ a, t = .replied a → t' = .replied a) (h : (r', .replied a) ∈ l) : (r', .replied a) ∈ l.set i (r, t') := by
  obtain ⟨j, hj, he⟩ := List.getElem_of_mem h
  by_cases hij : i = j
  · subst hij
    rw [List.getElem?_eq_getElem hj, he, Option.some.injEq, Prod.mk.injEq] at hi
    rw [ht a hi.2.symm, hi.1]
    exact List.mem_of_getElem? (i := i) (by rw [List.getElem?_set_self hj])
  · exact List.mem_of_getElem? (i := j) (by rw [List.getElem?_set_ne hij, List.getElem?_eq_getElem hj, he])

/-- C103, the other direction. -/
theorem lives_wire {crate : Crate} (hkeyed : FormsKeyed crate) (hplain : FormsPlain crate) {mime : MimeTypes}
    {cors : List CorsEntry} (hcors : ∃ origin, ∃ e ∈ cors, (s% "*" ∈ e.origins ∨ origin ∈ e.origins) ∧ s% "POST" ∈ e.methods)
    {cfg : Config} {account : Str} {N E : Nat} {tr : List Episode} {s : Site} (h : Site.Lives crate cfg account N E tr s)
    (hn : (registeredIds tr).Nodup) (hs : Site.Usual mime s) (hsm : s.SmallForms) : Site.WireLives mime cors crate cfg account N E tr s := by
  obtain ⟨origin, hcors⟩ := hcors
  induction h with
  | start store => exact .start store
  | @choose tr s file _ ih =>
    obtain ⟨h1, h2⟩ := hs
    exact .choose file (ih hn ⟨fun f hf => h1 f (by simp only [List.map_append]; exact List.mem_append_left _ hf), h2⟩ hsm)
      (h1 file (by simp))
  | @send tr s k file u r hrun hk hreq ih =>
    obtain ⟨h1, h2⟩ := hs
    simp only [map_fst_set hk] at h1
    have hw := ih hn ⟨h1, fun x hx => h2 x (by simp only [List.map_append]; exact List.mem_append_left _ hx)⟩ (small_of (fun _ _ hm => List.mem_append_left _ hm) hsm)
    have hf : file.Fits := (h1 file (List.mem_map.2 ⟨_, List.mem_of_getElem? hk, rfl⟩)).1
    have hq : ∃ q, u.webRequest file = some q := by
      cases u <;> first | exact ⟨_, rfl⟩ | cases hreq
    obtain ⟨q, hq⟩ := hq
    refine .send k file u q r hw hk hq (C94_sent mime file u q r hq hreq ?_ hf.1 hf.2)
    rintro id rfl
    obtain ⟨own, inv⟩ := site_lives_inv hkeyed hrun hn
    exact (inv.uploads k file _ hk).2.1
  | @answer tr s k i file u r reply _ hk hw ht ih =>
    have hrun := ih hn ((usual_uploads (store := s.store) hk).1 hs) hsm
    cases hweb : reply.web with
    | none =>
      cases reply with
      | aborted =>
        have : u.answered .aborted = .failed := by cases u <;> rfl
        rw [this]
        exact .fail k file u hrun hk
      | _ => cases hweb
    | some resp =>
      rw [← C94_received u reply resp hweb]
      exact .answer k i file u r reply resp hrun hk hw ht hweb
  | @upload tr s k file fields url bucket time store hrun hk hb ha hh ih =>
    have hs' := (usual_uploads hk).1 hs
    have hu := hs'.1 file (List.mem_map.2 ⟨_, List.mem_of_getElem? hk, rfl⟩)
    obtain ⟨id, _, ⟨i, r, hi⟩, hid, _, hkey, hsame, hall⟩ := posting hkeyed hplain hrun hn hk hu.2
    obtain ⟨b, hbd, hl⟩ := C97_boundary_exists fields file.content (by
      have h1 := hsm _ _ _ _ (List.mem_of_getElem? hi); have h2 := hu.1.1; omega)
    obtain ⟨hsent, hread⟩ := C102_read_iff cors origin b hbd.1 (by omega)
    rw [hsame] at ha hh
    have := Site.WireLives.post (mime := mime) (cors := cors) k file fields _ url origin b bucket fields (escapeName file.name) file.content time store (204, []) _
      (ih hn hs' hsm) hk rfl hb ⟨hbd, by omega⟩ hsent ((hall b hbd _ _ _).2 ⟨rfl, rfl, rfl⟩) (handles_name hid hkey hh)
      ⟨fun _ => rfl, fun hx => absurd ha hx⟩ (.inl ⟨hread.2 hcors, rfl⟩)
    rwa [after_ok] at this
  | @uploadFails tr s k file fields url bucket time store hrun hk hb hh ih =>
    have hs' := (usual_uploads hk).1 hs
    have hu := hs'.1 file (List.mem_map.2 ⟨_, List.mem_of_getElem? hk, rfl⟩)
    obtain ⟨id, _, ⟨i, r, hi⟩, hid, _, hkey, hsame, hall⟩ := posting hkeyed hplain hrun hn hk hu.2
    obtain ⟨b, hbd, hl⟩ := C97_boundary_exists fields file.content (by
      have h1 := hsm _ _ _ _ (List.mem_of_getElem? hi); have h2 := hu.1.1; omega)
    obtain ⟨hsent, _⟩ := C102_read_iff cors origin b hbd.1 (by omega)
    rw [hsame] at hh
    exact .lost k file fields _ url origin b bucket fields (escapeName file.name) file.content time store (ih hn hs' hsm) hk rfl hb
      ⟨hbd, by omega⟩ hsent ((hall b hbd _ _ _).2 ⟨rfl, rfl, rfl⟩) (handles_name hid hkey hh)
  | @fail tr s k file u _ hk ih => exact .fail k file u (ih hn ((usual_uploads (store := s.store) hk).1 hs) hsm) hk
  | @visit tr s r _ hu ih =>
    obtain ⟨h1, h2⟩ := hs
    obtain ⟨q, hq⟩ := h2 r (by simp)
    exact .visit q r (ih hn ⟨h1, fun x hx => h2 x (by simp only [List.map_append]; exact List.mem_append_left _ hx)⟩ (small_of (fun _ _ hm => List.mem_append_left _ hm) hsm)) hq hu
  | @step tr s i r t uuid form url _ hi hu hg ih =>
    exact .step i r t uuid form url (ih (registered_prefix hn) ((usual_tasks hi).1 hs) (small_of (fun _ _ hm => kept_set hi (by rintro a rfl; rfl) hm) hsm)) hi hu hg
  | @drop tr s i r t _ hi ht ih => exact .drop i r t (ih hn ((usual_tasks hi).1 hs) (small_of (fun _ _ hm => kept_set hi (fun a he => absurd he (ht a)) hm) hsm)) hi ht
  | @elsewhere tr s store _ hst ih => exact .elsewhere store (ih hn hs hsm) hst
  | @restart tr s _ ih => exact .restart (ih (registered_prefix hn) (usual_restart.1 hs) (small_of (fun r a hm => List.mem_map.2 ⟨_, hm, rfl⟩) hsm))

theorem plain_alone {env : Env} {cfg : Config} {email pem : Str} (hk : cfg.signingKey = .serviceAccount email pem)
    (he : ∀ c ∈ email, c ∉ s% "\r\n") (hb : ∀ c ∈ cfg.bucketName, c ∉ s% "\r\n") : FormsPlain (.alone env cfg) := by
  intro id n c fs hid hc hf
  obtain ⟨now, start, hf⟩ := alone_form hf
  obtain ⟨w, w', hnow, hstart, hbuild⟩ := hf
  exact ⟨formFor_names ⟨w, w', hnow, hstart, hbuild⟩,
    created_plain (t := now + 60000000000) hbuild (by rw [hk]; rintro a rfl; exact he) hb hc hid⟩

private theorem plain_inLives {env : Nat → Env} {base : Nat → Nat → Str} {calls : Nat → Sys}
    (hc : ∀ k, Sys.Reach (env k) (base k) (calls k)) {cfg : Config} {account : Str} {N E : Nat}
    (ho : ∀ k, KeyOwner (env k) (base k) (calls k).trace cfg.signingKey account N E) (he : ∀ c ∈ account, c ∉ s% "\r\n")
    (hb : ∀ c ∈ cfg.bucketName, c ∉ s% "\r\n") : FormsPlain (.inLives calls cfg) := by
  rintro id n c fs hid ht ⟨l, hf⟩
  obtain ⟨now, start, hf⟩ := shared_form (hc l) hf
  refine ⟨formFrom_names (hc l) hf, ?_⟩
  obtain ⟨hist, hv, hret⟩ := hf
  obtain ⟨env', w, w', _, hbuild, hau, _⟩ := form_replay_owned (hc l) hret rfl (ho l)
  exact created_plain (t := now + 60000000000) hbuild (fun a ha => by rw [hau a ha]; exact he) hb ht hid

/-- C103. With JSON over HTTP between the pages and the server, multipart bodies from the pages to the storage server, and browsers that
apply the CORS configuration of the bucket, exactly those histories are possible that are possible without (`Site.Lives`) with files and
requests that can be sent: nothing is lost, changed or mixed up between what the pages send and what is received. -/
theorem C103_site (mime : MimeTypes) (cors : List CorsEntry)
    (hcors : ∃ origin, ∃ e ∈ cors, (s% "*" ∈ e.origins ∨ origin ∈ e.origins) ∧ s% "POST" ∈ e.methods)
    (env : Env) (cfg : Config) (email pem : Str) (hk : cfg.signingKey = .serviceAccount email pem) (he : ∀ c ∈ email, c ∉ s% "\r\n")
    (hb : ∀ c ∈ cfg.bucketName, c ∉ s% "\r\n") (account : Str) (N E : Nat) (tr : List Episode) (s : Site)
    (hn : (registeredIds tr).Nodup) (hs : s.SmallForms) :
    Site.WireLives mime cors (.alone env cfg) cfg account N E tr s ↔
      Site.Lives (.alone env cfg) cfg account N E tr s ∧ s.Usual mime :=
  ⟨fun h => wire_lives (keyed_alone env cfg) (plain_alone hk he hb) h hn,
    fun h => lives_wire (keyed_alone env cfg) (plain_alone hk he hb) hcors h.1 hn h.2 hs⟩

/-- C103. The same when the calls of the crate run concurrently and one account owns the key, for a bound token too. -/
theorem C103_shared_site (mime : MimeTypes) (cors : List CorsEntry)
    (hcors : ∃ origin, ∃ e ∈ cors, (s% "*" ∈ e.origins ∨ origin ∈ e.origins) ∧ s% "POST" ∈ e.methods)
    (env : Nat → Env) (base : Nat → Nat → Str) (calls : Nat → Sys) (hc : ∀ k, Sys.Reach (env k) (base k) (calls k)) (cfg : Config)
    (account : Str) (N E : Nat) (ho : ∀ k, KeyOwner (env k) (base k) (calls k).trace cfg.signingKey account N E)
    (he : ∀ c ∈ account, c ∉ s% "\r\n") (hb : ∀ c ∈ cfg.bucketName, c ∉ s% "\r\n") (tr : List Episode) (s : Site)
    (hn : (registeredIds tr).Nodup) (hs : s.SmallForms) :
    Site.WireLives mime cors (.inLives calls cfg) cfg account N E tr s ↔
      Site.Lives (.inLives calls cfg) cfg account N E tr s ∧ s.Usual mime :=
  ⟨fun h => wire_lives (keyed_inLives hc cfg) (plain_inLives hc ho he hb) h hn,
    fun h => lives_wire (keyed_inLives hc cfg) (plain_inLives hc ho he hb) hcors h.1 hn h.2 hs⟩

/-- C103. Hence what a page shows at the end is stored byte for byte, whatever the CORS configuration: the bytes of the file went through
the multipart body unchanged. -/
theorem C103_stored (mime : MimeTypes) (cors : List CorsEntry) (env : Env) (cfg : Config) (email pem : Str)
    (hk : cfg.signingKey = .serviceAccount email pem) (he : ∀ c ∈ email, c ∉ s% "\r\n") (hb : ∀ c ∈ cfg.bucketName, c ∉ s% "\r\n")
    (account : Str) (N E : Nat) (tr : List Episode) (s : Site) (h : Site.WireLives mime cors (.alone env cfg) cfg account N E tr s)
    (hn : (registeredIds tr).Nodup) (k : Nat) (file : ChosenFile) (u : Upload) (hu : s.uploads[k]? = some (file, u)) (hh : HasUploaded u) :
    ∃ i id, .event (.created i id) ∈ tr ∧ (∀ id', u = .uploaded id' → id' = id) ∧
      s.store (utf8 cfg.bucketName) (utf8 id) = some file.content :=
  C100_stays_stored env cfg account N E tr s (wire_lives (keyed_alone env cfg) (plain_alone hk he hb) h hn).1 hn k file u hu hh

private theorem not_sent {u : Upload} (i : Nat) (h : ¬ HasUploaded u) : ¬ HasUploaded (u.sent i) := by
  cases u <;> simp_all [HasUploaded, Upload.sent]

private theorem not_received {u : Upload} (resp : WebResponse) (h : ¬ HasUploaded u) : ¬ HasUploaded (u.receives resp) := by
  cases u with
  | registering i =>
    show ¬ HasUploaded (if resp.status ≠ 200 then .failed else match (jsonParse resp.body).bind readForm with
      | some (fields, method, url) => .uploading fields method url
      | none => .failed)
    split
    · exact id
    · split <;> exact id
  | _ => simp_all [HasUploaded, Upload.receives]

private theorem none_set {l : List (ChosenFile × Upload)} {k : Nat} {file : ChosenFile} {u : Upload} (h : ∀ p ∈ l, ¬ HasUploaded p.2)
    (hu : ¬ HasUploaded u) : ∀ p ∈ l.set k (file, u), ¬ HasUploaded p.2 := by
  intro p hp
  rcases List.mem_or_eq_of_mem_set hp with hp | rfl
  · exact h p hp
  · exact hu

/-- C103. The configuration matters: if no entry of the bucket allows `POST`, no page ever gets further than its upload, although the
storage server may store the files. -/
theorem C103_blocked (mime : MimeTypes) (cors : List CorsEntry) (hcors : ∀ e ∈ cors, s% "POST" ∉ e.methods) (crate : Crate) (cfg : Config)
    (account : Str) (N E : Nat) (tr : List Episode) (s : Site) (h : Site.WireLives mime cors crate cfg account N E tr s) (k : Nat)
    (file : ChosenFile) (u : Upload) (hk : s.uploads[k]? = some (file, u)) : ¬ HasUploaded u := by
  suffices ∀ p ∈ s.uploads, ¬ HasUploaded p.2 from this _ (List.mem_of_getElem? hk)
  clear hk
  induction h with
  | start store => simp
  | choose file' _ _ ih =>
    intro p hp
    rcases List.mem_append.1 hp with hp | hp
    · exact ih p hp
    · rcases List.mem_singleton.1 hp with rfl
      exact id
  | send k file' u' q r _ hk _ _ ih => exact none_set ih (not_sent _ (ih _ (List.mem_of_getElem? hk)))
  | refuse k file' u' q f _ hk _ _ ih => exact none_set ih id
  | answer k i file' u' r reply resp _ hk _ _ _ ih => exact none_set ih (not_received resp (ih _ (List.mem_of_getElem? hk)))
  | post k file' fields method url origin boundary bucket fields' filename content time store answer got _ hk hm _ hbd _ _ _ _ hg ih =>
    subst hm
    rcases hg with ⟨hr, _⟩ | ⟨_, rfl⟩
    · obtain ⟨e, he, _, hp⟩ := (C102_read_iff cors origin boundary hbd.1.1 hbd.2).2.1 hr
      exact absurd hp (hcors e he)
    · exact none_set ih id
  | lost k file' fields method url origin boundary bucket fields' filename content time store _ hk _ _ _ _ _ _ ih => exact none_set ih id
  | unread k file' fields method url boundary answer _ hk _ _ ha ih =>
    rw [after_other fields ha]
    exact none_set ih id
  | fail k file' u' _ hk ih => exact none_set ih id
  | visit q r _ _ _ ih => exact ih
  | step i r t uuid form url _ _ _ _ ih => exact ih
  | drop i r t _ _ _ ih => exact ih
  | elsewhere store _ _ ih => exact ih
  | restart _ ih => exact ih

end CSS
