import Verif.Props.ImageHttp
import Verif.Props.ImageSite
/-
C94: with HTTP between pages and server the site does what it does without.
-/
namespace CSS
open Spec ImageUploader

theorem map_fst_set {α β : Type} {l : List (α × β)} {k : Nat} {a : α} {b b' : β} (h : l[k]? = some (a, b)) :
    (l.set k (a, b')).map (·.1) = l.map (·.1) := by
  rw [List.map_set]
  apply List.ext_getElem?
  intro i
  rw [List.getElem?_set]
  split
  · rename_i hi
    subst hi
    rw [List.length_map, if_pos (some_lt h), List.getElem?_map, h]
    rfl
  · rfl

private theorem createdIds_prefix {tr es : List Event} (h : (createdIds (tr ++ es)).Nodup) : (createdIds tr).Nodup := by
  unfold createdIds at h ⊢
  rw [List.filterMap_append] at h
  exact (List.nodup_append.1 h).1

/-- All files of the site fit into requests, and all requests that the server has got can be sent. -/
def SiteSendable (mime : MimeTypes) (s : Site) : Prop :=
  (∀ f ∈ s.uploads.map (·.1), f.Fits) ∧ ∀ r ∈ s.server.tasks.map (·.1), ∃ q, route mime q = .api r

private theorem uploaded_uuid {crate : Crate} (hkeyed : FormsKeyed crate) {cfg : Config} {account : Str} {N E : Nat}
    {tr : List Event} {s : Site} (h : Site.Run crate cfg account N E tr s) (hn : (createdIds tr).Nodup) {k : Nat}
    {file : ChosenFile} {u : Upload} (hk : s.uploads[k]? = some (file, u)) : ∀ id, u = .uploaded id → IsUuid id := by
  rintro id rfl
  obtain ⟨own, inv⟩ := site_inv hkeyed h hn
  exact (inv.uploads k file _ hk).2.1

private theorem sendable_uploads {mime : MimeTypes} {s : Site} {store : Store} {k : Nat} {file : ChosenFile} {u u' : Upload}
    (hk : s.uploads[k]? = some (file, u)) :
    SiteSendable mime { s with store := store, uploads := s.uploads.set k (file, u') } ↔ SiteSendable mime s := by
  unfold SiteSendable
  rw [map_fst_set hk]

private theorem sendable_tasks {mime : MimeTypes} {s : Site} {images : List Image} {i : Nat} {r : Req} {t t' : Task}
    (hi : s.server.tasks[i]? = some (r, t)) :
    SiteSendable mime { s with server := ⟨images, s.server.tasks.set i (r, t')⟩ } ↔ SiteSendable mime s := by
  unfold SiteSendable
  simp only [map_fst_set hi]

/-- C94. What the site does with HTTP between pages and server is exactly what it does without, as long as the sizes and
types of the files fit into requests and only requests are handled that can be sent. -/
theorem site_web {crate : Crate} (hkeyed : FormsKeyed crate) (mime : MimeTypes) (cfg : Config) (account : Str) (N E : Nat)
    (tr : List Event) (s : Site) (hn : (createdIds tr).Nodup) :
    Site.WebRun mime crate cfg account N E tr s ↔ Site.Run crate cfg account N E tr s ∧ SiteSendable mime s := by
  constructor
  · intro h
    induction h with
    | start store => exact ⟨.start store, by simp [SiteSendable]⟩
    | @choose tr s file _ hf ih =>
      obtain ⟨hr, h1, h2⟩ := ih hn
      refine ⟨.choose file hr, fun f hm => ?_, h2⟩
      simp only [List.map_append, List.map_cons, List.map_nil, List.mem_append, List.mem_singleton] at hm
      rcases hm with hm | rfl
      · exact h1 f hm
      · exact hf
    | @send tr s k file u q r _ hk hq hrt ih =>
      obtain ⟨hr, h1, h2⟩ := ih hn
      have hf : file.Fits := h1 file (List.mem_map.2 ⟨_, List.mem_of_getElem? hk, rfl⟩)
      have hreq : u.request file = some r := by
        cases e : u.request file with
        | none => rw [C94_untyped mime file u q hq e hf.1] at hrt; cases hrt
        | some r' =>
          rw [C94_sent mime file u q r' hq e (uploaded_uuid hkeyed hr hn hk) hf.1 hf.2] at hrt
          cases hrt; rfl
      refine ⟨.send k file u r hr hk hreq, ?_, fun x hm => ?_⟩
      · simp only [map_fst_set hk]; exact h1
      · simp only [List.map_append, List.map_cons, List.map_nil, List.mem_append, List.mem_singleton] at hm
        rcases hm with hm | rfl
        · exact h2 x hm
        · exact ⟨q, hrt⟩
    | @refuse tr s k file u q f _ hk hq hrt ih =>
      obtain ⟨hr, hs⟩ := ih hn
      exact ⟨.fail k file u hr hk, (sendable_uploads (store := s.store) hk).2 hs⟩
    | @answer tr s k i file u r reply resp _ hk hw ht hweb ih =>
      obtain ⟨hr, hs⟩ := ih hn
      rw [C94_received u reply resp hweb]
      exact ⟨.answer k i file u r reply hr hk hw ht, (sendable_uploads (store := s.store) hk).2 hs⟩
    | @upload tr s k file fields url bucket time store _ hk hb ha hh ih =>
      obtain ⟨hr, hs⟩ := ih hn
      exact ⟨.upload k file fields url bucket time store hr hk hb ha hh, (sendable_uploads hk).2 hs⟩
    | @uploadFails tr s k file fields url bucket time store _ hk hb hh ih =>
      obtain ⟨hr, hs⟩ := ih hn
      exact ⟨.uploadFails k file fields url bucket time store hr hk hb hh, (sendable_uploads hk).2 hs⟩
    | @fail tr s k file u _ hk ih =>
      obtain ⟨hr, hs⟩ := ih hn
      exact ⟨.fail k file u hr hk, (sendable_uploads (store := s.store) hk).2 hs⟩
    | @visit tr s q r _ hrt hu ih =>
      obtain ⟨hr, h1, h2⟩ := ih hn
      refine ⟨.visit r hr hu, h1, fun x hm => ?_⟩
      simp only [List.map_append, List.map_cons, List.map_nil, List.mem_append, List.mem_singleton] at hm
      rcases hm with hm | rfl
      · exact h2 x hm
      · exact ⟨q, hrt⟩
    | @step tr s i r t uuid form url _ hi hu hg ih =>
      obtain ⟨hr, hs⟩ := ih (createdIds_prefix hn)
      exact ⟨.step i r t uuid form url hr hi hu hg, (sendable_tasks hi).2 hs⟩
    | @drop tr s i r t _ hi ht ih =>
      obtain ⟨hr, hs⟩ := ih hn
      exact ⟨.drop i r t hr hi ht, (sendable_tasks hi).2 hs⟩
    | @elsewhere tr s store _ hst ih =>
      obtain ⟨hr, hs⟩ := ih hn
      exact ⟨.elsewhere store hr hst, hs⟩
  · rintro ⟨h, hs⟩
    induction h with
    | start store => exact .start store
    | @choose tr s file _ ih =>
      obtain ⟨h1, h2⟩ := hs
      exact .choose file (ih hn ⟨fun f hf => h1 f (by simp only [List.map_append]; exact List.mem_append_left _ hf), h2⟩)
        (h1 file (by simp))
    | @send tr s k file u r hrun hk hreq ih =>
      obtain ⟨h1, h2⟩ := hs
      simp only [map_fst_set hk] at h1
      have hw := ih hn ⟨h1, fun x hx => h2 x (by simp only [List.map_append]; exact List.mem_append_left _ hx)⟩
      have hf : file.Fits := h1 file (List.mem_map.2 ⟨_, List.mem_of_getElem? hk, rfl⟩)
      have hq : ∃ q, u.webRequest file = some q := by
        cases u <;> first | exact ⟨_, rfl⟩ | cases hreq
      obtain ⟨q, hq⟩ := hq
      exact .send k file u q r hw hk hq (C94_sent mime file u q r hq hreq (uploaded_uuid hkeyed hrun hn hk) hf.1 hf.2)
    | @answer tr s k i file u r reply _ hk hw ht ih =>
      have hrun := ih hn ((sendable_uploads (store := s.store) hk).1 hs)
      cases hweb : reply.web with
      | none =>
        cases reply with
        | aborted =>
          have : u.answered .aborted = .failed := by cases u <;> rfl
          rw [this]
          exact .fail k file u hrun hk
        | _ => cases hweb
      | some resp =>
        rw [← C94_received u reply resp hweb]
        exact .answer k i file u r reply resp hrun hk hw ht hweb
    | @upload tr s k file fields url bucket time store _ hk hb ha hh ih =>
      exact .upload k file fields url bucket time store (ih hn ((sendable_uploads hk).1 hs)) hk hb ha hh
    | @uploadFails tr s k file fields url bucket time store _ hk hb hh ih =>
      exact .uploadFails k file fields url bucket time store (ih hn ((sendable_uploads hk).1 hs)) hk hb hh
    | @fail tr s k file u _ hk ih => exact .fail k file u (ih hn ((sendable_uploads (store := s.store) hk).1 hs)) hk
    | @visit tr s r _ hu ih =>
      obtain ⟨h1, h2⟩ := hs
      obtain ⟨q, hq⟩ := h2 r (by simp)
      exact .visit q r (ih hn ⟨h1, fun x hx => h2 x (by simp only [List.map_append]; exact List.mem_append_left _ hx)⟩) hq hu
    | @step tr s i r t uuid form url _ hi hu hg ih =>
      exact .step i r t uuid form url (ih (createdIds_prefix hn) ((sendable_tasks hi).1 hs)) hi hu hg
    | @drop tr s i r t _ hi ht ih => exact .drop i r t (ih hn ((sendable_tasks hi).1 hs)) hi ht
    | @elsewhere tr s store _ hst ih => exact .elsewhere store (ih hn hs) hst

/-- C94. The same for the example server with its own key. -/
theorem C94_site (mime : MimeTypes) (env : Env) (cfg : Config) (account : Str) (N E : Nat) (tr : List Event) (s : Site)
    (hn : (createdIds tr).Nodup) :
    Site.WebRun mime (.alone env cfg) cfg account N E tr s ↔
      Site.Run (.alone env cfg) cfg account N E tr s ∧ (∀ p ∈ s.uploads, p.1.Fits) ∧
        ∀ p ∈ s.server.tasks, ∃ q, route mime q = .api p.1 := by
  rw [site_web (keyed_alone env cfg) mime cfg account N E tr s hn]
  unfold SiteSendable
  simp

end CSS
