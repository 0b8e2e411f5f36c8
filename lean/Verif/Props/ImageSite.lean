import Verif.Spec.ImageSite
import Verif.Props.Storage
/-
C81: end to end, with the page of the example. C82: the list on the page.
-/
set_option linter.unusedSimpArgs false
namespace CSS
open Spec ImageUploader Spec.ImageUploader

/-! ### The form data of the page -/

theorem fieldValues_cons (e : Str × Str) (es : List (Str × Str)) (x : Str) :
    fieldValues (e :: es) x = if e.1 = x then e.2 :: fieldValues es x else fieldValues es x := by
  unfold fieldValues
  by_cases h : e.1 = x <;> simp [h]

theorem setEntry_values (name value x : Str) (l : List (Str × Str)) :
    fieldValues (setEntry name value l) x = if x = name then [value] else fieldValues l x := by
  have hrem : ∀ l : List (Str × Str), fieldValues (l.filter fun e => decide (e.1 ≠ name)) x =
      if x = name then [] else fieldValues l x := by
    intro l
    induction l with
    | nil => simp [fieldValues]
    | cons e es ih =>
      rw [List.filter_cons]
      by_cases h1 : e.1 = name
      · rw [if_neg (by simpa using h1), ih]
        by_cases h2 : x = name
        · rw [if_pos h2, if_pos h2]
        · rw [if_neg h2, if_neg h2, fieldValues_cons, if_neg (fun (h : e.1 = x) => h2 (h.symm.trans h1))]
      · rw [if_pos (by simpa using h1), fieldValues_cons, ih, fieldValues_cons]
        by_cases h2 : x = name
        · rw [if_pos h2, if_pos h2, if_neg (fun h => h1 (h.trans h2))]
        · rw [if_neg h2, if_neg h2]
  induction l with
  | nil =>
    rw [setEntry, fieldValues_cons]
    by_cases h : x = name
    · rw [if_pos h.symm, if_pos h]; rfl
    · rw [if_neg (Ne.symm h), if_neg h]
  | cons e es ih =>
    unfold setEntry
    split
    · rename_i he
      rw [fieldValues_cons, hrem]
      by_cases h : x = name
      · rw [if_pos h, if_pos h, if_pos h.symm]
      · rw [if_neg h, if_neg h, if_neg (Ne.symm h), fieldValues_cons, if_neg (fun (hx : e.1 = x) => h (hx.symm.trans he))]
    · rename_i he
      rw [fieldValues_cons, ih, fieldValues_cons]
      by_cases h : x = name
      · rw [if_pos h, if_pos h, if_neg (fun hx => he (hx.trans h))]
      · rw [if_neg h, if_neg h]

theorem entries_values (fields : List (Str × Str)) (x : Str) : ∀ acc : List (Str × Str),
    fieldValues (fields.foldl (fun entries f => setEntry f.1 f.2 entries) acc) x =
      match (fieldValues fields x).getLast? with
      | none => fieldValues acc x
      | some v => [v] := by
  induction fields with
  | nil => intro acc; rfl
  | cons f fs ih =>
    intro acc
    rw [List.foldl_cons, ih, fieldValues_cons, setEntry_values]
    by_cases h : f.1 = x
    · rw [if_pos h, if_pos h.symm]
      cases hl : fieldValues fs x with
      | nil => rfl
      | cons v vs => rw [List.getLast?_cons_cons]; cases hg : (v :: vs).getLast? <;> simp_all
    · rw [if_neg h, if_neg (Ne.symm h)]

/-- A field that is given once is sent once. -/
theorem formEntries_single {fields : List (Str × Str)} {x v : Str} (h : fieldValues fields x = [v]) :
    fieldValues (formEntries fields) x = [v] := by
  unfold formEntries
  rw [entries_values, h]
  rfl

theorem setEntry_new {name value : Str} : ∀ {l : List (Str × Str)}, name ∉ l.map (·.1) →
    setEntry name value l = l ++ [(name, value)]
  | [], _ => rfl
  | e :: es, h => by
    simp only [List.map_cons, List.mem_cons, not_or] at h
    rw [setEntry, if_neg (Ne.symm h.1), setEntry_new h.2]
    rfl

/-- Fields with different names are sent as they are. -/
theorem formEntries_nodup {fields : List (Str × Str)} (h : (fields.map (·.1)).Nodup) : formEntries fields = fields := by
  have key : ∀ (fs acc : List (Str × Str)), ((acc ++ fs).map (·.1)).Nodup →
      fs.foldl (fun entries f => setEntry f.1 f.2 entries) acc = acc ++ fs := by
    intro fs
    induction fs with
    | nil => intro acc _; simp
    | cons f fs ih =>
      intro acc h
      have hf : f.1 ∉ acc.map (·.1) := by
        rw [List.map_append, List.nodup_append] at h
        exact fun hm => h.2.2 _ hm _ (by simp) rfl
      rw [List.foldl_cons, setEntry_new hf, ih _ (by simpa using h)]
      simp
  simpa [formEntries] using key fields [] (by simpa using h)

theorem findKey_single : ∀ {fields : List (Str × Str)} {v : Str}, fieldValues fields (s% "key") = [v] → findKey fields = some v
  | [], v, h => by simp [fieldValues] at h
  | f :: fs, v, h => by
    rw [fieldValues_cons] at h
    unfold findKey
    rw [List.find?_cons]
    split at h
    · rename_i hf
      rw [decide_eq_true hf]
      simp only [List.cons.injEq] at h
      simp [h.1]
    · rename_i hf
      rw [decide_eq_false hf]
      exact findKey_single h

theorem bucketOf_prefix (b : Str) : bucketOf (s% "https://storage.googleapis.com/" ++ b) = some b := by
  unfold bucketOf
  rw [if_pos (List.isPrefixOf_iff_prefix.2 (List.prefix_append _ _))]
  rfl

theorem formFor_key {env : Env} {cfg : Config} {id : Str} {n : Nat} {c : Str} {fs : List (Str × Str)} {now start : Time}
    (h : FormFor env cfg id n c fs now start) : fieldValues fs (s% "key") = [id] := by
  obtain ⟨w, w', _, _, hb⟩ := h
  exact form_key rfl hb rfl

theorem build_names {env : Env} {cfg : Config} {id : Str} {n : Nat} {c : Str} {t : Time} {w w' : World} {fs : List (Str × Str)}
    (hb : (Builder.ofCalls (createCalls cfg id n c t)).build env w = (.ok fs, w')) : (fs.map (·.1)).Nodup := by
  obtain ⟨_, _, _, _, _, _, computed, rfl, _⟩ := form_facts env _ _ _ w' fs rfl hb
  unfold signedForm
  rw [show (List.filterMap callMeta (createCalls cfg id n c t)) = [] from rfl, List.map_nil, List.append_nil]
  have key : ∀ (g : Str → Option Str) (l : List Str),
      ((l.filterMap fun n => (g n).map fun v => (n, v)).map (·.1)).Sublist l := by
    intro g l
    induction l with
    | nil => simp
    | cons a l ih =>
      rw [List.filterMap_cons]
      cases g a with
      | none => exact ih.cons a
      | some v => exact ih.cons_cons a
  exact (key _ _).nodup (by decide)

theorem formFor_names {env : Env} {cfg : Config} {id : Str} {n : Nat} {c : Str} {fs : List (Str × Str)} {now start : Time}
    (h : FormFor env cfg id n c fs now start) : (fs.map (·.1)).Nodup := by
  obtain ⟨w, w', _, _, hb⟩ := h
  exact build_names (t := now + 60000000000) hb

/-- The forms of the crate have the key that was asked for. -/
def FormsKeyed (crate : Crate) : Prop := ∀ id n c fs, crate.form id n c (.ok fs) → fieldValues fs (s% "key") = [id]

theorem keyed_alone (env : Env) (cfg : Config) : FormsKeyed (.alone env cfg) := by
  intro id n c fs h
  obtain ⟨_, _, h⟩ := alone_form h
  exact formFor_key h

/-! ### What is known of every upload -/

/-- The image `id` was registered by upload `k`. -/
def Owns (own : Nat → Option Nat) (tr : List Event) (k : Nat) (id : Str) : Prop := ∃ i, own i = some k ∧ .created i id ∈ tr

/-- The image `id` of upload `k` is stored. -/
def Holds (cfg : Config) (own : Nat → Option Nat) (tr : List Event) (store : Store) (k : Nat) (file : ChosenFile) (id : Str) : Prop :=
  Owns own tr k id ∧ IsUuid id ∧ store (utf8 cfg.bucketName) (utf8 id) = some file.content

/-- `P` was true before the first event of request `j`. -/
def Since (tr : List Event) (P : List Event → Prop) (j : Nat) : Prop := ∃ a b, tr = a ++ b ∧ P a ∧ eventsOf a j = []

def UploadInv (cfg : Config) (own : Nat → Option Nat) (tr : List Event) (tasks : List (Req × Task)) (store : Store) (k : Nat)
    (f : ChosenFile) : Upload → Prop
  | .chosen => True
  | .registering i => own i = some k ∧ ∃ t, tasks[i]? = some (.create f.content.length f.type, t)
  | .uploading fields method url => ∃ i, own i = some k ∧
      tasks[i]? = some (.create f.content.length f.type, .replied (.form fields method url))
  | .uploaded id => Holds cfg own tr store k f id
  | .reporting j => ∃ id, Holds cfg own tr store k f id ∧ Since tr (fun a => id ∈ createdIds a) j ∧
      ∃ t, tasks[j]? = some (.update id, t)
  | .reported => ∃ id, Holds cfg own tr store k f id ∧ UploadedIn tr id
  | .listing l => ∃ id, Holds cfg own tr store k f id ∧ Since tr (fun a => UploadedIn a id) l ∧ ∃ t, tasks[l]? = some (.list, t)
  | .shown urls => ∃ id l, Holds cfg own tr store k f id ∧ Since tr (fun a => UploadedIn a id) l ∧
      tasks[l]? = some (.list, .replied (.urls urls))
  | .failed => True

/-- The file was uploaded. -/
def Past : Upload → Prop
  | .chosen | .registering _ | .uploading _ _ _ => False
  | _ => True

structure SiteInv (crate : Crate) (cfg : Config) (own : Nat → Option Nat) (tr : List Event) (s : Site) : Prop where
  run : Run crate cfg tr s.server
  uploads : ∀ k f u, s.uploads[k]? = some (f, u) → UploadInv cfg own tr s.server.tasks s.store k f u
  updates : ∀ (j : Nat) (id : Str) (t : Task), s.server.tasks[j]? = some (.update id, t) →
    ∃ k f u, s.uploads[k]? = some (f, u) ∧ Past u ∧ Holds cfg own tr s.store k f id
  owned : ∀ i k, own i = some k → i < s.server.tasks.length ∧ ∃ f u, s.uploads[k]? = some (f, u) ∧ u ≠ .chosen
  once : ∀ i j k, own i = some k → own j = some k → i = j

theorem some_lt {α : Type} {l : List α} {i : Nat} {a : α} (h : l[i]? = some a) : i < l.length :=
  (List.getElem?_eq_some_iff.1 h).1

/-- What stays when the site goes on. -/
structure Later (own own' : Nat → Option Nat) (tr tr' : List Event) (tasks tasks' : List (Req × Task)) : Prop where
  owner : ∀ i k, own i = some k → own' i = some k
  trace : ∃ es, tr' = tr ++ es
  handlers : ∀ (i : Nat) (r : Req) (t : Task), tasks[i]? = some (r, t) →
    ∃ t' : Task, tasks'[i]? = some (r, t') ∧ ∀ a, t = .replied a → t' = .replied a

theorem Later.refl (own : Nat → Option Nat) (tr : List Event) (tasks : List (Req × Task)) : Later own own tr tr tasks tasks :=
  ⟨fun _ _ h => h, ⟨[], by simp⟩, fun _ _ t h => ⟨t, h, fun _ h => h⟩⟩

theorem Later.owns {own own' : Nat → Option Nat} {tr tr' : List Event} {tasks tasks' : List (Req × Task)}
    (h : Later own own' tr tr' tasks tasks') {k : Nat} {id : Str} (ho : Owns own tr k id) : Owns own' tr' k id := by
  obtain ⟨i, h1, h2⟩ := ho
  obtain ⟨es, rfl⟩ := h.trace
  exact ⟨i, h.owner i k h1, List.mem_append_left _ h2⟩

theorem Later.holds {cfg : Config} {own own' : Nat → Option Nat} {tr tr' : List Event} {tasks tasks' : List (Req × Task)}
    {store store' : Store} {k : Nat} (h : Later own own' tr tr' tasks tasks')
    (hs : ∀ id, Owns own tr k id → IsUuid id → store' (utf8 cfg.bucketName) (utf8 id) = store (utf8 cfg.bucketName) (utf8 id))
    {f : ChosenFile} {id : Str} (hh : Holds cfg own tr store k f id) : Holds cfg own' tr' store' k f id :=
  ⟨h.owns hh.1, hh.2.1, (hs id hh.1 hh.2.1).trans hh.2.2⟩

theorem Later.since {own own' : Nat → Option Nat} {tr tr' : List Event} {tasks tasks' : List (Req × Task)}
    (h : Later own own' tr tr' tasks tasks') {P : List Event → Prop} {j : Nat} (hs : Since tr P j) : Since tr' P j := by
  obtain ⟨a, b, rfl, h1, h2⟩ := hs
  obtain ⟨es, rfl⟩ := h.trace
  exact ⟨a, b ++ es, by simp, h1, h2⟩

theorem uploaded_more {tr es : List Event} {id : Str} (h : UploadedIn tr id) : UploadedIn (tr ++ es) id := by
  obtain ⟨before, between, after, i, j, rfl⟩ := h
  exact ⟨before, between, after ++ es, i, j, by simp⟩

theorem Later.upload {cfg : Config} {own own' : Nat → Option Nat} {tr tr' : List Event} {tasks tasks' : List (Req × Task)}
    {store store' : Store} {k : Nat} (h : Later own own' tr tr' tasks tasks')
    (hs : ∀ id, Owns own tr k id → IsUuid id → store' (utf8 cfg.bucketName) (utf8 id) = store (utf8 cfg.bucketName) (utf8 id))
    {f : ChosenFile} {u : Upload} (hu : UploadInv cfg own tr tasks store k f u) : UploadInv cfg own' tr' tasks' store' k f u := by
  cases u with
  | chosen => trivial
  | failed => trivial
  | registering i =>
    obtain ⟨h1, t, h2⟩ := hu
    obtain ⟨t', h3, _⟩ := h.handlers _ _ _ h2
    exact ⟨h.owner _ _ h1, t', h3⟩
  | uploading fields m url =>
    obtain ⟨i, h1, h2⟩ := hu
    obtain ⟨t', h3, h4⟩ := h.handlers _ _ _ h2
    rw [h4 _ rfl] at h3
    exact ⟨i, h.owner _ _ h1, h3⟩
  | uploaded id => exact h.holds hs hu
  | reporting j =>
    obtain ⟨id, h1, h2, t, h3⟩ := hu
    obtain ⟨t', h4, _⟩ := h.handlers _ _ _ h3
    exact ⟨id, h.holds hs h1, h.since h2, t', h4⟩
  | reported =>
    obtain ⟨id, h1, h2⟩ := hu
    refine ⟨id, h.holds hs h1, ?_⟩
    obtain ⟨es, rfl⟩ := h.trace
    exact uploaded_more h2
  | listing l =>
    obtain ⟨id, h1, h2, t, h3⟩ := hu
    obtain ⟨t', h4, _⟩ := h.handlers _ _ _ h3
    exact ⟨id, h.holds hs h1, h.since h2, t', h4⟩
  | shown urls =>
    obtain ⟨id, l, h1, h2, h3⟩ := hu
    obtain ⟨t', h4, h5⟩ := h.handlers _ _ _ h3
    rw [h5 _ rfl] at h4
    exact ⟨id, l, h.holds hs h1, h.since h2, h4⟩

theorem created_unique : ∀ {tr : List Event}, (createdIds tr).Nodup → ∀ {i j : Nat} {id : Str}, .created i id ∈ tr →
    .created j id ∈ tr → i = j := by
  intro tr
  induction tr with
  | nil => intro _ i j id h; cases h
  | cons e tr ih =>
    intro hn i j id hi hj
    have hmem : ∀ {i : Nat}, .created i id ∈ tr → id ∈ createdIds tr := fun h => by
      obtain ⟨a, b, rfl⟩ := List.append_of_mem h
      exact mem_createdIds.2 ⟨a, _, b, rfl⟩
    rw [show e :: tr = [e] ++ tr from rfl, createdIds_append] at hn
    obtain ⟨_, hn2, hd⟩ := List.nodup_append.1 hn
    rcases List.mem_cons.1 hi with h1 | h1 <;> rcases List.mem_cons.1 hj with h2 | h2
    · rw [← h1] at h2; cases h2; rfl
    · subst h1; exact absurd rfl (hd id (by simp [createdIds]) id (hmem h2))
    · subst h2; exact absurd rfl (hd id (by simp [createdIds]) id (hmem h1))
    · exact ih hn2 h1 h2

theorem created_lt {crate : Crate} {cfg : Config} {tr : List Event} {s : State} (h : Run crate cfg tr s) {i : Nat} {id : Str}
    (hm : .created i id ∈ tr) : i < s.tasks.length := by
  obtain ⟨_, _, _, _, ht⟩ := (C70_events crate cfg tr s h).1 i id hm
  exact some_lt ht

theorem eventsOf_mem {tr : List Event} {i : Nat} {e : Event} (h : e ∈ eventsOf tr i) : e ∈ tr := (List.mem_filter.1 h).1

theorem since_split {tr a b : List Event} {j : Nat} {e : Event} (htr : tr = a ++ b) (ha : eventsOf a j = [])
    (he : e ∈ eventsOf tr j) : e ∈ b := by
  rw [htr, eventsOf_append, ha, List.nil_append] at he
  exact eventsOf_mem he

theorem uploadedIn_of {a b : List Event} {id : Str} {j : Nat} (ha : id ∈ createdIds a) (hb : .updated j id ∈ b) :
    UploadedIn (a ++ b) id := by
  obtain ⟨x, i, y, rfl⟩ := mem_createdIds.1 ha
  obtain ⟨z, w, rfl⟩ := List.append_of_mem hb
  exact ⟨x, y ++ z, w, i, j, by simp⟩

/-- What a page that is about to post its form knows. -/
theorem uploading_facts {crate : Crate} (hkeyed : FormsKeyed crate) {cfg : Config} {tr : List Event} {s : State} (h : Run crate cfg tr s) {i n : Nat} {c m url : Str}
    {fields : List (Str × Str)} (hi : s.tasks[i]? = some (.create n c, .replied (.form fields m url))) :
    ∃ id, m = s% "POST" ∧ bucketOf url = some cfg.bucketName ∧ IsUuid id ∧ crate.form id n c (.ok fields) ∧
      .created i id ∈ tr ∧ findKey fields = some id ∧ fieldValues (formEntries fields) (s% "key") = [id] := by
  rcases creating crate cfg tr s h i n c _ hi with ⟨id, fields', he, hu, hf, hev⟩ | ⟨h | h, _⟩
  · rw [Reply.form.injEq] at he
    obtain ⟨rfl, rfl, rfl⟩ := he
    exact ⟨id, rfl, bucketOf_prefix _, hu, hf, eventsOf_mem (i := i) (by rw [hev]; simp), findKey_single (hkeyed _ _ _ _ hf),
      formEntries_single (hkeyed _ _ _ _ hf)⟩
  · cases h
  · cases h

theorem expand_uuid (filename : Str) {id : Str} (h : IsUuid id) : expand filename id = id :=
  expand_plain filename fun hi => uuid_no_variable h (hi.subset (by decide))

/-- A posted form changes no image of another upload. -/
theorem upload_others {crate : Crate} (hkeyed : FormsKeyed crate) {cfg : Config} {own : Nat → Option Nat} {tr : List Event} {s : State}
    (hrun : Run crate cfg tr s)
    (hn : (createdIds tr).Nodup) {k i n : Nat} {c m url bucket filename account : Str} {N E : Nat} {fields : List (Str × Str)}
    {file : Bytes} {time : Int} {store store' : Store} (hown : own i = some k)
    (hi : s.tasks[i]? = some (.create n c, .replied (.form fields m url)))
    (hh : Handles account N E (.form ⟨bucket, formEntries fields, file.length, time⟩ filename file) store store') {k' : Nat} (hk : k' ≠ k)
    (id' : Str) (ho : Owns own tr k' id') (_ : IsUuid id') :
    store' (utf8 cfg.bucketName) (utf8 id') = store (utf8 cfg.bucketName) (utf8 id') := by
  obtain ⟨id, _, hb', hid, _, hcr, _, hv⟩ := uploading_facts hkeyed hrun hi
  apply Classical.byContradiction
  intro hne
  obtain ⟨_, key, hkey, hobj⟩ := hh.others _ _ hne
  rw [hv, List.mem_singleton] at hkey
  rw [hkey, expand_uuid _ hid] at hobj
  obtain rfl := utf8_inj hobj
  obtain ⟨i', ho', hc'⟩ := ho
  obtain rfl := created_unique hn hcr hc'
  rw [hown] at ho'
  exact hk (Option.some.inj ho').symm

theorem past_set {us : List (ChosenFile × Upload)} {k : Nat} {f : ChosenFile} {u u' : Upload} (hk : us[k]? = some (f, u))
    (hp : Past u → Past u') {k' : Nat} {f' : ChosenFile} {v : Upload} (h : us[k']? = some (f', v)) (hv : Past v) :
    ∃ v', (us.set k (f, u'))[k']? = some (f', v') ∧ Past v' := by
  by_cases hkk : k = k'
  · subst hkk
    rw [hk] at h
    cases h
    exact ⟨u', List.getElem?_set_self (some_lt hk), hp hv⟩
  · exact ⟨v, by rw [List.getElem?_set_ne hkk, h], hv⟩

theorem chosen_set {us : List (ChosenFile × Upload)} {k : Nat} {f : ChosenFile} {u u' : Upload} (hk : us[k]? = some (f, u))
    (hp : u' ≠ .chosen) {k' : Nat} (h : ∃ f v, us[k']? = some (f, v) ∧ v ≠ .chosen) :
    ∃ f' v', (us.set k (f, u'))[k']? = some (f', v') ∧ v' ≠ .chosen := by
  obtain ⟨f', v, h, hv⟩ := h
  by_cases hkk : k = k'
  · subst hkk
    exact ⟨f, u', List.getElem?_set_self (some_lt hk), hp⟩
  · exact ⟨f', v, by rw [List.getElem?_set_ne hkk, h], hv⟩

theorem set_cases {α : Type} {us : List α} {k : Nat} {a : α} {k' : Nat} {b : α} (h : (us.set k a)[k']? = some b) :
    (k' = k ∧ b = a) ∨ (k' ≠ k ∧ us[k']? = some b) := by
  by_cases hkk : k = k'
  · subst hkk
    have : k < us.length := by
      have := some_lt h
      rwa [List.length_set] at this
    rw [List.getElem?_set_self this] at h
    exact .inl ⟨rfl, (Option.some.inj h).symm⟩
  · rw [List.getElem?_set_ne hkk] at h
    exact .inr ⟨Ne.symm hkk, h⟩

theorem append_cases {α : Type} {us : List α} {a : α} {k : Nat} {b : α} (h : (us ++ [a])[k]? = some b) :
    (k = us.length ∧ b = a) ∨ us[k]? = some b := by
  rw [List.getElem?_append] at h
  split at h
  · exact .inr h
  · rename_i hge
    rw [List.getElem?_singleton] at h
    split at h
    · exact .inl ⟨by omega, (Option.some.inj h).symm⟩
    · cases h

theorem append_keeps {α : Type} {us : List α} {a : α} {k : Nat} {b : α} (h : us[k]? = some b) : (us ++ [a])[k]? = some b := by
  rw [List.getElem?_append_left (some_lt h), h]

theorem step_keeps {cfg : Config} {uuid : Str} {images : List Image} {form : Res Failure (List (Str × Str))} {url : Res Failure Str} {tasks : List (Req × Task)} {i : Nat} {r : Req}
    {t : Task} (hi : tasks[i]? = some (r, t)) (j : Nat) (r' : Req) (t' : Task) (hj : tasks[j]? = some (r', t')) :
    ∃ t'', (tasks.set i (r, (t.step cfg uuid images form url).1))[j]? = some (r', t'') ∧ ∀ a, t' = .replied a → t'' = .replied a := by
  by_cases hij : i = j
  · subst hij
    rw [hi] at hj
    cases hj
    refine ⟨_, List.getElem?_set_self (some_lt hi), ?_⟩
    rintro a rfl
    rfl
  · exact ⟨t', by rw [List.getElem?_set_ne hij, hj], fun a h => h⟩

theorem receive_later {own : Nat → Option Nat} {tr : List Event} {tasks : List (Req × Task)} {x : Req × Task} :
    Later own own tr tr tasks (tasks ++ [x]) :=
  ⟨fun _ _ h => h, ⟨[], by simp⟩, fun _ _ t h => ⟨t, append_keeps h, fun _ h => h⟩⟩

/-- The invariant of the site. -/
theorem site_inv {crate : Crate} (hkeyed : FormsKeyed crate) {cfg : Config} {account : Str} {N E : Nat} {tr : List Event} {s : Site}
    (h : Site.Run crate cfg account N E tr s) : (createdIds tr).Nodup → ∃ own, SiteInv crate cfg own tr s := by
  induction h with
  | start store =>
    intro _
    exact ⟨fun _ => none, .start, by simp, by simp, by simp, by simp⟩
  | @choose tr s file h ih =>
    intro hn
    obtain ⟨own, hi⟩ := ih hn
    refine ⟨own, hi.run, ?_, ?_, ?_, hi.once⟩
    · intro k f u hk
      rcases append_cases hk with ⟨_, hb⟩ | hk
      · cases hb; trivial
      · exact hi.uploads k f u hk
    · intro j id t hj
      obtain ⟨k, f, u, h1, h2⟩ := hi.updates j id t hj
      exact ⟨k, f, u, append_keeps h1, h2⟩
    · intro i k hk
      obtain ⟨h1, f, u, h2, h3⟩ := hi.owned i k hk
      exact ⟨h1, f, u, append_keeps h2, h3⟩
  | @send tr s k file u r h hk hr ih =>
    intro hn
    obtain ⟨own, hi⟩ := ih hn
    have hrun := Run.receive r hi.run
    have hold := hi.uploads k file u hk
    have hlast : (s.server.tasks ++ [(r, r.task)])[s.server.tasks.length]? = some (r, r.task) := by simp
    have hnone : ∀ a : List Event, (∃ b, tr = a ++ b) → eventsOf a s.server.tasks.length = [] := by
      rintro a ⟨b, hb⟩
      have := (run_inv hi.run).2 s.server.tasks.length (Nat.le_refl _)
      rw [hb, eventsOf_append, List.append_eq_nil_iff] at this
      exact this.1
    have past : Past u → Past (u.sent s.server.tasks.length) := by
      cases u <;> intro hp <;> first | exact hp | trivial
    have notChosen : u.sent s.server.tasks.length ≠ .chosen := by
      cases u <;> simp [Upload.sent, Upload.request] at hr ⊢
    by_cases hc : u = .chosen
    · -- a new registration
      subst hc
      have hreq : r = .create file.content.length file.type := by
        simp only [Upload.request] at hr
        split at hr
        · cases hr
        · exact (Option.some.inj hr).symm
      subst hreq
      have hfresh : own s.server.tasks.length = none := by
        cases ho : own s.server.tasks.length with
        | none => rfl
        | some k' => exact absurd (hi.owned _ _ ho).1 (by omega)
      have hlater : Later own (fun i => if i = s.server.tasks.length then some k else own i) tr tr s.server.tasks
          (s.server.tasks ++ [(Req.create file.content.length file.type, Task.create file.content.length file.type)]) := by
        refine ⟨fun i k' hk' => ?_, ⟨[], by simp⟩, fun _ _ t h => ⟨t, append_keeps h, fun _ h => h⟩⟩
        rw [if_neg, hk']
        rintro rfl
        rw [hfresh] at hk'; cases hk'
      have hnok : ∀ i, own i ≠ some k := fun i ho => by
        obtain ⟨_, f, v, hv, hne⟩ := hi.owned i k ho
        rw [hk] at hv
        cases hv
        exact hne rfl
      refine ⟨fun i => if i = s.server.tasks.length then some k else own i, hrun, ?_, ?_, ?_, ?_⟩
      · intro k' f v hv
        rcases set_cases hv with ⟨rfl, hb⟩ | ⟨_, hv⟩
        · cases hb
          exact ⟨if_pos rfl, _, hlast⟩
        · exact hlater.upload (fun _ _ _ => rfl) (hi.uploads k' f v hv)
      · intro j id t hj
        rcases append_cases hj with ⟨_, hb⟩ | hj
        · cases hb
        · obtain ⟨k', f, v, h1, h2, h3⟩ := hi.updates j id t hj
          obtain ⟨v', h4, h5⟩ := past_set hk past h1 h2
          exact ⟨k', f, v', h4, h5, hlater.holds (fun _ _ _ => rfl) h3⟩
      · intro i k' ho
        show i < (s.server.tasks ++ [_]).length ∧ _
        rw [List.length_append]
        split at ho
        · rename_i hil
          cases ho
          exact ⟨by simp; omega, file, _, List.getElem?_set_self (some_lt hk), notChosen⟩
        · obtain ⟨h1, h2⟩ := hi.owned i k' ho
          exact ⟨by omega, chosen_set hk notChosen h2⟩
      · intro i j k' h1 h2
        split at h1 <;> split at h2
        · omega
        · cases h1; exact absurd h2 (hnok j)
        · cases h2; exact absurd h1 (hnok i)
        · exact hi.once i j k' h1 h2
    · refine ⟨own, hrun, ?_, ?_, ?_, hi.once⟩
      · intro k' f v hv
        rcases set_cases hv with ⟨rfl, hb⟩ | ⟨_, hv⟩
        · cases hb
          cases u with
          | chosen => exact absurd rfl hc
          | uploaded id =>
            cases hr
            obtain ⟨i, _, hcr⟩ := hold.1
            exact ⟨id, hold, ⟨tr, [], by simp, by
              obtain ⟨a, b, rfl⟩ := List.append_of_mem hcr
              exact mem_createdIds.2 ⟨a, i, b, rfl⟩, hnone tr ⟨[], by simp⟩⟩, _, hlast⟩
          | reported =>
            cases hr
            obtain ⟨id, h1, h2⟩ := hold
            exact ⟨id, h1, ⟨tr, [], by simp, h2, hnone tr ⟨[], by simp⟩⟩, _, hlast⟩
          | registering i => cases hr
          | uploading a b c => cases hr
          | reporting i => cases hr
          | listing i => cases hr
          | shown urls => cases hr
          | failed => cases hr
        · exact receive_later.upload (fun _ _ _ => rfl) (hi.uploads k' f v hv)
      · intro j id t hj
        rcases append_cases hj with ⟨_, hb⟩ | hj
        · have hreq : r = .update id := (congrArg Prod.fst hb).symm
          subst hreq
          cases u with
          | uploaded id' =>
            cases hr
            exact ⟨k, file, _, List.getElem?_set_self (some_lt hk), trivial, hold⟩
          | chosen => exact absurd rfl hc
          | reported => cases hr
          | registering i => cases hr
          | uploading a b c => cases hr
          | reporting i => cases hr
          | listing i => cases hr
          | shown urls => cases hr
          | failed => cases hr
        · obtain ⟨k', f, v, h1, h2, h3⟩ := hi.updates j id t hj
          obtain ⟨v', h4, h5⟩ := past_set hk past h1 h2
          exact ⟨k', f, v', h4, h5, h3⟩
      · intro i k' ho
        obtain ⟨h1, h2⟩ := hi.owned i k' ho
        refine ⟨?_, chosen_set hk notChosen h2⟩
        show i < (s.server.tasks ++ [_]).length
        rw [List.length_append]
        omega
  | @answer tr s k i file u r reply h hk hw ht ih =>
    intro hn
    obtain ⟨own, hi⟩ := ih hn
    have hold := hi.uploads k file u hk
    have notChosen : u.answered reply ≠ .chosen := by
      cases u <;> cases reply <;> simp [Upload.answered]
    have past : Past u → Past (u.answered reply) := by
      cases u <;> cases reply <;> simp [Upload.answered, Past]
    refine ⟨own, hi.run, ?_, ?_, ?_, hi.once⟩
    · intro k' f v hv
      rcases set_cases hv with ⟨rfl, hb⟩ | ⟨_, hv⟩
      · cases hb
        cases u with
        | registering i' =>
          cases hw
          obtain ⟨ho, t, ht'⟩ := hold
          rw [ht] at ht'
          cases reply with
          | form fields m url =>
            simp only [Option.some.injEq, Prod.mk.injEq] at ht'
            obtain ⟨rfl, _⟩ := ht'
            exact ⟨i, ho, ht⟩
          | _ => trivial
        | reporting i' =>
          cases hw
          obtain ⟨id, h1, ⟨a, b, hab, ha, hae⟩, t, ht'⟩ := hold
          rw [ht] at ht'
          cases reply with
          | noContent =>
            simp only [Option.some.injEq, Prod.mk.injEq] at ht'
            obtain ⟨rfl, _⟩ := ht'
            refine ⟨id, h1, ?_⟩
            have hev := (C70_update crate cfg tr _ hi.run i id _ ht).2
            have hm := since_split hab hae (by rw [hev]; exact List.mem_singleton_self _)
            show UploadedIn tr id
            rw [hab]
            exact uploadedIn_of ha hm
          | _ => trivial
        | listing i' =>
          cases hw
          obtain ⟨id, h1, h2, t, ht'⟩ := hold
          rw [ht] at ht'
          cases reply with
          | urls urls =>
            simp only [Option.some.injEq, Prod.mk.injEq] at ht'
            obtain ⟨rfl, _⟩ := ht'
            exact ⟨id, i, h1, h2, ht⟩
          | _ => trivial
        | chosen => cases hw
        | uploading a b c => cases hw
        | uploaded id => cases hw
        | reported => cases hw
        | shown urls => cases hw
        | failed => cases hw
      · exact hi.uploads k' f v hv
    · intro j id t hj
      obtain ⟨k', f, v, h1, h2, h3⟩ := hi.updates j id t hj
      obtain ⟨v', h4, h5⟩ := past_set hk past h1 h2
      exact ⟨k', f, v', h4, h5, h3⟩
    · intro j k' ho
      obtain ⟨h1, h2⟩ := hi.owned j k' ho
      exact ⟨h1, chosen_set hk notChosen h2⟩
  | @upload tr s k file fields url bucket time store h hk hb ha hh ih =>
    intro hn
    obtain ⟨own, hi⟩ := ih hn
    obtain ⟨i, ho, ht⟩ := hi.uploads k file _ hk
    obtain ⟨id, _, hb', hid, _, hcr, hfind, hv⟩ := uploading_facts hkeyed hi.run ht
    rw [hfind]
    have hbk : bucket = cfg.bucketName := by rw [hb] at hb'; exact Option.some.inj hb'
    have hpost := hh.post ha _ _ _ id rfl hv
    rw [expand_uuid _ hid] at hpost
    simp only [hbk] at hpost
    refine ⟨own, hi.run, ?_, ?_, ?_, hi.once⟩
    · intro k' f v hv'
      rcases set_cases hv' with ⟨rfl, hb⟩ | ⟨hne, hv'⟩
      · cases hb
        exact ⟨⟨i, ho, hcr⟩, hid, hpost⟩
      · exact (Later.refl own tr s.server.tasks).upload (upload_others hkeyed hi.run hn ho ht hh hne) (hi.uploads k' f v hv')
    · intro j id' t hj
      obtain ⟨k', f, v, h1, h2, h3⟩ := hi.updates j id' t hj
      have hne : k' ≠ k := by
        rintro rfl
        rw [hk] at h1
        cases h1
        exact h2
      obtain ⟨v', h4, h5⟩ := past_set (u' := .uploaded id) hk (fun _ => trivial) h1 h2
      exact ⟨k', f, v', h4, h5, (Later.refl own tr s.server.tasks).holds (upload_others hkeyed hi.run hn ho ht hh hne) h3⟩
    · intro j k' ho
      obtain ⟨h1, h2⟩ := hi.owned j k' ho
      exact ⟨h1, chosen_set hk (by simp) h2⟩
  | @uploadFails tr s k file fields url bucket time store h hk hb hh ih =>
    intro hn
    obtain ⟨own, hi⟩ := ih hn
    obtain ⟨i, ho, ht⟩ := hi.uploads k file _ hk
    refine ⟨own, hi.run, ?_, ?_, ?_, hi.once⟩
    · intro k' f v hv'
      rcases set_cases hv' with ⟨rfl, hb⟩ | ⟨hne, hv'⟩
      · cases hb; trivial
      · exact (Later.refl own tr s.server.tasks).upload (upload_others hkeyed hi.run hn ho ht hh hne) (hi.uploads k' f v hv')
    · intro j id' t hj
      obtain ⟨k', f, v, h1, h2, h3⟩ := hi.updates j id' t hj
      have hne : k' ≠ k := by
        rintro rfl
        rw [hk] at h1
        cases h1
        exact h2
      obtain ⟨v', h4, h5⟩ := past_set (u' := .failed) hk (fun _ => trivial) h1 h2
      exact ⟨k', f, v', h4, h5, (Later.refl own tr s.server.tasks).holds (upload_others hkeyed hi.run hn ho ht hh hne) h3⟩
    · intro j k' ho
      obtain ⟨h1, h2⟩ := hi.owned j k' ho
      exact ⟨h1, chosen_set hk (by simp) h2⟩
  | @fail tr s k file u h hk ih =>
    intro hn
    obtain ⟨own, hi⟩ := ih hn
    refine ⟨own, hi.run, ?_, ?_, ?_, hi.once⟩
    · intro k' f v hv
      rcases set_cases hv with ⟨rfl, hb⟩ | ⟨_, hv⟩
      · cases hb; trivial
      · exact hi.uploads k' f v hv
    · intro j id t hj
      obtain ⟨k', f, v, h1, h2, h3⟩ := hi.updates j id t hj
      obtain ⟨v', h4, h5⟩ := past_set (u' := .failed) hk (fun _ => trivial) h1 h2
      exact ⟨k', f, v', h4, h5, h3⟩
    · intro j k' ho
      obtain ⟨h1, h2⟩ := hi.owned j k' ho
      exact ⟨h1, chosen_set hk (by simp) h2⟩
  | @visit tr s r h hr ih =>
    intro hn
    obtain ⟨own, hi⟩ := ih hn
    refine ⟨own, Run.receive r hi.run, ?_, ?_, ?_, hi.once⟩
    · exact fun k f u hk => receive_later.upload (fun _ _ _ => rfl) (hi.uploads k f u hk)
    · intro j id t hj
      rcases append_cases hj with ⟨_, hb⟩ | hj
      · exact absurd (congrArg Prod.fst hb).symm (hr id)
      · exact hi.updates j id t hj
    · intro i k ho
      obtain ⟨h1, h2⟩ := hi.owned i k ho
      refine ⟨?_, h2⟩
      show i < (s.server.tasks ++ [_]).length
      rw [List.length_append]
      omega
  | @step tr s i r t uuid form url h ht hu hg ih =>
    intro hn
    have hn' : (createdIds tr).Nodup := by
      rw [createdIds_append] at hn
      exact (List.nodup_append.1 hn).1
    obtain ⟨own, hi⟩ := ih hn'
    have hlater : Later own own tr (tr ++ t.events i) s.server.tasks
        (s.server.tasks.set i (r, (t.step cfg uuid s.server.images form url).1)) :=
      ⟨fun _ _ h => h, ⟨_, rfl⟩, step_keeps ht⟩
    refine ⟨own, Run.step i r t uuid form url hi.run ht hu hg, ?_, ?_, ?_, hi.once⟩
    · exact fun k f u hk => hlater.upload (fun _ _ _ => rfl) (hi.uploads k f u hk)
    · intro j id t' hj
      have : ∃ t'' : Task, s.server.tasks[j]? = some (.update id, t'') := by
        rcases set_cases hj with ⟨rfl, hb⟩ | ⟨_, hj⟩
        · cases hb; exact ⟨t, ht⟩
        · exact ⟨t', hj⟩
      obtain ⟨t'', hj⟩ := this
      obtain ⟨k', f, v, h1, h2, h3⟩ := hi.updates j id t'' hj
      exact ⟨k', f, v, h1, h2, hlater.holds (fun _ _ _ => rfl) h3⟩
    · intro j k ho
      obtain ⟨h1, h2⟩ := hi.owned j k ho
      exact ⟨by simpa using h1, h2⟩
  | @drop tr s i r t h ht hr ih =>
    intro hn
    obtain ⟨own, hi⟩ := ih hn
    have hlater : Later own own tr tr s.server.tasks (s.server.tasks.set i (r, .dropped)) := by
      refine ⟨fun _ _ h => h, ⟨[], by simp⟩, fun j r' t' hj => ?_⟩
      by_cases hij : i = j
      · subst hij
        rw [ht] at hj
        cases hj
        exact ⟨_, List.getElem?_set_self (some_lt ht), fun a ha => absurd ha (hr a)⟩
      · exact ⟨t', by rw [List.getElem?_set_ne hij, hj], fun a h => h⟩
    refine ⟨own, Run.drop i r t hi.run ht hr, ?_, ?_, ?_, hi.once⟩
    · exact fun k f u hk => hlater.upload (fun _ _ _ => rfl) (hi.uploads k f u hk)
    · intro j id t' hj
      have : ∃ t'' : Task, s.server.tasks[j]? = some (.update id, t'') := by
        rcases set_cases hj with ⟨rfl, hb⟩ | ⟨_, hj⟩
        · cases hb; exact ⟨t, ht⟩
        · exact ⟨t', hj⟩
      obtain ⟨t'', hj⟩ := this
      exact hi.updates j id t'' hj
    · intro j k ho
      obtain ⟨h1, h2⟩ := hi.owned j k ho
      exact ⟨by simpa using h1, h2⟩
  | @elsewhere tr s store h hs ih =>
    intro hn
    obtain ⟨own, hi⟩ := ih hn
    refine ⟨own, hi.run, ?_, ?_, hi.owned, hi.once⟩
    · exact fun k f u hk => (Later.refl own tr s.server.tasks).upload (fun id _ h => hs id h) (hi.uploads k f u hk)
    · intro j id t hj
      obtain ⟨k', f, v, h1, h2, h3⟩ := hi.updates j id t hj
      exact ⟨k', f, v, h1, h2, (Later.refl own tr s.server.tasks).holds (fun id _ h => hs id h) h3⟩

/-! ### C81: the properties -/

theorem prefix_before {a b before after : List Event} {l : Nat} (h : a ++ b = before ++ .listed l :: after) (ha : eventsOf a l = []) :
    ∃ c, before = a ++ c := by
  rcases List.append_eq_append_iff.1 h with ⟨c, h1, _⟩ | ⟨c, h1, h2⟩
  · exact ⟨c, h1⟩
  · cases c with
    | nil => exact ⟨[], by simpa using h1.symm⟩
    | cons x c =>
      cases h2
      rw [h1, eventsOf_append, List.append_eq_nil_iff] at ha
      exact absurd ha.2 (by simp [eventsOf])

theorem uploaded_events {tr : List Event} {id : Str} (h : UploadedIn tr id) : ∃ j, .updated j id ∈ tr := by
  obtain ⟨_, _, _, _, j, rfl⟩ := h
  exact ⟨j, by simp⟩

theorem owns_one {crate : Crate} {cfg : Config} {own : Nat → Option Nat} {tr : List Event} {s : Site} (hi : SiteInv crate cfg own tr s)
    {k : Nat} {id id' : Str} (h : Owns own tr k id) (h' : Owns own tr k id') : id = id' := by
  obtain ⟨i, h1, h2⟩ := h
  obtain ⟨i', h3, h4⟩ := h'
  obtain rfl := hi.once i i' k h1 h3
  obtain ⟨n, c, fields, _, ht⟩ := (C70_events _ _ _ _ hi.run).1 i id h2
  rcases creating _ _ _ _ hi.run i n c _ ht with ⟨x, _, _, _, _, hev⟩ | ⟨_, hev⟩
  · have m : ∀ y, .created i y ∈ tr → y = x := fun y hy => by
      have : Event.created i y ∈ eventsOf tr i := by simp [eventsOf, hy]
      rw [hev, List.mem_singleton] at this
      exact (Event.created.inj this).2
    rw [m id h2, m id' h4]
  · have : Event.created i id ∈ eventsOf tr i := by simp [eventsOf, h2]
    rw [hev] at this
    cases this

/-- What is listed is stored. -/
theorem listed_is_stored {crate : Crate} (hkeyed : FormsKeyed crate) (cfg : Config) (account : Str) (N E : Nat) (tr : List Event) (s : Site)
    (h : Site.Run crate cfg account N E tr s) (hn : (createdIds tr).Nodup) (i : Nat) (r : Req) (urls : List Str)
    (hi : s.server.tasks[i]? = some (r, .replied (.urls urls))) :
    ∃ ks : List Nat, ks.length = urls.length ∧ ks.Nodup ∧
      ∀ (a : Nat) (url : Str) (k : Nat), urls[a]? = some url → ks[a]? = some k →
        ∃ file u id, s.uploads[k]? = some (file, u) ∧ IsUuid id ∧ crate.url id (.ok url) ∧
          s.store (utf8 cfg.bucketName) (utf8 id) = some file.content := by
  obtain ⟨own, inv⟩ := site_inv hkeyed h hn
  obtain ⟨before, after, ids, htr, hsub, hids, hlen, hurl⟩ := listing crate cfg tr s.server inv.run hn i r urls hi
  have hex : ∀ id, id ∈ ids → ∃ k f u, s.uploads[k]? = some (f, u) ∧ Holds cfg own tr s.store k f id := by
    intro id hid
    obtain ⟨j, hj⟩ := uploaded_events ((hids id).1 hid)
    have hj : .updated j id ∈ tr := by rw [htr]; exact List.mem_append_left _ hj
    obtain ⟨k, f, u, h1, _, h2⟩ := inv.updates j id _ ((C70_events _ _ _ _ inv.run).2.1 j id hj)
    exact ⟨k, f, u, h1, h2⟩
  have hK : ∃ K : Str → Nat, ∀ id, id ∈ ids → ∃ f u, s.uploads[K id]? = some (f, u) ∧ Holds cfg own tr s.store (K id) f id := by
    have : ∀ id, ∃ k, id ∈ ids → ∃ f u, s.uploads[k]? = some (f, u) ∧ Holds cfg own tr s.store k f id := by
      intro id
      by_cases hid : id ∈ ids
      · obtain ⟨k, h⟩ := hex id hid
        exact ⟨k, fun _ => h⟩
      · exact ⟨0, fun h => absurd h hid⟩
    exact ⟨fun id => Classical.choose (this id), fun id => Classical.choose_spec (this id)⟩
  obtain ⟨K, hK⟩ := hK
  have hnd : ids.Nodup := by
    rw [htr, createdIds_append] at hn
    exact hsub.nodup (List.nodup_append.1 hn).1
  refine ⟨ids.map K, by rw [List.length_map, hlen], ?_, ?_⟩
  · unfold List.Nodup
    rw [List.pairwise_map]
    refine List.Pairwise.imp_of_mem ?_ hnd
    intro x y hx hy hxy hk
    obtain ⟨_, _, _, h1, _⟩ := hK x hx
    obtain ⟨_, _, _, h2, _⟩ := hK y hy
    rw [hk] at h1
    exact hxy (owns_one inv h1 h2)
  · intro a url k hu hk
    rw [List.getElem?_map] at hk
    obtain ⟨id, hid, rfl⟩ := Option.map_eq_some_iff.1 hk
    obtain ⟨f, u, h1, _, h2, h3⟩ := hK id (List.mem_of_getElem? hid)
    exact ⟨f, u, id, h1, h2, hurl a url id hu hid, h3⟩

/-- C81. In every history of the site, if the random ids are distinct: every URL that a listing answers with is a signed URL
for an image whose stored content is exactly the file that was chosen in some upload. Different URLs belong to different
uploads. So no page ever shows an image that is not there, is cut short, or is somebody else's under this name. -/
theorem C81_listed_is_stored (env : Env) (cfg : Config) (account : Str) (N E : Nat) (tr : List Event) (s : Site)
    (h : Site.Run (.alone env cfg) cfg account N E tr s) (hn : (createdIds tr).Nodup) (i : Nat) (r : Req) (urls : List Str)
    (hi : s.server.tasks[i]? = some (r, .replied (.urls urls))) :
    ∃ ks : List Nat, ks.length = urls.length ∧ ks.Nodup ∧
      ∀ (a : Nat) (url : Str) (k : Nat), urls[a]? = some url → ks[a]? = some k →
        ∃ file u id now start, s.uploads[k]? = some (file, u) ∧ IsUuid id ∧ UrlFor env cfg id url now start ∧
          s.store (utf8 cfg.bucketName) (utf8 id) = some file.content := by
  obtain ⟨ks, h1, h2, h3⟩ := listed_is_stored (keyed_alone env cfg) cfg account N E tr s h hn i r urls hi
  refine ⟨ks, h1, h2, fun a url k hu hk => ?_⟩
  obtain ⟨file, u, id, h4, h5, h6, h7⟩ := h3 a url k hu hk
  obtain ⟨now, start, h6⟩ := alone_url h6
  exact ⟨file, u, id, now, start, h4, h5, h6, h7⟩

/-- The own file is listed. -/
theorem own_image {crate : Crate} (hkeyed : FormsKeyed crate) (cfg : Config) (account : Str) (N E : Nat) (tr : List Event) (s : Site)
    (h : Site.Run crate cfg account N E tr s) (hn : (createdIds tr).Nodup) (k : Nat) (file : ChosenFile) (urls : List Str)
    (hk : s.uploads[k]? = some (file, .shown urls)) :
    ∃ url ∈ urls, ∃ id, IsUuid id ∧ crate.url id (.ok url) ∧
      s.store (utf8 cfg.bucketName) (utf8 id) = some file.content := by
  obtain ⟨own, inv⟩ := site_inv hkeyed h hn
  obtain ⟨id, l, ⟨_, hid, hst⟩, ⟨a, b, hab, hup, hev⟩, ht⟩ := inv.uploads k file _ hk
  obtain ⟨before, after, ids, htr, hsub, hids, hlen, hurl⟩ := listing crate cfg tr s.server inv.run hn l _ urls ht
  obtain ⟨c, hc⟩ := prefix_before (hab.symm.trans htr) hev
  have hm : id ∈ ids := (hids id).2 (by rw [hc]; exact uploaded_more hup)
  obtain ⟨p, hp1, hp2⟩ := List.getElem_of_mem hm
  have hp3 : p < urls.length := by omega
  have hu := hurl p urls[p] id (List.getElem?_eq_getElem hp3) (by rw [List.getElem?_eq_getElem hp1, hp2])
  exact ⟨urls[p], List.getElem_mem hp3, id, hid, hu, hst⟩

/-- C81. When an upload has come to its end, the list that it shows has a URL for its own file. -/
theorem C81_own_image (env : Env) (cfg : Config) (account : Str) (N E : Nat) (tr : List Event) (s : Site)
    (h : Site.Run (.alone env cfg) cfg account N E tr s) (hn : (createdIds tr).Nodup) (k : Nat) (file : ChosenFile) (urls : List Str)
    (hk : s.uploads[k]? = some (file, .shown urls)) :
    ∃ url ∈ urls, ∃ id now start, IsUuid id ∧ UrlFor env cfg id url now start ∧
      s.store (utf8 cfg.bucketName) (utf8 id) = some file.content := by
  obtain ⟨url, h1, id, h2, h3, h4⟩ := own_image (keyed_alone env cfg) cfg account N E tr s h hn k file urls hk
  obtain ⟨now, start, h3⟩ := alone_url h3
  exact ⟨url, h1, id, now, start, h2, h3, h4⟩

/-- C81. With a service account key whose public key the storage server knows: in every history of the site, the storage
server answers a GET of a listed URL, in its minute, with exactly the file that was chosen in some upload. -/
theorem C81_get (env : Env) (cfg : Config) (email pem : Str) (key : Bytes) (N E : Nat) (tr : List Event) (s : Site)
    (h : Site.Run (.alone env cfg) cfg email N E tr s) (hn : (createdIds tr).Nodup) (hb : IsBucketName cfg.bucketName)
    (hk : cfg.signingKey = .serviceAccount email pem) (hring : Rsa.Correct env) (hpem : env.pemParse pem = some key)
    (hpub : Rsa.PublicKeyIn key N E) (hemail : '%' ∉ email) (i : Nat) (r : Req) (urls : List Str)
    (hi : s.server.tasks[i]? = some (r, .replied (.urls urls))) (url : Str) (hu : url ∈ urls) :
    ∃ (k : Nat) (file : ChosenFile) (u : Upload) (id : Str) (now start : Time), s.uploads[k]? = some (file, u) ∧ UrlFor env cfg id url now start ∧
      ∀ time : Int, start / 1000000000 ≤ time →
        time < start / 1000000000 + (now + 60000000000 - start) / 1000000000 →
        ∀ content, Answers email N E s.store ⟨s% "GET", url, [(s% "host", s% "storage.googleapis.com")], time⟩ content ↔
          content = file.content := by
  obtain ⟨ks, hlen, _, hks⟩ := C81_listed_is_stored env cfg email N E tr s h hn i r urls hi
  obtain ⟨a, ha1, ha2⟩ := List.getElem_of_mem hu
  obtain ⟨file, u, id, now, start, h1, h2, h3, h4⟩ := hks a url ks[a] (by rw [List.getElem?_eq_getElem ha1, ha2])
    (List.getElem?_eq_getElem (by omega))
  refine ⟨_, file, u, id, now, start, h1, h3, fun time ht1 ht2 content => ?_⟩
  obtain ⟨w, w', rfl, rfl, hurl⟩ := h3
  refine (C76_get env _ _ w' url email pem key N E time hurl ⟨rfl, rfl, by show '%' ∉ s% "auto"; decide, uuid_addressable hb h2⟩ rfl hk
    hring hpem hpub hemail ⟨ht1, ht2⟩ s.store content).trans ?_
  rw [h4, Option.some.injEq]
  exact eq_comm

/-- C81. What a page posts is accepted: when a page has got its form, the storage server accepts the form and the file as the
page sends them, exactly from the second in which the form was signed until a minute after the registration. -/
theorem C81_upload_accepted (env : Env) (cfg : Config) (email pem : Str) (key : Bytes) (N E : Nat) (tr : List Event) (s : Site)
    (h : Site.Run (.alone env cfg) cfg email N E tr s) (hn : (createdIds tr).Nodup)
    (hk : cfg.signingKey = .serviceAccount email pem) (hring : Rsa.Correct env) (hpem : env.pemParse pem = some key)
    (hpub : Rsa.PublicKeyIn key N E) (k : Nat) (file : ChosenFile) (fields : List (Str × Str)) (method url : Str)
    (hu : s.uploads[k]? = some (file, .uploading fields method url)) :
    method = s% "POST" ∧ ∃ bucket id now start, bucketOf url = some bucket ∧ findKey fields = some id ∧
      FormFor env cfg id file.content.length file.type fields now start ∧
      ∀ time : Int,
        (Sent.form ⟨bucket, formEntries fields, file.content.length, time⟩ file.name file.content).Accepted email N E ↔
          start / 1000000000 ≤ time ∧ time < (now + 60000000000) / 1000000000 := by
  obtain ⟨own, inv⟩ := site_inv (keyed_alone env cfg) h hn
  obtain ⟨i, _, ht⟩ := inv.uploads k file _ hu
  obtain ⟨id, hm, hb, hid, hf, _, hfind, _⟩ := uploading_facts (keyed_alone env cfg) inv.run ht
  obtain ⟨now, start, hf⟩ := alone_form hf
  refine ⟨hm, cfg.bucketName, id, now, start, hb, hfind, hf, fun time => ?_⟩
  rw [formEntries_nodup (formFor_names hf)]
  show AcceptsPost email N E ⟨cfg.bucketName, fields, file.content.length, time⟩ ∧ _ ↔ _
  rw [C70_form_accepted env cfg id _ _ fields now start email pem key N E hf hk hring hpem hpub file.content.length time]
  constructor
  · rintro ⟨⟨h1, h2, _⟩, _⟩; exact ⟨h1, h2⟩
  · rintro ⟨h1, h2⟩; exact ⟨⟨h1, h2, rfl⟩, rfl⟩

/-- C81. A file whose type the browser does not know is never uploaded: the server refuses its registration. -/
theorem C81_unknown_type (crate : Crate) (cfg : Config) (account : Str) (N E : Nat) (tr : List Event) (s : Site)
    (h : Site.Run crate cfg account N E tr s) (k : Nat) (file : ChosenFile) (u : Upload) (hk : s.uploads[k]? = some (file, u))
    (ht : file.type = []) : u = .chosen ∨ u = .failed := by
  induction h generalizing k file u with
  | start store => simp at hk
  | choose f _ ih =>
    rcases append_cases hk with ⟨_, hb⟩ | hk
    · cases hb; exact .inl rfl
    · exact ih k file u hk ht
  | send k' f v r _ hv hr ih =>
    rcases set_cases hk with ⟨rfl, hb⟩ | ⟨_, hk⟩
    · cases hb
      rcases ih _ _ _ hv ht with rfl | rfl
      · simp [Upload.request, ht] at hr
      · simp [Upload.request] at hr
    · exact ih k file u hk ht
  | answer k' i f v r reply _ hv hw _ ih =>
    rcases set_cases hk with ⟨rfl, hb⟩ | ⟨_, hk⟩
    · cases hb
      rcases ih _ _ _ hv ht with rfl | rfl <;> cases hw
    · exact ih k file u hk ht
  | upload k' f fields url bucket time store _ hv _ _ _ ih =>
    rcases set_cases hk with ⟨rfl, hb⟩ | ⟨_, hk⟩
    · cases hb
      rcases ih _ _ _ hv ht with h | h <;> cases h
    · exact ih k file u hk ht
  | uploadFails k' f fields url bucket time store _ hv _ _ ih =>
    rcases set_cases hk with ⟨rfl, hb⟩ | ⟨_, hk⟩
    · cases hb; exact .inr rfl
    · exact ih k file u hk ht
  | fail k' f v _ hv ih =>
    rcases set_cases hk with ⟨rfl, hb⟩ | ⟨_, hk⟩
    · cases hb; exact .inr rfl
    · exact ih k file u hk ht
  | visit r _ _ ih => exact ih k file u hk ht
  | step i r t uuid form url _ _ _ _ ih => exact ih k file u hk ht
  | drop i r t _ _ _ ih => exact ih k file u hk ht
  | elsewhere store _ _ ih => exact ih k file u hk ht

/-! ### C82: the list on the page -/

theorem removeLoop_eq {α : Type} (i : Nat) (items : List α) :
    removeLoop i items = if i < items.length then removeLoop (i + 1) (items.eraseIdx i) else items := by
  rw [removeLoop]

/-- What the loop does to the rest of the list: every other item goes. -/
def everySecond {α : Type} : List α → List α
  | [] => []
  | [_] => []
  | _ :: b :: r => b :: everySecond r

theorem removeLoop_split {α : Type} : ∀ (rest done : List α), removeLoop done.length (done ++ rest) = done ++ everySecond rest
  | [], done => by rw [removeLoop_eq, if_neg (by simp)]; rfl
  | [a], done => by
    rw [removeLoop_eq, if_pos (by simp), List.eraseIdx_append_of_length_le (Nat.le_refl _)]
    simp only [Nat.sub_self, List.eraseIdx_cons_zero, List.append_nil]
    rw [removeLoop_eq, if_neg (by omega)]
    simp [everySecond]
  | a :: b :: r, done => by
    rw [removeLoop_eq, if_pos (by simp), List.eraseIdx_append_of_length_le (Nat.le_refl _)]
    simp only [Nat.sub_self, List.eraseIdx_cons_zero]
    have := removeLoop_split r (done ++ [b])
    rw [List.length_append, List.append_assoc, List.append_assoc] at this
    exact this

theorem everySecond_get {α : Type} : ∀ (l : List α) (j : Nat), (everySecond l)[j]? = l[2 * j + 1]?
  | [], j => by simp [everySecond]
  | [a], j => by simp [everySecond]
  | a :: b :: r, 0 => rfl
  | a :: b :: r, j + 1 => by
    show (everySecond r)[j]? = (a :: b :: r)[2 * (j + 1) + 1]?
    rw [everySecond_get r j, show 2 * (j + 1) + 1 = (2 * j + 1) + 1 + 1 by omega, List.getElem?_cons_succ, List.getElem?_cons_succ]

theorem everySecond_length {α : Type} : ∀ (l : List α), (everySecond l).length = l.length / 2
  | [] => by simp [everySecond]
  | [_] => by simp [everySecond]
  | a :: b :: r => by simp only [everySecond, List.length_cons, everySecond_length r]; omega

/-- C82. Rendering a listing leaves half of what was on the page (the items at the odd positions, counted from zero, of what
was shown before), followed by the listed images. -/
theorem C82_render (items urls : List Str) :
    ∃ old, renderListItems items urls = old ++ urls ∧ old.length = items.length / 2 ∧
      ∀ j, old[j]? = items[2 * j + 1]? :=
  ⟨everySecond items, by unfold renderListItems; rw [show removeLoop 0 items = everySecond items from removeLoop_split items []],
    everySecond_length items, everySecond_get items⟩

/-- C82. The page shows exactly the listing just if at most one image was on it before. -/
theorem C82_exact_iff (items urls : List Str) : renderListItems items urls = urls ↔ items.length ≤ 1 := by
  obtain ⟨old, h, hl, _⟩ := C82_render items urls
  rw [h]
  constructor
  · intro he
    have := congrArg List.length he
    rw [List.length_append] at this
    omega
  · intro hi
    have : old = [] := List.eq_nil_of_length_eq_zero (by omega)
    rw [this]; rfl

/-- C82. Over any number of renderings on a page: the page ends with the last listing, every image on it was in one of the
listings, and it shows less than twice as many images as the longest listing. -/
theorem C82_history (listings : List (List Str)) (last : List Str) :
    ∃ old, (listings ++ [last]).foldl renderListItems [] = old ++ last ∧
      (∀ url ∈ old, ∃ urls ∈ listings, url ∈ urls) ∧
      ∀ m, (∀ urls ∈ listings, urls.length ≤ m) → old.length ≤ m - 1 := by
  have key : (∀ url ∈ listings.foldl renderListItems [], ∃ urls ∈ listings, url ∈ urls) ∧
      ∀ m, (∀ urls ∈ listings, urls.length ≤ m) → (listings.foldl renderListItems []).length ≤ 2 * m - 1 := by
    induction listings using snoc_induction with
    | nil => exact ⟨by simp, by simp⟩
    | snoc ls l ih =>
      rw [List.foldl_append, List.foldl_cons, List.foldl_nil]
      obtain ⟨old, h1, h2, h3⟩ := C82_render (ls.foldl renderListItems []) l
      rw [h1]
      constructor
      · intro url hu
        rcases List.mem_append.1 hu with hu | hu
        · obtain ⟨j, hj⟩ := List.getElem?_of_mem hu
          rw [h3 j] at hj
          obtain ⟨urls, ha, hb⟩ := ih.1 url (List.mem_of_getElem? hj)
          exact ⟨urls, List.mem_append_left _ ha, hb⟩
        · exact ⟨l, by simp, hu⟩
      · intro m hm
        have := ih.2 m (fun urls hu => hm urls (List.mem_append_left _ hu))
        have := hm l (by simp)
        rw [List.length_append]
        omega
  rw [List.foldl_append, List.foldl_cons, List.foldl_nil]
  obtain ⟨old, h1, h2, h3⟩ := C82_render (listings.foldl renderListItems []) last
  refine ⟨old, h1, fun url hu => ?_, fun m hm => ?_⟩
  · obtain ⟨j, hj⟩ := List.getElem?_of_mem hu
    rw [h3 j] at hj
    exact key.1 url (List.mem_of_getElem? hj)
  · have := key.2 m hm
    omega

/-- C82: a page that is opened when one image is there, and on which two more are uploaded, shows the second one twice. -/
example : [[s% "a0"], [s% "a1", s% "b1"], [s% "a2", s% "b2", s% "c2"]].foldl renderListItems [] =
    [s% "b1", s% "a2", s% "b2", s% "c2"] := by decide +kernel

end CSS
