import Verif.Spec.ImageRestart
import Verif.Props.ImageUploaderServer
/-
C99: what a crash of the example server costs. The listing of a process shows exactly what was registered and reported since
this process was started; what was answered before a crash is as good as ever; nobody is told that an image is lost.
-/
namespace CSS
open Spec ImageUploader Spec.ImageUploader

theorem run_more_dropped {crate : Crate} {cfg : Config} (rs : List Req) (tasks : List (Req × Task))
    (h : Run crate cfg [] ⟨[], tasks⟩) : Run crate cfg [] ⟨[], tasks ++ rs.map fun r => (r, .dropped)⟩ := by
  induction rs generalizing tasks with
  | nil => simpa using h
  | cons r rs ih =>
    have h1 := Run.receive r h
    have h2 := Run.drop tasks.length r r.task h1 (by simp) (by intro a; cases r <;> simp [Req.task])
    have h3 := ih (tasks ++ [(r, .dropped)]) (by simpa using h2)
    simpa using h3

/-- Requests whose handlers are gone, in a process that has done nothing. -/
theorem run_dropped (crate : Crate) (cfg : Config) (rs : List Req) :
    Run crate cfg [] ⟨[], rs.map fun r => (r, .dropped)⟩ := by
  simpa using run_more_dropped rs [] (.start (crate := crate) (cfg := cfg))

/-- What is known of a request: in some life of the process its handler was there. -/
def HandledIn (crate : Crate) (cfg : Config) (tr : List Episode) (i : Nat) (r : Req) (t : Task) : Prop :=
  ∃ before life rest s, tr = before ++ life.map .event ++ rest ∧ StartsLife before ∧ Run crate cfg life s ∧
    s.tasks[i]? = some (r, t)

theorem HandledIn.more {crate : Crate} {cfg : Config} {tr : List Episode} {i : Nat} {r : Req} {t : Task}
    (h : HandledIn crate cfg tr i r t) (es : List Episode) : HandledIn crate cfg (tr ++ es) i r t := by
  obtain ⟨before, life, rest, s, h1, h2, h3, h4⟩ := h
  exact ⟨before, life, rest ++ es, s, by rw [h1]; simp, h2, h3, h4⟩

/-- The state of the process, and a history of its present life that leads to it, apart from earlier answers. -/
theorem lives_inv {crate : Crate} {cfg : Config} {tr : List Episode} {s : State} (h : Lives crate cfg tr s) :
    ∃ before life s₀, tr = before ++ life.map .event ∧ StartsLife before ∧ Run crate cfg life s₀ ∧ s₀.images = s.images ∧
      s₀.tasks.length = s.tasks.length ∧ ∀ i r t, s.tasks[i]? = some (r, t) →
        s₀.tasks[i]? = some (r, t) ∨
        (s₀.tasks[i]? = some (r, .dropped) ∧ (∃ a, t = .replied a) ∧ HandledIn crate cfg tr i r t) := by
  induction h with
  | start => exact ⟨[], [], ⟨[], []⟩, rfl, .inl rfl, .start, rfl, rfl, fun i r t h => by simp at h⟩
  | @receive tr s r _ ih =>
    obtain ⟨before, life, s₀, h1, h2, h3, h4, h5, h6⟩ := ih
    refine ⟨before, life, _, h1, h2, .receive r h3, h4, by simp [h5], fun i r' t' hi => ?_⟩
    by_cases hlt : i < s.tasks.length
    · rw [List.getElem?_append_left hlt] at hi
      rcases h6 i r' t' hi with h | h
      · exact .inl (by simpa [List.getElem?_append_left (by omega : i < s₀.tasks.length)] using h)
      · exact .inr ⟨by simpa [List.getElem?_append_left (by omega : i < s₀.tasks.length)] using h.1, h.2⟩
    · rw [List.getElem?_append_right (by omega)] at hi
      refine .inl ?_
      simp only
      rw [List.getElem?_append_right (by omega), h5]
      exact hi
  | @step tr s i r t uuid form url _ hi hu hg ih =>
    obtain ⟨before, life, s₀, h1, h2, h3, h4, h5, h6⟩ := ih
    have hlt : i < s.tasks.length := (List.getElem?_eq_some_iff.1 hi).1
    rcases h6 i r t hi with h | ⟨h, ⟨a, rfl⟩, hin⟩
    · refine ⟨before, life ++ t.events i, _, by rw [h1]; simp, h2, .step i r t uuid form url h3 h hu hg, by rw [h4], by simp [h5],
        fun j r' t' hj => ?_⟩
      simp only at hj ⊢
      by_cases hji : j = i
      · subst hji
        rw [List.getElem?_set_self hlt] at hj
        rw [List.getElem?_set_self (by omega), h4]
        exact .inl hj
      · rw [List.getElem?_set_ne (Ne.symm hji)] at hj ⊢
        rcases h6 j r' t' hj with h | ⟨h, h', h''⟩
        · exact .inl h
        · exact .inr ⟨h, h', h''.more _⟩
    · refine ⟨before, life, s₀, by simpa [Task.events] using h1, h2, h3, h4, by simpa using h5, fun j r' t' hj => ?_⟩
      simp only [Task.step] at hj
      rw [show Task.events i (.replied a) = [] from rfl, List.map_nil, List.append_nil]
      by_cases hji : j = i
      · subst hji
        rw [List.getElem?_set_self hlt] at hj
        exact h6 j r' t' (by rw [hi]; exact hj)
      · rw [List.getElem?_set_ne (Ne.symm hji)] at hj
        exact h6 j r' t' hj
  | @drop tr s i r t _ hi ht ih =>
    obtain ⟨before, life, s₀, h1, h2, h3, h4, h5, h6⟩ := ih
    have hlt : i < s.tasks.length := (List.getElem?_eq_some_iff.1 hi).1
    rcases h6 i r t hi with h | ⟨_, ⟨a, ha⟩, _⟩
    · refine ⟨before, life, _, h1, h2, .drop i r t h3 h ht, h4, by simp [h5], fun j r' t' hj => ?_⟩
      simp only at hj ⊢
      by_cases hji : j = i
      · subst hji
        rw [List.getElem?_set_self hlt] at hj
        rw [List.getElem?_set_self (by omega)]
        exact .inl hj
      · rw [List.getElem?_set_ne (Ne.symm hji)] at hj ⊢
        exact h6 j r' t' hj
    · exact absurd ha (ht a)
  | @restart tr s _ ih =>
    obtain ⟨before, life, s₀, h1, h2, h3, h4, h5, h6⟩ := ih
    refine ⟨tr ++ [.restarted], [], _, by simp, .inr ⟨tr, rfl⟩, run_dropped crate cfg (s.tasks.map (·.1)), rfl,
      by simp [State.restart], fun i r' t' hi => ?_⟩
    simp only [State.restart, List.getElem?_map, Option.map_eq_some_iff] at hi
    obtain ⟨⟨r, t⟩, hi, he⟩ := hi
    have hd : (List.map (fun r => (r, Task.dropped)) (s.tasks.map (·.1)))[i]? = some (r, .dropped) := by
      simp [hi]
    cases t with
    | replied a =>
      simp only [Prod.mk.injEq] at he
      obtain ⟨rfl, rfl⟩ := he
      refine .inr ⟨hd, ⟨a, rfl⟩, ?_⟩
      rcases h6 i r _ hi with h | ⟨_, _, h⟩
      · exact ⟨before, life, [.restarted], s₀, by rw [h1], h2, h3, h⟩
      · exact h.more _
    | _ =>
      simp only [Prod.mk.injEq] at he
      obtain ⟨rfl, rfl⟩ := he
      exact .inl hd

/-- Every answer was given in a life of the process. -/
theorem lives_handled {crate : Crate} {cfg : Config} {tr : List Episode} {s : State} (h : Lives crate cfg tr s) {i : Nat} {r : Req}
    {t : Task} (hi : s.tasks[i]? = some (r, t)) : HandledIn crate cfg tr i r t := by
  obtain ⟨before, life, s₀, h1, h2, h3, _, _, h6⟩ := lives_inv h
  rcases h6 i r t hi with h | ⟨_, _, h⟩
  · exact ⟨before, life, [], s₀, by simpa using h1, h2, h3, h⟩
  · exact h

theorem registeredIds_append (a b : List Episode) : registeredIds (a ++ b) = registeredIds a ++ registeredIds b := by
  simp [registeredIds]

theorem registeredIds_life (life : List Event) : registeredIds (life.map .event) = createdIds life := by
  unfold registeredIds createdIds
  rw [List.filterMap_map]
  congr 1
  funext e
  cases e <;> rfl

/-- C99. In every history with crashes, if the random ids are distinct, a listing answers with one URL for each image that was
registered and reported as uploaded since the process was last started (`life`) and before the images were read, and for no other,
in the order in which they were registered. -/
theorem C99_listing (env : Env) (cfg : Config) (tr : List Episode) (s : State) (h : Lives (.alone env cfg) cfg tr s)
    (hn : (registeredIds tr).Nodup) (i : Nat) (r : Req) (urls : List Str) (hi : s.tasks[i]? = some (r, .replied (.urls urls))) :
    ∃ (before : List Episode) (life : List Event) (after : List Episode) (ids : List Str),
      tr = before ++ life.map .event ++ .event (.listed i) :: after ∧ StartsLife before ∧ ids.Sublist (createdIds life) ∧
      (∀ id, id ∈ ids ↔ UploadedIn life id) ∧ urls.length = ids.length ∧
      ∀ (k : Nat) (url id : Str), urls[k]? = some url → ids[k]? = some id →
        IsUuid id ∧ ∃ now start, UrlFor env cfg id url now start := by
  obtain ⟨before, life, rest, s₁, htr, hb, hrun, hi⟩ := lives_handled h hi
  have hn' : (createdIds life).Nodup := by
    rw [htr, registeredIds_append, registeredIds_append, registeredIds_life] at hn
    exact (List.nodup_append.1 (List.nodup_append.1 hn).1).2.1
  obtain ⟨b, a, ids, h1, h2, h3, h4, h5⟩ := C69_listing env cfg life s₁ hrun hn' i r urls hi
  refine ⟨before, b, a.map .event ++ rest, ids, by rw [htr, h1]; simp, hb, h2, h3, h4, fun k url id hk hid => ⟨?_, h5 k url id hk hid⟩⟩
  have hm : id ∈ createdIds b := h2.subset (List.mem_of_getElem? hid)
  obtain ⟨e, he, hid⟩ := List.mem_filterMap.1 hm
  cases e with
  | created j id' =>
    have hid : id' = id := Option.some.inj hid
    subst hid
    obtain ⟨_, _, _, hu, _⟩ := (C70_events _ cfg life s₁ hrun).1 j id' (by rw [h1]; exact List.mem_append_left _ he)
    exact hu
  | updated j id' => cases hid
  | listed j => cases hid

/-- C99. So an image that was registered before a crash is in no listing after it, whatever was reported: no URL of the listing leads to
it. -/
theorem C99_forgotten (env : Env) (cfg : Config) (tr : List Episode) (s : State) (h : Lives (.alone env cfg) cfg tr s)
    (hn : (registeredIds tr).Nodup) (hbn : IsBucketName cfg.bucketName) (i : Nat) (r : Req) (urls : List Str)
    (hi : s.tasks[i]? = some (r, .replied (.urls urls))) :
    ∃ before after, tr = before ++ .event (.listed i) :: after ∧
      ∀ b₁ b₂ b₃ j id, before = b₁ ++ .event (.created j id) :: b₂ ++ .restarted :: b₃ → ∀ url ∈ urls,
        ∃ path, urlPath (s% "https://storage.googleapis.com") url = some path ∧
          percentDecode path ≠ utf8 (s% "/" ++ cfg.bucketName ++ s% "/" ++ id) := by
  obtain ⟨before, life, after, ids, htr, _, hsub, _, hlen, hurl⟩ := C99_listing env cfg tr s h hn i r urls hi
  refine ⟨_, after, htr, fun b₁ b₂ b₃ j id hbefore url hu => ?_⟩
  obtain ⟨k, hk, hku⟩ := List.getElem_of_mem hu
  have hk' : k < ids.length := by omega
  obtain ⟨huuid, now, start, hf⟩ := hurl k url ids[k] (by rw [List.getElem?_eq_getElem hk, hku]) (List.getElem?_eq_getElem hk')
  obtain ⟨path, hp, hd⟩ := C71_path env cfg _ url now start hf hbn huuid
  refine ⟨path, hp, fun hd' => ?_⟩
  have he : ids[k] = id := by
    have := utf8_inj (hd.symm.trans hd')
    simpa using this
  have hold : id ∈ registeredIds before := by
    rcases List.append_eq_append_iff.1 hbefore with ⟨c, hc, hc'⟩ | ⟨c, hc, hc'⟩
    · exfalso
      have : Episode.restarted ∈ life.map Episode.event := by rw [hc']; simp
      simp at this
    · rw [hc, registeredIds_append, registeredIds_append]
      refine List.mem_append_left _ (List.mem_append_right _ ?_)
      simp [registeredIds]
  have hnew : id ∈ createdIds life := he ▸ hsub.subset (List.getElem_mem hk')
  rw [htr, registeredIds_append, registeredIds_append, registeredIds_life] at hn
  exact (List.nodup_append.1 (List.nodup_append.1 hn).1).2.2 id hold id hnew rfl

/-- C99. A report is answered with 204, whether a crash has made the server forget the image or not. -/
theorem C99_report (crate : Crate) (cfg : Config) (tr : List Episode) (s : State) (h : Lives crate cfg tr s) (i : Nat) (id : Str)
    (a : Reply) (hi : s.tasks[i]? = some (.update id, .replied a)) : a = .noContent := by
  obtain ⟨_, life, _, s₁, _, _, hrun, hi⟩ := lives_handled h hi
  exact (C70_update crate cfg life s₁ hrun i id a hi).1

/-- C99. A form that was returned is as good after any number of crashes: with a service account key it is accepted exactly from the second
in which it was signed until a minute after the registration, with a file of exactly the registered length; and whatever is accepted with
its policy is an upload of the registered image. -/
theorem C99_form (env : Env) (cfg : Config) (tr : List Episode) (s : State) (h : Lives (.alone env cfg) cfg tr s) (i n : Nat)
    (c m u : Str) (fs : List (Str × Str)) (hi : s.tasks[i]? = some (.create n c, .replied (.form fs m u))) :
    ∃ (id : Str) (ticks : Nat) (now start : Time), .event (.created i id) ∈ tr ∧ now = env.now ticks ∧
      start = env.now (ticks + 1) ∧
      (∀ (account : Str) (N E : Nat) (r : Posted), AcceptsPost account N E r →
        fieldValues r.fields (s% "policy") = fieldValues fs (s% "policy") →
        r.bucket = cfg.bucketName ∧ r.size = n ∧
        (∀ v, (s% "key", v) ∈ r.fields ↔ v = id) ∧ (∀ v, (s% "Content-Type", v) ∈ r.fields ↔ v = c) ∧
        start / 1000000000 ≤ r.time ∧ r.time < (now + 60000000000) / 1000000000) ∧
      ∀ (email pem : Str) (key : Bytes) (N E : Nat), cfg.signingKey = .serviceAccount email pem → Rsa.Correct env →
        env.pemParse pem = some key → Rsa.PublicKeyIn key N E → ∀ (size : Nat) (time : Int),
        (AcceptsPost email N E ⟨cfg.bucketName, fs, size, time⟩ ↔
          start / 1000000000 ≤ time ∧ time < (now + 60000000000) / 1000000000 ∧ size = n) := by
  obtain ⟨before, life, rest, s₁, htr, _, hrun, hi⟩ := lives_handled h hi
  obtain ⟨id, ticks, now, start, hev, h1⟩ := C70_registered env cfg life s₁ hrun i n c m u fs hi
  refine ⟨id, ticks, now, start, ?_, h1⟩
  have hm : Event.created i id ∈ life := (List.mem_filter.1 (by rw [← eventsOf, hev]; simp)).1
  rw [htr]
  exact List.mem_append_left _ (List.mem_append_right _ (List.mem_map.2 ⟨_, hm, rfl⟩))

/-- C99. And so is a URL that was listed. -/
theorem C99_url (env : Env) (cfg : Config) (tr : List Episode) (s : State) (h : Lives (.alone env cfg) cfg tr s) (i : Nat) (q : Req)
    (urls : List Str) (hi : s.tasks[i]? = some (q, .replied (.urls urls))) (url : Str) (hurl : url ∈ urls)
    (hb : IsBucketName cfg.bucketName) :
    ∃ (j : Nat) (id : Str) (ticks : Nat) (now start : Time), .event (.created j id) ∈ tr ∧ now = env.now ticks ∧
      start = env.now (ticks + 1) ∧
      (∃ path, urlPath (s% "https://storage.googleapis.com") url = some path ∧
        percentDecode path = utf8 (s% "/" ++ cfg.bucketName ++ s% "/" ++ id)) ∧
      (∀ (account : Str) (N E : Nat) (r : Incoming), r.url = url → Accepts account N E r →
        start / 1000000000 ≤ r.time ∧ r.time * 1000000000 < now + 60000000000) ∧
      ∀ (email pem : Str) (key : Bytes) (N E : Nat), cfg.signingKey = .serviceAccount email pem → Rsa.Correct env →
        env.pemParse pem = some key → Rsa.PublicKeyIn key N E → '%' ∉ email → ∀ time : Int,
        (Accepts email N E ⟨s% "GET", url, [(s% "host", s% "storage.googleapis.com")], time⟩ ↔
          start / 1000000000 ≤ time ∧ time < start / 1000000000 + (now + 60000000000 - start) / 1000000000) := by
  obtain ⟨before, life, rest, s₁, htr, _, hrun, hi⟩ := lives_handled h hi
  obtain ⟨j, id, ticks, now, start, hm, h1⟩ := C71_listed env cfg life s₁ hrun i q urls hi url hurl hb
  refine ⟨j, id, ticks, now, start, ?_, h1⟩
  rw [htr]
  exact List.mem_append_left _ (List.mem_append_right _ (List.mem_map.2 ⟨_, hm, rfl⟩))

/-- C99. Nobody is told that an image is lost: whenever the crate can make a form, there is a history in which the image is registered, the
process crashes, the report is answered with 204, and the listing after it is empty. -/
theorem C99_lost_silently (crate : Crate) (cfg : Config) (id : Str) (n : Nat) (c : Str) (fields : List (Str × Str))
    (hid : IsUuid id) (hf : crate.form id n c (.ok fields)) :
    ∃ s, Lives crate cfg [.event (.created 0 id), .restarted, .event (.updated 1 id), .event (.listed 2)] s ∧
      s.tasks = [(.create n c, .replied (.form fields (s% "POST") (s% "https://storage.googleapis.com/" ++ cfg.bucketName))),
        (.update id, .replied .noContent), (.list, .replied (.urls []))] := by
  have h1 : Lives crate cfg [] _ := .receive (.create n c) .start
  have h2 := h1.step 0 _ _ id (.ok fields) (.err .status500) rfl hid hf
  have h3 := h2.step 0 _ _ id (.ok fields) (.err .status500) rfl hid trivial
  have h4 := h3.restart
  have h5 := h4.receive (.update id)
  have h6 := h5.step 1 _ _ id (.ok fields) (.err .status500) rfl hid trivial
  have h7 := h6.receive .list
  have h8 := h7.step 2 _ _ id (.ok fields) (.err .status500) rfl hid trivial
  have h9 := h8.step 2 _ _ id (.ok fields) (.err .status500) rfl hid trivial
  exact ⟨_, h9, rfl⟩

end CSS
