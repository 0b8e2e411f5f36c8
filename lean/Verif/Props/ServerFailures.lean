import Verif.Props.Failures
import Verif.Props.ImageSiteSharedExamples
import Verif.Props.ImageUploaderServer
/-
C88: why the example server fails, when the calls of the crate run concurrently in one process.
-/
set_option linter.unusedSimpArgs false
namespace CSS
open Spec ImageUploader Spec.ImageUploader

/-! ### Why a handler fails -/

/-- The result with which the crate has made a handler fail. -/
def FailsWith {α : Type} (a : Reply) (r : Res Failure α) : Prop :=
  (a = .internalServerError ∧ r = .err .status500) ∨ (a = .aborted ∧ (r = .err .panicked ∨ ∃ site, r = .panic site))

/-- A failed handler has got a failure from the crate. -/
def FailureOf (crate : Crate) (tr : List ImageUploader.Event) (req : Req) (a : Reply) : Prop :=
  (∃ n c id r, req = .create n c ∧ IsUuid id ∧ crate.form id n c r ∧ FailsWith a r) ∨
  ∃ id r, req = .list ∧ UploadedIn tr id ∧ IsUuid id ∧ crate.url id r ∧ FailsWith a r

theorem FailureOf.more {crate : Crate} {tr : List ImageUploader.Event} {req : Req} {a : Reply} (h : FailureOf crate tr req a)
    (es : List ImageUploader.Event) : FailureOf crate (tr ++ es) req a := by
  rcases h with h | ⟨id, r, h1, h2, h3⟩
  · exact .inl h
  · exact .inr ⟨id, r, h1, uploaded_more h2, h3⟩

theorem events_fresh (t : Task) (tr : List ImageUploader.Event) (i : Nat) (hn : (createdIds (tr ++ t.events i)).Nodup) :
    (createdIds tr).Nodup := by
  unfold createdIds at *
  rw [List.filterMap_append] at hn
  exact (List.nodup_append.1 hn).1

theorem failed_step {crate : Crate} {cfg : Config} {tr : List ImageUploader.Event} {i : Nat} {req : Req} {t : Task} {uuid : Str}
    {images : List Image} {form : Res Failure (List (Str × Str))} {url : Res Failure Str} (hinv : TaskInv crate cfg tr i req t)
    (hn : (createdIds tr).Nodup) (hids : ∀ im ∈ replay tr, IsUuid im.id) (hid : IsUuid uuid) (hg : crate.Gives uuid form url t)
    {a : Reply} (ht : t ≠ .replied a) (ha : a = .internalServerError ∨ a = .aborted)
    (hstep : (t.step cfg uuid images form url).1 = .replied a) : FailureOf crate tr req a := by
  cases t with
  | create n c =>
    refine .inl ⟨n, c, uuid, form, hinv.1, hid, hg, ?_⟩
    match form, hstep with
    | .ok _, h => cases h
    | .err .status500, h => cases h; exact .inl ⟨rfl, rfl⟩
    | .err .panicked, h => cases h; exact .inr ⟨rfl, .inl rfl⟩
    | .panic s, h => cases h; exact .inr ⟨rfl, .inr ⟨s, rfl⟩⟩
  | push id fs => cases hstep; rcases ha with h | h <;> cases h
  | list => cases hstep
  | sign rest urls =>
    cases rest with
    | nil => cases hstep; rcases ha with h | h <;> cases h
    | cons im rest =>
      simp only [Task.step] at hstep
      by_cases hup : im.uploaded = false
      · rw [if_pos hup] at hstep
        cases hstep
      · rw [if_neg hup] at hstep
        obtain ⟨hr, _, before, after, done, htr, hrep, _⟩ := hinv
        have hmem : im ∈ replay before := by rw [hrep]; simp
        have hnb : (createdIds before).Nodup := by
          rw [htr] at hn
          unfold createdIds at *
          rw [List.filterMap_append] at hn
          exact (List.nodup_append.1 hn).1
        have hu : UploadedIn before im.id := by
          refine (mem_replay hnb im.id).1 ?_
          have : im = ⟨im.id, true⟩ := by
            cases im with | mk x b => cases b with
              | true => rfl
              | false => simp at hup
          rw [← this]
          exact hmem
        have hui : IsUuid im.id := by
          have : im.id ∈ createdIds tr := by
            rw [htr]
            unfold createdIds
            rw [List.filterMap_append]
            refine List.mem_append_left _ ?_
            have := List.mem_map_of_mem (f := (·.id)) hmem
            rw [replay_ids] at this
            exact this
          rw [← replay_ids] at this
          obtain ⟨x, hx, he⟩ := List.mem_map.1 this
          rw [← he]
          exact hids x hx
        refine .inr ⟨im.id, url, hr, htr ▸ uploaded_more hu, hui, hg (by simpa using hup), ?_⟩
        match url, hstep with
        | .ok _, h => cases h
        | .err .status500, h => cases h; exact .inl ⟨rfl, rfl⟩
        | .err .panicked, h => cases h; exact .inr ⟨rfl, .inl rfl⟩
        | .panic s, h => cases h; exact .inr ⟨rfl, .inr ⟨s, rfl⟩⟩
  | update id => cases hstep; rcases ha with h | h <;> cases h
  | replied r => exact absurd hstep ht
  | dropped => cases hstep

/-- The ids of the images are ids of the server. -/
theorem images_uuids {crate : Crate} {cfg : Config} {tr : List ImageUploader.Event} {st : State} (h : Run crate cfg tr st) :
    ∀ im ∈ replay tr, IsUuid im.id := by
  have inv : (∀ im ∈ st.images, IsUuid im.id) ∧ ∀ p ∈ st.tasks, ∀ id fs, p.2 = .push id fs → IsUuid id := by
    induction h with
    | start => exact ⟨by simp, by simp⟩
    | receive r _ ih =>
      refine ⟨ih.1, ?_⟩
      intro p hp id fs he
      rcases List.mem_append.1 hp with h | h
      · exact ih.2 p h id fs he
      · rw [List.mem_singleton.1 h] at he
        cases r <;> cases he
    | step i r t uuid form url _ hi hid hg ih =>
      refine ⟨?_, ?_⟩
      · cases t with
        | push id fs =>
          intro im him
          rcases List.mem_append.1 him with h | h
          · exact ih.1 im h
          · rw [List.mem_singleton.1 h]; exact ih.2 _ (List.mem_of_getElem? hi) id fs rfl
        | update id =>
          intro im him
          have hm : im.id ∈ (markUploaded id _).map (·.id) := List.mem_map.2 ⟨im, him, rfl⟩
          rw [markUploaded_ids] at hm
          obtain ⟨x, hx, he⟩ := List.mem_map.1 hm
          rw [← he]
          exact ih.1 x hx
        | create n c =>
          intro im him
          refine ih.1 im ?_
          simp only [Task.step] at him
          split at him <;> exact him
        | sign rest urls =>
          intro im him
          refine ih.1 im ?_
          cases rest with
          | nil => exact him
          | cons x rest =>
            simp only [Task.step] at him
            split at him
            · exact him
            · split at him <;> exact him
        | list => exact ih.1
        | replied a => exact ih.1
        | dropped => exact ih.1
      · intro p hp id fs he
        rcases List.mem_or_eq_of_mem_set hp with h | rfl
        · exact ih.2 p h id fs he
        · cases t with
          | create n c =>
            simp only [Task.step] at he
            split at he
            · simp only [Task.push.injEq] at he; rw [← he.1]; exact hid
            · cases he
            · cases he
          | sign rest urls =>
            cases rest with
            | nil => cases he
            | cons x rest =>
              simp only [Task.step] at he
              split at he
              · cases he
              · split at he <;> cases he
          | push id fs => cases he
          | update id => cases he
          | list => cases he
          | replied a => cases he
          | dropped => cases he
    | drop i r t _ hi _ ih =>
      refine ⟨ih.1, ?_⟩
      intro p hp id fs he
      rcases List.mem_or_eq_of_mem_set hp with h | rfl
      · exact ih.2 p h id fs he
      · cases he
  rw [← run_images h]
  exact inv.1

theorem failed_handler {crate : Crate} {cfg : Config} {tr : List ImageUploader.Event} {st : State} (h : Run crate cfg tr st)
    (hn : (createdIds tr).Nodup) {i : Nat} {req : Req} {a : Reply} (ha : a = .internalServerError ∨ a = .aborted)
    (hi : st.tasks[i]? = some (req, .replied a)) : FailureOf crate tr req a := by
  induction h with
  | start => simp at hi
  | receive r _ ih =>
    rw [List.getElem?_append] at hi
    split at hi
    · exact ih hn hi
    · have := List.mem_of_getElem? hi
      simp only [List.mem_singleton, Prod.mk.injEq] at this
      cases r <;> cases this.2
  | @step tr' s' j r t uuid form url hrun hj hid hg ih =>
    have hn' := events_fresh t tr' j hn
    rw [List.getElem?_set] at hi
    split at hi
    · rename_i hji
      split at hi
      · simp only [Option.some.injEq, Prod.mk.injEq] at hi
        obtain ⟨rfl, hstep⟩ := hi
        subst hji
        by_cases ht : t = .replied a
        · subst ht
          exact (ih hn' hj).more _
        · exact (failed_step ((run_inv hrun).1 _ _ _ hj) hn' (images_uuids hrun) hid hg ht ha hstep).more _
      · cases hi
    · exact (ih hn' hi).more _
  | @drop tr' s' j r t hrun hj hne ih =>
    rw [List.getElem?_set] at hi
    split at hi
    · split at hi
      · simp only [Option.some.injEq, Prod.mk.injEq] at hi
        cases hi.2
      · cases hi
    · exact ih hn hi

/-! ### C88 -/

/-- C88. An answer 500 has a cause in the calls of the crate: a registration, that the call for the form returned an error; a
listing, that a call for the URL of a reported image did. -/
theorem C88_internal_server_error (s : Sys) (cfg : Config) (tr : List ImageUploader.Event) (st : State)
    (hrun : Run (.shared s.trace cfg) cfg tr st) (hn : (createdIds tr).Nodup) (i : Nat) (req : Req)
    (hi : st.tasks[i]? = some (req, .replied .internalServerError)) :
    (∃ n c id now j e, req = .create n c ∧ IsUuid id ∧
      .started j (.form [.bucket cfg.bucketName, .contentLength n, .contentType c, .key id, .policyDocumentSigningOptions
        { accessibleAt := none, expiration := now + 60000000000, region := none, signingKey := cfg.signingKey,
          useSignBlob := cfg.useSignBlob }]) ∈ s.trace ∧
      .returned j (.form (.err e)) ∈ s.trace) ∨
    ∃ id now j e, req = .list ∧ UploadedIn tr id ∧
      .started j (.url
        { bucketName := cfg.bucketName, objectName := id, region := none, expires := now + 60000000000, httpMethod := s% "GET",
          accessibleAt := none, signingKey := cfg.signingKey, useSignBlob := cfg.useSignBlob, headers := [],
          queryParameters := [] }) ∈ s.trace ∧
      .returned j (.url (.err e)) ∈ s.trace := by
  have settled : ∀ {ε α : Type} {x : Res ε α}, settle x = .err .status500 → ∃ e, x = .err e := by
    intro ε α x hx
    cases x with
    | ok a => cases hx
    | err e => exact ⟨e, rfl⟩
    | panic site => cases hx
  rcases failed_handler hrun hn (.inl rfl) hi with ⟨n, c, id, r, rfl, hid, hg, hf⟩ | ⟨id, r, rfl, hu, _, hg, hf⟩
  · rcases hf with ⟨_, rfl⟩ | ⟨h, _⟩
    · obtain ⟨now, _, ⟨_, h1⟩ | ⟨j, x, h1, h2, h3⟩⟩ := hg
      · cases h1
      · obtain ⟨e, rfl⟩ := settled h3.symm
        exact .inl ⟨n, c, id, now, j, e, rfl, hid, h1, h2⟩
    · cases h
  · rcases hf with ⟨_, rfl⟩ | ⟨h, _⟩
    · obtain ⟨now, _, ⟨_, h1⟩ | ⟨j, x, h1, h2, h3⟩⟩ := hg
      · cases h1
      · obtain ⟨e, rfl⟩ := settled h3.symm
        exact .inr ⟨id, now, j, e, rfl, hu, h1, h2⟩
    · cases h

/-- C88. In a sane history, a call with a bound token that has at most 3276 headers and whose options, together with any
account that the metadata server has named, take at most 6500 bytes does not panic. -/
theorem C88_small_no_panic {env : Env} {base : Nat → Str} {s : Sys} (h : Sys.Reach env base s) (hs : SaneHistory s.trace)
    {i : Nat} {call : ApiCall} {r : ApiResult} {bt : BoundToken} (hst : .started i call ∈ s.trace) (hr : .returned i r ∈ s.trace)
    (hk : call.key? = some bt)
    (hfew : ∀ o, call = .url o → o.headers.length ≤ 3276)
    (hsmall : ∀ o email, call = .url o → IdentityIn base s.trace (.boundToken bt) email → inputBytes o email ≤ 6500)
    (site : PanicSite) : ¬ AbortedAt r site := by
  intro hp
  obtain ⟨pre, post, ht, hst'⟩ := returned_at h hst hr
  rcases C87_sane_panic h hs ht hst' hk hp with ⟨o, t, email, h1, rfl, _, hpre, hn, _, hv, hl⟩ | ⟨o, t, rfl, _, _, hm⟩
  case inr =>
    obtain ⟨_, _, _, _, _, _, _, hn⟩ := hm
    exact hn (.inl (hfew o rfl))
  have hbt : o.signingKey = .boundToken bt := by
    change o.signingKey.boundToken? = some bt at hk
    cases hkey : o.signingKey with
    | boundToken b => rw [hkey] at hk; cases hk; rfl
    | hmac a b => rw [hkey] at hk; cases hk
    | serviceAccount a b => rw [hkey] at hk; cases hk
  obtain ⟨call', hst2, hbase, _⟩ := returned_done h ht
  have : call' = .url o := started_unique h (i := i) (by rw [ht]; simp [hst2]) hst
  subst this
  have hid := named_identity h (pre := pre) (post := .returned i r :: post) ht (key := o.signingKey) (fun b hb => hbase b hb) hpre hn
  rw [hbt] at hid
  obtain ⟨j, c, t0, life, href, hc⟩ := hid
  have hb := hsmall o email rfl ⟨j, c, t0, life, ht ▸ refreshed_append href, hc⟩
  obtain ⟨h1, h2, _, h3, _⟩ := urlRejection_none.1 (validUrl_iff.1 hv).1 |>.imp id id
  have h4 := (urlRejection_none.1 (validUrl_iff.1 hv).1).2.2.2.1
  have := fullUrl_length env o t email ⟨h1, h2⟩ h4
  rw [tooLong_iff ⟨h1, h2⟩] at hl
  unfold inputBytes at hb
  unfold size at this
  omega

/-- C88. A server that has started, with `USE_SIGN_BLOB=true` or `false`, never aborts a connection by a panic, in any interleaving
of its handlers and of the calls of the crate, as long as clocks and token lifetimes are sane (no reading before 1970 or in the
last minute of `SystemTime`, no token that outlives it) and bucket name and account are not absurdly long. -/
theorem C88_never_aborts (env : Env) (base : Nat → Str) (s : Sys) (h : Sys.Reach env base s) (hs : SaneHistory s.trace)
    (env' : Env) (vars : Str → Option Str) (files : Str → FileResult) (w w' : World) (cfg : Config)
    (hset : setup env' vars files w = (.ok cfg, w'))
    (hsmall : ∀ email, IdentityIn base s.trace cfg.signingKey email → (utf8 cfg.bucketName).length + (utf8 email).length ≤ 6400)
    (tr : List ImageUploader.Event) (st : State)
    (hrun : Run (.sharedAt (fun now => now + 60000000000 < 9223372036854775808 * 1000000000) s.trace cfg) cfg tr st) (i : Nat) (req : Req) :
    st.tasks[i]? ≠ some (req, .replied .aborted) := by
  have hlim : ∀ now : Time, now + 60000000000 < 9223372036854775808 * 1000000000 → ¬ timeLimit ≤ now + 60 * nsPerSec := by
    intro now hnow
    simp only [timeLimit, nsPerSec]
    omega
  have settled : ∀ {ε α : Type} {x : Res ε α}, (∀ site, x ≠ .panic site) →
      (settle x ≠ .err .panicked ∧ ∀ site, settle x ≠ .panic site) := by
    intro ε α x hx
    cases x with
    | ok a => exact ⟨by simp [settle], by simp [settle]⟩
    | err e => exact ⟨by simp [settle], by simp [settle]⟩
    | panic site => exact absurd rfl (hx site)
  have hauto : (utf8 (s% "auto")).length = 4 := by decide
  refine never_aborts ⟨?_, ?_⟩ hrun i req
  · rintro id n c r hid ⟨now, hnow, ⟨hl, _⟩ | ⟨j, x, h1, h2, rfl⟩⟩
    · exact absurd hl (hlim now hnow)
    · refine settled fun site hx => ?_
      subst hx
      rcases (C72_setup env' vars files w w' cfg hset).2 with ⟨_, _, bt, hk⟩ | ⟨_, hu, _, _, _, email, pem, _, _, _, _, _, hk⟩
      · exact C88_small_no_panic h hs h1 h2 (bt := bt) (form_own_key rfl hk) (fun o ho => by cases ho) (fun o _ ho _ => by cases ho) site (.form site)
      · obtain ⟨pre, post, ht, hst⟩ := returned_at h h1 h2
        obtain ⟨env2, w2, w3, _, _, hb⟩ := C87_form_replay h ht hst
        have := (C13_service_account_panics env2 _ _ email pem w2 rfl hk site).1 (by rw [hb])
        have hb : cfg.useSignBlob = true := this.2.1
        rw [hu] at hb
        cases hb
  · rintro id r hid ⟨now, hnow, ⟨hl, _⟩ | ⟨j, x, h1, h2, rfl⟩⟩
    · exact absurd hl (hlim now hnow)
    · have hbytes := uuid_bytes hid
      refine settled fun site hx => ?_
      subst hx
      rcases (C72_setup env' vars files w w' cfg hset).2 with ⟨_, _, bt, hk⟩ | ⟨_, hu, _, _, _, email, pem, _, _, _, _, _, hk⟩
      · refine C88_small_no_panic h hs h1 h2 (bt := bt) (url_own_key hk) (fun o ho => by cases ho; exact Nat.zero_le _)
          (fun o email ho hid => ?_) site (.url site)
        cases ho
        have := hsmall email (by rw [hk]; exact hid)
        show (utf8 cfg.bucketName).length + (utf8 id).length + (utf8 email).length + (utf8 (s% "auto")).length + 0 + 0 ≤ 6500
        omega
      · obtain ⟨pre, post, ht, hst⟩ := returned_at h h1 h2
        obtain ⟨env2, w2, w3, _, _, hb⟩ := C87_url_replay h ht hst
        have hsm := hsmall email (by rw [hk]; rfl)
        refine C31_small_no_panic env2 _ w2 email pem hk hu ?_ site (by rw [hb])
        show (utf8 cfg.bucketName).length + (utf8 id).length + (utf8 email).length + (utf8 (s% "auto")).length + 0 + 0 ≤ 6500
        omega

/-! ### Example -/

namespace Reference
open Conformance

/-- The environment variables of a server with `USE_SIGN_BLOB=true`. -/
def btVars (name : Str) : Option Str := if name = s% "USE_SIGN_BLOB" then some (s% "true") else ImageUploader.vars name

/-- The call for the form of an image gets a token, but no answer from the signing service. -/
def catFailing : List Move :=
  [.start 0 (.form catCalls), .clock 0 atNow, .go 0, .go 0, .status 0 (some 200), .body 0 (some (s% "a@b.c")), .go 0,
   .status 0 (some 200), .body 0 (some (tokenDoc (s% "3599"))), .clock 0 atNow, .go 0, .go 0, .go 0, .clock 0 atNow, .go 0, .go 0,
   .status 0 none, .finish 0]

def failed0 (s : Sys) : Bool := s.trace.any fun
  | .returned 0 (.form (.err (.signing (.boundTokenSigning .signBlobRequestExecute)))) => true
  | _ => false

theorem failed0_iff {s : Sys} (h : failed0 s = true) :
    .returned 0 (.form (.err (.signing (.boundTokenSigning .signBlobRequestExecute)))) ∈ s.trace := by
  obtain ⟨ev, hm, he⟩ := List.any_eq_true.1 h
  split at he
  · exact hm
  · cases he

theorem bt_setup : setup btEnv btVars (fun _ => .text []) Conformance.world =
    (.ok btConfig, (SigningKey.newBoundToken (ε := SetupError) btEnv Conformance.world).2) := by
  unfold setup
  rw [M.bind_run, M.lift_run, show btVars (s% "USE_SIGN_BLOB") = some (s% "true") by decide, Res.ofOption_some]
  rfl

end Reference

open Reference Conformance in
/-- Non-vacuity of C88: in a sane history with a short account name, a server with a bound token has answered 500 to a
registration, because the signing service did not answer; and it has not aborted. -/
example : ∃ s st, Sys.Reach btEnv baseOf s ∧ SaneHistory s.trace ∧
    (∀ email, IdentityIn baseOf s.trace btConfig.signingKey email → (utf8 btConfig.bucketName).length + (utf8 email).length ≤ 6400) ∧
    (∃ w w', setup btEnv btVars (fun _ => .text []) w = (.ok btConfig, w')) ∧
    Run (.sharedAt (fun now => now + 60000000000 < 9223372036854775808 * 1000000000) s.trace btConfig) btConfig [] st ∧
    Run (.shared s.trace btConfig) btConfig [] st ∧
    st.tasks[0]? = some (.create 4 (s% "image/png"), .replied .internalServerError) := by
  have h : Leads btEnv baseOf catFailing (fun s => isOwned s && (failed0 s && saneCheck s.trace)) = true := by decide +kernel
  unfold Leads at h
  cases hs : Sys.init.exec btEnv baseOf catFailing with
  | none => rw [hs] at h; cases h
  | some s =>
    rw [hs] at h
    simp only [Bool.and_eq_true] at h
    have hr := exec_reach .init hs
    obtain ⟨n, e, ho⟩ := isOwned_owner (env := btEnv) h.1
    have hf := failed0_iff h.2.1
    obtain ⟨_, hst⟩ := exec_started hs
    have h0 := hst 0 (.form catCalls) (by simp [catFailing])
    have gives : ∀ clock : Time → Prop, clock atNow →
        (Crate.sharedAt clock s.trace btConfig).form uuidA 4 (s% "image/png") (.err .status500) :=
      fun clock hc => ⟨atNow, hc, .inr ⟨0, _, h0, hf, rfl⟩⟩
    have runs : ∀ clock : Time → Prop, clock atNow → Run (Crate.sharedAt clock s.trace btConfig) btConfig []
        ⟨[], [(.create 4 (s% "image/png"), .replied .internalServerError)]⟩ := fun clock hc =>
      .step (tr := []) (s := ⟨[], [(.create 4 (s% "image/png"), .create 4 (s% "image/png"))]⟩) 0 (.create 4 (s% "image/png"))
        (.create 4 (s% "image/png")) uuidA (.err .status500) (.ok []) (.receive (.create 4 (s% "image/png")) .start) rfl
        (by decide +kernel) (gives clock hc)
    refine ⟨s, _, hr, sane_of_check h.2.2, ?_, ⟨_, _, bt_setup⟩, runs _ (by decide), runs _ trivial, rfl⟩
    rintro email ⟨j, c, t0, life, href, rfl⟩
    rw [ho.1 j c t0 life href]
    decide +kernel

end CSS
