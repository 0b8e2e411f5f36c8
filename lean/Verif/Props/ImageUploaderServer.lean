import Verif.Props.ImageUploader
import Verif.Props.Server
import Verif.Props.PostServer
import Verif.Props.UrlPath
import Verif.Props.UrlErrors
import Verif.Props.FormErrors
import Verif.Props.Key
/-
The example server together with a storage server that checks signatures as documented. C70: its forms upload the registered
image and nothing else. C71: its URLs show the registered image and nothing else, for at most a minute. C72: with a service
account key it never aborts a connection. Cases that meet the hypotheses are in Props/ImageUploaderExamples.lean.
-/
set_option linter.unusedSimpArgs false
namespace CSS
open Spec ImageUploader Spec.ImageUploader

/-- A bucket name as Cloud Storage allows it: lower-case letters, digits, `-`, `_` and `.`, at least three of them. -/
def Spec.ImageUploader.IsBucketName (name : Str) : Prop :=
  3 ≤ name.length ∧ ∀ c ∈ name, c ∈ s% "abcdefghijklmnopqrstuvwxyz0123456789-_."

/-- C70. With a service account key, a storage server that knows the public key accepts a returned form exactly from the
second in which it was signed until a minute after the registration, with a file of exactly the registered length. -/
theorem C70_form_accepted (env : Env) (cfg : Config) (id : Str) (n : Nat) (c : Str) (fs : List (Str × Str)) (now start : Time)
    (email pem : Str) (key : Bytes) (N E : Nat) (h : FormFor env cfg id n c fs now start)
    (hk : cfg.signingKey = .serviceAccount email pem) (hring : Rsa.Correct env) (hpem : env.pemParse pem = some key)
    (hpub : Rsa.PublicKeyIn key N E) (size : Nat) (time : Int) :
    AcceptsPost email N E ⟨cfg.bucketName, fs, size, time⟩ ↔
      start / 1000000000 ≤ time ∧ time < (now + 60000000000) / 1000000000 ∧ size = n := by
  obtain ⟨w, w', rfl, rfl, hb⟩ := h
  rw [C67_service_account env _ _ _ w' fs email pem key N E _ rfl hb hk hring hpem hpub rfl rfl]
  constructor
  · rintro ⟨a, b, d, _⟩
    exact ⟨a, b, (d _ rfl).2.2.symm.trans (natDec_decimal n).2.2⟩
  · rintro ⟨a, b, rfl⟩
    refine ⟨a, b, ?_, ?_⟩
    · intro text ht
      rw [← Option.some.inj ht]
      exact natDec_decimal size
    · intro m hm
      cases hm

theorem createCalls_other (cfg : Config) (id : Str) (n : Nat) (c : Str) (t : Time) (x : Str)
    (hx : x ∉ [s% "bucket", s% "Content-Length", s% "Content-Type", s% "key"]) :
    lastValue (createCalls cfg id n c t) x = none := by
  unfold lastValue createCalls
  rw [Option.map_eq_none_iff, List.getLast?_eq_none_iff, List.filter_eq_nil_iff]
  rintro ⟨y, v⟩ hy
  rw [decide_eq_true_eq]
  rintro rfl
  simp only [List.mem_cons, List.not_mem_nil, or_false, not_or] at hx
  simp only [List.filterMap_cons, callSets, List.filterMap_nil, List.mem_cons, Prod.mk.injEq, List.not_mem_nil, or_false] at hy
  rcases hy with h | h | h | h
  · exact hx.1 h.1
  · exact hx.2.1 h.1
  · exact hx.2.2.1 h.1
  · exact hx.2.2.2 h.1

/-- C70. Whoever posts a form with this policy uploads the registered image: the storage server accepts it only with the
bucket of the configuration, the registered id as key, the registered type, and a file of the registered length; the other
fields are the fixed ones of the scheme. -/
theorem C70_form_binding (env : Env) (cfg : Config) (id : Str) (n : Nat) (c : Str) (fs : List (Str × Str)) (now start : Time)
    (N E : Nat) (h : FormFor env cfg id n c fs now start) (account : Str) (r : Posted) (hacc : AcceptsPost account N E r)
    (hsame : fieldValues r.fields (s% "policy") = fieldValues fs (s% "policy")) :
    r.bucket = cfg.bucketName ∧ r.size = n ∧
    (∀ v, (s% "key", v) ∈ r.fields ↔ v = id) ∧ (∀ v, (s% "Content-Type", v) ∈ r.fields ↔ v = c) ∧
    (∀ f ∈ r.fields, f.1 ∈ [s% "bucket", s% "Content-Length", s% "Content-Type", s% "key", s% "policy", s% "x-goog-algorithm",
      s% "x-goog-credential", s% "x-goog-date", s% "x-goog-signature"] ∨ s% "x-ignore-" <+: f.1) ∧
    start / 1000000000 ≤ r.time ∧ r.time < (now + 60000000000) / 1000000000 := by
  obtain ⟨w, w', rfl, rfl, hb⟩ := h
  have hsub := C68_unforgeable env _ _ _ w' fs N E rfl hb account r hacc hsame
  obtain ⟨_, _, _, _, _, _, computed, rfl, hcomp, _⟩ := form_facts env _ _ _ w' fs rfl hb
  have hc : ∀ x, computed.lookup x = none ∨ x ∈ [s% "policy", s% "x-goog-algorithm", s% "x-goog-credential", s% "x-goog-date",
      s% "x-goog-signature"] := by
    intro x
    by_cases hx : x ∈ [s% "policy", s% "x-goog-algorithm", s% "x-goog-credential", s% "x-goog-date", s% "x-goog-signature"]
    · exact .inr hx
    · simp only [List.mem_cons, List.not_mem_nil, or_false, not_or] at hx
      exact .inl (hcomp x hx.1 hx.2.1 hx.2.2.1 hx.2.2.2.1 hx.2.2.2.2)
  have one : ∀ x v, x ∈ signedOrder → x ∉ [s% "policy", s% "x-goog-algorithm", s% "x-goog-credential", s% "x-goog-date",
      s% "x-goog-signature"] → x ≠ s% "Content-Length" → x ≠ s% "bucket" →
      lastValue (createCalls cfg id n c (env.now w.ticks + 60000000000)) x = some v →
      ∀ u, (x, u) ∈ r.fields ↔ u = v := by
    intro x v hx hx1 hx2 hx3 hv u
    have hmem : (x, v) ∈ signedForm (createCalls cfg id n c (env.now w.ticks + 60000000000)) computed := by
      refine mem_signedForm.2 (.inl ⟨hx, ?_⟩)
      rcases hc x with h | h
      · rw [h, Option.none_or]; exact hv
      · exact absurd h hx1
    have hex : ¬ exempt x := by
      rintro (rfl | rfl) <;> exact hx1 (by decide)
    constructor
    · intro hu
      exact hsub.same _ hu _ hmem rfl hex hx2
    · rintro rfl
      exact hsub.complete _ hmem hex hx2 hx3
  refine ⟨(Option.some.inj hsub.bucket).symm, ?_, ?_, ?_, ?_, hsub.notBefore, hsub.notAfter⟩
  · exact (hsub.size _ rfl).2.2.symm.trans (natDec_decimal n).2.2
  · exact one _ _ (by decide) (by decide) (by decide) (by decide) rfl
  · exact one _ _ (by decide) (by decide) (by decide) (by decide) rfl
  · intro f hf
    by_cases hi : Ignored f.1
    · rcases hi with h | h | h
      · rw [h]; exact .inl (by decide)
      · rw [h]; exact .inl (by decide)
      · exact .inr h
    · obtain ⟨⟨x, v⟩, hg, he⟩ := hsub.known f hf hi
      rw [← he]
      refine .inl ?_
      rcases mem_signedForm.1 hg with ⟨ho, hv⟩ | ⟨_, hm⟩
      · rcases hc x with h | h
        · rw [h, Option.none_or] at hv
          by_cases hx : x ∈ [s% "bucket", s% "Content-Length", s% "Content-Type", s% "key"]
          · exact (by decide : ∀ x ∈ [s% "bucket", s% "Content-Length", s% "Content-Type", s% "key"],
              x ∈ [s% "bucket", s% "Content-Length", s% "Content-Type", s% "key", s% "policy", s% "x-goog-algorithm",
                s% "x-goog-credential", s% "x-goog-date", s% "x-goog-signature"]) x hx
          · exact absurd ((createCalls_other cfg id n c _ x hx).symm.trans hv) (by simp)
        · exact (by decide : ∀ x ∈ [s% "policy", s% "x-goog-algorithm", s% "x-goog-credential", s% "x-goog-date",
              s% "x-goog-signature"], x ∈ [s% "bucket", s% "Content-Length", s% "Content-Type", s% "key", s% "policy",
              s% "x-goog-algorithm", s% "x-goog-credential", s% "x-goog-date", s% "x-goog-signature"]) x h
      · cases hm

/-- C70 for every history of the server. The fields of an answered registration come with a registered id. They were signed with
two consecutive readings of the clock, `now` and `start`. Whatever form is accepted with this policy uploads to this bucket
under this id, with the registered type and length, from `start` until a minute after `now`. With a service account key, the
form itself is accepted exactly then, with a file of exactly this length. -/
theorem C70_registered (env : Env) (cfg : Config) (tr : List Event) (s : State) (hrun : Run (.alone env cfg) cfg tr s) (i n : Nat)
    (c m u : Str) (fs : List (Str × Str)) (hi : s.tasks[i]? = some (.create n c, .replied (.form fs m u))) :
    ∃ (id : Str) (ticks : Nat) (now start : Time), eventsOf tr i = [.created i id] ∧ now = env.now ticks ∧
      start = env.now (ticks + 1) ∧
      (∀ (account : Str) (N E : Nat) (r : Posted), AcceptsPost account N E r →
        fieldValues r.fields (s% "policy") = fieldValues fs (s% "policy") →
        r.bucket = cfg.bucketName ∧ r.size = n ∧
        (∀ v, (s% "key", v) ∈ r.fields ↔ v = id) ∧ (∀ v, (s% "Content-Type", v) ∈ r.fields ↔ v = c) ∧
        start / 1000000000 ≤ r.time ∧ r.time < (now + 60000000000) / 1000000000) ∧
      ∀ (email pem : Str) (key : Bytes) (N E : Nat), cfg.signingKey = .serviceAccount email pem → Rsa.Correct env →
        env.pemParse pem = some key → Rsa.PublicKeyIn key N E → ∀ (size : Nat) (time : Int),
        (AcceptsPost email N E ⟨cfg.bucketName, fs, size, time⟩ ↔
          start / 1000000000 ≤ time ∧ time < (now + 60000000000) / 1000000000 ∧ size = n) := by
  rcases C70_create env cfg tr s hrun i n c _ hi with ⟨id, fields, now, start, he, _, hf, hev⟩ | ⟨h | h, _⟩
  · rw [Reply.form.injEq] at he
    rw [← he.1] at hf
    obtain ⟨w, w', hnow, hstart, hbuild⟩ := _root_.id hf
    refine ⟨id, w.ticks, now, start, hev, hnow, hstart, fun account N E r ha hp => ?_,
      fun email pem key N E h1 h2 h3 h4 size time =>
        C70_form_accepted env cfg id n c fs now start email pem key N E hf h1 h2 h3 h4 size time⟩
    obtain ⟨h1, h2, h3, h4, _, h5⟩ := C70_form_binding env cfg id n c fs now start N E hf account r ha hp
    exact ⟨h1, h2, h3, h4, h5⟩
  · cases h
  · cases h

/-! ### C71 -/

theorem uuid_chars {id : Str} (h : IsUuid id) : ∀ c ∈ id, c ∉ s% "?#%\\\t\n\r/" := by
  intro c hc
  exact (by decide : ∀ c ∈ s% "0123456789abcdef-", c ∉ s% "?#%\\\t\n\r/") c (h.2 c hc)

theorem bucket_chars {name : Str} (h : IsBucketName name) : ∀ c ∈ name, c ∉ s% "?#%\\\t\n\r/" := by
  intro c hc
  exact (by decide : ∀ c ∈ s% "abcdefghijklmnopqrstuvwxyz0123456789-_.", c ∉ s% "?#%\\\t\n\r/") c (h.2 c hc)

theorem listOptions_regular {cfg : Config} {id : Str} {t : Time} (hb : IsBucketName cfg.bucketName) (hid : IsUuid id) :
    Regular (listOptions cfg id t) where
  bucket := fun h => bucket_chars hb _ h (by decide)
  object := fun h => uuid_chars hid _ h (by decide)
  region := by show '%' ∉ s% "auto"; decide
  paramNames := by intro p hp; cases hp
  headerNames := by intro p hp; cases hp
  prefixes := by show ∀ a ∈ googNames, ∀ b ∈ googNames, a <+: b → a = b; decide
  headerValues := by intro p hp; cases hp
  noPayload := by intro p hp; cases hp

theorem listOptions_path {env : Env} {w w' : World} {cfg : Config} {id url : Str} {t : Time}
    (hu : buildSignedUrl env (listOptions cfg id t) w = (.ok url, w')) (hb : IsBucketName cfg.bucketName) (hid : IsUuid id) :
    ∃ path, urlPath (s% "https://storage.googleapis.com") url = some path ∧
      percentDecode path = utf8 (s% "/" ++ cfg.bucketName ++ s% "/" ++ id) := by
  obtain ⟨path, h1, h2, _⟩ := C27_path_exact_partial env _ _ w' url hu
    (by
      intro c hc hx
      have hx' : c ∈ s% "?#%\\\t\n\r/" := (by decide : ∀ c ∈ s% "?#%\\\t\n\r", c ∈ s% "?#%\\\t\n\r/") c hx
      rcases List.mem_append.1 hc with h | h
      · exact bucket_chars hb c h hx'
      · exact uuid_chars hid c h hx')
    (by
      intro c hc
      exact (by decide : ∀ c ∈ s% "0123456789abcdef-", 32 < c.toNat) c (hid.2 c (List.mem_of_getLast? hc)))
    (by
      have h1 : '/' ∉ cfg.bucketName := fun h => bucket_chars hb _ h (by decide)
      have h2 : '/' ∉ id := fun h => uuid_chars hid _ h (by decide)
      intro s hs
      change s ∈ splitOn '/' (cfg.bucketName ++ s% "/" ++ id) at hs
      rw [show cfg.bucketName ++ s% "/" ++ id = cfg.bucketName ++ '/' :: id by simp, splitOn_append h1, splitOn_none h2] at hs
      have hl : 3 ≤ s.length := by
        rcases List.mem_cons.1 hs with rfl | hs
        · exact hb.1
        · rw [List.mem_singleton.1 hs, hid.1]; decide
      constructor <;> (rintro rfl; exact absurd hl (by decide)))
  exact ⟨path, h1, h2⟩

/-- C71. A listed URL is for exactly the object `/BUCKET/ID`. -/
theorem C71_path (env : Env) (cfg : Config) (id url : Str) (now start : Time) (h : UrlFor env cfg id url now start)
    (hb : IsBucketName cfg.bucketName) (hid : IsUuid id) :
    ∃ path, urlPath (s% "https://storage.googleapis.com") url = some path ∧
      percentDecode path = utf8 (s% "/" ++ cfg.bucketName ++ s% "/" ++ id) := by
  obtain ⟨w, w', rfl, rfl, hu⟩ := h
  exact listOptions_path hu hb hid

/-- C71. With a service account key, a storage server that knows the public key answers a GET of a listed URL (with the right
`Host` and no other header) exactly from the second in which it was signed for the whole seconds left of the minute. -/
theorem C71_accepted (env : Env) (cfg : Config) (id url : Str) (now start : Time) (h : UrlFor env cfg id url now start)
    (hb : IsBucketName cfg.bucketName) (hid : IsUuid id) (email pem : Str) (key : Bytes) (N E : Nat)
    (hk : cfg.signingKey = .serviceAccount email pem) (hring : Rsa.Correct env) (hpem : env.pemParse pem = some key)
    (hpub : Rsa.PublicKeyIn key N E) (hemail : '%' ∉ email) (time : Int) :
    Accepts email N E ⟨s% "GET", url, [(s% "host", s% "storage.googleapis.com")], time⟩ ↔
      start / 1000000000 ≤ time ∧ time < start / 1000000000 + (now + 60000000000 - start) / 1000000000 := by
  obtain ⟨w, w', rfl, rfl, hu⟩ := h
  constructor
  · intro ha
    have := C65_window env _ _ w' url email N E _ hu rfl ha
    exact ⟨this.1, this.2.1⟩
  · rintro ⟨h1, h2⟩
    exact C65_service_account env _ _ w' url email pem key N E time hu hk
      (listOptions_regular (t := env.now w.ticks + 60000000000) hb hid) hring hpem hpub hemail h1 h2

/-- C71. Whatever the configuration, nobody gets anything with a listed URL before it was signed or from a minute after the
listing on, with any method and headers. -/
theorem C71_window (env : Env) (cfg : Config) (id url : Str) (now start : Time) (h : UrlFor env cfg id url now start)
    (account : Str) (N E : Nat) (r : Incoming) (hu : r.url = url) (ha : Accepts account N E r) :
    start / 1000000000 ≤ r.time ∧ r.time * 1000000000 < now + 60000000000 := by
  obtain ⟨w, w', rfl, rfl, hb⟩ := h
  have := C65_window env _ _ w' url account N E r hb hu ha
  exact ⟨this.1, this.2.2⟩

/-- C71 for every history of the server. Each URL of an answered listing is for exactly one registered image: its path is
exactly `/BUCKET/ID`. It was signed with two consecutive readings of the clock, `now` and `start`. Nobody gets anything with it
before `start` or from a minute after `now` on. With a service account key, a GET of it is answered from the second of
`start` for the whole seconds left of the minute. -/
theorem C71_listed (env : Env) (cfg : Config) (tr : List Event) (s : State) (hrun : Run (.alone env cfg) cfg tr s) (i : Nat) (q : Req)
    (urls : List Str) (hi : s.tasks[i]? = some (q, .replied (.urls urls))) (url : Str) (hurl : url ∈ urls)
    (hb : IsBucketName cfg.bucketName) :
    ∃ (j : Nat) (id : Str) (ticks : Nat) (now start : Time), .created j id ∈ tr ∧ now = env.now ticks ∧ start = env.now (ticks + 1) ∧
      (∃ path, urlPath (s% "https://storage.googleapis.com") url = some path ∧
        percentDecode path = utf8 (s% "/" ++ cfg.bucketName ++ s% "/" ++ id)) ∧
      (∀ (account : Str) (N E : Nat) (r : Incoming), r.url = url → Accepts account N E r →
        start / 1000000000 ≤ r.time ∧ r.time * 1000000000 < now + 60000000000) ∧
      ∀ (email pem : Str) (key : Bytes) (N E : Nat), cfg.signingKey = .serviceAccount email pem → Rsa.Correct env →
        env.pemParse pem = some key → Rsa.PublicKeyIn key N E → '%' ∉ email → ∀ time : Int,
        (Accepts email N E ⟨s% "GET", url, [(s% "host", s% "storage.googleapis.com")], time⟩ ↔
          start / 1000000000 ≤ time ∧ time < start / 1000000000 + (now + 60000000000 - start) / 1000000000) := by
  obtain ⟨_, _, before, after, htr, hs⟩ := (run_inv hrun).1 i q _ hi
  obtain ⟨k, hk, hku⟩ := List.getElem_of_mem hurl
  have hk' : k < ((replay before).filter (·.uploaded)).length := by rw [← hs.1]; exact hk
  have hu := hs.2 k url _ (by rw [List.getElem?_eq_getElem hk, hku]) (List.getElem?_eq_getElem hk')
  have hm : ((replay before).filter (·.uploaded))[k].id ∈ createdIds before := by
    rw [← replay_ids]
    exact List.mem_map.2 ⟨_, (List.mem_filter.1 (List.getElem_mem hk')).1, rfl⟩
  generalize ((replay before).filter (·.uploaded))[k].id = id at hu hm
  obtain ⟨e, he, hid⟩ := List.mem_filterMap.1 hm
  cases e with
  | created j id' =>
    have hid : id' = id := Option.some.inj hid
    subst hid
    have hmem : Event.created j id' ∈ tr := by rw [htr]; exact List.mem_append_left _ he
    obtain ⟨_, _, _, huuid, _⟩ := (C70_events _ cfg tr s hrun).1 j id' hmem
    obtain ⟨now, start, hf⟩ := alone_url hu
    obtain ⟨w, w', hnow, hstart, hbuild⟩ := id hf
    exact ⟨j, id', w.ticks, now, start, hmem, hnow, hstart, C71_path env cfg id' url now start hf hb huuid,
      fun account N E r hr ha => C71_window env cfg id' url now start hf account N E r hr ha,
      fun email pem key N E h1 h2 h3 h4 h5 time =>
        C71_accepted env cfg id' url now start hf hb huuid email pem key N E h1 h2 h3 h4 h5 time⟩
  | updated j id' => cases hid
  | listed j => cases hid

/-! ### C72 -/

theorem attempt_panicked {ε α : Type} {x : M ε α} {w : World} (h : (attempt x w).1 = .err .panicked) :
    ∃ s, (x w).1 = .panic s := by
  have h : settle (x w).1 = .err .panicked := h
  cases hx : (x w).1 with
  | ok a => rw [hx] at h; cases h
  | err e => rw [hx] at h; cases h
  | panic s => exact ⟨s, rfl⟩

theorem attempt_no_panic {ε α : Type} (x : M ε α) (w : World) (s : PanicSite) : (attempt x w).1 ≠ .panic s := by
  show settle (x w).1 ≠ _
  cases (x w).1 <;> simp [settle]

/-- C72. A server that starts has the bucket of `BUCKET_NAME` and, as `USE_SIGN_BLOB` says, either a bound token and remote
signing, or the service account key of the file and local signing. It never has a service account key with remote signing,
which the crate does not support (C13). -/
theorem C72_setup (env : Env) (vars : Str → Option Str) (files : Str → FileResult) (w w' : World) (cfg : Config)
    (h : setup env vars files w = (.ok cfg, w')) :
    vars (s% "BUCKET_NAME") = some cfg.bucketName ∧
    ((vars (s% "USE_SIGN_BLOB") = some (s% "true") ∧ cfg.useSignBlob = true ∧ ∃ bt, cfg.signingKey = .boundToken bt) ∨
     (vars (s% "USE_SIGN_BLOB") = some (s% "false") ∧ cfg.useSignBlob = false ∧ ∃ path text j email pem,
        vars (s% "GOOGLE_APPLICATION_CREDENTIALS") = some path ∧ files path = .text text ∧ ReadableJson env text j ∧
        HasMember j (s% "client_email") (.str email) ∧ HasMember j (s% "private_key") (.str pem) ∧
        cfg.signingKey = .serviceAccount email pem)) := by
  unfold setup at h
  rw [M.bind_run, M.lift_run] at h
  cases hv : vars (s% "USE_SIGN_BLOB") with
  | none => rw [hv] at h; cases h
  | some text =>
    rw [hv, Res.ofOption_some] at h
    simp only at h
    rw [M.bind_run, M.lift_run] at h
    by_cases ht : text = s% "true"
    · subst ht
      rw [if_pos rfl, Res.ofOption_some] at h
      simp only [if_true] at h
      rw [M.bind_run] at h
      cases hb : vars (s% "BUCKET_NAME") with
      | none => rw [hb] at h; cases h
      | some b =>
        rw [hb] at h
        cases h
        exact ⟨rfl, .inl ⟨rfl, rfl, _, rfl⟩⟩
    · rw [if_neg ht] at h
      by_cases hf : text = s% "false"
      · subst hf
        rw [if_pos rfl, Res.ofOption_some] at h
        simp only [Bool.false_eq_true, if_false] at h
        rw [M.bind_run, M.lift_run] at h
        cases hp : vars (s% "GOOGLE_APPLICATION_CREDENTIALS") with
        | none => rw [hp] at h; cases h
        | some path =>
          rw [hp, Res.ofOption_some] at h
          simp only at h
          rw [M.bind_run, M.lift_run] at h
          cases hs : SigningKey.serviceAccountFromPath env (files path) with
          | err e => rw [hs] at h; cases h
          | panic e => rw [hs] at h; cases h
          | ok k =>
            rw [hs] at h
            simp only [Res.mapErr] at h
            rw [M.bind_run, M.lift_run] at h
            cases hb : vars (s% "BUCKET_NAME") with
            | none => rw [hb] at h; cases h
            | some b =>
              rw [hb] at h
              cases h
              obtain ⟨text, ht, hs⟩ := (C49_service_account_from_path env _ _).1 hs
              obtain ⟨j, email, pem, h1, h2, h3, h4⟩ := (C49_service_account_ok env _ _).1 hs
              exact ⟨rfl, .inr ⟨rfl, rfl, path, text, j, email, pem, rfl, ht, h1, h2, h3, h4⟩⟩
      · rw [if_neg hf] at h
        cases h

theorem inOneMinute_run (env : Env) (w : World) (hc : env.now w.ticks + 60 * nsPerSec < timeLimit) :
    inOneMinute env w = (.ok (env.now w.ticks + 60 * nsPerSec), { w with ticks := w.ticks + 1 }) := by
  unfold inOneMinute
  rw [if_pos hc]

theorem createForm_safe {env : Env} {cfg : Config} {email pem : Str} (hk : cfg.signingKey = .serviceAccount email pem)
    (hu : cfg.useSignBlob = false) (hc : ∀ k, env.now k + 60 * nsPerSec < timeLimit) (id : Str) (n : Nat) (c : Str) (w : World) :
    (createForm env cfg id n c w).1 ≠ .err .panicked ∧ ∀ s, (createForm env cfg id n c w).1 ≠ .panic s := by
  unfold createForm
  rw [M.bind_run, inOneMinute_run env w (hc _)]
  refine ⟨fun h => ?_, attempt_no_panic _ _⟩
  obtain ⟨s, hs⟩ := attempt_panicked h
  have := (C13_service_account_panics env _ _ email pem _ rfl hk s).1 hs
  have hb : cfg.useSignBlob = true := this.2.1
  rw [hu] at hb
  cases hb

theorem uuid_bytes {id : Str} (h : IsUuid id) : (utf8 id).length = 36 := by
  rw [← h.1]
  have : ∀ s : Str, (∀ c ∈ s, c ∈ s% "0123456789abcdef-") → (utf8 s).length = s.length := by
    intro s hs
    induction s with
    | nil => rfl
    | cons c s ih =>
      have h1 : (utf8 [c]).length = 1 :=
        (by decide : ∀ c ∈ s% "0123456789abcdef-", (utf8 [c]).length = 1) c (hs c (by simp))
      rw [show c :: s = [c] ++ s from rfl, utf8_append, List.length_append, h1, ih fun x hx => hs x (by simp [hx])]
      simp [Nat.add_comm]
  exact this id h.2

theorem signUrl_safe {env : Env} {cfg : Config} {email pem id : Str} (hk : cfg.signingKey = .serviceAccount email pem)
    (hu : cfg.useSignBlob = false) (hc : ∀ k, env.now k + 60 * nsPerSec < timeLimit)
    (hs : (utf8 cfg.bucketName).length + (utf8 email).length ≤ 6400) (hid : (utf8 id).length = 36) (w : World) :
    (signUrl env cfg id w).1 ≠ .err .panicked ∧ ∀ s, (signUrl env cfg id w).1 ≠ .panic s := by
  unfold signUrl
  rw [M.bind_run, inOneMinute_run env w (hc _)]
  refine ⟨fun h => ?_, attempt_no_panic _ _⟩
  obtain ⟨s, hp⟩ := attempt_panicked h
  refine C31_small_no_panic env _ _ email pem hk hu ?_ s hp
  have hauto : (utf8 (s% "auto")).length = 4 := by decide
  show (utf8 cfg.bucketName).length + (utf8 id).length + (utf8 email).length + (utf8 (s% "auto")).length + 0 + 0 ≤ 6500
  omega

/-- The ids that a handler knows are ids of the server. -/
def KnowsUuids : Task → Prop
  | .push id _ => IsUuid id
  | .sign rest _ => ∀ im ∈ rest, IsUuid im.id
  | _ => True

/-- The calls of the crate for images of the server do not panic. -/
structure ImageUploader.Crate.Safe (crate : Crate) : Prop where
  form : ∀ id n c r, IsUuid id → crate.form id n c r → r ≠ .err .panicked ∧ ∀ s, r ≠ .panic s
  url : ∀ id r, IsUuid id → crate.url id r → r ≠ .err .panicked ∧ ∀ s, r ≠ .panic s

theorem step_aborted {crate : Crate} {cfg : Config} {uuid : Str} {images : List Image} {form : Res Failure (List (Str × Str))}
    {url : Res Failure Str} {t : Task} (hsafe : crate.Safe) (hg : crate.Gives uuid form url t) (hid : IsUuid uuid)
    (hi : ∀ im ∈ images, IsUuid im.id) (ht : KnowsUuids t) (ha : t ≠ .replied .aborted) :
    KnowsUuids (t.step cfg uuid images form url).1 ∧ (t.step cfg uuid images form url).1 ≠ .replied .aborted ∧
      ∀ im ∈ (t.step cfg uuid images form url).2, IsUuid im.id := by
  cases t with
  | create n c =>
    simp only [Task.step]
    have := hsafe.form uuid n c form hid hg
    match form, this with
    | .ok fs, _ => exact ⟨hid, by simp, hi⟩
    | .err .status500, _ => exact ⟨trivial, by simp, hi⟩
    | .err .panicked, h => exact absurd rfl h.1
    | .panic s, h => exact absurd rfl (h.2 s)
  | push id fs =>
    refine ⟨trivial, by simp [Task.step], ?_⟩
    intro im him
    rcases List.mem_append.1 him with h | h
    · exact hi im h
    · rw [List.mem_singleton.1 h]; exact ht
  | list => exact ⟨hi, by simp [Task.step], hi⟩
  | sign rest urls =>
    cases rest with
    | nil => exact ⟨trivial, by simp [Task.step], hi⟩
    | cons im rest =>
      simp only [Task.step]
      have hr : ∀ x ∈ rest, IsUuid x.id := fun x hx => ht x (by simp [hx])
      by_cases hup : im.uploaded = false
      · rw [if_pos hup]
        exact ⟨hr, by simp, hi⟩
      · rw [if_neg hup]
        have := hsafe.url im.id url (ht im (by simp)) (hg (by simpa using hup))
        match url, this with
        | .ok url, _ => exact ⟨hr, by simp, hi⟩
        | .err .status500, _ => exact ⟨trivial, by simp, hi⟩
        | .err .panicked, h => exact absurd rfl h.1
        | .panic s, h => exact absurd rfl (h.2 s)
  | update id =>
    refine ⟨trivial, by simp [Task.step], ?_⟩
    have : ∀ l : List Image, (∀ im ∈ l, IsUuid im.id) → ∀ im ∈ markUploaded id l, IsUuid im.id := by
      intro l hl im him
      have hm : im.id ∈ (markUploaded id l).map (·.id) := List.mem_map.2 ⟨im, him, rfl⟩
      rw [markUploaded_ids] at hm
      obtain ⟨x, hx, he⟩ := List.mem_map.1 hm
      rw [← he]
      exact hl x hx
    exact this images hi
  | replied r => exact ⟨trivial, ha, hi⟩
  | dropped => exact ⟨trivial, by simp [Task.step], hi⟩

theorem never_aborts {crate : Crate} {cfg : Config} (hsafe : crate.Safe) {tr : List Event} {s : State} (h : Run crate cfg tr s)
    (i : Nat) (r : Req) : s.tasks[i]? ≠ some (r, .replied .aborted) := by
  have inv : (∀ im ∈ s.images, IsUuid im.id) ∧ ∀ p ∈ s.tasks, KnowsUuids p.2 ∧ p.2 ≠ .replied .aborted := by
    induction h with
    | start => exact ⟨by simp, by simp⟩
    | receive r _ ih =>
      refine ⟨ih.1, ?_⟩
      intro p hp
      rcases List.mem_append.1 hp with h | h
      · exact ih.2 p h
      · rw [List.mem_singleton.1 h]
        cases r <;> exact ⟨trivial, by simp [Req.task]⟩
    | step i r t uuid form url _ hi hid hg ih =>
      have ht := ih.2 _ (List.mem_of_getElem? hi)
      have := step_aborted (cfg := cfg) hsafe hg hid ih.1 ht.1 ht.2
      refine ⟨this.2.2, ?_⟩
      intro p hp
      rcases List.mem_or_eq_of_mem_set hp with h | rfl
      · exact ih.2 p h
      · exact ⟨this.1, this.2.1⟩
    | drop i r t _ hi _ ih =>
      refine ⟨ih.1, ?_⟩
      intro p hp
      rcases List.mem_or_eq_of_mem_set hp with h | rfl
      · exact ih.2 p h
      · exact ⟨trivial, by simp⟩
  intro hi
  exact (inv.2 _ (List.mem_of_getElem? hi)).2 rfl

/-- C72. A server that was started with `USE_SIGN_BLOB=false` never aborts a connection by a panic, in any history, as long as
bucket name and e-mail of the service account are not absurdly long and the clock is not at the end of its range: every
handler that finishes has given an answer. -/
theorem C72_never_aborts (env : Env) (vars : Str → Option Str) (files : Str → FileResult) (w w' : World) (cfg : Config)
    (hset : setup env vars files w = (.ok cfg, w')) (hv : vars (s% "USE_SIGN_BLOB") = some (s% "false"))
    (hc : ∀ k, env.now k + 60 * nsPerSec < timeLimit)
    (hs : ∀ email pem, cfg.signingKey = .serviceAccount email pem → (utf8 cfg.bucketName).length + (utf8 email).length ≤ 6400)
    (tr : List Event) (s : State) (h : Run (.alone env cfg) cfg tr s) (i : Nat) (r : Req) : s.tasks[i]? ≠ some (r, .replied .aborted) := by
  obtain ⟨_, ⟨h1, _⟩ | ⟨_, hu, _, _, _, email, pem, _, _, _, _, _, hk⟩⟩ := C72_setup env vars files w w' cfg hset
  · rw [hv] at h1
    exact absurd h1 (by decide)
  have hs' := hs email pem hk
  refine never_aborts ⟨?_, ?_⟩ h i r
  · rintro id n c _ _ ⟨w, rfl⟩
    exact createForm_safe hk hu hc id n c w
  · rintro id _ hid ⟨w, rfl⟩
    exact signUrl_safe hk hu hc hs' (uuid_bytes hid) w

end CSS
