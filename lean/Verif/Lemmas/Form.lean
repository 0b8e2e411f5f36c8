import Verif.Spec.Form
import Verif.Lemmas.JsonValue
import Verif.Lemmas.Calendar
/- Building forms: what the builder state is after a sequence of calls, and what `build` returns. -/
set_option linter.unusedSimpArgs false
namespace CSS
open Spec

/-! ### the builder state -/

theorem ofCalls_snoc (cs : List Call) (c : Call) : Builder.ofCalls (cs ++ [c]) = (Builder.ofCalls cs).apply c := by
  simp [Builder.ofCalls]

theorem lastValue_snoc (cs : List Call) (c : Call) (n : Str) :
    lastValue (cs ++ [c]) n =
      match callSets c with
      | some p => if p.1 = n then some p.2 else lastValue cs n
      | none => lastValue cs n := by
  unfold lastValue
  rw [List.filterMap_append]
  cases h : callSets c with
  | none => simp [h]
  | some p =>
    by_cases hp : p.1 = n
    · simp [h, hp]
    · simp [h, hp]

/-- The builder's fields after a sequence of calls. -/
structure StateSpec (cs : List Call) (b : Builder) : Prop where
  acl : b.acl = lastValue cs (s% "acl")
  bucket : b.bucket = lastValue cs (s% "bucket")
  cacheControl : b.cacheControl = lastValue cs (s% "Cache-Control")
  contentDisposition : b.contentDisposition = lastValue cs (s% "Content-Disposition")
  contentEncoding : b.contentEncoding = lastValue cs (s% "Content-Encoding")
  contentLength : b.contentLength.map natDec = lastValue cs (s% "Content-Length")
  contentType : b.contentType = lastValue cs (s% "Content-Type")
  expires : b.expires = lastValue cs (s% "Expires")
  key : b.key = lastValue cs (s% "key")
  redirect : b.successActionRedirect = lastValue cs (s% "success_action_redirect")
  status : b.successActionStatus.map natDec = lastValue cs (s% "success_action_status")
  customTime : b.xGoogCustomTime = lastValue cs (s% "x-goog-custom-time")
  metas : b.xGoogMeta = cs.filterMap callMeta
  options : b.signingOptions = (cs.filterMap callOptions).getLast?

theorem list_snoc_induction {α : Type} {P : List α → Prop} (nil : P []) (snoc : ∀ l a, P l → P (l ++ [a])) (l : List α) : P l := by
  have : ∀ l : List α, P l.reverse := by
    intro l
    induction l with
    | nil => exact nil
    | cons a l ih => rw [List.reverse_cons]; exact snoc _ _ ih
  have h := this l.reverse
  rwa [List.reverse_reverse] at h

theorem ofCalls_spec (cs : List Call) : StateSpec cs (Builder.ofCalls cs) := by
  induction cs using list_snoc_induction with
  | nil => constructor <;> rfl
  | snoc cs c ih =>
    rw [ofCalls_snoc]
    obtain ⟨h1, h2, h3, h4, h5, h6, h7, h8, h9, h10, h11, h12, h13, h14⟩ := ih
    cases c <;> constructor <;>
      simp [Builder.apply, lastValue_snoc, callSets, callMeta, callOptions, List.filterMap_append,
        h1, h2, h3, h4, h5, h6, h7, h8, h9, h10, h11, h12, h13, h14]

/-! ### conditions and fields as lists -/

theorem metaFields_eq (ms : List (Str × Str)) :
    metaFields ms = if ∃ m ∈ ms, m.1 = [] then .err .xGoogMetaNameEmpty
      else .ok (ms.map fun m => (s% "x-goog-meta-" ++ m.1, m.2)) := by
  induction ms with
  | nil => simp [metaFields]
  | cons m ms ih =>
    obtain ⟨n, v⟩ := m
    simp only [metaFields]
    by_cases hn : n = []
    · rw [if_pos hn, if_pos ⟨(n, v), by simp, hn⟩]
    · rw [if_neg hn, ih]
      by_cases he : ∃ m ∈ ms, m.1 = []
      · rw [if_pos he, if_pos]
        · rfl
        · obtain ⟨m, hm, h⟩ := he; exact ⟨m, by simp [hm], h⟩
      · rw [if_neg he, if_neg]
        · simp
        · rintro ⟨m, hm, h⟩
          rcases List.mem_cons.1 hm with rfl | hm
          · exact hn h
          · exact he ⟨m, hm, h⟩

theorem stripPrefix_append (p s : Str) : stripPrefix p (p ++ s) = some s := by
  induction p with
  | nil => rfl
  | cons c p ih => simp [stripPrefix, ih]

theorem fieldNew_meta {n : Str} (h : n ≠ []) : Field.new (s% "x-goog-meta-" ++ n) = some (.xGoogMeta n) := by
  have hne : ∀ t : Str, t ∈ [s% "acl", s% "bucket", s% "Cache-Control", s% "Content-Disposition", s% "Content-Encoding",
    s% "Content-Length", s% "Content-Type", s% "Expires", s% "file", s% "key", s% "policy", s% "success_action_redirect",
    s% "success_action_status", s% "x-goog-algorithm", s% "x-goog-credential", s% "x-goog-custom-time", s% "x-goog-date",
    s% "x-goog-signature"] → s% "x-goog-meta-" ++ n ≠ t := by
    intro t ht e
    have : stripPrefix (s% "x-goog-meta-") t = some n := by rw [← e]; exact stripPrefix_append _ _
    have key : ∀ t ∈ [s% "acl", s% "bucket", s% "Cache-Control", s% "Content-Disposition", s% "Content-Encoding",
      s% "Content-Length", s% "Content-Type", s% "Expires", s% "file", s% "key", s% "policy", s% "success_action_redirect",
      s% "success_action_status", s% "x-goog-algorithm", s% "x-goog-credential", s% "x-goog-custom-time", s% "x-goog-date",
      s% "x-goog-signature"], stripPrefix (s% "x-goog-meta-") t = none := by decide +kernel
    rw [key t ht] at this; cases this
  unfold Field.new
  rw [if_neg (hne _ (by decide)), if_neg (hne _ (by decide)), if_neg (hne _ (by decide)), if_neg (hne _ (by decide)),
    if_neg (hne _ (by decide)), if_neg (hne _ (by decide)), if_neg (hne _ (by decide)), if_neg (hne _ (by decide)),
    if_neg (hne _ (by decide)), if_neg (hne _ (by decide)), if_neg (hne _ (by decide)), if_neg (hne _ (by decide)),
    if_neg (hne _ (by decide)), if_neg (hne _ (by decide)), if_neg (hne _ (by decide)), if_neg (hne _ (by decide)),
    if_neg (hne _ (by decide)), if_neg (hne _ (by decide)), stripPrefix_append]
  simp [h]

theorem metaConditions_eq (ms : List (Str × Str)) :
    metaConditions ms = if ∃ m ∈ ms, m.1 = [] then .err .xGoogMetaNameEmpty
      else .ok (ms.map fun m => Condition.exactMatching (.xGoogMeta m.1) m.2) := by
  induction ms with
  | nil => simp [metaConditions]
  | cons m ms ih =>
    obtain ⟨n, v⟩ := m
    simp only [metaConditions]
    by_cases hn : n = []
    · rw [if_pos hn, if_pos ⟨(n, v), by simp, hn⟩]
    · rw [if_neg hn, ih]
      unfold eqCondition
      rw [fieldNew_meta hn]
      by_cases he : ∃ m ∈ ms, m.1 = []
      · rw [if_pos he, if_pos]
        · rfl
        · obtain ⟨m, hm, h⟩ := he; exact ⟨m, by simp [hm], h⟩
      · rw [if_neg he, if_neg]
        · simp
        · rintro ⟨m, hm, h⟩
          rcases List.mem_cons.1 hm with rfl | hm
          · exact hn h
          · exact he ⟨m, hm, h⟩

def optCond (f : Field) : Option Str → List Condition
  | none => []
  | some v => [.exactMatching f v]

theorem optCondition_eq {name : Str} {f : Field} (h : Field.new name = some f) (v : Option Str) :
    optCondition name v = .ok (optCond f v) := by
  cases v with
  | none => rfl
  | some v => simp [optCondition, eqCondition, h, optCond]

theorem eqCondition_eq {name : Str} {f : Field} (h : Field.new name = some f) (v : Str) :
    eqCondition name v = .ok (.exactMatching f v) := by
  simp [eqCondition, h]

def lengthConds : Option Nat → List Condition
  | none => []
  | some n => [.contentLengthRange n n]

/-- The conditions as a plain list. -/
def conditionList (b : Builder) (bucket key : Str) (alg : SigningAlgorithm) (credential date : Str) : List Condition :=
  optCond .acl b.acl ++ [.exactMatching .bucket bucket] ++ optCond .cacheControl b.cacheControl
    ++ optCond .contentDisposition b.contentDisposition ++ optCond .contentEncoding b.contentEncoding
    ++ lengthConds b.contentLength ++ optCond .contentType b.contentType ++ optCond .expires b.expires
    ++ [.exactMatching .key key] ++ optCond .successActionRedirect b.successActionRedirect
    ++ optCond .successActionStatus (b.successActionStatus.map natDec)
    ++ [.exactMatching .xGoogAlgorithm alg.asStr, .exactMatching .xGoogCredential credential]
    ++ optCond .xGoogCustomTime b.xGoogCustomTime ++ [.exactMatching .xGoogDate date]
    ++ b.xGoogMeta.map fun m => Condition.exactMatching (.xGoogMeta m.1) m.2

theorem buildConditions_eq (b : Builder) (bucket key : Str) (alg : SigningAlgorithm) (credential date : Str) :
    buildConditions b bucket key alg credential date =
      if ∃ m ∈ b.xGoogMeta, m.1 = [] then .err .xGoogMetaNameEmpty
      else .ok (conditionList b bucket key alg credential date) := by
  unfold buildConditions
  rw [optCondition_eq (f := .acl) (by decide), eqCondition_eq (f := .bucket) (by decide),
    optCondition_eq (f := .cacheControl) (by decide), optCondition_eq (f := .contentDisposition) (by decide),
    optCondition_eq (f := .contentEncoding) (by decide), optCondition_eq (f := .contentType) (by decide),
    optCondition_eq (f := .expires) (by decide), eqCondition_eq (f := .key) (by decide),
    optCondition_eq (f := .successActionRedirect) (by decide), optCondition_eq (f := .successActionStatus) (by decide),
    eqCondition_eq (f := .xGoogAlgorithm) (by decide), eqCondition_eq (f := .xGoogCredential) (by decide),
    optCondition_eq (f := .xGoogCustomTime) (by decide), eqCondition_eq (f := .xGoogDate) (by decide),
    metaConditions_eq]
  simp only [Res.bind_ok]
  split
  · rfl
  · simp only [Res.bind_ok, Res.pure_eq, conditionList]
    cases b.contentLength <;> rfl

/-- The single-valued fields as a plain list. -/
def singles (b : Builder) (key : Str) (p : Option PolicyFields) : List (Str × Str) :=
  optField (s% "acl") b.acl
    ++ optField (s% "bucket") b.bucket
    ++ optField (s% "Cache-Control") b.cacheControl
    ++ optField (s% "Content-Disposition") b.contentDisposition
    ++ optField (s% "Content-Encoding") b.contentEncoding
    ++ optField (s% "Content-Length") (b.contentLength.map natDec)
    ++ optField (s% "Content-Type") b.contentType
    ++ optField (s% "Expires") b.expires
    ++ [(s% "key", key)]
    ++ optField (s% "policy") (p.map (·.policy))
    ++ optField (s% "success_action_redirect") b.successActionRedirect
    ++ optField (s% "success_action_status") (b.successActionStatus.map natDec)
    ++ optField (s% "x-goog-algorithm") (p.map (·.algorithm))
    ++ optField (s% "x-goog-credential") (p.map (·.credential))
    ++ optField (s% "x-goog-custom-time") b.xGoogCustomTime
    ++ optField (s% "x-goog-date") (p.map (·.date))
    ++ optField (s% "x-goog-signature") (p.map (·.signature))

/-- The fields as a plain list. -/
def fieldList (b : Builder) (key : Str) (p : Option PolicyFields) : List (Str × Str) :=
  singles b key p ++ b.xGoogMeta.map fun m => (s% "x-goog-meta-" ++ m.1, m.2)

/-- The last part of `build`, after the policy. -/
theorem build_eq (env : Env) (b : Builder) (w : World) :
    b.build env w =
      match buildPolicyAndSignature env b w with
      | (.ok p, w') =>
        (match b.key with
          | none => .err .keyNotFound
          | some k => if ∃ m ∈ b.xGoogMeta, m.1 = [] then .err .xGoogMetaNameEmpty else .ok (fieldList b k p), w')
      | (.err e, w') => (.err e, w')
      | (.panic s, w') => (.panic s, w') := by
  unfold Builder.build
  rw [M.bind_run]
  rcases buildPolicyAndSignature env b w with ⟨r, w'⟩
  cases r with
  | ok p =>
    simp only
    rw [M.bind_run, M.lift_run]
    cases b.key with
    | none => simp
    | some k =>
      simp only [Res.ofOption_some]
      rw [M.bind_run, M.lift_run, metaFields_eq]
      split
      · rename_i h
        split at h
        · cases h
        · cases h; rename_i hm; rw [if_neg hm]; rfl
      · rename_i h
        split at h
        · rename_i hm; cases h; rw [if_pos hm]
        · cases h
      · rename_i h; split at h <;> cases h
  | err e => rfl
  | panic s => rfl

/-- What a successful policy construction entails. -/
structure PolicyOk (env : Env) (b : Builder) (o : SigningOptions) (w : World) (p : PolicyFields) (w' : World) where
  accessibleAt : Time
  w1 : World
  time : M.timeOrNow (ε := FormError) env o.accessibleAt w = (.ok accessibleAt, w1)
  order : accessibleAt < o.expiration
  at_ : UnixTimestamp
  hat : UnixTimestamp.fromSystemTime accessibleAt = .ok at_
  ex : UnixTimestamp
  hex : UnixTimestamp.fromSystemTime o.expiration = .ok ex
  bucket : Str
  hbucket : b.bucket = some bucket
  key : Str
  hkey : b.key = some key
  alg : o.signingKey.xGoogAlgorithm = .goog4RsaSha256
  email : Str
  w2 : World
  auth : o.signingKey.authorizer env w1 = (.ok email, w2)
  metas : ¬ ∃ m ∈ b.xGoogMeta, m.1 = []
  digest : Bytes
  sign : o.signingKey.sign env o.useSignBlob (utf8 p.policy) w2 = (.ok digest, w')
  hcred : p.credential = email ++ s% "/" ++ (CredentialScope.mk (Date.fromUnixTimestamp at_)
    ⟨o.region.getD (s% "auto")⟩ .storage .goog4Request).toStr
  hdate : p.date = at_.toIso8601
  halg : p.algorithm = s% "GOOG4-RSA-SHA256"
  hpolicy : p.policy = b64Encode (utf8 (PolicyDocument.mk
    (conditionList b bucket key .goog4RsaSha256 p.credential p.date) ⟨ex⟩).toJson.render)
  hsig : p.signature = hexEncode digest

theorem buildPolicy_ok {env : Env} {b : Builder} {o : SigningOptions} {w w' : World} {p : PolicyFields}
    (h : buildPolicy env b o w = (.ok p, w')) : Nonempty (PolicyOk env b o w p w') := by
  unfold buildPolicy at h
  rw [M.bind_run] at h
  cases ht : M.timeOrNow (ε := FormError) env o.accessibleAt w with
  | mk r w1 =>
  rw [ht] at h
  cases r with
  | err e => simp at h
  | panic e => simp at h
  | ok at0 =>
  simp only at h
  by_cases hord : o.expiration ≤ at0
  · rw [if_pos hord] at h; simp at h
  rw [if_neg hord] at h
  rw [M.bind_run, M.lift_run] at h
  cases hat : UnixTimestamp.fromSystemTime at0 with
  | err e => simp [hat] at h
  | panic e => simp [hat] at h
  | ok at_ =>
  simp only [hat, Res.mapErr_ok] at h
  rw [M.bind_run, M.lift_run] at h
  cases hex : UnixTimestamp.fromSystemTime o.expiration with
  | err e => simp [hex] at h
  | panic e => simp [hex] at h
  | ok ex =>
  simp only [hex, Res.mapErr_ok] at h
  rw [M.bind_run, M.lift_run] at h
  cases hb : b.bucket with
  | none => simp [hb] at h
  | some bucket =>
  simp only [hb, Res.ofOption_some] at h
  rw [M.bind_run, M.lift_run] at h
  cases hk : b.key with
  | none => simp [hk] at h
  | some key =>
  simp only [hk, Res.ofOption_some] at h
  by_cases halg : o.signingKey.xGoogAlgorithm ≠ .goog4RsaSha256
  · rw [if_pos halg] at h; simp at h
  rw [if_neg halg] at h
  have halg : o.signingKey.xGoogAlgorithm = .goog4RsaSha256 := by simpa using halg
  rw [M.bind_run, M.mapErr_run] at h
  cases hau : o.signingKey.authorizer env w1 with
  | mk r w2 =>
  rw [hau] at h
  cases r with
  | err e => simp at h
  | panic e => simp at h
  | ok email =>
  simp only [Res.mapErr_ok] at h
  rw [M.bind_run, M.lift_run] at h
  simp only [CredentialScope.new, Res.mapErr_ok] at h
  rw [M.bind_run, M.lift_run, buildConditions_eq] at h
  by_cases hm : ∃ m ∈ b.xGoogMeta, m.1 = []
  · rw [if_pos hm] at h; simp at h
  rw [if_neg hm] at h
  simp only at h
  rw [M.bind_run, M.mapErr_run] at h
  generalize hp : b64Encode _ = pol at h
  cases hs : o.signingKey.sign env o.useSignBlob (utf8 pol) w2 with
  | mk r w3 =>
  rw [hs] at h
  cases r with
  | err e => simp at h
  | panic e => simp at h
  | ok digest =>
  simp only [Res.mapErr_ok, M.pure_run] at h
  cases h
  exact ⟨{ accessibleAt := at0, w1, time := ht, order := by omega, at_, hat, ex, hex, bucket, hbucket := hb
           key, hkey := hk, alg := halg, email, w2, auth := hau, metas := hm, digest
           sign := hs, hcred := rfl, hdate := rfl, halg := by simp [halg, SigningAlgorithm.asStr]
           hpolicy := by rw [← hp, halg]
           hsig := rfl }⟩

/-- A successful `build` with signing options. -/
theorem build_ok_signed {env : Env} {b : Builder} {o : SigningOptions} {w w' : World} {fs : List (Str × Str)}
    (ho : b.signingOptions = some o) (h : b.build env w = (.ok fs, w')) :
    ∃ p key, Nonempty (PolicyOk env b o w p w') ∧ b.key = some key ∧ fs = fieldList b key (some p) := by
  rw [build_eq] at h
  unfold buildPolicyAndSignature at h
  rw [ho] at h
  simp only at h
  rw [M.bind_run] at h
  cases hp : buildPolicy env b o w with
  | mk r w1 =>
  rw [hp] at h
  cases r with
  | err e => simp at h
  | panic e => simp at h
  | ok p =>
    simp only [M.pure_run] at h
    cases hk : b.key with
    | none => simp [hk] at h
    | some k =>
      rw [hk] at h
      simp only at h
      split at h
      · simp at h
      · simp only [Prod.mk.injEq, Res.ok.injEq] at h
        obtain ⟨h1, rfl⟩ := h
        exact ⟨p, k, buildPolicy_ok hp, rfl, h1.symm⟩

end CSS
