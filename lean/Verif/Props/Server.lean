import Verif.Lemmas.Server
import Verif.Props.UrlParams
import Verif.Props.UrlCommit
/-
C65: a server that checks signed URLs as the documentation of Cloud Storage says accepts the returned URL.
C66: it accepts nothing else with the same signature.
Cases that meet the hypotheses, and cases that show why they are needed, are in Props/ServerExamples.lean.
-/
set_option linter.unusedSimpArgs false
namespace CSS
open Spec

/-- Options without characters that change their meaning in a URL (see C19, C20, C27 and C30): no `?` in bucket and object
name, no `%` in region, parameter names and header names; and no parameter names of the scheme. -/
structure Spec.Plain (o : UrlOptions) : Prop where
  bucket : '?' ∉ o.bucketName
  object : '?' ∉ o.objectName
  region : '%' ∉ o.region.getD (s% "auto")
  paramNames : ∀ p ∈ o.queryParameters, '%' ∉ p.1 ∧ p.1 ∉ googNames
  headerNames : ∀ h ∈ o.headers, '%' ∉ h.1

/-- And without what makes a documented server compute another message (see `C65_prefix_rejected`,
`C65_spaces_rejected` and `C65_payload_rejected`): no parameter name is a proper prefix of another, header values have no
leading, trailing or repeated spaces, and the digest of the body is not given. -/
structure Spec.Regular (o : UrlOptions) : Prop extends Plain o where
  prefixes : ∀ a ∈ o.queryParameters.map (·.1) ++ googNames, ∀ b ∈ o.queryParameters.map (·.1) ++ googNames, a <+: b → a = b
  headerValues : ∀ h ∈ o.headers, tidy h.2 = h.2
  noPayload : ∀ h ∈ o.headers, asciiLower h.1 ≠ s% "x-goog-content-sha256"

theorem paramValues_parts {env : Env} {o : UrlOptions} {t : Time} (ht : 0 ≤ t ∧ t < endOf9999) {email : Str} (digest : Bytes)
    (hr : Plain o) {name : Str} {v : Bytes} (hn : name ∈ googNames)
    (hm : [v] = ([
        (utf8 (s% "X-Goog-Algorithm"), utf8 o.signingKey.xGoogAlgorithm.asStr),
        (utf8 (s% "X-Goog-Credential"), percentDecode (credentialOf o t email)),
        (utf8 (s% "X-Goog-Date"), utf8 (UnixTimestamp.toIso8601 ⟨t / nsPerSec⟩)),
        (utf8 (s% "X-Goog-Expires"), utf8 (natDec ((o.expires - t) / nsPerSec).toNat)),
        (utf8 (s% "X-Goog-SignedHeaders"), percentDecode (join (s% ";") (signedNames o.headers))),
        (utf8 (s% "X-Goog-Signature"), utf8 (hexEncode digest))].filter fun p => p.1 = utf8 name).map (·.2)) :
    paramValues ((partsOf env o t email).url (hexEncode digest)) name = [v] := by
  have hp := urlQuery_decoded (env := env) ht (email := email) (o := o) digest
  rw [objectUrl_query_none hr.bucket hr.object] at hp
  rw [show (formParse (utf8 (Option.getD none []))).map decoded = [] from rfl, List.nil_append] at hp
  have hf := (hp.filter (fun p => p.1 = utf8 name)).map (·.2)
  rw [List.filter_append] at hf
  have : (o.queryParameters.map decoded).filter (fun p => p.1 = utf8 name) = [] := by
    rw [List.filter_eq_nil_iff]
    intro p hp
    rw [List.mem_map] at hp
    obtain ⟨q, hq, rfl⟩ := hp
    rw [decide_eq_true_eq]
    obtain ⟨h1, h2⟩ := hr.paramNames q hq
    simp only [decoded]
    rw [percentDecode_plain h1]
    exact fun e => h2 (utf8_inj e ▸ hn)
  rw [this, List.nil_append, ← hm] at hf
  exact List.perm_singleton.1 hf

theorem formParse_nil_query {env : Env} {o : UrlOptions} (hr : Plain o) :
    formParse (utf8 ((objectUrl env o).query.getD [])) = [] := by
  rw [objectUrl_query_none hr.bucket hr.object]; rfl

theorem regular_params {env : Env} {o : UrlOptions} {t : Time} (ht : 0 ≤ t ∧ t < endOf9999) {email : Str} (hr : Regular o) :
    ∀ p ∈ allParams env o (required o t email), '%' ∉ p.1 ∧ p.1 ≠ s% "X-Goog-Signature" ∧
      p.1 ∈ o.queryParameters.map (·.1) ++ googNames := by
  intro p hp
  unfold allParams at hp
  rw [formParse_nil_query hr.toPlain, List.nil_append, List.mem_append, required_eq o t ht] at hp
  rcases hp with hp | hp
  · obtain ⟨h1, h2⟩ := hr.paramNames p hp
    refine ⟨h1, fun e => h2 (e ▸ by decide), ?_⟩
    exact List.mem_append_left _ (List.mem_map.2 ⟨p, hp, rfl⟩)
  · have hname : p.1 ∈ [s% "X-Goog-Algorithm", s% "X-Goog-Credential", s% "X-Goog-Date", s% "X-Goog-Expires",
        s% "X-Goog-SignedHeaders"] := by
      simp only [List.mem_cons, List.not_mem_nil, or_false] at hp ⊢
      rcases hp with rfl | rfl | rfl | rfl | rfl <;> simp
    have := (by decide : ∀ n ∈ [s% "X-Goog-Algorithm", s% "X-Goog-Credential", s% "X-Goog-Date", s% "X-Goog-Expires",
        s% "X-Goog-SignedHeaders"], '%' ∉ n ∧ n ≠ s% "X-Goog-Signature" ∧ n ∈ googNames) _ hname
    exact ⟨this.1, this.2.1, List.mem_append_right _ this.2.2⟩

theorem asciiLower_no_pct {k : Str} (h : '%' ∉ k) : '%' ∉ asciiLower k := by
  unfold asciiLower
  intro hm
  rw [List.mem_map] at hm
  obtain ⟨c, hc, he⟩ := hm
  rw [asciiLowerChar_eq (by decide) he] at hc
  exact h hc

theorem tidy_host : tidy (s% "storage.googleapis.com") = s% "storage.googleapis.com" := by decide

/-- The server computes the canonical request that was signed. -/
theorem canonical_parts {env : Env} {o : UrlOptions} {t : Time} (ht : 0 ≤ t ∧ t < endOf9999) {email : Str} (digest : Bytes)
    (hr : Regular o) (time : Int) :
    Incoming.canonicalRequest ⟨o.httpMethod, (partsOf env o t email).url (hexEncode digest), requestHeaders o, time⟩
      (objectUrl env o).path (signedNames o.headers) = (partsOf env o t email).canonicalRequest := by
  unfold Incoming.canonicalRequest SignedParts.canonicalRequest
  have hp := regular_params (env := env) (email := email) ht hr
  have hq := canonicalQuery_parts (env := env) (o := o) (t := t) (email := email) digest
    (fun p hm => by
      obtain ⟨h1, h2, _⟩ := hp p hm
      rw [percentDecode_plain h1]
      exact fun e => h2 (utf8_inj e))
    (fun p hm => (hp p hm).1)
    (fun p hm q hm' hpre => hr.prefixes _ (hp p hm).2.2 _ (hp q hm').2.2 hpre)
  have htidy : ∀ h ∈ requestHeaders o, tidy h.2 = h.2 := by
    intro h hh
    rcases List.mem_cons.1 hh with rfl | hh
    · exact tidy_host
    · exact hr.headerValues h hh
  have hvals : ∀ name, (headerValues (requestHeaders o) name).map tidy = headerValues (requestHeaders o) name := by
    intro name
    unfold headerValues
    rw [List.map_map]
    refine List.map_congr_left fun h hh => ?_
    exact htidy h (List.mem_filter.1 hh).1
  have hpay : payloadLine ⟨o.httpMethod, (partsOf env o t email).url (hexEncode digest), requestHeaders o, time⟩ =
      s% "UNSIGNED-PAYLOAD" := by
    unfold payloadLine
    have : headerValues (requestHeaders o) (s% "x-goog-content-sha256") = [] := by
      unfold headerValues
      rw [List.map_eq_nil_iff, List.filter_eq_nil_iff]
      intro h hh
      rw [decide_eq_true_eq]
      rcases List.mem_cons.1 hh with rfl | hh
      · decide
      · exact hr.noPayload h hh
    simp only [this]
    rfl
  rw [hpay]
  simp only [hvals]
  rw [hq, canonicalText_eq, partsOf_headers, List.map_map, List.map_map]
  have e1 : ((fun x : Str × List Str => x.1) ∘ fun n => (n, headerValues (requestHeaders o) n)) = id := rfl
  rw [e1, List.map_id]
  rfl

/-- The server computes the message that was signed. -/
theorem message_parts {env : Env} {o : UrlOptions} {t : Time} (ht : 0 ≤ t ∧ t < endOf9999) {email : Str} (digest : Bytes)
    (hr : Regular o) (halg : o.signingKey.xGoogAlgorithm.asStr = s% "GOOG4-RSA-SHA256") (time : Int) :
    Incoming.message ⟨o.httpMethod, (partsOf env o t email).url (hexEncode digest), requestHeaders o, time⟩
      (objectUrl env o).path (partsOf env o t email).date (partsOf env o t email).scope (signedNames o.headers) =
    (partsOf env o t email).stringToSign := by
  unfold Incoming.message SignedParts.stringToSign
  have hc := canonical_parts (env := env) ht (email := email) digest hr time
  rw [hc]
  have : (partsOf env o t email).algorithm = s% "GOOG4-RSA-SHA256" := halg
  rw [this]

/-- What the server gets if the returned URL is requested as it should be. -/
def Spec.theRequest (o : UrlOptions) (url : Str) (time : Int) : Incoming := ⟨o.httpMethod, url, requestHeaders o, time⟩

/-- If the server rebuilds the message that was signed, it accepts. -/
theorem accepts_of_message (env : Env) (o : UrlOptions) (w w' : World) (url : Str) (n e : Nat) (time : Int)
    (h : buildSignedUrl env o w = (.ok url, w')) (hr : Plain o)
    (hsig : ∀ m s, Signs env w'.log o.signingKey m s → Rsa.Verifies n e m s)
    (hemail : ∀ email, Authorizes env w w'.log o.signingKey email → '%' ∉ email)
    (hstart : validFrom env o.accessibleAt w / 1000000000 ≤ time)
    (hend : time < validFrom env o.accessibleAt w / 1000000000 + (o.expires - validFrom env o.accessibleAt w) / 1000000000)
    (hmsg : ∀ email digest, url = (partsOf env o (validFrom env o.accessibleAt w) email).url (hexEncode digest) →
      o.signingKey.xGoogAlgorithm.asStr = s% "GOOG4-RSA-SHA256" →
      0 ≤ validFrom env o.accessibleAt w ∧ validFrom env o.accessibleAt w < endOf9999 →
      (theRequest o url time).message (objectUrl env o).path (partsOf env o (validFrom env o.accessibleAt w) email).date
        (partsOf env o (validFrom env o.accessibleAt w) email).scope (signedNames o.headers) =
      (partsOf env o (validFrom env o.accessibleAt w) email).stringToSign) :
    ∃ account, Authorizes env w w'.log o.signingKey account ∧
      Accepts account n e (theRequest o url time) := by
  obtain ⟨email, digest, hrej, ht, hu, hs, hauth, hval, halg⟩ := signed_ok h
  refine ⟨email, hauth, ?_⟩
  obtain ⟨_, _, hexp1, hexp2, _, _, hh⟩ := urlRejection_none.1 hrej
  obtain ⟨hex, sg, hu', _, hx2, hsg⟩ := hs
  have hhex : hex = hexEncode digest := by
    rw [hu] at hu'
    unfold SignedParts.url at hu'
    exact (List.append_cancel_left hu').symm
  rw [hhex] at hx2
  have hmsg := hmsg email digest hu halg ht
  generalize validFrom env o.accessibleAt w = t at *
  rw [hu] at hmsg ⊢
  obtain ⟨c, hc, hiso, hsec⟩ := iso_chars _ ht
  have hdate : BasicDenotes (partsOf env o t email).date (t / 1000000000) := ⟨c, hc, hiso, hsec⟩
  have hno : '%' ∉ credentialOf o t email := by
    unfold credentialOf
    simp only [List.mem_append, not_or]
    refine ⟨⟨⟨⟨⟨hemail _ hauth, by decide⟩, fun hm => ?_⟩, by decide⟩, hr.region⟩, by decide⟩
    rw [hiso] at hm
    exact basic_no (by decide) (by decide) (by decide) c (List.mem_of_mem_take hm)
  have hnames : ∀ x ∈ signedNames o.headers, '%' ∉ x ∧ ';' ∉ x := by
    intro x hx
    have htok := signedNames_token (fun x hx => (hh x hx).1) x hx
    refine ⟨?_, fun hm => absurd (htok _ hm) (by decide)⟩
    rcases (mem_signedNames _ _).1 hx with rfl | ⟨y, hy, rfl⟩
    · decide
    · exact asciiLower_no_pct (hr.headerNames y hy)
  have hjoin : '%' ∉ join (s% ";") (signedNames o.headers) := by
    intro hm
    rcases mem_join hm with hm | ⟨x, hx, hm⟩
    · exact absurd hm (by decide)
    · exact (hnames x hx).1 hm
  have hne : signedNames o.headers ≠ [] := List.ne_nil_of_mem ((mem_signedNames _ _).2 (.inl rfl))
  have hsplit : splitOn ';' (join (s% ";") (signedNames o.headers)) = signedNames o.headers :=
    splitOn_join hne fun x hx => (hnames x hx).2
  have hinj : ∀ a b : Str, (utf8 a = utf8 b) = (a = b) := fun a b => propext ⟨utf8_inj, fun h => h ▸ rfl⟩
  have pv := fun {name : Str} {v : Bytes} => paramValues_parts (env := env) (o := o) ht (email := email) digest hr (name := name) (v := v)
  refine ⟨(objectUrl env o).path, (partsOf env o t email).date, o.region.getD (s% "auto"),
    natDec ((o.expires - t) / nsPerSec).toNat, join (s% ";") (signedNames o.headers), hexEncode digest, sg,
    t / 1000000000, ((o.expires - t) / nsPerSec).toNat,
    urlPath_parts, pv (by decide) ?_, pv (by decide) ?_, pv (by decide) ?_, hdate, pv (by decide) ?_, natDec_decimal _, ?_,
    hstart, ?_, pv (by decide) ?_, ?_, ?_, pv (by decide) ?_, hx2, ?_⟩
  · simp [List.filter_cons, hinj, halg]
  · simp only [List.filter_cons, hinj, percentDecode_plain hno]; simp [credentialOf, partsOf]
  · simp [List.filter_cons, hinj, partsOf]
  · simp [List.filter_cons, hinj]
  · unfold nsPerSec at hexp2 ⊢; omega
  · show time < _
    unfold nsPerSec; omega
  · simp only [List.filter_cons, hinj, percentDecode_plain hjoin]; simp
  · rw [hsplit]; exact (mem_signedNames _ _).2 (.inl rfl)
  · intro x hx _
    rw [hsplit]
    exact (mem_signedNames_iff o _).2 ⟨x, hx, rfl⟩
  · simp [List.filter_cons, hinj]
  · rw [hsplit]
    unfold SignedParts.scope at hmsg
    have hreg : (partsOf env o t email).region = o.region.getD (s% "auto") := rfl
    rw [hreg] at hmsg
    rw [hmsg]
    exact hsig _ _ hsg

/-- C65. If the signatures made for the key verify under `(n, e)`, the returned URL is accepted for the requested method,
with the given headers, at every time from its start until it expires. -/
theorem C65_accepted (env : Env) (o : UrlOptions) (w w' : World) (url : Str) (n e : Nat) (time : Int)
    (h : buildSignedUrl env o w = (.ok url, w')) (hr : Regular o)
    (hsig : ∀ m s, Signs env w'.log o.signingKey m s → Rsa.Verifies n e m s)
    (hemail : ∀ email, Authorizes env w w'.log o.signingKey email → '%' ∉ email)
    (hstart : validFrom env o.accessibleAt w / 1000000000 ≤ time)
    (hend : time < validFrom env o.accessibleAt w / 1000000000 + (o.expires - validFrom env o.accessibleAt w) / 1000000000) :
    ∃ account, Authorizes env w w'.log o.signingKey account ∧ Accepts account n e (theRequest o url time) :=
  accepts_of_message env o w w' url n e time h hr.toPlain hsig hemail hstart hend fun email digest hu halg ht => by
    rw [hu]
    exact message_parts (env := env) ht (email := email) digest hr halg time

theorem mem_paramValues {url name : Str} {v : Bytes} : v ∈ paramValues url name ↔ (utf8 name, v) ∈ queryParams (urlQuery url) := by
  unfold paramValues
  rw [List.mem_map]
  constructor
  · rintro ⟨p, hp, rfl⟩
    obtain ⟨h1, h2⟩ := List.mem_filter.1 hp
    rw [decide_eq_true_eq] at h2
    rw [← h2]
    exact h1
  · exact fun h => ⟨_, List.mem_filter.2 ⟨h, by simp⟩, rfl⟩

/-- C65. A request with the returned URL, whatever its method and headers, is accepted only in the window of the options:
from the second of `accessible_at` on, and never at or after `expires`. This holds for all options. -/
theorem C65_window (env : Env) (o : UrlOptions) (w w' : World) (url account : Str) (n e : Nat) (r : Incoming)
    (h : buildSignedUrl env o w = (.ok url, w')) (hu : r.url = url) (ha : Accepts account n e r) :
    validFrom env o.accessibleAt w / 1000000000 ≤ r.time ∧
    r.time < validFrom env o.accessibleAt w / 1000000000 + (o.expires - validFrom env o.accessibleAt w) / 1000000000 ∧
    r.time * 1000000000 < o.expires := by
  obtain ⟨email, digest, hrej, ht, hurl, _⟩ := signed_ok h
  have hq := urlQuery_decoded (env := env) (o := o) ht (email := email) digest
  rw [← hurl, ← hu] at hq
  obtain ⟨_, date, _, life, _, _, _, start, secs, _, _, _, hd, hb, hl, hdec, _, h1, h2, _⟩ := ha
  obtain ⟨_, _, hexp, _⟩ := urlRejection_none.1 hrej
  obtain ⟨c, hc, hiso, hsec⟩ := iso_chars _ ht
  generalize validFrom env o.accessibleAt w = t at *
  have e1 : UnixTimestamp.toIso8601 ⟨t / nsPerSec⟩ = date := by
    have : utf8 (UnixTimestamp.toIso8601 ⟨t / nsPerSec⟩) ∈ paramValues r.url (s% "X-Goog-Date") :=
      mem_paramValues.2 (by rw [hq.mem_iff]; simp)
    rw [hd, List.mem_singleton] at this
    exact utf8_inj this
  have e2 : natDec ((o.expires - t) / nsPerSec).toNat = life := by
    have : utf8 (natDec ((o.expires - t) / nsPerSec).toNat) ∈ paramValues r.url (s% "X-Goog-Expires") :=
      mem_paramValues.2 (by rw [hq.mem_iff]; simp)
    rw [hl, List.mem_singleton] at this
    exact utf8_inj this
  have e3 : start = t / nsPerSec := basicDenotes_unique hb ⟨c, hc, by rw [← e1]; exact hiso, hsec⟩
  have e4 : secs = ((o.expires - t) / nsPerSec).toNat := by
    rw [← hdec.2.2, ← e2]
    exact (natDec_decimal _).2.2
  unfold nsPerSec at e3 e4
  omega

/-- C65 for a service account key: the RSA implementation must be right, and the public key be the one in the key. -/
theorem C65_service_account (env : Env) (o : UrlOptions) (w w' : World) (url email pem : Str) (key : Bytes) (n e : Nat) (time : Int)
    (h : buildSignedUrl env o w = (.ok url, w')) (hk : o.signingKey = .serviceAccount email pem) (hr : Regular o)
    (hring : Rsa.Correct env) (hpem : env.pemParse pem = some key) (hpub : Rsa.PublicKeyIn key n e) (hemail : '%' ∉ email)
    (hstart : validFrom env o.accessibleAt w / 1000000000 ≤ time)
    (hend : time < validFrom env o.accessibleAt w / 1000000000 + (o.expires - validFrom env o.accessibleAt w) / 1000000000) :
    Accepts email n e (theRequest o url time) := by
  obtain ⟨account, ha, hacc⟩ := C65_accepted env o w w' url n e time h hr
    (fun m s hs => by
      rw [hk] at hs
      obtain ⟨der, h1, h2, h3⟩ := hs
      rw [hpem, Option.some.injEq] at h1
      subst h1
      obtain ⟨n', e', hp, hv⟩ := hring _ _ _ h2 h3
      obtain ⟨rfl, rfl⟩ := publicKeyIn_unique hpub hp
      exact hv)
    (fun a ha => by
      rw [hk] at ha
      have : a = email := ha
      rw [this]; exact hemail) hstart hend
  rw [hk] at ha
  have : account = email := ha
  rwa [this] at hacc

theorem mem_params_of {env : Env} {o : UrlOptions} {t : Time} (ht : 0 ≤ t ∧ t < endOf9999) {email : Str} (digest : Bytes)
    {name : Str} {v : Bytes}
    (hm : (utf8 name, v) ∈ [
        (utf8 (s% "X-Goog-Algorithm"), utf8 o.signingKey.xGoogAlgorithm.asStr),
        (utf8 (s% "X-Goog-Credential"), percentDecode (credentialOf o t email)),
        (utf8 (s% "X-Goog-Date"), utf8 (UnixTimestamp.toIso8601 ⟨t / nsPerSec⟩)),
        (utf8 (s% "X-Goog-Expires"), utf8 (natDec ((o.expires - t) / nsPerSec).toNat)),
        (utf8 (s% "X-Goog-SignedHeaders"), percentDecode (join (s% ";") (signedNames o.headers))),
        (utf8 (s% "X-Goog-Signature"), utf8 (hexEncode digest))]) :
    v ∈ paramValues ((partsOf env o t email).url (hexEncode digest)) name := by
  unfold paramValues
  refine List.mem_map.2 ⟨(utf8 name, v), List.mem_filter.2 ⟨?_, by simp⟩, rfl⟩
  rw [(urlQuery_decoded (env := env) ht digest).mem_iff]
  exact List.mem_append_right _ hm

/-- What the server rebuilds from the request for a returned URL. -/
theorem rebuilds_parts {env : Env} {o : UrlOptions} {t : Time} (ht : 0 ≤ t ∧ t < endOf9999) {email : Str} (digest : Bytes)
    (hrej : urlRejection env o t = none) (hr : Plain o) (hemail : '%' ∉ email) {time : Int} {c m : Str}
    (h : (theRequest o ((partsOf env o t email).url (hexEncode digest)) time).Rebuilds email c m) :
    c = (theRequest o ((partsOf env o t email).url (hexEncode digest)) time).canonicalRequest (objectUrl env o).path
        (signedNames o.headers) ∧
    m = (theRequest o ((partsOf env o t email).url (hexEncode digest)) time).message (objectUrl env o).path
      (partsOf env o t email).date (partsOf env o t email).scope (signedNames o.headers) := by
  obtain ⟨path, date, region, sh, a1, a3, a4, a11, hc, hm⟩ := h
  rw [hc, hm]
  clear hc hm
  unfold theRequest at a1 a3 a4 a11
  obtain ⟨_, _, _, _, _, _, hh⟩ := urlRejection_none.1 hrej
  clear hrej
  have hone : ∀ {name : Str} {x v : Bytes}, paramValues ((partsOf env o t email).url (hexEncode digest)) name = [x] →
      v ∈ paramValues ((partsOf env o t email).url (hexEncode digest)) name → x = v := by
    intro name x v hx hv
    rw [hx] at hv
    exact (List.mem_singleton.1 hv).symm
  have hpath : path = (objectUrl env o).path := by
    rw [urlPath_parts, Option.some.injEq] at a1
    exact a1.symm
  have hdate : date = (partsOf env o t email).date :=
    utf8_inj (hone a4 (mem_params_of ht digest (.tail _ (.tail _ (.head _)))))
  have hno : '%' ∉ credentialOf o t email := by
    obtain ⟨c, hc, hiso, hsec⟩ := iso_chars _ ht
    unfold credentialOf
    simp only [List.mem_append, not_or]
    refine ⟨⟨⟨⟨⟨hemail, by decide⟩, fun hm => ?_⟩, by decide⟩, hr.region⟩, by decide⟩
    rw [hiso] at hm
    exact basic_no (by decide) (by decide) (by decide) c (List.mem_of_mem_take hm)
  have hcred := hone a3 (mem_params_of ht digest (.tail _ (.head _)))
  rw [percentDecode_plain hno] at hcred
  have hcred := utf8_inj hcred
  have hscope : date.take 8 ++ s% "/" ++ region ++ s% "/storage/goog4_request" = (partsOf env o t email).scope := by
    unfold credentialOf at hcred
    simp only [List.append_assoc] at hcred
    have := List.append_cancel_left (List.append_cancel_left hcred)
    unfold SignedParts.scope
    simp only [List.append_assoc]
    exact this
  have hnev : ∀ x ∈ signedNames o.headers, '%' ∉ x ∧ ';' ∉ x := by
    intro x hx
    have htok := signedNames_token (fun x hx => (hh x hx).1) x hx
    refine ⟨?_, fun hm => absurd (htok _ hm) (by decide)⟩
    rcases (mem_signedNames _ _).1 hx with rfl | ⟨y, hy, rfl⟩
    · decide
    · exact asciiLower_no_pct (hr.headerNames y hy)
  have hjoin : '%' ∉ join (s% ";") (signedNames o.headers) := by
    intro hm
    rcases mem_join hm with hm | ⟨x, hx, hm⟩
    · exact absurd hm (by decide)
    · exact (hnev x hx).1 hm
  have hne : signedNames o.headers ≠ [] := List.ne_nil_of_mem ((mem_signedNames _ _).2 (.inl rfl))
  have hsplit : splitOn ';' sh = signedNames o.headers := by
    have h1 := hone a11 (mem_params_of ht digest (.tail _ (.tail _ (.tail _ (.tail _ (.head _))))))
    rw [percentDecode_plain hjoin] at h1
    rw [utf8_inj h1]
    exact splitOn_join hne fun x hx => (hnev x hx).2
  rw [hscope, hsplit, hpath, hdate]
  exact ⟨rfl, rfl⟩

/-- If the server accepts, the message it rebuilds has the digest of the message that was signed. -/
theorem digest_of_accepts (env : Env) (o : UrlOptions) (w w' : World) (url email pem : Str) (key : Bytes) (n e : Nat) (time : Int)
    (h : buildSignedUrl env o w = (.ok url, w')) (hk : o.signingKey = .serviceAccount email pem) (hr : Plain o)
    (hring : Rsa.Correct env) (hpem : env.pemParse pem = some key) (hpub : Rsa.PublicKeyIn key n e) (hemail : '%' ∉ email)
    (hacc : Accepts email n e (theRequest o url time)) :
    Spec.Sha256.digest (utf8 ((theRequest o url time).message (objectUrl env o).path
        (partsOf env o (validFrom env o.accessibleAt w) email).date
        (partsOf env o (validFrom env o.accessibleAt w) email).scope (signedNames o.headers))) =
      Spec.Sha256.digest (utf8 (partsOf env o (validFrom env o.accessibleAt w) email).stringToSign) := by
  obtain ⟨email', digest, hrej, ht, hu, hs, hauth, hval, halg⟩ := signed_ok h
  rw [hk] at hauth
  have he : email' = email := hauth
  rw [he] at hu hs
  obtain ⟨hex, sg, hu', _, hx2, hsg⟩ := hs
  have hhex : hex = hexEncode digest := by
    rw [hu] at hu'
    unfold SignedParts.url at hu'
    exact (List.append_cancel_left hu').symm
  rw [hhex] at hx2
  have hv : Rsa.Verifies n e (utf8 (partsOf env o (validFrom env o.accessibleAt w) email).stringToSign) sg := by
    rw [hk] at hsg
    obtain ⟨der, h1, h2, h3⟩ := hsg
    rw [hpem, Option.some.injEq] at h1
    subst h1
    obtain ⟨n', e', hp, hv⟩ := hring _ _ _ h2 h3
    obtain ⟨rfl, rfl⟩ := publicKeyIn_unique hpub hp
    exact hv
  obtain ⟨path, date, region, life, sh, hex', sg', start, seconds, a1, _, a3, a4, a5, a6, a7, _, a9, a10, a11, _, a13, a14, a15,
    a16⟩ := hacc
  clear h hu' hsg
  rw [hu] at a1 a3 a4 a11 a14 a16 ⊢
  have hreb := rebuilds_parts ht digest hrej hr hemail ⟨path, date, region, sh, a1, a3, a4, a11, rfl, rfl⟩
  have hsg : sg' = sg := by
    have hin := mem_params_of (env := env) ht (o := o) (email := email) digest
      (.tail _ (.tail _ (.tail _ (.tail _ (.tail _ (.head _))))))
    have a14' : paramValues ((partsOf env o (validFrom env o.accessibleAt w) email).url (hexEncode digest))
      (s% "X-Goog-Signature") = [utf8 hex'] := a14
    rw [a14'] at hin
    have h1 := utf8_inj (List.mem_singleton.1 hin)
    rw [← h1, hx2, Option.some.injEq] at a15
    exact a15.symm
  rw [← hreb.2]
  rw [hsg] at a16
  exact verifies_digest a16 hv

/-! ### C66 -/

theorem readable_message {d d' r r' x x' : Str} {t t' : Int} (hd : BasicDenotes d t) (hd' : BasicDenotes d' t')
    (hx : x.length = x'.length)
    (h : join (s% "\n") [s% "GOOG4-RSA-SHA256", d, d.take 8 ++ s% "/" ++ r ++ s% "/storage/goog4_request", x] =
      join (s% "\n") [s% "GOOG4-RSA-SHA256", d', d'.take 8 ++ s% "/" ++ r' ++ s% "/storage/goog4_request", x']) :
    d = d' ∧ r = r' ∧ x = x' := by
  have hlen : ∀ {s t}, BasicDenotes s t → s.length = 16 := by
    rintro s t ⟨c, _, rfl, _⟩
    rfl
  simp only [join, List.append_assoc] at h
  have h1 := List.append_cancel_left (List.append_cancel_left h)
  obtain ⟨hdate, h2⟩ := List.append_inj h1 (by rw [hlen hd, hlen hd'])
  refine ⟨hdate, ?_⟩
  rw [hdate] at h2
  have h3 := List.append_cancel_left (List.append_cancel_left (List.append_cancel_left h2))
  have h4 := congrArg List.reverse h3
  simp only [List.reverse_append, List.append_assoc] at h4
  obtain ⟨h5, h6⟩ := List.append_inj h4 (by rw [List.length_reverse, List.length_reverse, hx])
  have h7 := List.append_cancel_left h6
  have h8 := List.append_cancel_left h7
  exact ⟨List.reverse_inj.1 h8, List.reverse_inj.1 h5⟩

theorem tidy_no_lf {v : Str} (h : '\n' ∉ v) : '\n' ∉ tidy v := by
  intro hm
  rcases mem_join hm with hm | ⟨x, hx, hm⟩
  · exact absurd hm (by decide)
  · have := splitOn_sub (List.mem_filter.1 hx).1 hm
    rw [List.mem_map] at this
    obtain ⟨c, hc, he⟩ := this
    split at he
    · cases he
    · exact h (he ▸ hc)

/-- The canonical request as one list of lines. -/
theorem canonical_lines (m path query : Str) (lines : List Str) (names payload : Str) (hne : lines ≠ []) :
    join (s% "\n") [m, path, query, join (s% "\n") lines, s% "", names, payload] =
      join (s% "\n") ([m, path, query] ++ lines ++ [s% "", names, payload]) := by
  rw [join_append _ (by simp) (by simp), join_append _ (by simp) hne]
  simp [join]

/-- The values of a parameter other than the signature are read from the unsigned items. -/
theorem paramValues_unsigned (url name : Str) (hn : name ≠ s% "X-Goog-Signature") :
    paramValues url name = (((unsignedItems (urlQuery url)).filter fun item =>
      percentDecode (itemName item) = utf8 name).map fun item => percentDecode (cutAt '=' item).2) := by
  unfold paramValues queryParams unsignedItems
  rw [List.filter_map, List.map_map, List.filter_filter]
  congr 1
  refine List.filter_congr fun item _ => ?_
  by_cases h : percentDecode (itemName item) = utf8 name
  · have h2 : utf8 name ≠ utf8 (s% "X-Goog-Signature") := fun e => hn (utf8_inj e)
    simp only [Function.comp, itemName] at h ⊢
    simp [h, h2]
  · simp only [Function.comp, itemName] at h ⊢
    simp [h]

/-- The request asks for what the options ask for: the method, the path (percent-decoded), the query apart from the
signature and the order of its items, and the signed headers (values tidied and joined with commas); the body is not
signed; the headers starting with `x-goog-` are among the given ones; the time is in the window of the options. -/
structure Spec.AsksFor (o : UrlOptions) (start : Time) (url : Str) (r : Incoming) : Prop where
  method : r.method = o.httpMethod
  path : ∃ path path', urlPath (s% "https://storage.googleapis.com") url = some path ∧
    urlPath (s% "https://storage.googleapis.com") r.url = some path' ∧ percentDecode path' = percentDecode path
  query : (unsignedItems (urlQuery r.url)).Perm (unsignedItems (urlQuery url))
  headers : ∀ name, (∃ h ∈ requestHeaders o, asciiLower h.1 = name) →
    join (s% ",") ((headerValues r.headers name).map tidy) = join (s% ",") (headerValues (requestHeaders o) name)
  extension : ∀ h ∈ r.headers, s% "x-goog-" <+: asciiLower h.1 → ∃ x ∈ requestHeaders o, asciiLower x.1 = asciiLower h.1
  payload : payloadLine r = s% "UNSIGNED-PAYLOAD"
  time : start / 1000000000 ≤ r.time ∧ r.time < start / 1000000000 + (o.expires - start) / 1000000000

theorem urlPath_no_lf {host url path : Str} (h : urlPath host url = some path) (hn : '\n' ∉ url) : '\n' ∉ path := by
  unfold urlPath at h
  split at h
  · rw [Option.some.injEq] at h
    subst h
    exact fun hm => hn (List.mem_of_mem_drop (cutAt_sub.1 _ (cutAt_sub.1 _ hm)))
  · cases h

theorem urlQuery_no_lf {url : Str} (hn : '\n' ∉ url) : '\n' ∉ urlQuery url :=
  fun hm => hn (cutAt_sub.2 _ (cutAt_sub.1 _ hm))

theorem canonicalQuery_no_lf {q : Str} (hn : '\n' ∉ q) : '\n' ∉ canonicalQuery q := by
  intro hm
  rcases mem_join hm with hm | ⟨x, hx, hm⟩
  · exact absurd hm (by decide)
  · rw [(sortItems_perm _).mem_iff] at hx
    exact hn (splitOn_sub (List.mem_filter.1 hx).1 hm)

theorem payload_no_lf {r : Incoming} (hv : ∀ h ∈ r.headers, '\n' ∉ h.2) : '\n' ∉ payloadLine r := by
  unfold payloadLine
  cases hc : headerValues r.headers (s% "x-goog-content-sha256") with
  | nil => decide
  | cons v vs =>
    have : v ∈ headerValues r.headers (s% "x-goog-content-sha256") := hc ▸ List.mem_cons_self
    unfold headerValues at this
    obtain ⟨x, hx, rfl⟩ := List.mem_map.1 this
    exact tidy_no_lf (hv x (List.mem_filter.1 hx).1)

theorem values_no_lf {l : List Str} (h : ∀ v ∈ l, '\n' ∉ v) : '\n' ∉ join (s% ",") l := by
  intro hm
  rcases mem_join hm with hm | ⟨x, hx, hm⟩
  · exact absurd hm (by decide)
  · exact h x hx hm

/-- Equal canonical requests of lines without line feeds have equal lines. -/
theorem canonical_inj {m path query names payload m' path' query' names' payload' : Str} {lines lines' : List Str}
    (h : join (s% "\n") [m, path, query, join (s% "\n") lines, s% "", names, payload] =
      join (s% "\n") [m', path', query', join (s% "\n") lines', s% "", names', payload'])
    (hne : lines ≠ []) (hne' : lines' ≠ [])
    (hl : ∀ x ∈ [m, path, query] ++ lines ++ [s% "", names, payload], '\n' ∉ x)
    (hl' : ∀ x ∈ [m', path', query'] ++ lines' ++ [s% "", names', payload'], '\n' ∉ x) :
    m = m' ∧ path = path' ∧ query = query' ∧ lines = lines' ∧ payload = payload' := by
  rw [canonical_lines _ _ _ _ _ _ hne, canonical_lines _ _ _ _ _ _ hne'] at h
  have h2 := congrArg (splitOn '\n') h
  rw [show (s% "\n") = ['\n'] from rfl, splitOn_join (by simp) hl, splitOn_join (by simp) hl'] at h2
  simp only [List.cons_append, List.nil_append, List.cons.injEq] at h2
  obtain ⟨h1, h3, h4, h5⟩ := h2
  have h6 := List.append_inj' h5 rfl
  simp only [List.cons.injEq, and_true, true_and] at h6
  exact ⟨h1, h3, h4, h6.1, h6.2.2⟩

/-- SHA-256 does not collide on these two texts. -/
def Spec.NoCollision (a b : Str) : Prop := Spec.Sha256.digest (utf8 a) = Spec.Sha256.digest (utf8 b) → a = b

theorem hexDigest_digest {a b : Bytes} (h : Spec.Sha256.hexDigest a = Spec.Sha256.hexDigest b) :
    Spec.Sha256.digest a = Spec.Sha256.digest b := by
  rw [← sha256Hex_eq, ← sha256Hex_eq] at h
  have h2 := congrArg hexDecode h
  unfold sha256Hex at h2
  rw [hexDecode_hexEncode, hexDecode_hexEncode, Option.some.injEq, digest_eq, digest_eq] at h2
  exact h2

/-- Nothing in the request has a line feed: otherwise it is not an HTTP request. -/
def Spec.OneLine (r : Incoming) : Prop := '\n' ∉ r.method ∧ '\n' ∉ r.url ∧ ∀ h ∈ r.headers, '\n' ∉ h.2

theorem unsigned_eq {env : Env} {o : UrlOptions} {t : Time} {email : Str} {digest : Bytes} {q : Str}
    (h : canonicalQuery q = (partsOf env o t email).query) (hne : unsignedItems q ≠ []) :
    (unsignedItems q).Perm (unsignedItems (urlQuery ((partsOf env o t email).url (hexEncode digest)))) := by
  have h2 := congrArg (splitOn '&') h
  unfold canonicalQuery at h2
  rw [partsOf_query, show (s% "&") = ['&'] from rfl, splitOn_join, splitOn_join] at h2
  · have hp := sortItems_perm (unsignedItems q)
    rw [h2] at hp
    have hsig : percentDecode (itemName (s% "X-Goog-Signature=" ++ hexEncode digest)) = utf8 (s% "X-Goog-Signature") := by
      have e : s% "X-Goog-Signature=" ++ hexEncode digest = s% "X-Goog-Signature" ++ '=' :: hexEncode digest := rfl
      rw [itemName, e, cutAt_append (by decide)]; exact percentDecode_plain (s := s% "X-Goog-Signature") (by decide)
    have hall : unsignedItems (urlQuery ((partsOf env o t email).url (hexEncode digest))) =
        sortStr ((allParams env o (required o t email)).map canonicalItem) := by
      conv => lhs; unfold unsignedItems
      rw [items_parts, List.filter_append, List.filter_cons, hsig, if_neg (by simp), List.filter_nil, List.append_nil,
        List.filter_eq_self]
      intro x hx
      exact (List.mem_filter.1 (hp.mem_iff.1 hx)).2
    rw [hall]
    exact hp.symm
  · exact sortStr_ne_nil (by simp [allParams_ne_nil])
  · intro y hy
    rw [mem_sortStr, List.mem_map] at hy
    obtain ⟨p, _, rfl⟩ := hy
    exact canonicalItem_no_amp p
  · intro hn
    apply hne
    have := (sortItems_perm (unsignedItems q)).length_eq
    rw [hn] at this
    exact List.length_eq_zero_iff.1 this.symm
  · intro x hx
    rw [(sortItems_perm _).mem_iff] at hx
    exact splitOn_no (List.mem_filter.1 hx).1

theorem paramValues_perm {u v name : Str} (h : (unsignedItems (urlQuery u)).Perm (unsignedItems (urlQuery v)))
    (hn : name ≠ s% "X-Goog-Signature") : (paramValues u name).Perm (paramValues v name) := by
  rw [paramValues_unsigned _ _ hn, paramValues_unsigned _ _ hn]
  exact (h.filter _).map _

/-- The first three lines. -/
theorem canonical_three {a b c x y z : Str} {l l' : List Str} (hl : l ≠ []) (hl' : l' ≠ [])
    (h : join (s% "\n") (a :: b :: c :: l) = join (s% "\n") (x :: y :: z :: l'))
    (ha : '\n' ∉ a) (hb : '\n' ∉ b) (hc : '\n' ∉ c) (hx : '\n' ∉ x) (hy : '\n' ∉ y) (hz : '\n' ∉ z) :
    a = x ∧ b = y ∧ c = z := by
  cases l with
  | nil => exact absurd rfl hl
  | cons d l =>
    cases l' with
    | nil => exact absurd rfl hl'
    | cons d' l' =>
      simp only [join, List.append_assoc, List.singleton_append] at h
      obtain ⟨h1, h⟩ := cut_first ha hx h
      obtain ⟨h2, h⟩ := cut_first hb hy h
      obtain ⟨h3, h⟩ := cut_first hc hz h
      exact ⟨h1, h2, h3⟩

theorem lines_free {m path query payload : Str} {names : List Str} {f : Str → Str} (hm : '\n' ∉ m) (hp : '\n' ∉ path)
    (hq : '\n' ∉ query) (hn : ∀ x ∈ names, '\n' ∉ x) (hf : ∀ x ∈ names, '\n' ∉ f x) (hl : '\n' ∉ payload) :
    ∀ x ∈ [m, path, query] ++ names.map (fun n => n ++ s% ":" ++ f n) ++ [s% "", join (s% ";") names, payload], '\n' ∉ x := by
  intro x hx
  simp only [List.cons_append, List.nil_append, List.mem_cons, List.mem_append, List.not_mem_nil, or_false, List.mem_map] at hx
  rcases hx with rfl | rfl | rfl | ⟨n, hn', rfl⟩ | rfl | rfl | rfl
  · exact hm
  · exact hp
  · exact hq
  · simp only [List.mem_append, not_or]
    exact ⟨⟨hn n hn', by decide⟩, hf n hn'⟩
  · decide
  · intro hm
    rcases mem_join hm with hm | ⟨x, hx, hm⟩
    · exact absurd hm (by decide)
    · exact hn x hx hm
  · exact hl

theorem values_free {headers : List (Str × Str)} (hv : ∀ h ∈ headers, '\n' ∉ h.2) (n : Str) :
    '\n' ∉ join (s% ",") ((headerValues headers n).map tidy) := by
  apply values_no_lf
  intro v hv'
  obtain ⟨u, hu, rfl⟩ := List.mem_map.1 hv'
  unfold headerValues at hu
  obtain ⟨x, hx, rfl⟩ := List.mem_map.1 hu
  exact tidy_no_lf (hv x (List.mem_filter.1 hx).1)

/-- The core of C66: the message the server rebuilds determines the request. -/
theorem asks_of_message {env : Env} {o : UrlOptions} {t : Time} (ht : 0 ≤ t ∧ t < endOf9999) {email : Str} {digest : Bytes}
    (hrej : urlRejection env o t = none) (halg : o.signingKey.xGoogAlgorithm.asStr = s% "GOOG4-RSA-SHA256")
    (hval : ∀ x ∈ o.headers, headerToStrOk x.2 = true)
    (hlf : '\n' ∉ (partsOf env o t email).url (hexEncode digest)) (hpct : ∀ h ∈ o.headers, '%' ∉ h.1)
    {r : Incoming} (hr : OneLine r) {path date region life sh : Str} {start : Int} {seconds : Nat}
    (hpath : urlPath (s% "https://storage.googleapis.com") r.url = some path)
    (hdate : BasicDenotes date start)
    (hexp : paramValues r.url (s% "X-Goog-Expires") = [utf8 life]) (hlife : Decimal life seconds)
    (hstart : start ≤ r.time) (hend : r.time < start + seconds)
    (hsh : paramValues r.url (s% "X-Goog-SignedHeaders") = [utf8 sh])
    (hext : ∀ h ∈ r.headers, s% "x-goog-" <+: asciiLower h.1 → asciiLower h.1 ∈ splitOn ';' sh)
    (hmsg : r.message path date (date.take 8 ++ s% "/" ++ region ++ s% "/storage/goog4_request") (splitOn ';' sh) =
      (partsOf env o t email).stringToSign)
    (hcol : NoCollision (r.canonicalRequest path (splitOn ';' sh)) (partsOf env o t email).canonicalRequest) :
    AsksFor o t ((partsOf env o t email).url (hexEncode digest)) r := by
  obtain ⟨_, _, hexp1, hexp2, hmeth, _, hh⟩ := urlRejection_none.1 hrej
  have htok := signedNames_token fun x hx => (hh x hx).1
  obtain ⟨hrm, hru, hrh⟩ := hr
  unfold Incoming.message SignedParts.stringToSign at hmsg
  rw [show (partsOf env o t email).algorithm = s% "GOOG4-RSA-SHA256" from halg] at hmsg
  unfold SignedParts.scope at hmsg
  obtain ⟨hd, _, hx⟩ := readable_message hdate (date_denotes ht) (by rw [hexDigest_length, hexDigest_length]) hmsg
  have hreq := hcol (hexDigest_digest hx)
  rw [hd] at hdate
  have hst : start = t / 1000000000 := basicDenotes_unique hdate (date_denotes ht)
  have hnev : ∀ x ∈ signedNames o.headers, '%' ∉ x ∧ ';' ∉ x ∧ '\n' ∉ x := by
    intro x hx
    refine ⟨?_, fun hm => absurd (htok x hx _ hm) (by decide), fun hm => absurd (htok x hx _ hm) (by decide)⟩
    rcases (mem_signedNames _ _).1 hx with rfl | ⟨y, hy, rfl⟩
    · decide
    · exact asciiLower_no_pct (hpct y hy)
  have hne : signedNames o.headers ≠ [] := List.ne_nil_of_mem ((mem_signedNames _ _).2 (.inl rfl))
  have hsplit : splitOn ';' (join (s% ";") (signedNames o.headers)) = signedNames o.headers :=
    splitOn_join hne fun x hx => (hnev x hx).2.1
  have hjoin : '%' ∉ join (s% ";") (signedNames o.headers) := by
    intro hm
    rcases mem_join hm with hm | ⟨x, hx, hm⟩
    · exact absurd hm (by decide)
    · exact (hnev x hx).1 hm
  have hm1 : '\n' ∉ (partsOf env o t email).method := methods_no_lf hmeth
  have hpl := pathLine_no_lf env o t email
  have hcp : '\n' ∉ canonicalText path := by
    rw [canonicalText_eq]; exact encode_no_lf (urlPath_no_lf hpath hru)
  have hq1 : '\n' ∉ (partsOf env o t email).query := by
    intro hm
    apply hlf
    unfold SignedParts.url
    simp [hm]
  have hq2 := canonicalQuery_no_lf (urlQuery_no_lf hru)
  have hpay := payload_no_lf hrh
  have hreq' := hreq
  unfold Incoming.canonicalRequest SignedParts.canonicalRequest at hreq'
  obtain ⟨e1, e2, e3⟩ := canonical_three (by simp) (by simp) hreq' hrm hcp hq2 hm1 hpl hq1
  have hune : unsignedItems (urlQuery r.url) ≠ [] := by
    intro hn
    rw [paramValues_unsigned _ _ (by decide), hn] at hexp
    simp at hexp
  have hperm := unsigned_eq (digest := digest) e3 hune
  have hone : ∀ {name : Str} {x v : Bytes}, name ≠ s% "X-Goog-Signature" → paramValues r.url name = [x] →
      v ∈ paramValues ((partsOf env o t email).url (hexEncode digest)) name → x = v := by
    intro name x v hn hx hv
    have hp := paramValues_perm hperm hn
    rw [hx] at hp
    rw [List.perm_singleton.1 hp.symm] at hv
    exact (List.mem_singleton.1 hv).symm
  have hshe : sh = join (s% ";") (signedNames o.headers) := by
    apply utf8_inj
    rw [← percentDecode_plain hjoin]
    exact hone (by decide) hsh (mem_params_of ht digest (.tail _ (.tail _ (.tail _ (.tail _ (.head _))))))
  have hlifee : life = natDec ((o.expires - t) / nsPerSec).toNat := by
    apply utf8_inj
    exact hone (by decide) hexp (mem_params_of ht digest (.tail _ (.tail _ (.tail _ (.head _)))))
  rw [hshe, hsplit] at hreq' hext
  rw [partsOf_headers, List.map_map, List.map_map,
    show ((fun x : Str × List Str => x.1) ∘ fun n => (n, headerValues (requestHeaders o) n)) = id from rfl, List.map_id] at hreq'
  obtain ⟨_, _, _, hlines, hpayload⟩ := canonical_inj hreq' (by simpa using hne) (by simpa using hne)
    (lines_free hrm hcp hq2 (fun n hn => (hnev n hn).2.2) (fun n _ => values_free hrh n) hpay)
    (lines_free hm1 hpl hq1 (fun n hn => (hnev n hn).2.2)
      (fun n _ => plain_no_lf (plain_join_comma (headerValues_plain hval n))) (by decide))
  refine ⟨e1, ⟨_, _, urlPath_parts, hpath, ?_⟩, hperm, ?_, ?_, hpayload, ?_⟩
  · rw [canonicalText_eq] at e2
    have e2 : percentEncode path = percentEncode (objectUrl env o).path := e2
    rw [← percentDecode_encode, e2, percentDecode_encode]
  · intro name hname
    have := List.map_inj_left.1 hlines name ((mem_signedNames_iff o name).2 hname)
    exact List.append_cancel_left this
  · intro h hm hx
    exact (mem_signedNames_iff o _).1 (hext h hm hx)
  · rw [hst] at hstart hend
    refine ⟨hstart, ?_⟩
    rw [hlifee] at hlife
    have hs : seconds = ((o.expires - t) / nsPerSec).toNat := by
      exact hlife.2.2.symm.trans (natDec_decimal ((o.expires - t) / nsPerSec).toNat).2.2
    rw [hs] at hend
    unfold nsPerSec at hend
    omega

/-- C66. Whatever request the server accepts with the signature of the returned URL asks for what was signed, unless
SHA-256 collides on the messages or the canonical requests of the two. (With a line feed in the URL the options themselves are not
requestable; `%` in header names see C20.) -/
theorem C66_same_signature (env : Env) (o : UrlOptions) (w w' : World) (url : Str) (n e : Nat)
    (h : buildSignedUrl env o w = (.ok url, w'))
    (hsig : ∀ m s, Signs env w'.log o.signingKey m s → Rsa.Verifies n e m s)
    (hlf : '\n' ∉ url) (hpct : ∀ h ∈ o.headers, '%' ∉ h.1) :
    ∃ p : SignedParts, IsSigned env w'.log o.signingKey url p ∧ ∀ account r, Accepts account n e r → OneLine r →
      paramValues r.url (s% "X-Goog-Signature") = paramValues url (s% "X-Goog-Signature") →
      (∀ canonical message, r.Rebuilds account canonical message →
        NoCollision message p.stringToSign ∧ NoCollision canonical p.canonicalRequest) →
      AsksFor o (validFrom env o.accessibleAt w) url r := by
  obtain ⟨email, digest, hrej, ht, hu, hs, hauth, hval, halg⟩ := signed_ok h
  refine ⟨_, hs, ?_⟩
  obtain ⟨hex, sg, hu', _, hx2, hsg⟩ := hs
  have hhex : hex = hexEncode digest := by
    rw [hu] at hu'
    unfold SignedParts.url at hu'
    exact (List.append_cancel_left hu').symm
  rw [hhex] at hx2
  intro account r hacc hr hsame hnc
  obtain ⟨path, date, region, life, sh, hex', sg', start, seconds, a1, _, a3, a4, a5, a6, a7, _, a9, a10, a11, _, a13, a14, a15,
    a16⟩ := hacc
  have hin : utf8 (hexEncode digest) ∈ paramValues url (s% "X-Goog-Signature") := by
    rw [hu]; exact mem_params_of ht digest (.tail _ (.tail _ (.tail _ (.tail _ (.tail _ (.head _))))))
  rw [← hsame, a14] at hin
  have hxx := utf8_inj (List.mem_singleton.1 hin)
  rw [← hxx, hx2, Option.some.injEq] at a15
  rw [← a15] at a16
  have hv := hsig _ _ hsg
  clear hsg hsig hin a14 hsame
  have hd := verifies_digest a16 hv
  obtain ⟨hnc1, hnc2⟩ := hnc _ _ ⟨path, date, region, sh, a1, a3, a4, a11, rfl, rfl⟩
  have hmsg := hnc1 hd
  rw [hu] at hlf ⊢
  exact asks_of_message ht hrej halg hval hlf hpct hr a1 a5 a6 a7 a9 a10 a11 a13 hmsg hnc2

/-- C66 for any signature: if the signature in the request is not forged, that is, the message that the server rebuilds is
the one signed for the URL, the request asks for what was signed. -/
theorem C66_unforgeable (env : Env) (o : UrlOptions) (w w' : World) (url : Str) (n e : Nat)
    (h : buildSignedUrl env o w = (.ok url, w')) (hlf : '\n' ∉ url) (hpct : ∀ h ∈ o.headers, '%' ∉ h.1) :
    ∃ p : SignedParts, IsSigned env w'.log o.signingKey url p ∧ ∀ account r, Accepts account n e r → OneLine r →
      (∀ canonical message, r.Rebuilds account canonical message →
        message = p.stringToSign ∧ NoCollision canonical p.canonicalRequest) →
      AsksFor o (validFrom env o.accessibleAt w) url r := by
  obtain ⟨email, digest, hrej, ht, hu, hs, hauth, hval, halg⟩ := signed_ok h
  refine ⟨_, hs, ?_⟩
  intro account r hacc hr hunf
  obtain ⟨path, date, region, life, sh, hex', sg', start, seconds, a1, _, a3, a4, a5, a6, a7, _, a9, a10, a11, _, a13, a14, a15,
    a16⟩ := hacc
  obtain ⟨hmsg, hnc2⟩ := hunf _ _ ⟨path, date, region, sh, a1, a3, a4, a11, rfl, rfl⟩
  rw [hu] at hlf ⊢
  exact asks_of_message ht hrej halg hval hlf hpct hr a1 a5 a6 a7 a9 a10 a11 a13 hmsg hnc2

/-- The hypotheses of C66 are met by the request for the URL itself, for all options as in C65. (And the conclusion is not
met by most requests: see the cases in ServerExamples.) -/
theorem C66_hypotheses_met (env : Env) (o : UrlOptions) (w w' : World) (url email pem : Str) (key : Bytes) (n e : Nat)
    (h : buildSignedUrl env o w = (.ok url, w')) (hk : o.signingKey = .serviceAccount email pem) (hr : Regular o)
    (hring : Rsa.Correct env) (hpem : env.pemParse pem = some key) (hpub : Rsa.PublicKeyIn key n e) (hemail : '%' ∉ email)
    (hlife : 1000000000 ≤ o.expires - validFrom env o.accessibleAt w) (hlf : '\n' ∉ url) :
    ∃ p time, IsSigned env w'.log o.signingKey url p ∧ Accepts email n e (theRequest o url time) ∧
      OneLine (theRequest o url time) ∧
      ∀ canonical message, (theRequest o url time).Rebuilds email canonical message →
        message = p.stringToSign ∧ canonical = p.canonicalRequest := by
  have hacc := C65_service_account env o w w' url email pem key n e (validFrom env o.accessibleAt w / 1000000000) h hk hr hring
    hpem hpub hemail (Int.le_refl _) (by omega)
  obtain ⟨email', digest, hrej, ht, hu, hs, hauth, hval, halg⟩ := signed_ok h
  rw [hk] at hauth
  have he : email' = email := hauth
  rw [he] at hu hs
  refine ⟨_, _, hs, hacc, ⟨?_, hlf, ?_⟩, ?_⟩
  · obtain ⟨_, _, _, _, hm, _, _⟩ := urlRejection_none.1 hrej
    exact methods_no_lf hm
  · intro x hx hm
    rcases List.mem_cons.1 hx with rfl | hx
    · exact absurd hm (by decide)
    · exact plain_no_lf (headerValues_plain hval (asciiLower x.1) x.2 (by
        unfold headerValues requestHeaders
        exact List.mem_map.2 ⟨x, List.mem_filter.2 ⟨List.mem_cons_of_mem _ hx, by simp⟩, rfl⟩)) hm
  · intro c m hreb
    rw [hu] at hreb
    obtain ⟨h1, h2⟩ := rebuilds_parts ht digest hrej hr.toPlain hemail hreb
    rw [h1, h2]
    exact ⟨message_parts ht digest hr halg _, canonical_parts ht digest hr _⟩

end CSS
