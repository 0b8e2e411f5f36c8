import Verif.Lemmas.Sha256
import Verif.Spec.Url
import Verif.Lemmas.UrlText
import Verif.Lemmas.Headers
import Verif.Lemmas.FormEq
import Verif.Lemmas.Stamp
import Verif.Props.Ground
/- `build_signed_url` as one equation. -/
set_option linter.unusedSimpArgs false
namespace CSS
open Spec

theorem bind_lift {ε α β : Type} (r : Res ε α) (f : α → M ε β) (w : World) :
    (M.lift r >>= f) w = match r with
      | .ok a => f a w
      | .err e => (.err e, w)
      | .panic p => (.panic p, w) := by
  rw [M.bind_run, M.lift_run]; cases r <;> rfl

/-! ### the URL text -/

/-- The bucket and object part of the URL, after parsing. -/
def objectUrl (env : Env) (o : UrlOptions) : Url :=
  Url.parse env (s% "/" ++ o.bucketName ++ s% "/" ++ o.objectName)

theorem objectUrl_normal (env : Env) (o : UrlOptions) :
    NormalPath env.encodeCaret (objectUrl env o).path ∧
    (∀ c ∈ (objectUrl env o).query.getD [], Kept queryEncSet c) := parse_isNormal _ _

/-- The query with the user's parameters. -/
def baseQuery (env : Env) (o : UrlOptions) : Str := extendPairs ((objectUrl env o).query.getD []) o.queryParameters

theorem baseUrl_eq (env : Env) (o : UrlOptions) :
    baseUrl env o = ⟨(objectUrl env o).path, some (baseQuery env o), (objectUrl env o).fragment⟩ := rfl

theorem baseQuery_kept (env : Env) (o : UrlOptions) : ∀ c ∈ baseQuery env o, Kept queryEncSet c :=
  extendPairs_kept (objectUrl_normal env o).2 _

theorem baseUri_eq (env : Env) (o : UrlOptions) :
    Uri.parse (baseUrl env o).toRest =
      if 65534 < (utf8 (hostname ++ (baseUrl env o).toRest)).length then none
      else some ⟨(objectUrl env o).path, some (baseQuery env o)⟩ :=
  uriParse_normal (objectUrl_normal env o).1 (baseQuery_kept env o) _

/-- All parameters before the signature: those in the object name, the user's, the required ones. -/
def allParams (env : Env) (o : UrlOptions) (required : List (Str × Str)) : List (Str × Str) :=
  formParse (utf8 ((objectUrl env o).query.getD [])) ++ o.queryParameters ++ required

/-- The URL with all parameters, before canonicalisation. -/
def fullUrl (env : Env) (o : UrlOptions) (required : List (Str × Str)) : Str :=
  hostname ++ ((objectUrl env o).path ++ '?' :: extendPairs (baseQuery env o) required)

theorem addRequiredParams_eq (env : Env) (o : UrlOptions) (m : HttpVerb) (email : Str) (alg : SigningAlgorithm)
    (date : ActiveDatetime) (scope : CredentialScope) (ex : Expiration) :
    addRequiredParams env ⟨m, ⟨(objectUrl env o).path, some (baseQuery env o)⟩, urlHeaderMap o.headers⟩ email alg date scope ex =
      if 65534 < (utf8 (fullUrl env o (requiredParams email alg date scope ex (urlHeaderMap o.headers)))).length
      then .panic .urlToBeValid
      else .ok ⟨m, ⟨(objectUrl env o).path,
        some (extendPairs (baseQuery env o) (requiredParams email alg date scope ex (urlHeaderMap o.headers)))⟩,
        urlHeaderMap o.headers⟩ := by
  have hhost : ((urlHeaderMap o.headers).map (·.1)).contains (s% "host") = true := by
    rw [List.contains_iff_mem, urlHeaderMap_names]
    simp [allHeaders, lower_host]
  unfold addRequiredParams
  simp only
  rw [if_neg (by rw [hhost]; simp)]
  have hk := extendPairs_kept (baseQuery_kept env o)
    (requiredParams email alg date scope ex (urlHeaderMap o.headers))
  have h1 : Url.parse env (Uri.toRest ⟨(objectUrl env o).path, some (baseQuery env o)⟩) =
      ⟨(objectUrl env o).path, some (baseQuery env o), none⟩ :=
    parse_normal (objectUrl_normal env o).1 (baseQuery_kept env o)
  rw [h1]
  have h2 := uriParse_normal (objectUrl_normal env o).1 hk none
  simp only [List.append_nil] at h2
  have h3 : (Url.extendQuery ⟨(objectUrl env o).path, some (baseQuery env o), none⟩
      (requiredParams email alg date scope ex (urlHeaderMap o.headers))).toRest =
      (objectUrl env o).path ++ '?' :: extendPairs (baseQuery env o)
        (requiredParams email alg date scope ex (urlHeaderMap o.headers)) := by
    simp [Url.extendQuery, Url.toRest]
  rw [h3, h2]
  unfold fullUrl
  generalize (utf8 (hostname ++ ((objectUrl env o).path ++ '?' :: extendPairs (baseQuery env o)
        (requiredParams email alg date scope ex (urlHeaderMap o.headers))))).length = n
  by_cases hn : 65534 < n
  · rw [if_pos hn, if_pos hn]
  · rw [if_neg hn, if_neg hn]

theorem canonicalQuery_full (env : Env) (o : UrlOptions) (required : List (Str × Str)) (p : Str) :
    canonicalQueryString ⟨p, some (extendPairs (baseQuery env o) required)⟩ =
      join (s% "&") (sortStr ((allParams env o required).map canonicalItem)) := by
  rw [canonicalQueryString_eq]
  simp only [Option.getD_some]
  rw [formParse_extendPairs, baseQuery, formParse_extendPairs]
  rfl

/-! ### rejection -/

/-- Why `build_signed_url` rejects the options outright, for a URL valid from `t`: the first that applies. -/
def urlRejection (env : Env) (o : UrlOptions) (t : Time) : Option BuildUrlError :=
  if t < 0 ∨ endOf9999 ≤ t then some .now
  else if o.expires < t then some .expirationOutOfRange
  else if 9223372036854775807 < (o.expires - t) / nsPerSec then some .expirationOutOfRange
  else if o.httpMethod ∉ methods then some (.httpMethod (.invalidHttpVerb o.httpMethod))
  else if 65534 < (utf8 (hostname ++ (baseUrl env o).toRest)).length then some .httpRequest
  else match headerRejection o.headers with
    | some e => some e
    | none =>
      if 604800 < (o.expires - t) / nsPerSec then some (.expiration (.outOfRange ((o.expires - t) / nsPerSec)))
      else none

/-- The options are in order up to the headers, but there are too many of them. -/
def Overflows (env : Env) (o : UrlOptions) (t : Time) : Prop :=
  ¬ HeadersFit env o.headers ∧ (urlRejection env o t = none ∨ ∃ e, urlRejection env o t = some (.expiration e))

theorem extendHeaders_fits {env : Env} {hs : List (Str × Str)} (h : HeadersFit env hs) :
    extendHeaders env (lowered hs) = .ok (urlHeaderMap hs) := by
  unfold extendHeaders
  have : (lowered hs).map (·.1) = hs.map fun h => h.1.map Char.toLower := by simp [lowered, ground_asciiLower]
  rw [this, if_pos (by simpa [lowered, HeadersFit] using h)]
  rfl

theorem extendHeaders_full {env : Env} {hs : List (Str × Str)} (h : ¬ HeadersFit env hs) :
    extendHeaders env (lowered hs) = .panic .headerMapFull := by
  unfold extendHeaders
  have : (lowered hs).map (·.1) = hs.map fun h => h.1.map Char.toLower := by simp [lowered, ground_asciiLower]
  rw [this, if_neg (by simpa [lowered, HeadersFit] using h)]

theorem HeadersFit.few {env : Env} {hs : List (Str × Str)} (h : hs.length ≤ 3276) : HeadersFit env hs := .inl h

theorem HeadersFit.not_overflows {env : Env} {o : UrlOptions} {t : Time} (h : HeadersFit env o.headers) : ¬ Overflows env o t :=
  fun ho => ho.1 h

/-- If the options are rejected before the headers are stored, it does not matter how many there are. -/
theorem not_overflows_of_early {env : Env} {o : UrlOptions} {t : Time} {e : BuildUrlError} (h : urlRejection env o t = some e)
    (he : ∀ e', e ≠ .expiration e') : ¬ Overflows env o t := by
  rintro ⟨_, h' | ⟨e', h'⟩⟩ <;> rw [h] at h'
  · cases h'
  · exact he e' (Option.some.inj h')

theorem headerRejection_not_expiration (hs : List (Str × Str)) (e : ExpirationError) : headerRejection hs ≠ some (.expiration e) := by
  induction hs with
  | nil => simp [headerRejection]
  | cons h hs ih =>
    obtain ⟨k, v⟩ := h
    unfold headerRejection
    split
    · simp
    · split
      · simp
      · exact ih

theorem httpVerb_cases (s : Str) :
    (s ∉ methods ∧ HttpVerb.fromStr s = .err (.invalidHttpVerb s)) ∨
    (s ∈ methods ∧ ∃ v, HttpVerb.fromStr s = .ok v ∧ v.toStr = s) := by
  unfold HttpVerb.fromStr methods
  by_cases h1 : s = s% "DELETE"
  · right; subst h1; exact ⟨by simp, .delete, rfl, rfl⟩
  by_cases h2 : s = s% "GET"
  · right; subst h2; exact ⟨by simp, .get, rfl, rfl⟩
  by_cases h3 : s = s% "HEAD"
  · right; subst h3; exact ⟨by simp, .head, rfl, rfl⟩
  by_cases h4 : s = s% "POST"
  · right; subst h4; exact ⟨by simp, .post, rfl, rfl⟩
  by_cases h5 : s = s% "PUT"
  · right; subst h5; exact ⟨by simp, .put, rfl, rfl⟩
  left
  exact ⟨by simp [h1, h2, h3, h4, h5], by rw [if_neg h1, if_neg h2, if_neg h3, if_neg h4, if_neg h5]⟩

/-! ### the signed parts -/

/-- The required parameters, for a URL valid from `t`. -/
def required (o : UrlOptions) (t : Time) (email : Str) : List (Str × Str) :=
  requiredParams email o.signingKey.xGoogAlgorithm ⟨⟨t / nsPerSec⟩⟩
    ⟨Date.fromUnixTimestamp ⟨t / nsPerSec⟩, ⟨o.region.getD (s% "auto")⟩, .storage, .goog4Request⟩
    ⟨(o.expires - t) / nsPerSec⟩ (urlHeaderMap o.headers)

/-- The parts of the signed URL valid from `t`, for the authorizer `email`. -/
def partsOf (env : Env) (o : UrlOptions) (t : Time) (email : Str) : SignedParts where
  algorithm := o.signingKey.xGoogAlgorithm.asStr
  date := UnixTimestamp.toIso8601 ⟨t / nsPerSec⟩
  region := o.region.getD (s% "auto")
  method := o.httpMethod
  path := (objectUrl env o).path
  pathLine := percentEncode (objectUrl env o).path
  query := join (s% "&") (sortStr ((allParams env o (required o t email)).map canonicalItem))
  headers := group (signedNames o.headers) (valuesOf (lowered (allHeaders o.headers)))

theorem group_fst (ks : List Str) (f : Str → List Str) : (group ks f).map (·.1) = ks := by
  rw [group, List.map_map]; exact List.map_id _

theorem canonicalRequest_eq (env : Env) (o : UrlOptions) (t : Time) (email : Str) (m : HttpVerb) (hm : m.toStr = o.httpMethod) :
    canonicalRequest ⟨m, ⟨(objectUrl env o).path, some (extendPairs (baseQuery env o) (required o t email))⟩, urlHeaderMap o.headers⟩ =
      if ∀ h ∈ o.headers, headerToStrOk h.2 = true then .ok (partsOf env o t email).canonicalRequest
      else .err .headerValueContainsInvalidCharacter := by
  unfold canonicalRequest
  simp only
  rw [canonicalHeaderMap_url]
  by_cases h : ∀ h ∈ o.headers, headerToStrOk h.2 = true
  · rw [if_pos h, if_pos h, Res.bind_ok, canonicalQuery_full, signedHeaders_url, hm]
    simp only [Res.pure_eq, SignedParts.canonicalRequest, partsOf, group_fst]
    rfl
  · rw [if_neg h, if_neg h]; rfl

theorem scope_eq (t : Time) (ht : 0 ≤ t ∧ t < endOf9999) (region : Str) :
    (CredentialScope.mk (Date.fromUnixTimestamp ⟨t / nsPerSec⟩) ⟨region⟩ .storage .goog4Request).toStr =
      (UnixTimestamp.toIso8601 ⟨t / nsPerSec⟩).take 8 ++ s% "/" ++ region ++ s% "/storage/goog4_request" := by
  have hf : UnixTimestamp.fromSystemTime t = .ok ⟨t / nsPerSec⟩ :=
    fromSystemTime_ok.2 ⟨ht.1, by have := ht.2; unfold endOf9999 at this; unfold nsPerSec; omega, rfl⟩
  have hr := fromSystemTime_inRange hf
  have hd : (Date.fromUnixTimestamp ⟨t / nsPerSec⟩).toStr = (UnixTimestamp.toIso8601 ⟨t / nsPerSec⟩).take 8 := by
    rw [date_eq _ hr, toIso8601_eq _ hr]
    simp [DateTime.basic, DateTime.yyyymmdd, d4, d2]
  simp [CredentialScope.toStr, hd, Service.asStr, RequestType.asStr]

theorem stringToSign_eq (env : Env) (o : UrlOptions) (t : Time) (ht : 0 ≤ t ∧ t < endOf9999) (email : Str) :
    stringToSign o.signingKey.xGoogAlgorithm ⟨⟨t / nsPerSec⟩⟩
      ⟨Date.fromUnixTimestamp ⟨t / nsPerSec⟩, ⟨o.region.getD (s% "auto")⟩, .storage, .goog4Request⟩
      (partsOf env o t email).canonicalRequest = (partsOf env o t email).stringToSign := by
  unfold stringToSign SignedParts.stringToSign SignedParts.scope
  rw [scope_eq t ht, sha256Hex_eq]
  rfl

theorem partsOf_url (env : Env) (o : UrlOptions) (t : Time) (email hex : Str) :
    hostname ++ (objectUrl env o).path ++ s% "?" ++
        join (s% "&") (sortStr ((allParams env o (required o t email)).map canonicalItem)) ++ s% "&X-Goog-Signature=" ++ hex =
      (partsOf env o t email).url hex := by
  simp only [SignedParts.url, partsOf, hostname]

/-- `build_signed_url`, in full. -/
theorem buildSignedUrl_eq (env : Env) (o : UrlOptions) (w : World) (hover : ¬ Overflows env o (validFrom env o.accessibleAt w)) :
    buildSignedUrl env o w =
      match urlRejection env o (validFrom env o.accessibleAt w) with
      | some e => (.err e, clocked o.accessibleAt w)
      | none =>
        match o.signingKey.authorizer env (clocked o.accessibleAt w) with
        | (.err e, w2) => (.err (.signedUrl (.signing e)), w2)
        | (.panic s, w2) => (.panic s, w2)
        | (.ok email, w2) =>
          let t := validFrom env o.accessibleAt w
          if 65534 < (utf8 (fullUrl env o (required o t email))).length then (.panic .urlToBeValid, w2)
          else if ¬ ∀ h ∈ o.headers, headerToStrOk h.2 = true then
            (.err (.signedUrl (.canonicalRequest .headerValueContainsInvalidCharacter)), w2)
          else
            match o.signingKey.sign env o.useSignBlob (utf8 ((partsOf env o t email).stringToSign)) w2 with
            | (.err e, w3) => (.err (.signedUrl (.signing e)), w3)
            | (.panic s, w3) => (.panic s, w3)
            | (.ok digest, w3) => (.ok ((partsOf env o t email).url (hexEncode digest)), w3) := by
  unfold buildSignedUrl
  rw [M.bind_run, timeOrNow_run]
  simp only
  generalize validFrom env o.accessibleAt w = t at hover ⊢
  generalize clocked o.accessibleAt w = w1
  rw [bind_lift, fromSystemTime_mapErr]
  unfold Overflows at hover
  unfold urlRejection at hover ⊢
  by_cases h1 : t < 0 ∨ endOf9999 ≤ t
  · rw [if_pos h1, if_pos h1]
  rw [if_neg h1, if_neg h1]
  rw [if_neg h1] at hover
  simp only
  rw [bind_lift]
  unfold lifetimeSecs
  by_cases h2 : o.expires < t
  · rw [if_pos h2, if_pos h2]
  rw [if_neg h2, if_neg h2]
  rw [if_neg h2] at hover
  simp only
  by_cases h3 : 9223372036854775807 < (o.expires - t) / nsPerSec
  · rw [if_pos h3, if_pos h3]
  rw [if_neg h3, if_neg h3]
  rw [if_neg h3] at hover
  simp only
  rw [bind_lift]
  rcases httpVerb_cases o.httpMethod with ⟨h4, hv⟩ | ⟨h4, m, hv, hm⟩
  · rw [if_pos h4, hv]; rfl
  rw [if_neg (by simpa using h4), hv]
  rw [if_neg (by simpa using h4)] at hover
  simp only [Res.mapErr_ok]
  rw [bind_lift, baseUri_eq]
  by_cases h5 : 65534 < (utf8 (hostname ++ (baseUrl env o).toRest)).length
  · rw [if_pos h5, if_pos h5]; rfl
  rw [if_neg h5, if_neg h5]
  rw [if_neg h5] at hover
  simp only [Res.ofOption_some]
  rw [bind_lift, checkHeaders_eq]
  cases h6 : headerRejection o.headers with
  | some e => rfl
  | none =>
  rw [h6] at hover
  simp only at hover ⊢
  have hfit : HeadersFit env o.headers := by
    refine Classical.byContradiction fun hn => hover ⟨hn, ?_⟩
    split
    · exact .inr ⟨_, rfl⟩
    · exact .inl rfl
  rw [bind_lift, extendHeaders_fits hfit]
  simp only
  rw [bind_lift]
  simp only [CredentialScope.new, Res.mapErr_ok]
  rw [bind_lift]
  have hpos : 0 ≤ (o.expires - t) / nsPerSec := Int.ediv_nonneg (by omega) (by decide)
  unfold Expiration.tryFrom
  by_cases h7 : 604800 < (o.expires - t) / nsPerSec
  · rw [if_pos h7, if_neg (by omega)]; rfl
  rw [if_neg h7, if_pos (by omega)]
  simp only [Res.mapErr_ok]
  rw [M.mapErr_run]
  unfold SignedUrl.new
  rw [M.bind_run, M.mapErr_run]
  cases o.signingKey.authorizer env w1 with
  | mk r w2 =>
  cases r with
  | err e => rfl
  | panic s => rfl
  | ok email =>
  simp only [Res.mapErr_ok]
  rw [bind_lift]
  have hreq := addRequiredParams_eq env o m email o.signingKey.xGoogAlgorithm ⟨⟨t / nsPerSec⟩⟩
    ⟨Date.fromUnixTimestamp ⟨t / nsPerSec⟩, ⟨o.region.getD (s% "auto")⟩, .storage, .goog4Request⟩
    ⟨(o.expires - t) / nsPerSec⟩
  change addRequiredParams env ⟨m, ⟨(objectUrl env o).path, some (baseQuery env o)⟩, urlHeaderMap o.headers⟩ email
    o.signingKey.xGoogAlgorithm ⟨⟨t / nsPerSec⟩⟩
    ⟨Date.fromUnixTimestamp ⟨t / nsPerSec⟩, ⟨o.region.getD (s% "auto")⟩, .storage, .goog4Request⟩
    ⟨(o.expires - t) / nsPerSec⟩ = if 65534 < (utf8 (fullUrl env o (required o t email))).length
      then .panic .urlToBeValid
      else .ok ⟨m, ⟨(objectUrl env o).path, some (extendPairs (baseQuery env o) (required o t email))⟩, urlHeaderMap o.headers⟩ at hreq
  have hreq' : addRequiredParams env ⟨m, ⟨(objectUrl env o).path, some (baseQuery env o)⟩,
      urlHeaderMap o.headers⟩ email
    o.signingKey.xGoogAlgorithm ⟨⟨t / nsPerSec⟩⟩
    ⟨Date.fromUnixTimestamp ⟨t / nsPerSec⟩, Location.tryFrom (o.region.getD (s% "auto")), .storage, .goog4Request⟩
    ⟨(o.expires - t) / nsPerSec⟩ = if 65534 < (utf8 (fullUrl env o (required o t email))).length
      then .panic .urlToBeValid
      else .ok ⟨m, ⟨(objectUrl env o).path, some (extendPairs (baseQuery env o) (required o t email))⟩, urlHeaderMap o.headers⟩ := hreq
  rw [hreq']
  by_cases h8 : 65534 < (utf8 (fullUrl env o (required o t email))).length
  · rw [if_pos h8, if_pos h8]; rfl
  rw [if_neg h8, if_neg h8]
  simp only
  rw [bind_lift, canonicalRequest_eq env o t email m hm]
  by_cases h9' : ¬ ∀ h ∈ o.headers, headerToStrOk h.2 = true
  · rw [if_neg h9', if_pos h9']; rfl
  have h9 : ∀ h ∈ o.headers, headerToStrOk h.2 = true := by simpa using h9'
  rw [if_pos h9, if_neg (by simpa using h9)]
  simp only [Res.mapErr_ok]
  rw [M.bind_run, M.mapErr_run]
  have hsts : stringToSign o.signingKey.xGoogAlgorithm ⟨⟨t / nsPerSec⟩⟩
      ⟨Date.fromUnixTimestamp ⟨t / nsPerSec⟩, Location.tryFrom (o.region.getD (s% "auto")), .storage, .goog4Request⟩
      (partsOf env o t email).canonicalRequest = (partsOf env o t email).stringToSign :=
    stringToSign_eq env o t (by omega) email
  rw [hsts]
  cases o.signingKey.sign env o.useSignBlob (utf8 ((partsOf env o t email).stringToSign)) w2 with
  | mk r w3 =>
  cases r with
  | err e => rfl
  | panic s => rfl
  | ok digest =>
    simp only [Res.mapErr_ok]
    rw [M.pure_run, canonicalQuery_full]
    exact congrArg (fun u => (Res.ok u, w3)) (partsOf_url env o t email (hexEncode digest))

/-- `build_signed_url` with too many headers. -/
theorem buildSignedUrl_overflows (env : Env) (o : UrlOptions) (w : World) (hover : Overflows env o (validFrom env o.accessibleAt w)) :
    buildSignedUrl env o w = (.panic .headerMapFull, clocked o.accessibleAt w) := by
  unfold buildSignedUrl
  rw [M.bind_run, timeOrNow_run]
  simp only
  generalize validFrom env o.accessibleAt w = t at hover ⊢
  generalize clocked o.accessibleAt w = w1
  rw [bind_lift, fromSystemTime_mapErr]
  obtain ⟨hfull, hover⟩ := hover
  unfold urlRejection at hover
  by_cases h1 : t < 0 ∨ endOf9999 ≤ t
  · rw [if_pos h1] at hover; simp at hover
  rw [if_neg h1] at hover ⊢
  simp only
  rw [bind_lift]
  unfold lifetimeSecs
  by_cases h2 : o.expires < t
  · rw [if_pos h2] at hover; simp at hover
  rw [if_neg h2] at hover ⊢
  simp only
  by_cases h3 : 9223372036854775807 < (o.expires - t) / nsPerSec
  · rw [if_pos h3] at hover; simp at hover
  rw [if_neg h3] at hover ⊢
  simp only
  rw [bind_lift]
  rcases httpVerb_cases o.httpMethod with ⟨h4, hv⟩ | ⟨h4, m, hv, hm⟩
  · rw [if_pos h4] at hover; simp at hover
  rw [if_neg (by simpa using h4)] at hover
  rw [hv]
  simp only [Res.mapErr_ok]
  rw [bind_lift, baseUri_eq]
  by_cases h5 : 65534 < (utf8 (hostname ++ (baseUrl env o).toRest)).length
  · rw [if_pos h5] at hover; simp at hover
  rw [if_neg h5] at hover ⊢
  simp only [Res.ofOption_some]
  rw [bind_lift, checkHeaders_eq]
  cases h6 : headerRejection o.headers with
  | some e =>
    rw [h6] at hover
    rcases hover with h | ⟨e', h⟩
    · cases h
    · exact absurd (h6.trans h) (headerRejection_not_expiration _ _)
  | none =>
  simp only
  rw [bind_lift, extendHeaders_full hfull]

/-- Everything a successful call did. -/
structure UrlSuccess (env : Env) (o : UrlOptions) (w w' : World) (url : Str) where
  email : Str
  w2 : World
  digest : Bytes
  accepted : urlRejection env o (validFrom env o.accessibleAt w) = none
  fits : HeadersFit env o.headers
  auth : o.signingKey.authorizer env (clocked o.accessibleAt w) = (.ok email, w2)
  short : (utf8 (fullUrl env o (required o (validFrom env o.accessibleAt w) email))).length ≤ 65534
  values : ∀ h ∈ o.headers, headerToStrOk h.2 = true
  sign : o.signingKey.sign env o.useSignBlob
    (utf8 ((partsOf env o (validFrom env o.accessibleAt w) email).stringToSign)) w2 = (.ok digest, w')
  url_eq : url = (partsOf env o (validFrom env o.accessibleAt w) email).url (hexEncode digest)

theorem buildSignedUrl_ok {env : Env} {o : UrlOptions} {w w' : World} {url : Str}
    (h : buildSignedUrl env o w = (.ok url, w')) : Nonempty (UrlSuccess env o w w' url) := by
  by_cases hover : Overflows env o (validFrom env o.accessibleAt w)
  · rw [buildSignedUrl_overflows env o w hover] at h; simp at h
  rw [buildSignedUrl_eq env o w hover] at h
  cases hr : urlRejection env o (validFrom env o.accessibleAt w) with
  | some e => rw [hr] at h; simp at h
  | none =>
    rw [hr] at h
    simp only at h
    cases ha : o.signingKey.authorizer env (clocked o.accessibleAt w) with
    | mk r w2 =>
    rw [ha] at h
    cases r with
    | err e => simp at h
    | panic s => simp at h
    | ok email =>
      simp only at h
      split at h
      · simp at h
      · rename_i hl
        split at h
        · simp at h
        · rename_i hv
          cases hs : o.signingKey.sign env o.useSignBlob
            (utf8 ((partsOf env o (validFrom env o.accessibleAt w) email).stringToSign)) w2 with
          | mk r w3 =>
          rw [hs] at h
          cases r with
          | err e => simp at h
          | panic s => simp at h
          | ok digest =>
            simp only [Prod.mk.injEq, Res.ok.injEq] at h
            obtain ⟨h1, rfl⟩ := h
            exact ⟨⟨email, w2, digest, hr, Classical.byContradiction fun hn => hover ⟨hn, .inl hr⟩, ha, by omega, by simpa using hv, hs, h1.symm⟩⟩

theorem urlRejection_none {env : Env} {o : UrlOptions} {t : Time} :
    urlRejection env o t = none ↔
      0 ≤ t ∧ t < endOf9999 ∧ t ≤ o.expires ∧ (o.expires - t) / nsPerSec ≤ 604800 ∧ o.httpMethod ∈ methods ∧
      (utf8 (hostname ++ (baseUrl env o).toRest)).length ≤ 65534 ∧
      ∀ h ∈ o.headers, headerName h.1 ≠ none ∧ headerValueOk h.2 = true := by
  unfold urlRejection
  rw [← headerRejection_none]
  by_cases h1 : t < 0 ∨ endOf9999 ≤ t
  · rw [if_pos h1]; simp; omega
  rw [if_neg h1]
  by_cases h2 : o.expires < t
  · rw [if_pos h2]; simp; omega
  rw [if_neg h2]
  by_cases h3 : 9223372036854775807 < (o.expires - t) / nsPerSec
  · rw [if_pos h3]; simp; omega
  rw [if_neg h3]
  by_cases h4' : o.httpMethod ∉ methods
  · rw [if_pos h4']; simp [h4']
  have h4 : o.httpMethod ∈ methods := by simpa using h4'
  rw [if_neg (by simpa using h4)]
  by_cases h5 : 65534 < (utf8 (hostname ++ (baseUrl env o).toRest)).length
  · rw [if_pos h5]
    simp only [reduceCtorEq, false_iff]
    rintro ⟨_, _, _, _, _, h, _⟩
    omega
  rw [if_neg h5]
  cases h6 : headerRejection o.headers with
  | some e => simp
  | none =>
    simp only
    by_cases h7 : 604800 < (o.expires - t) / nsPerSec
    · rw [if_pos h7]; simp; omega
    · rw [if_neg h7]
      simp only [true_iff]
      exact ⟨by omega, by omega, by omega, by omega, h4, by omega, trivial⟩

end CSS
