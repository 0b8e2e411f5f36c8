import Verif.Lemmas.Runs
import Verif.Lemmas.UrlBuild
/-
The programs of the two entry points in short form, as `buildSignedUrl_eq` and `build_signed_eq` have the functions.
-/
set_option linter.unusedSimpArgs false
namespace CSS
open Spec

theorem lift_bind {ε α β : Type} (r : Res ε α) (f : α → P ε β) :
    (P.lift r >>= f : P ε β) = match r with
      | .ok a => f a
      | .err e => P.err e
      | .panic s => P.panic s := by
  cases r <;> rfl

/-- The part of a URL call after its options were found to be in order. -/
def urlTailP (env : Env) (o : UrlOptions) (t : Time) (email : Str) : P SignedUrlError Str :=
  if 65534 < (utf8 (fullUrl env o (required o t email))).length then P.panic .urlToBeValid
  else if ¬ ∀ h ∈ o.headers, headerToStrOk h.2 = true then
    P.err (.canonicalRequest .headerValueContainsInvalidCharacter)
  else
    P.mapErr .signing (o.signingKey.signP env o.useSignBlob (utf8 ((partsOf env o t email).stringToSign))) >>= fun digest =>
      pure ((partsOf env o t email).url (hexEncode digest))

open Classical in
theorem buildSignedUrlP_eq (env : Env) (o : UrlOptions) :
    buildSignedUrlP env o = P.timeOrNow o.accessibleAt >>= fun t =>
      if Overflows env o t then P.panic .headerMapFull else match urlRejection env o t with
      | some e => P.err e
      | none => P.mapErr .signedUrl (P.mapErr .signing (o.signingKey.authorizerP env) >>= urlTailP env o t) := by
  unfold buildSignedUrlP
  refine congrArg (fun k => P.timeOrNow o.accessibleAt >>= k) (funext fun t => ?_)
  have early {e : BuildUrlError} {x : P BuildUrlError Str} (he : ∀ e', e ≠ .expiration e') (hrej : urlRejection env o t = some e) :
      (if Overflows env o t then (P.panic .headerMapFull : P BuildUrlError Str) else match urlRejection env o t with
        | some e => P.err e
        | none => x) = P.err e := by
    rw [if_neg (not_overflows_of_early hrej he), hrej]
  rw [lift_bind, fromSystemTime_mapErr]
  by_cases h1 : t < 0 ∨ endOf9999 ≤ t
  · rw [if_pos h1, early (e := .now) (by simp) (by unfold urlRejection; rw [if_pos h1])]
  rw [if_neg h1]
  simp only
  rw [lift_bind]
  unfold lifetimeSecs
  by_cases h2 : o.expires < t
  · rw [if_pos h2, early (e := .expirationOutOfRange) (by simp) (by unfold urlRejection; rw [if_neg h1, if_pos h2])]
  rw [if_neg h2]
  simp only
  by_cases h3 : 9223372036854775807 < (o.expires - t) / nsPerSec
  · rw [if_pos h3, early (e := .expirationOutOfRange) (by simp) (by unfold urlRejection; rw [if_neg h1, if_neg h2, if_pos h3])]
  rw [if_neg h3]
  simp only
  rw [lift_bind]
  rcases httpVerb_cases o.httpMethod with ⟨h4, hv⟩ | ⟨h4, m, hv, hm⟩
  · rw [hv, early (e := .httpMethod (.invalidHttpVerb o.httpMethod)) (by simp)
      (by unfold urlRejection; rw [if_neg h1, if_neg h2, if_neg h3, if_pos h4])]
    rfl
  rw [hv]
  simp only [Res.mapErr_ok]
  rw [lift_bind, baseUri_eq]
  by_cases h5 : 65534 < (utf8 (hostname ++ (baseUrl env o).toRest)).length
  · rw [if_pos h5, early (e := .httpRequest) (by simp)
      (by unfold urlRejection; rw [if_neg h1, if_neg h2, if_neg h3, if_neg (by simpa using h4), if_pos h5])]
    rfl
  rw [if_neg h5]
  simp only [Res.ofOption_some]
  rw [lift_bind, checkHeaders_eq]
  have hrej : urlRejection env o t = match headerRejection o.headers with
      | some e => some e
      | none => if 604800 < (o.expires - t) / nsPerSec then some (.expiration (.outOfRange ((o.expires - t) / nsPerSec))) else none := by
    unfold urlRejection; rw [if_neg h1, if_neg h2, if_neg h3, if_neg (by simpa using h4), if_neg h5]
    rfl
  cases h6 : headerRejection o.headers with
  | some e =>
    rw [h6] at hrej
    rw [early (e := e) (fun e' he => headerRejection_not_expiration _ e' (he ▸ h6)) hrej]
  | none =>
  rw [h6] at hrej
  simp only at hrej ⊢
  rw [lift_bind]
  by_cases hfit : HeadersFit env o.headers
  case neg =>
    rw [extendHeaders_full hfit, if_pos]
    refine ⟨hfit, ?_⟩
    rw [hrej]
    split
    · exact .inr ⟨_, rfl⟩
    · exact .inl rfl
  rw [extendHeaders_fits hfit, if_neg (HeadersFit.not_overflows hfit), hrej]
  simp only
  rw [lift_bind]
  simp only [CredentialScope.new, Res.mapErr_ok]
  rw [lift_bind]
  have hpos : 0 ≤ (o.expires - t) / nsPerSec := Int.ediv_nonneg (by omega) (by decide)
  unfold Expiration.tryFrom
  by_cases h7 : 604800 < (o.expires - t) / nsPerSec
  · rw [if_pos h7, if_neg (by omega)]; rfl
  rw [if_neg h7, if_pos (by omega)]
  simp only [Res.mapErr_ok]
  refine congrArg (P.mapErr BuildUrlError.signedUrl) ?_
  unfold SignedUrl.newP
  refine congrArg (fun k => P.mapErr SignedUrlError.signing (o.signingKey.authorizerP env) >>= k) (funext fun email => ?_)
  unfold urlTailP
  rw [lift_bind]
  have hreq := addRequiredParams_eq env o m email o.signingKey.xGoogAlgorithm ⟨⟨t / nsPerSec⟩⟩
    ⟨Date.fromUnixTimestamp ⟨t / nsPerSec⟩, ⟨o.region.getD (s% "auto")⟩, .storage, .goog4Request⟩
    ⟨(o.expires - t) / nsPerSec⟩
  have hreq' : addRequiredParams env ⟨m, ⟨(objectUrl env o).path, some (baseQuery env o)⟩,
      urlHeaderMap o.headers⟩ email
    o.signingKey.xGoogAlgorithm ⟨⟨t / nsPerSec⟩⟩
    ⟨Date.fromUnixTimestamp ⟨t / nsPerSec⟩, Location.tryFrom (o.region.getD (s% "auto")), .storage, .goog4Request⟩
    ⟨(o.expires - t) / nsPerSec⟩ = if 65534 < (utf8 (fullUrl env o (required o t email))).length
      then .panic .urlToBeValid
      else .ok ⟨m, ⟨(objectUrl env o).path, some (extendPairs (baseQuery env o) (required o t email))⟩, urlHeaderMap o.headers⟩ := hreq
  rw [hreq']
  by_cases h8 : 65534 < (utf8 (fullUrl env o (required o t email))).length
  · rw [if_pos h8, if_pos h8]
  rw [if_neg h8, if_neg h8]
  simp only
  rw [lift_bind, canonicalRequest_eq env o t email m hm]
  by_cases h9' : ¬ ∀ h ∈ o.headers, headerToStrOk h.2 = true
  · rw [if_neg h9', if_pos h9']; rfl
  have h9 : ∀ h ∈ o.headers, headerToStrOk h.2 = true := by simpa using h9'
  rw [if_pos h9, if_neg (by simpa using h9)]
  simp only [Res.mapErr_ok]
  have hsts : stringToSign o.signingKey.xGoogAlgorithm ⟨⟨t / nsPerSec⟩⟩
      ⟨Date.fromUnixTimestamp ⟨t / nsPerSec⟩, Location.tryFrom (o.region.getD (s% "auto")), .storage, .goog4Request⟩
      (partsOf env o t email).canonicalRequest = (partsOf env o t email).stringToSign :=
    stringToSign_eq env o t (by omega) email
  rw [hsts]
  refine congrArg (fun k => P.mapErr SignedUrlError.signing (o.signingKey.signP env o.useSignBlob _) >>= k) (funext fun digest => ?_)
  rw [canonicalQuery_full]
  exact congrArg (fun u => (pure u : P SignedUrlError Str)) (partsOf_url env o t email (hexEncode digest))

/-- The part of a form call after its options were found to be in order. -/
def formTailP (env : Env) (cs : List Call) (o : SigningOptions) (t : Time) (email : Str) : P FormError PolicyFields :=
  if ∃ m ∈ cs.filterMap callMeta, m.1 = [] then P.err .xGoogMetaNameEmpty
  else
    let p := policyFields (Builder.ofCalls cs) ((lastValue cs (s% "bucket")).getD []) ((lastValue cs (s% "key")).getD []) o email t
    P.mapErr .signing (o.signingKey.signP env o.useSignBlob (utf8 (p []).policy)) >>= fun digest => pure (p digest)

theorem buildPolicyP_eq (env : Env) (cs : List Call) (o : SigningOptions) :
    buildPolicyP env (Builder.ofCalls cs) o = P.timeOrNow o.accessibleAt >>= fun t =>
      match formRejection cs o t with
      | some e => P.err e
      | none => P.mapErr .boundTokenAuthorizer (o.signingKey.authorizerP env) >>= formTailP env cs o t := by
  have spec := ofCalls_spec cs
  unfold buildPolicyP
  refine congrArg (fun k => P.timeOrNow o.accessibleAt >>= k) (funext fun t => ?_)
  unfold formRejection
  by_cases h1 : o.expiration ≤ t
  · rw [if_pos h1, if_pos h1]
  rw [if_neg h1, if_neg h1, lift_bind, fromSystemTime_mapErr]
  by_cases h2 : t < 0 ∨ endOf9999 ≤ t
  · rw [if_pos h2, if_pos h2]
  rw [if_neg h2, if_neg h2]
  simp only
  rw [lift_bind, fromSystemTime_mapErr]
  by_cases h3 : endOf9999 ≤ o.expiration
  · rw [if_pos h3, if_pos (.inr h3)]
  rw [if_neg h3, if_neg (by omega)]
  simp only
  rw [lift_bind, spec.bucket]
  unfold formTailP
  cases hb : lastValue cs (s% "bucket") with
  | none => rfl
  | some bucket =>
  rw [if_neg (by simp)]
  simp only [Res.ofOption_some]
  rw [lift_bind, spec.key]
  cases hk : lastValue cs (s% "key") with
  | none => rfl
  | some key =>
  rw [if_neg (by simp)]
  simp only [Res.ofOption_some]
  by_cases h4 : o.signingKey.xGoogAlgorithm ≠ .goog4RsaSha256
  · rw [if_pos h4, if_pos ((isHmac_iff _).2 h4)]
  rw [if_neg h4, if_neg (fun h => h4 ((isHmac_iff _).1 h))]
  have halg : o.signingKey.xGoogAlgorithm = .goog4RsaSha256 := by simpa using h4
  refine congrArg (fun k => P.mapErr FormError.boundTokenAuthorizer (o.signingKey.authorizerP env) >>= k) (funext fun email => ?_)
  rw [lift_bind]
  simp only [CredentialScope.new, Res.mapErr_ok]
  rw [lift_bind, buildConditions_eq, spec.metas]
  by_cases hm : ∃ m ∈ cs.filterMap callMeta, m.1 = []
  · rw [if_pos hm, if_pos hm]
  rw [if_neg hm, if_neg hm]
  simp only [Option.getD_some, halg]
  rfl

/-- The rest of a form, which is computed without any effect. -/
def formFinishP (b : Builder) (p : Option PolicyFields) : Res FormError (List (Str × Str)) :=
  match b.key with
  | none => .err .keyNotFound
  | some key => if ∃ m ∈ b.xGoogMeta, m.1 = [] then .err .xGoogMetaNameEmpty else .ok (fieldList b key p)

theorem buildP_eq (env : Env) (b : Builder) :
    b.buildP env = buildPolicyAndSignatureP env b >>= fun p => P.lift (formFinishP b p) := by
  unfold Builder.buildP
  refine congrArg (fun k => buildPolicyAndSignatureP env b >>= k) (funext fun p => ?_)
  rw [lift_bind]
  unfold formFinishP
  cases b.key with
  | none => rfl
  | some key =>
    simp only [Res.ofOption_some]
    rw [lift_bind, metaFields_eq]
    by_cases hm : ∃ m ∈ b.xGoogMeta, m.1 = []
    · rw [if_pos hm, if_pos hm]; rfl
    · rw [if_neg hm, if_neg hm]; rfl

end CSS
