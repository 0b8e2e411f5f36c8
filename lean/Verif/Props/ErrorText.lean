import Verif.Model.ErrorText
import Verif.Spec.ErrorText
import Verif.Props.UrlErrors
import Verif.Props.FormErrors
import Verif.Props.Key
/-
C73 and C74: what the messages of failed calls say.
-/
set_option linter.unusedSimpArgs false
namespace CSS
open Spec

/-! ### C73: messages are true -/

theorem notSuccess {status : Nat} (h : ¬ isSuccess status = true) : ¬ (200 ≤ status ∧ status ≤ 299) := by
  simp [isSuccess] at h; omega

theorem isSuccess_range {status : Nat} (h : isSuccess status = true) : 200 ≤ status ∧ status ≤ 299 := by
  simp [isSuccess] at h; omega

theorem lastSent_snoc {log : List Request} {n : Nat} (h : n ≤ log.length) (r : Request) :
    LastSent (log ++ [r]) n log.length r := ⟨h, by simp, by simp⟩

/-- How the texts of one of the three requests begin. -/
structure FetchTexts (src : BoundTokenError → Str) (name : Str) (e : FetchErrors) : Prop where
  build : e.build.text src = s% "bound token / " ++ name ++ s% " request / build error: " ++ src e.build
  execute : e.execute.text src = s% "bound token / " ++ name ++ s% " request / execute error: " ++ src e.execute
  errorResponse : e.errorResponse.text src =
    s% "bound token / " ++ name ++ s% " request / error response error: " ++ src e.errorResponse
  status : ∀ st body, (e.status st body).text src =
    s% "bound token / " ++ name ++ s% " request / status error: " ++ natDec st ++ s% " " ++ body
  successResponse : e.successResponse.text src =
    s% "bound token / " ++ name ++ s% " request / success response error: " ++ src e.successResponse

theorem emailTexts (src : BoundTokenError → Str) : FetchTexts src (s% "email") emailErrors :=
  ⟨rfl, rfl, rfl, fun _ _ => by simp [emailErrors, BoundTokenError.text], rfl⟩
theorem tokenTexts (src : BoundTokenError → Str) : FetchTexts src (s% "token") tokenErrors :=
  ⟨rfl, rfl, rfl, fun _ _ => by simp [tokenErrors, BoundTokenError.text], rfl⟩
theorem signBlobTexts (src : BoundTokenError → Str) : FetchTexts src (s% "signBlob") signBlobErrors :=
  ⟨rfl, rfl, rfl, fun _ _ => by simp [signBlobErrors, BoundTokenError.text], rfl⟩

theorem build_failed {src : BoundTokenError → Str} {name : Str} {e : FetchErrors} (he : FetchTexts src name e) {env : Env}
    {log : List Request} {n : Nat} {r : Request} (h : env.canBuild r = false) :
    RequestFailed env log n name r (e.build.text src) := by
  rw [he.build]; exact .build _ h

theorem fetch_failed {src : BoundTokenError → Str} {name : Str} {e : FetchErrors} (he : FetchTexts src name e) {env : Env}
    {log : List Request} {n : Nat} {r : Request} {x : BoundTokenError} (hn : n ≤ log.length)
    (h : fetchOutcome e (env.net log.length r) = .err x) :
    RequestFailed env (log ++ [r]) n name r (x.text src) := by
  have hl := lastSent_snoc hn r
  cases hr : env.net log.length r with
  | execErr =>
    rw [hr] at h
    simp only [fetchOutcome, Res.err.injEq] at h
    subst h
    rw [he.execute]; exact .execute _ _ hl hr
  | response status body =>
    rw [hr] at h
    cases body with
    | none =>
      by_cases hs : isSuccess status = true
      · simp only [fetchOutcome, hs, if_true, Res.err.injEq] at h
        subst h
        rw [he.successResponse]
        exact .successResponse _ _ _ hl (isSuccess_range hs).1 (isSuccess_range hs).2 hr
      · simp only [fetchOutcome, hs, Bool.false_eq_true, if_false, Res.err.injEq] at h
        subst h
        rw [he.errorResponse]; exact .errorResponse _ _ _ hl (notSuccess hs) hr
    | some text =>
      by_cases hs : isSuccess status = true
      · simp [fetchOutcome, hs] at h
      · simp only [fetchOutcome, hs, Bool.false_eq_true, if_false, Res.err.injEq] at h
        subst h
        rw [he.status]; exact .status _ _ _ _ hl (notSuccess hs) hr (natDec_decimal _)

theorem refresh_failed {src : BoundTokenError → Str} {env : Env} {bt : BoundToken} {w w' : World} {n : Nat} {e : BoundTokenError}
    (hn : n ≤ w.log.length) (h : refresh env bt w = (.err e, w')) : TokenFailed env w'.log n bt.baseUrl (e.text src) := by
  rw [refresh_eq] at h
  by_cases h1 : env.canBuild (emailRequest bt) = false
  · rw [if_pos h1] at h
    cases h
    exact .email _ (build_failed (emailTexts src) h1)
  rw [if_neg h1] at h
  cases h2 : fetchOutcome emailErrors (env.net w.log.length (emailRequest bt)) with
  | err x =>
    rw [h2] at h
    cases h
    exact .email _ (fetch_failed (emailTexts src) hn h2)
  | panic p => exact absurd h2 (fetchOutcome_not_panic _ _ _)
  | ok email =>
    rw [h2] at h
    simp only at h
    have hl : (w.sent (emailRequest bt)).log.length = w.log.length + 1 := by simp [World.sent]
    have hn' : n ≤ (w.sent (emailRequest bt)).log.length := by omega
    by_cases h3 : env.canBuild (tokenRequest bt) = false
    · rw [if_pos h3] at h
      cases h
      exact .token _ (build_failed (tokenTexts src) h3)
    rw [if_neg h3] at h
    rw [← hl] at h
    cases h4 : fetchOutcome tokenErrors (env.net (w.sent (emailRequest bt)).log.length (tokenRequest bt)) with
    | err x =>
      rw [h4] at h
      cases h
      exact .token _ (fetch_failed (tokenTexts src) hn' h4)
    | panic p => exact absurd h4 (fetchOutcome_not_panic _ _ _)
    | ok body =>
      rw [h4] at h
      simp only [refreshEnd] at h
      have hs := lastSent_snoc hn' (tokenRequest bt)
      have ha := answered_of h4 []
      cases hp : parseAccessToken body with
      | none =>
        rw [hp] at h
        cases h
        refine .unreadable _ body _ hs ha ?_
        rintro ⟨token, life, type, ht⟩
        rw [parseAccessToken_iff.2 ht] at hp
        cases hp
      | some t =>
        rw [hp] at h
        simp only at h
        by_cases h5 : t.tokenType ≠ s% "Bearer"
        · rw [if_pos h5] at h
          cases h
          exact .type _ body t.accessToken t.expiresIn t.tokenType hs ha (parseAccessToken_iff.1 hp) h5
        · rw [if_neg h5] at h
          split at h <;> cases h

theorem getEmailAndToken_failed {src : BoundTokenError → Str} {env : Env} {bt : BoundToken} {w w' : World} {n : Nat}
    {e : BoundTokenError} (hn : n ≤ w.log.length) (h : getEmailAndToken env bt w = (.err e, w')) :
    TokenFailed env w'.log n bt.baseUrl (e.text src) := by
  rw [getEmailAndToken_eq] at h
  cases hc : w.caches bt.id with
  | none => rw [hc] at h; exact refresh_failed hn h
  | some c =>
    rw [hc] at h
    simp only at h
    split at h
    · cases h
    · split at h
      · cases h
      · split at h
        · cases h
        · exact refresh_failed (w := w.tick) hn h

theorem signBlobRequest_post (email token : Str) (m : Bytes) : ∃ payload body,
    signBlobRequest email token m = signBlobPost email token body ∧
    JsonText (.obj [(s% "payload", .str payload)]) body ∧ base64Decode payload = some m :=
  ⟨b64Encode m, _, rfl, render_text (.obj [(s% "payload", .str (b64Encode m))]) (by simp [AllNums, AllNumsMembers]),
    base64Decode_b64Encode _⟩

theorem blob_failed {src : BoundTokenError → Str} {env : Env} {bt : BoundToken} {m : Bytes} {w w' : World} {n : Nat}
    {e : BoundTokenError} (hn : n ≤ w.log.length) (h : bt.sign env m w = (.err e, w')) :
    TokenFailed env w'.log n bt.baseUrl (e.text src) ∨ BlobFailed env w'.log n m (e.text src) := by
  rw [sign_eq] at h
  have hpre := getEmailAndToken_log env bt w
  cases hg : getEmailAndToken env bt w with
  | mk r w1 =>
  rw [hg] at h hpre
  have hn1 : n ≤ w1.log.length := by
    rcases hpre with hp | hp | hp <;> simp only at hp <;> rw [hp]
    · exact hn
    · simp; omega
    · simp; omega
  cases r with
  | err x => cases h; exact .inl (getEmailAndToken_failed hn hg)
  | panic p => cases h
  | ok p =>
    right
    obtain ⟨email, token⟩ := p
    simp only at h
    obtain ⟨payload, body, hr, hj, hb⟩ := signBlobRequest_post email token m
    rw [hr] at h
    by_cases h1 : env.canBuild (signBlobPost email token body) = false
    · rw [if_pos h1] at h
      cases h
      exact .request email token payload body _ hj hb (build_failed (signBlobTexts src) h1)
    rw [if_neg h1] at h
    have hs := lastSent_snoc hn1 (signBlobPost email token body)
    cases h2 : fetchOutcome signBlobErrors (env.net w1.log.length (signBlobPost email token body)) with
    | err x =>
      rw [h2] at h
      cases h
      exact .request email token payload body _ hj hb (fetch_failed (signBlobTexts src) hn1 h2)
    | panic p => exact absurd h2 (fetchOutcome_not_panic _ _ _)
    | ok answer =>
      rw [h2] at h
      simp only at h
      have ha := answered_of h2 []
      cases hp : parseSignBlobResponse answer with
      | none =>
        rw [hp] at h
        cases h
        refine .unreadable _ email token payload body answer _ hj hb hs ha ?_
        rintro ⟨blob, hx⟩
        rw [parseSignBlobResponse_iff.2 hx] at hp
        cases hp
      | some blob =>
        rw [hp] at h
        simp only at h
        cases hd : b64Decode blob with
        | some s => rw [hd] at h; cases h
        | none =>
          rw [hd] at h
          cases h
          rw [b64Decode_eq] at hd
          exact .base64 _ email token payload body answer blob _ hj hb hs ha (parseSignBlobResponse_iff.1 hp) hd

theorem keySign_failed {src : SourceTexts} {env : Env} {key : SigningKey} {u : Bool} {m : Bytes} {w w' : World} {n : Nat}
    {e : KeyError} (hn : n ≤ w.log.length) (h : key.sign env u m w = (.err e, w')) :
    SigningFailed env w'.log n u m key (e.text src) := by
  cases key with
  | hmac a s => cases h
  | boundToken bt =>
    simp only [SigningKey.sign] at h
    cases u with
    | false =>
      cases h
      exact .mustUseSignBlob bt rfl
    | true =>
      rw [if_pos rfl, M.mapErr_run] at h
      cases hb : bt.sign env m w with
      | mk r w1 =>
      rw [hb] at h
      cases r with
      | ok x => cases h
      | panic x => cases h
      | err x =>
        cases h
        rcases blob_failed (src := src.boundToken) hn hb with h1 | h1
        · exact .token bt _ rfl h1
        · exact .blob bt _ rfl h1
  | serviceAccount email pem =>
    simp only [SigningKey.sign] at h
    cases u with
    | true => cases h
    | false =>
      rw [if_neg (by simp), M.lift_run] at h
      unfold rsaSignPem at h
      cases hp : env.pemParse pem with
      | none => rw [hp] at h; cases h; exact .pem email pem _ hp
      | some der =>
        rw [hp] at h
        simp only at h
        by_cases h1 : env.rsaFromPkcs8 der = false
        · rw [if_pos h1] at h; cases h; exact .pkcs8 email pem _ der hp h1
        rw [if_neg h1] at h
        cases h2 : env.rsaSign der m with
        | some s => rw [h2] at h; cases h
        | none => rw [h2] at h; cases h; exact .rsa email pem _ der hp (by simpa using h1) h2

theorem authorizer_failed {src : SourceTexts} {env : Env} {key : SigningKey} {w w' : World} {n : Nat} {e : KeyError}
    (hn : n ≤ w.log.length) (h : key.authorizer env w = (.err e, w')) :
    ∃ bt why, key = .boundToken bt ∧ TokenFailed env w'.log n bt.baseUrl why ∧
      e.text src = s% "bound token authorizer error: " ++ why := by
  cases key with
  | hmac a s => cases h
  | serviceAccount a s => cases h
  | boundToken bt =>
    simp only [SigningKey.authorizer] at h
    rw [M.bind_run, M.mapErr_run] at h
    cases hb : getEmailAndToken env bt w with
    | mk r w1 =>
    rw [hb] at h
    cases r with
    | ok x => cases h
    | panic x => cases h
    | err x =>
      cases h
      exact ⟨bt, _, rfl, getEmailAndToken_failed (src := src.boundToken) hn hb, rfl⟩

theorem headerRejection_cases {hs : List (Str × Str)} {e : BuildUrlError} (h : headerRejection hs = some e) :
    (e = .invalidHeaderName ∧ ∃ x ∈ hs, headerName x.1 = none) ∨
    (e = .invalidHeaderValue ∧ ∃ x ∈ hs, headerValueOk x.2 = false) := by
  induction hs with
  | nil => cases h
  | cons x hs ih =>
    obtain ⟨k, v⟩ := x
    simp only [headerRejection] at h
    split at h
    · rename_i hk
      cases h
      exact .inl ⟨rfl, _, List.mem_cons_self .., hk⟩
    · split at h
      · rename_i hv
        cases h
        exact .inr ⟨rfl, _, List.mem_cons_self .., hv⟩
      · rcases ih h with ⟨h1, x, hx, h2⟩ | ⟨h1, x, hx, h2⟩
        · exact .inl ⟨h1, x, List.mem_cons_of_mem _ hx, h2⟩
        · exact .inr ⟨h1, x, List.mem_cons_of_mem _ hx, h2⟩

theorem rejection_failed {src : SourceTexts} {env : Env} {log : List Request} {n : Nat} {o : UrlOptions} {t : Time}
    {e : BuildUrlError} (h : urlRejection env o t = some e) : UrlFailed env log n o t (e.text src) := by
  unfold urlRejection at h
  by_cases h1 : t < 0 ∨ endOf9999 ≤ t
  · rw [if_pos h1] at h; cases h; exact .now h1
  rw [if_neg h1] at h
  by_cases h2 : o.expires < t
  · rw [if_pos h2] at h; cases h; exact .expiration (.inl h2)
  rw [if_neg h2] at h
  by_cases h3 : 9223372036854775807 < (o.expires - t) / nsPerSec
  · rw [if_pos h3] at h; cases h; exact .expiration (.inr h3)
  rw [if_neg h3] at h
  by_cases h4 : o.httpMethod ∉ methods
  · rw [if_pos h4] at h; cases h; exact .method h4
  rw [if_neg h4] at h
  by_cases h5 : 65534 < (utf8 (hostname ++ (baseUrl env o).toRest)).length
  · rw [if_pos h5] at h; cases h; exact .tooLong (by rw [userUrl_eq]; exact h5)
  rw [if_neg h5] at h
  cases h6 : headerRejection o.headers with
  | some x =>
    rw [h6] at h
    simp only [Option.some.injEq] at h
    subst h
    rcases headerRejection_cases h6 with ⟨rfl, x, hx, hb⟩ | ⟨rfl, x, hx, hb⟩
    · refine .headerName x hx fun hv => ?_
      exact absurd hb (headerName_iff.2 hv)
    · refine .headerValue x hx ?_
      by_cases hc : ∃ c ∈ x.2, c ≠ '\t' ∧ (c.toNat < 32 ∨ c.toNat = 127)
      · exact hc
      · have : headerValueOk x.2 = true := by
          rw [valueOk_iff]
          intro c hm
          by_cases h7 : c = '\t'
          · exact .inl h7
          · right
            have : ¬ (c.toNat < 32 ∨ c.toNat = 127) := fun h8 => hc ⟨c, hm, h7, h8⟩
            omega
        rw [hb] at this; cases this
  | none =>
    rw [h6] at h
    simp only at h
    by_cases h7 : 604800 < (o.expires - t) / nsPerSec
    · rw [if_pos h7] at h
      simp only [Option.some.injEq] at h
      subst h
      simp only [BuildUrlError.text, intDec]
      rw [if_neg (by omega)]
      exact .lifetime _ _ (by omega) (by have : nsPerSec = 1000000000 := rfl; rw [this] at *; omega) (natDec_decimal _)
    · rw [if_neg h7] at h; cases h

/-- C73 for URLs. A message that `build_signed_url` fails with is true: the circumstance that it reports, listed in
`UrlFailed`, is there. In particular a reported status and body are those of the answer to the last request that the
call sent, and a reported token type is the one in that answer. Texts of other crates' errors are arbitrary. -/
theorem C73_url_message (src : SourceTexts) (env : Env) (o : UrlOptions) (w w' : World) (e : BuildUrlError) (t : Time)
    (ht : t = o.accessibleAt.getD (env.now w.ticks)) (h : buildSignedUrl env o w = (.err e, w')) :
    UrlFailed env w'.log w.log.length o t (e.text src) := by
  subst ht
  show UrlFailed env w'.log w.log.length o (validFrom env o.accessibleAt w) (e.text src)
  by_cases hover : Overflows env o (validFrom env o.accessibleAt w)
  · rw [buildSignedUrl_overflows _ _ _ hover] at h
    cases h
  rw [buildSignedUrl_eq _ _ _ hover] at h
  have hcl : (clocked o.accessibleAt w).log = w.log := clocked_log ..
  cases hr : urlRejection env o (validFrom env o.accessibleAt w) with
  | some x =>
    rw [hr] at h
    simp only [Prod.mk.injEq, Res.err.injEq] at h
    rw [← h.1]
    exact rejection_failed hr
  | none =>
    rw [hr] at h
    simp only at h
    have hlog := authorizer_log env o.signingKey (clocked o.accessibleAt w)
    cases ha : o.signingKey.authorizer env (clocked o.accessibleAt w) with
    | mk r w2 =>
    rw [ha] at h hlog
    have hn : w.log.length ≤ w2.log.length := by
      obtain ⟨more, hm, _⟩ := hlog
      simp only at hm
      rw [hm, hcl, List.length_append]; omega
    cases r with
    | panic p => cases h
    | err x =>
      simp only [Prod.mk.injEq, Res.err.injEq] at h
      obtain ⟨bt, why, hk, hf, he⟩ := authorizer_failed (src := src) (n := w.log.length) (by rw [hcl]; exact Nat.le_refl _) ha
      rw [← h.1, ← h.2]
      simp only [BuildUrlError.text]
      rw [he]
      have := UrlFailed.authorizer (o := o) (t := validFrom env o.accessibleAt w) bt why hk hf
      simpa only [List.cons_append, List.nil_append] using this
    | ok email =>
      simp only at h
      split at h
      · cases h
      · split at h
        · rename_i hv
          simp only [Prod.mk.injEq, Res.err.injEq] at h
          rw [← h.1, ← h.2]
          have : ∃ x ∈ o.headers, ¬ PlainValue x.2 := by
            by_cases hc : ∃ x ∈ o.headers, ¬ PlainValue x.2
            · exact hc
            · exact absurd (fun x hx => plain_iff.2 (Classical.byContradiction fun hp => hc ⟨x, hx, hp⟩)) hv
          obtain ⟨x, hx, hp⟩ := this
          exact .notPlain x hx hp
        · generalize hs : o.signingKey.sign env o.useSignBlob _ w2 = y at h
          obtain ⟨r, w3⟩ := y
          cases r with
          | ok d => cases h
          | panic d => cases h
          | err x =>
            simp only [Prod.mk.injEq, Res.err.injEq] at h
            rw [← h.1, ← h.2]
            exact .signing _ _ (keySign_failed hn hs)

/-- Some messages: a refused request, an unsupported method, a lifetime of eight days, and a bound token that is not asked
to use signBlob. -/
example :
    let src : SourceTexts := ⟨fun _ => s% "...", fun _ => s% "...", fun _ => s% "..."⟩
    let message := fun (env : Env) (o : UrlOptions) => match (buildSignedUrl env o Conformance.world).1 with
      | .err e => some (e.text src)
      | _ => none
    let o := Conformance.urlOptions
    let bt : UrlOptions := { o with signingKey := .boundToken Conformance.btKey, useSignBlob := true }
    message { Conformance.btEnv with net := fun _ _ => .response 403 (some (s% "denied")) } bt =
      some (s% "signing error: bound token authorizer error: bound token / email request / status error: 403 denied") ∧
    message Conformance.btEnv { bt with httpMethod := s% "PATCH" } = some (s% "invalid http verb: PATCH") ∧
    message Conformance.btEnv { bt with accessibleAt := some 0, expires := 691200 * 1000000000 } =
      some (s% "out of range (0..=604800) : 691200") ∧
    message Conformance.btEnv { bt with useSignBlob := false } = some (s% "signing error: bound token must use sign blob") := by
  decide +kernel

/-- C73 for forms with signing options. -/
theorem C73_form_message (src : SourceTexts) (env : Env) (cs : List Call) (o : SigningOptions) (w w' : World) (e : FormError)
    (t : Time) (ho : (cs.filterMap callOptions).getLast? = some o) (ht : t = o.accessibleAt.getD (env.now w.ticks))
    (h : (Builder.ofCalls cs).build env w = (.err e, w')) :
    FormFailed env w'.log w.log.length cs o t (e.text src) := by
  subst ht
  show FormFailed env w'.log w.log.length cs o (validFrom env o.accessibleAt w) (e.text src)
  rw [build_signed_eq env cs o w ho] at h
  have hcl : (clocked o.accessibleAt w).log = w.log := clocked_log ..
  cases hr : formRejection cs o (validFrom env o.accessibleAt w) with
  | some x =>
    rw [hr] at h
    simp only [Prod.mk.injEq, Res.err.injEq] at h
    rw [← h.1]
    unfold formRejection at hr
    split at hr
    · rename_i h1; cases hr; exact .before h1
    split at hr
    · rename_i h1; cases hr; exact .accessibleAt h1
    split at hr
    · rename_i h1; cases hr; exact .expiration h1
    split at hr
    · rename_i h1; cases hr; exact .bucket h1
    split at hr
    · rename_i h1; cases hr; exact .key h1
    split at hr
    · rename_i h1
      cases hr
      cases hk : o.signingKey with
      | hmac a s => exact .algorithm a s hk
      | _ => rw [hk] at h1; cases h1
    · cases hr
  | none =>
    rw [hr] at h
    simp only at h
    have hlog := authorizer_log env o.signingKey (clocked o.accessibleAt w)
    cases ha : o.signingKey.authorizer env (clocked o.accessibleAt w) with
    | mk r w2 =>
    rw [ha] at h hlog
    have hn : w.log.length ≤ w2.log.length := by
      obtain ⟨more, hm, _⟩ := hlog
      simp only at hm
      rw [hm, hcl, List.length_append]; omega
    cases r with
    | panic p => cases h
    | err x =>
      simp only [Prod.mk.injEq, Res.err.injEq] at h
      obtain ⟨bt, why, hk, hf, he⟩ := authorizer_failed (src := src) (n := w.log.length) (by rw [hcl]; exact Nat.le_refl _) ha
      rw [← h.1, ← h.2]
      simp only [FormError.text]
      rw [he]
      have := FormFailed.authorizer (cs := cs) (t := validFrom env o.accessibleAt w) bt why hk hf
      simpa only [List.cons_append, List.nil_append] using this
    | ok email =>
      simp only at h
      split at h
      · rename_i hm
        simp only [Prod.mk.injEq, Res.err.injEq] at h
        rw [← h.1, ← h.2]
        obtain ⟨m, h1, h2⟩ := hm
        exact .metaName m h1 h2
      · generalize hs : o.signingKey.sign env o.useSignBlob _ w2 = y at h
        obtain ⟨r, w3⟩ := y
        cases r with
        | ok d => cases h
        | panic d => cases h
        | err x =>
          simp only [Prod.mk.injEq, Res.err.injEq] at h
          rw [← h.1, ← h.2]
          exact .signing _ _ (keySign_failed hn hs)

/-- Messages of forms: the IAM service refuses to sign, the blob is not base64, and the second token is not a Bearer
token. -/
example :
    let src : SourceTexts := ⟨fun _ => s% "...", fun _ => s% "...", fun _ => s% "..."⟩
    let message := fun (env : Env) (cs : List Call) => match ((Builder.ofCalls cs).build env Conformance.world).1 with
      | .err e => some (e.text src)
      | _ => none
    let answer (k : Nat) (x : NetResult) : Env :=
      { Conformance.btEnv with net := fun i r => if i = k then x else Conformance.btEnv.net i r }
    message (answer 2 (.response 429 (some (s% "slow down")))) Conformance.btCalls =
      some (s% "bound token signing error: bound token / signBlob request / status error: 429 slow down") ∧
    message (answer 2 (.response 200 (some (s% "{\"keyId\":\"1\",\"signedBlob\":\"AQI\"}")))) Conformance.btCalls =
      some (s% "bound token signing error: bound token / signBlob request / success response base64 decode error: ...") ∧
    message (answer 1 (.response 200 (some (s% "{\"access_token\":\"t\",\"expires_in\":3600,\"token_type\":\"MAC\"}"))))
        Conformance.btCalls =
      some (s% "bound token authorizer: bound token authorizer error: bound token / token request / invalid token_type error: MAC") := by
  decide +kernel

/-- C73 for forms without signing options. -/
theorem C73_unsigned_form_message (src : SourceTexts) (env : Env) (cs : List Call) (w w' : World) (e : FormError)
    (ho : cs.filterMap callOptions = []) (h : (Builder.ofCalls cs).build env w = (.err e, w')) :
    (e.text src = s% "key not found" ∧ lastValue cs (s% "key") = none) ∨
    (e.text src = s% "x-goog-meta-* field name is empty" ∧ ∃ m ∈ cs.filterMap callMeta, m.1 = []) := by
  have spec := ofCalls_spec cs
  rw [build_eq] at h
  unfold buildPolicyAndSignature at h
  rw [spec.options, ho] at h
  simp only [List.getLast?_nil, M.pure_run] at h
  have hk := spec.key
  cases hb : (Builder.ofCalls cs).key with
  | none =>
    rw [hb] at h hk
    simp only [Prod.mk.injEq, Res.err.injEq] at h
    rw [← h.1]
    exact .inl ⟨rfl, hk.symm⟩
  | some k =>
    rw [hb, spec.metas] at h
    simp only at h
    split at h
    · rename_i hm
      simp only [Prod.mk.injEq, Res.err.injEq] at h
      rw [← h.1]
      exact .inr ⟨rfl, hm⟩
    · simp at h

example :
    let src : SourceTexts := ⟨fun _ => s% "...", fun _ => s% "...", fun _ => s% "..."⟩
    let message (cs : List Call) : Option Str := match ((Builder.ofCalls cs).build Conformance.btEnv Conformance.world).1 with
      | .err e => some (e.text src)
      | _ => none
    message [.bucket (s% "b"), .acl (s% "private")] = some (s% "key not found") ∧
    message [.key (s% "k"), .xGoogMeta [] (s% "v")] = some (s% "x-goog-meta-* field name is empty") ∧
    message [.key (s% "k"), .xGoogMeta (s% "n") (s% "v")] = none := by
  decide +kernel

/-- C73 for service account files. -/
theorem C73_key_message (src : SourceTexts) (env : Env) (f : FileResult) (e : SigningKeyError)
    (h : SigningKey.serviceAccountFromPath env f = .err e) :
    ((∃ s, e.text src = s% "service account file open error: " ++ s) ∧ ∀ text, f ≠ .text text) ∨
    ∃ text, f = .text text ∧
      ((e.text src = s% "service account json deserialize error" ∧ ¬ ∃ j, ReadableJson env text j) ∨
      ∃ j, ReadableJson env text j ∧
        ((e.text src = s% "service account json root is not object" ∧ ∀ ms, j ≠ .obj ms) ∨
        (e.text src = s% "service account json client_email is not found" ∧ ¬ ∃ x, HasMember j (s% "client_email") x) ∨
        (e.text src = s% "service account json client_email is not string" ∧
          ∃ x, HasMember j (s% "client_email") x ∧ ∀ s, x ≠ .str s) ∨
        (e.text src = s% "service account json private_key is not found" ∧ ¬ ∃ x, HasMember j (s% "private_key") x) ∨
        (e.text src = s% "service account json private_key is not string" ∧
          ∃ x, HasMember j (s% "private_key") x ∧ ∀ s, x ≠ .str s))) := by
  cases f with
  | openError => cases h; exact .inl ⟨⟨_, rfl⟩, fun _ h => nomatch h⟩
  | readError => cases h; exact .inl ⟨⟨_, rfl⟩, fun _ h => nomatch h⟩
  | text s =>
    right
    refine ⟨s, rfl, ?_⟩
    obtain ⟨h1, h2, h3, h4, h5, h6⟩ := C49_service_account_errors env s
    change SigningKey.serviceAccountFromStr env s = .err e at h
    have hno : e ≠ .serviceAccountFileOpen ∧ e ≠ .serviceAccountFileRead := by
      constructor <;> rintro rfl <;> revert h <;> unfold SigningKey.serviceAccountFromStr <;>
      · cases parseJson env.numOk s with
        | none => simp
        | some j =>
          cases j with
          | obj ms =>
            simp only [Json.asObject, Res.ofOption_some, Res.bind_ok]
            cases objGet ms (s% "client_email") with
            | none => simp
            | some ce =>
              cases ce with
              | str email =>
                cases objGet ms (s% "private_key") with
                | none => simp [Json.asStr]
                | some pk => cases pk <;> simp [Json.asStr]
              | _ => simp [Json.asStr]
          | _ => simp [Json.asObject]
    cases e with
    | serviceAccountFileOpen => exact absurd rfl hno.1
    | serviceAccountFileRead => exact absurd rfl hno.2
    | serviceAccountJsonDeserialize => exact .inl ⟨rfl, h1.1 h⟩
    | serviceAccountJsonRootIsNotObject =>
      obtain ⟨j, hj, hm⟩ := h2.1 h
      exact .inr ⟨j, hj, .inl ⟨rfl, hm⟩⟩
    | serviceAccountJsonClientEmailIsNotFound =>
      obtain ⟨ms, hj, hm⟩ := h3.1 h
      exact .inr ⟨_, hj, .inr (.inl ⟨rfl, hm⟩)⟩
    | serviceAccountJsonClientEmailIsNotString =>
      obtain ⟨ms, x, hj, hm⟩ := h4.1 h
      exact .inr ⟨_, hj, .inr (.inr (.inl ⟨rfl, x, hm⟩))⟩
    | serviceAccountJsonPrivateKeyIsNotFound =>
      obtain ⟨ms, _, hj, _, hm⟩ := h5.1 h
      exact .inr ⟨_, hj, .inr (.inr (.inr (.inl ⟨rfl, hm⟩)))⟩
    | serviceAccountJsonPrivateKeyIsNotString =>
      obtain ⟨ms, _, x, hj, _, hm⟩ := h6.1 h
      exact .inr ⟨_, hj, .inr (.inr (.inr (.inr ⟨rfl, x, hm⟩)))⟩

example :
    let src : SourceTexts := ⟨fun _ => s% "...", fun _ => s% "...", fun _ => s% "..."⟩
    let message (f : FileResult) : Option Str := match SigningKey.serviceAccountFromPath Conformance.btEnv f with
      | .err e => some (e.text src)
      | _ => none
    message .readError = some (s% "service account file open error: ...") ∧
    message (.text (s% "{\"client_email\":\"a\"}")) = some (s% "service account json private_key is not found") ∧
    message (.text (s% "{\"client_email\":1,\"private_key\":\"k\"}")) =
      some (s% "service account json client_email is not string") ∧
    message (.text (s% "{\"client_email\":\"a\",\"private_key\":\"k\"}")) = none := by
  decide +kernel

/-! ### C74: messages tell failures apart -/

/-- Two texts that begin with different entries of a list of heads, none a prefix of another, differ. -/
theorem heads_unique {heads : List Str} (hd : ∀ i < heads.length, ∀ j < heads.length,
      (heads.getD i []).isPrefixOf (heads.getD j []) = true → i = j) {i j : Nat} (hi : i < heads.length) (hj : j < heads.length)
    {a b : Str} (h : heads.getD i [] ++ a = heads.getD j [] ++ b) : i = j ∧ a = b := by
  have hij : i = j := by
    rcases List.append_eq_append_iff.1 h with ⟨x, hx, _⟩ | ⟨x, hx, _⟩
    · exact hd i hi j hj (List.isPrefixOf_iff_prefix.2 ⟨x, hx.symm⟩)
    · exact (hd j hj i hi (List.isPrefixOf_iff_prefix.2 ⟨x, hx.symm⟩)).symm
  subst hij
  exact ⟨rfl, List.append_cancel_left h⟩

theorem status_unique {m n : Nat} {a b : Str} (h : natDec m ++ (s% " " ++ a) = natDec n ++ (s% " " ++ b)) : m = n ∧ a = b := by
  have key : ∀ (x y : Str), (∀ c ∈ x, isDigit c = true) → (∀ c ∈ y, isDigit c = true) →
      x ++ (s% " " ++ a) = y ++ (s% " " ++ b) → x = y ∧ a = b := by
    intro x
    induction x with
    | nil =>
      intro y _ hy h
      cases y with
      | nil => simpa using h
      | cons c y =>
        simp only [List.nil_append, List.cons_append, List.cons.injEq] at h
        have := hy c (by simp)
        rw [← h.1] at this
        exact absurd this (by decide)
    | cons d x ih =>
      intro y hx hy h
      cases y with
      | nil =>
        simp only [List.nil_append, List.cons_append, List.cons.injEq] at h
        have := hx d (by simp)
        rw [h.1] at this
        exact absurd this (by decide)
      | cons c y =>
        simp only [List.cons_append, List.cons.injEq] at h
        have := ih y (fun c hc => hx c (by simp [hc])) (fun c hc => hy c (by simp [hc])) (by simpa using h.2)
        exact ⟨by rw [h.1, this.1], this.2⟩
  have := key _ _ (natDec_digits m) (natDec_digits n) h
  exact ⟨natDec_inj this.1, this.2⟩

/-- The fixed beginnings of the messages of bound-token errors. -/
def tokenHeads : List Str := [
  s% "bound token / email request / build error: ",
  s% "bound token / email request / error response error: ",
  s% "bound token / email request / execute error: ",
  s% "bound token / email request / status error: ",
  s% "bound token / email request / success response error: ",
  s% "bound token / signBlob request / build error: ",
  s% "bound token / signBlob request / error response error: ",
  s% "bound token / signBlob request / execute error: ",
  s% "bound token / signBlob request / status error: ",
  s% "bound token / signBlob request / success response error: ",
  s% "bound token / signBlob request / success response base64 decode error: ",
  s% "bound token / signBlob request / success response deserialize error: ",
  s% "bound token / token request / build error: ",
  s% "bound token / token request / error response error: ",
  s% "bound token / token request / execute error: ",
  s% "bound token / token request / invalid token_type error: ",
  s% "bound token / token request / status error: ",
  s% "bound token / token request / success response error: ",
  s% "bound token / token request / success response deserialize error: "]

/-- The position of an error's beginning in `tokenHeads`. -/
def tokenTag : BoundTokenError → Nat
  | .emailRequestBuild => 0
  | .emailRequestErrorResponse => 1
  | .emailRequestExecute => 2
  | .emailRequestStatus _ _ => 3
  | .emailRequestSuccessResponse => 4
  | .signBlobRequestBuild => 5
  | .signBlobRequestErrorResponse => 6
  | .signBlobRequestExecute => 7
  | .signBlobRequestStatus _ _ => 8
  | .signBlobRequestSuccessResponse => 9
  | .signBlobRequestSuccessResponseBase64Decode => 10
  | .signBlobRequestSuccessResponseDeserialize => 11
  | .tokenRequestBuild => 12
  | .tokenRequestErrorResponse => 13
  | .tokenRequestExecute => 14
  | .tokenRequestInvalidTokenType _ => 15
  | .tokenRequestStatus _ _ => 16
  | .tokenRequestSuccessResponse => 17
  | .tokenRequestSuccessResponseDeserialize => 18

/-- The rest of the message. -/
def tokenTail (src : BoundTokenError → Str) (e : BoundTokenError) : Str :=
  match e with
  | .emailRequestStatus st b | .signBlobRequestStatus st b | .tokenRequestStatus st b => natDec st ++ (s% " " ++ b)
  | .tokenRequestInvalidTokenType t => t
  | e => src e

theorem tokenHeads_free : ∀ i < tokenHeads.length, ∀ j < tokenHeads.length,
    (tokenHeads.getD i []).isPrefixOf (tokenHeads.getD j []) = true → i = j := by decide +kernel

theorem tokenError_shape (src : BoundTokenError → Str) (e : BoundTokenError) :
    e.text src = tokenHeads.getD (tokenTag e) [] ++ tokenTail src e := by cases e <;> rfl

theorem tokenTag_lt (e : BoundTokenError) : tokenTag e < tokenHeads.length := by
  have : tokenHeads.length = 19 := rfl
  rw [this]
  cases e <;> simp [tokenTag]

theorem tokenError_injective {src src' : BoundTokenError → Str} {e e' : BoundTokenError} (h : e.text src = e'.text src') :
    e = e' := by
  rw [tokenError_shape, tokenError_shape] at h
  obtain ⟨ht, hd⟩ := heads_unique tokenHeads_free (tokenTag_lt e) (tokenTag_lt e') h
  clear h
  cases e <;> cases e' <;> first
    | rfl
    | (simp [tokenTag] at ht; done)
    | (obtain ⟨rfl, rfl⟩ := status_unique hd; rfl)
    | (simp only [tokenTail] at hd; rw [hd])

/-- The fixed beginnings of the messages of signing errors. -/
def keyHeads : List Str := [
  s% "bound token authorizer error: ",
  s% "bound token must use sign blob",
  s% "bound token signing error: ",
  s% "service account private key pem parsing error: ",
  s% "service account private key pkcs8 parsing error: ",
  s% "service account signing error: "]

def keyTag : KeyError → Nat
  | .boundTokenAuthorizer _ => 0
  | .boundTokenMustUseSignBlob => 1
  | .boundTokenSigning _ => 2
  | .serviceAccountPrivateKeyPemParsing => 3
  | .serviceAccountPrivateKeyPkcs8Parsing => 4
  | .serviceAccountSigning => 5

def keyTail (src : SourceTexts) (e : KeyError) : Str :=
  match e with
  | .boundTokenAuthorizer b | .boundTokenSigning b => b.text src.boundToken
  | .boundTokenMustUseSignBlob => []
  | e => src.key e

theorem keyTag_lt (e : KeyError) : keyTag e < 6 := by cases e <;> simp [keyTag]

theorem keyError_shape (src : SourceTexts) (e : KeyError) : e.text src = keyHeads.getD (keyTag e) [] ++ keyTail src e := by
  cases e <;> rfl

theorem keyError_of {src src' : SourceTexts} {e e' : KeyError} (ht : keyTag e = keyTag e') (hd : keyTail src e = keyTail src' e') :
    e = e' := by
  cases e <;> cases e' <;> first
    | rfl
    | (simp [keyTag] at ht; done)
    | (rw [tokenError_injective hd])

theorem keyError_injective {src src' : SourceTexts} {e e' : KeyError} (h : e.text src = e'.text src') : e = e' := by
  have hlt : ∀ e, keyTag e < keyHeads.length := keyTag_lt
  have hfree : ∀ i < keyHeads.length, ∀ j < keyHeads.length,
    (keyHeads.getD i []).isPrefixOf (keyHeads.getD j []) = true → i = j := by decide +kernel
  rw [keyError_shape, keyError_shape] at h
  obtain ⟨ht, hd⟩ := heads_unique hfree (hlt e) (hlt e') h
  exact keyError_of ht hd

/-- The fixed beginnings of the messages of `build_signed_url`. -/
def urlHeads : List Str := [
  s% "SERVICE '",
  s% "out of range (0..=604800) : ",
  s% "expiration out of range",
  s% "invalid http verb: ",
  s% "uri too long",
  s% "invalid HTTP header name",
  s% "failed to parse header value",
  s% "now out of range",
  s% "header value contains non visible ascii characters",
  s% "host header not found",
  s% "signing error: "]

def urlTag : BuildUrlError → Nat
  | .credentialScope _ => 0
  | .expiration _ => 1
  | .expirationOutOfRange => 2
  | .httpMethod _ => 3
  | .httpRequest => 4
  | .invalidHeaderName => 5
  | .invalidHeaderValue => 6
  | .now => 7
  | .signedUrl (.canonicalRequest _) => 8
  | .signedUrl .hostHeaderNotFound => 9
  | .signedUrl (.signing _) => 10

def urlTail (src : SourceTexts) : BuildUrlError → Str
  | .credentialScope (.invalidCombination s r) =>
    s.asStr ++ (s% "' and REQUEST_TYPE '" ++ (r.asStr ++ s% "' is an invalid combination"))
  | .expiration (.outOfRange n) => intDec n
  | .httpMethod (.invalidHttpVerb m) => m
  | .signedUrl (.signing k) => k.text src
  | _ => []

theorem urlError_shape (src : SourceTexts) (e : BuildUrlError) :
    e.text src = urlHeads.getD (urlTag e) [] ++ urlTail src e := by
  cases e with
  | credentialScope c => cases c; rfl
  | expiration c => cases c; rfl
  | httpMethod c => cases c; rfl
  | signedUrl c =>
    cases c with
    | canonicalRequest c => cases c; rfl
    | hostHeaderNotFound => rfl
    | signing k => rfl
  | _ => rfl

theorem intDec_inj {m n : Int} (h : intDec m = intDec n) : m = n := by
  unfold intDec at h
  have hneg : ∀ (a : Str) (k : Nat), '-' :: a ≠ natDec k := by
    intro a k h
    have := natDec_digits k '-' (by rw [← h]; simp)
    exact absurd this (by decide)
  by_cases h1 : m < 0
  · by_cases h2 : n < 0
    · rw [if_pos h1, if_pos h2] at h
      simp only [List.cons.injEq, true_and] at h
      have := natDec_inj h
      omega
    · rw [if_pos h1, if_neg h2] at h
      exact absurd h (hneg _ _)
  · by_cases h2 : n < 0
    · rw [if_neg h1, if_pos h2] at h
      exact absurd h.symm (hneg _ _)
    · rw [if_neg h1, if_neg h2] at h
      have := natDec_inj h
      omega

/-- C74 for URLs. The message of `build_signed_url` tells what went wrong: failures with the same message are the same
failure (with the same method, number of seconds, status, body or token type in it), whatever the texts of other crates'
errors are. -/
theorem C74_url_messages_distinct (src src' : SourceTexts) (e e' : BuildUrlError) (h : e.text src = e'.text src') : e = e' := by
  have hlt : ∀ e, urlTag e < urlHeads.length := by
    intro e
    have : urlHeads.length = 11 := rfl
    rw [this]
    unfold urlTag
    split <;> decide
  have hfree : ∀ i < urlHeads.length, ∀ j < urlHeads.length,
    (urlHeads.getD i []).isPrefixOf (urlHeads.getD j []) = true → i = j := by decide +kernel
  rw [urlError_shape, urlError_shape] at h
  obtain ⟨ht, hd⟩ := heads_unique hfree (hlt e) (hlt e') h
  clear h hlt hfree
  cases e with
  | credentialScope c =>
    cases e' <;> first
      | (simp [urlTag] at ht; done)
      | skip
    · obtain ⟨s, r⟩ := c
      rename_i c'
      obtain ⟨s', r'⟩ := c'
      cases s <;> cases s' <;> cases r <;> cases r' <;> first
        | rfl
        | (exfalso; simp [urlTail, Service.asStr, RequestType.asStr] at hd; done)
    · rename_i x; cases x <;> simp [urlTag] at ht
  | expiration c =>
    cases e' <;> first
      | (simp [urlTag] at ht; done)
      | skip
    · obtain ⟨n⟩ := c
      rename_i c'
      obtain ⟨n'⟩ := c'
      rw [intDec_inj hd]
    · rename_i x; cases x <;> simp [urlTag] at ht
  | httpMethod c =>
    cases e' <;> first
      | (simp [urlTag] at ht; done)
      | skip
    · obtain ⟨n⟩ := c
      rename_i c'
      obtain ⟨n'⟩ := c'
      simp only [urlTail] at hd
      rw [hd]
    · rename_i x; cases x <;> simp [urlTag] at ht
  | signedUrl c =>
    cases e' with
    | signedUrl c' =>
      cases c with
      | canonicalRequest c =>
        cases c
        cases c' with
        | canonicalRequest c' => cases c'; rfl
        | _ => simp [urlTag] at ht
      | hostHeaderNotFound =>
        cases c' with
        | hostHeaderNotFound => rfl
        | _ => simp [urlTag] at ht
      | signing k =>
        cases c' with
        | signing k' => rw [keyError_injective hd]
        | _ => simp [urlTag] at ht
    | _ => cases c <;> simp [urlTag] at ht
  | _ =>
    cases e' <;> first
      | rfl
      | (simp [urlTag] at ht; done)
      | (rename_i x; cases x <;> simp [urlTag] at ht; done)

/-- The fixed beginnings of the messages of forms. -/
def formHeads : List Str := keyHeads ++ [
  s% "accessible_at out of range",
  s% "bound token authorizer: ",
  s% "bucket not found",
  s% "expiration before accessible_at",
  s% "expiration out of range",
  s% "key not found",
  s% "x-goog-algorithm not supported",
  s% "x-goog-credential invalid",
  s% "x-goog-meta-* field name is empty"]

def formTag : FormError → Nat
  | .signing k => keyTag k
  | .accessibleAtOutOfRange => 6
  | .boundTokenAuthorizer _ => 7
  | .bucketNotFound => 8
  | .expirationBeforeAccessibleAt => 9
  | .expirationOutOfRange => 10
  | .keyNotFound => 11
  | .xGoogAlgorithmNotSupported => 12
  | .xGoogCredentialInvalid _ => 13
  | .xGoogMetaNameEmpty => 14

def formTail (src : SourceTexts) : FormError → Str
  | .signing k => keyTail src k
  | .boundTokenAuthorizer k => k.text src
  | _ => []

theorem formError_shape (src : SourceTexts) (e : FormError) :
    e.text src = formHeads.getD (formTag e) [] ++ formTail src e := by
  cases e with
  | signing k =>
    simp only [FormError.text, formTag, formTail]
    rw [keyError_shape]
    cases k <;> rfl
  | _ => rfl

/-- C74 for forms. As for URLs; the one failure left out, an invalid credential scope, is never returned, see
`C74_no_invalid_credential`. -/
theorem C74_form_messages_distinct (src src' : SourceTexts) (e e' : FormError) (hne : ∀ c, e ≠ .xGoogCredentialInvalid c)
    (h : e.text src = e'.text src') : e = e' := by
  have hlt : ∀ e, formTag e < formHeads.length := by
    intro e
    have : formHeads.length = 15 := rfl
    rw [this]
    cases e with
    | signing k => have := keyTag_lt k; simp only [formTag]; omega
    | _ => simp [formTag]
  have hfree : ∀ i < formHeads.length, ∀ j < formHeads.length,
    (formHeads.getD i []).isPrefixOf (formHeads.getD j []) = true → i = j := by decide +kernel
  rw [formError_shape, formError_shape] at h
  obtain ⟨ht, hd⟩ := heads_unique hfree (hlt e) (hlt e') h
  clear h hlt hfree
  have hk := keyTag_lt
  cases e with
  | signing k =>
    have := hk k
    cases e' with
    | signing k' => rw [keyError_of ht hd]
    | _ => simp only [formTag] at ht; omega
  | boundTokenAuthorizer k =>
    cases e' with
    | boundTokenAuthorizer k' => rw [keyError_injective hd]
    | signing k' => have := hk k'; simp only [formTag] at ht; omega
    | _ => simp [formTag] at ht
  | xGoogCredentialInvalid c => exact absurd rfl (hne c)
  | _ =>
    cases e' <;> first
      | rfl
      | (simp [formTag] at ht; done)
      | (rename_i x; have := hk x; simp only [formTag] at ht; omega)

theorem C74_no_invalid_credential (env : Env) (cs : List Call) (w : World) (c : CredentialScopeError) :
    ((Builder.ofCalls cs).build env w).1 ≠ .err (.xGoogCredentialInvalid c) := by
  intro h
  cases ho : (cs.filterMap callOptions).getLast? with
  | none =>
    have := C73_unsigned_form_message ⟨fun _ => [], fun _ => [], fun _ => []⟩ env cs w _ _
      (List.getLast?_eq_none_iff.1 ho) (Prod.ext h rfl)
    rcases this with ⟨h1, _⟩ | ⟨h1, _⟩ <;> exact absurd h1 (by simp only [FormError.text]; decide)
  | some o =>
    cases hr : formRejection cs o (validFrom env o.accessibleAt w) with
    | none => rcases build_accepted_err ho hr h with h1 | ⟨_, h1⟩ | ⟨_, h1⟩ <;> cases h1
    | some x =>
      rw [build_rejected ho hr] at h
      simp only [Res.err.injEq] at h
      subst h
      unfold formRejection at hr
      repeat' split at hr
      all_goals cases hr

/-- C74 for service account files. Failures with the same message are the same failure, except that failing to open the
file and failing to read it are not told apart: both messages begin with "service account file open error: ". -/
theorem C74_key_messages_distinct (src src' : SourceTexts) (e e' : SigningKeyError) (h : e.text src = e'.text src') :
    e = e' ∨ (e ∈ [.serviceAccountFileOpen, .serviceAccountFileRead] ∧
      e' ∈ [.serviceAccountFileOpen, .serviceAccountFileRead]) := by
  cases e <;> cases e' <;> first
    | exact .inl rfl
    | (exfalso; simp [SigningKeyError.text] at h; done)
    | exact .inr ⟨by simp, by simp⟩

/-- C74, counterexample: two different failures with the same message. -/
theorem C74_open_and_read_alike : ∃ src env f f' e e', f = FileResult.openError ∧ f' = FileResult.readError ∧
    SigningKey.serviceAccountFromPath env f = .err e ∧ SigningKey.serviceAccountFromPath env f' = .err e' ∧
    e.text src = e'.text src :=
  ⟨⟨fun _ => [], fun _ => [], fun _ => s% "os error"⟩, Conformance.env, _, _, _, _, rfl, rfl, rfl, rfl, rfl⟩

end CSS
