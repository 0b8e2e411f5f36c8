import Verif.Props.Concurrent
import Verif.Props.UrlErrors
import Verif.Props.FormErrors
import Verif.Lemmas.Policy
import Verif.Spec.Parts
import Verif.Props.UrlShape
/-
C54: what concurrent calls return. Whatever is returned under any interleaving could have been returned by the call
running alone, so that C01-C32 and C41-C52 apply to it; and its signature is the answer to a request of the call
itself, not of a call that runs at the same time.
-/
set_option linter.unusedSimpArgs false
namespace CSS
open Spec

/-- The oracles of a quiet world: the clock first shows `t` if it is asked for the start of validity, every request is
answered with `text`. -/
def quietEnv (env : Env) (given : Option Time) (t : Time) (status : Nat) (text : Str) : Env :=
  { env with
    now := fun k => if k = 0 ∧ given = none then t else 0,
    net := fun _ _ => .response status (some text),
    canBuild := fun _ => true }

/-- A world in which every key has a cached token of `email`. -/
def quietWorld (email : Str) : World := ⟨fun _ => some ⟨email, [], 31 * nsPerSec⟩, 0, [], 0⟩

theorem quiet_same (env : Env) (given : Option Time) (t : Time) (status : Nat) (text : Str) :
    SameComputation (quietEnv env given t status text) env := ⟨rfl, rfl, rfl, rfl, rfl, rfl⟩

theorem quiet_clock (env : Env) (given : Option Time) (t : Time) (status : Nat) (text email : Str) (n : Nat) :
    (quietEnv env given t status text).now ((clocked given (quietWorld email)).ticks + n) = 0 := by
  cases given <;> simp [quietEnv, clocked, quietWorld, World.tick]

theorem quiet_pair (env : Env) (given : Option Time) (t : Time) (status : Nat) (text email : Str) (bt : BoundToken)
    (w : World) (hc : w.caches = (quietWorld email).caches)
    (hn : (quietEnv env given t status text).now w.ticks = 0) :
    getEmailAndToken (quietEnv env given t status text) bt w = (.ok (email, []), w.tick) := by
  rw [getEmailAndToken_eq, hc]
  simp only [quietWorld, hn]
  rw [if_neg (by decide), if_neg (by decide), if_pos (by decide)]

/-- An identity and a signature that a call got concurrently can also be got alone. -/
theorem key_replay {env : Env} {h h1 : List Ev} {key : SigningKey} {u : Bool} {m digest : Bytes} {email : Str}
    (hu : CanSign key u) (hn : Named key h1 email) (hs : SignedIn env h key m digest) (given : Option Time) (t : Time)
    (ht : given = some t ∨ given = none) :
    ∃ env' w w2 w3, SameComputation env' env ∧ validFrom env' given w = t ∧
      key.authorizer env' (clocked given w) = (.ok email, w2) ∧ key.sign env' u m w2 = (.ok digest, w3) ∧
      (∀ a, Authorizes env' w w3.log key a → a = email) ∧ ∀ m' s', Signs env' w3.log key m' s' → SignedIn env h key m' s' := by
  have hv : ∀ status text, validFrom (quietEnv env given t status text) given (quietWorld email) = t := by
    intro status text
    rcases ht with rfl | rfl <;> simp [validFrom, quietEnv, quietWorld]
  rcases hu with ⟨a, pem, rfl, rfl⟩ | ⟨bt, rfl, rfl⟩
  · obtain ⟨der, h1, h2, h3⟩ := hs
    cases hn
    refine ⟨quietEnv env given t 0 [], quietWorld email, clocked given (quietWorld email),
      clocked given (quietWorld email), quiet_same .., hv _ _, rfl, ?_, fun _ ha => ha, fun _ _ hs => hs⟩
    show SigningKey.sign _ _ false m _ = _
    unfold SigningKey.sign
    simp only [Bool.false_eq_true, if_false, M.lift_run]
    rw [rsaSignPem_congr (quiet_same ..)]
    simp only [rsaSignPem, h1, h2, h3, Bool.true_eq_false, if_false]
  · obtain ⟨before, email', token, body, payload, status, text, blob, hh, hg, hs1, hs2, hj, hp, hb1, hb2⟩ := hs
    refine ⟨quietEnv env given t status text, quietWorld email, (clocked given (quietWorld email)).tick,
      ((clocked given (quietWorld email)).tick.tick).sent (signBlobRequest email [] m),
      quiet_same .., hv _ _, ?_, ?_, ?_, ?_⟩
    · rw [authorizer_boundToken_eq, quiet_pair env given t status text email bt]
      · cases given <;> rfl
      · exact quiet_clock env given t status text email 0
    · show SigningKey.sign _ _ true m _ = _
      unfold SigningKey.sign
      simp only [if_true]
      rw [M.mapErr_run, sign_eq, quiet_pair env given t status text email bt]
      · simp only
        rw [if_neg (by simp [quietEnv]),
          show fetchOutcome signBlobErrors ((quietEnv env given t status text).net _ _) = .ok text from
            fetchOutcome_ok.2 ⟨status, hs1, hs2, rfl⟩]
        simp only [parseSignBlobResponse_iff.2 hb1, b64Decode_eq, hb2]
        rfl
      · cases given <;> rfl
      · exact quiet_clock env given t status text email 1
    · have hlog : (((clocked given (quietWorld email)).tick.tick).sent (signBlobRequest email [] m)).log = [signBlobRequest email [] m] := by
        cases given <;> rfl
      rintro a (⟨c, hc, rfl⟩ | ⟨k, _, hk, _⟩)
      · simp only [quietWorld, Option.some.injEq] at hc
        rw [← hc]
      · rw [hlog] at hk
        cases k with
        | zero =>
          have : s% "POST" = s% "GET" := congrArg Request.method (Option.some.inj hk)
          exact absurd this (by decide)
        | succ k => simp at hk
    · have hlog : (((clocked given (quietWorld email)).tick.tick).sent (signBlobRequest email [] m)).log = [signBlobRequest email [] m] := by
        cases given <;> rfl
      rintro m' s' ⟨r, body', payload', text', blob', h1, _, h3, h4, h5, ⟨_, st, _, _, h6⟩, h7, h8⟩
      rw [hlog] at h1
      cases h1
      cases h3
      have hj' := jsonText_unique h4 (render_text (.obj [(s% "payload", .str (b64Encode m))]) (by simp [AllNums, AllNumsMembers]))
      simp only [Json.obj.injEq, List.cons.injEq, Prod.mk.injEq, Json.str.injEq, and_true, true_and] at hj'
      subst hj'
      rw [base64Decode_b64Encode, Option.some.injEq] at h5
      subst h5
      have : text' = text := by
        simp only [quietEnv, NetResult.response.injEq, Option.some.injEq] at h6
        exact h6.2.symm
      subst this
      obtain rfl := Option.some.inj ((parseSignBlobResponse_iff.mpr hb1).symm.trans (parseSignBlobResponse_iff.mpr h7))
      rw [hb2, Option.some.injEq] at h8
      subst h8
      exact ⟨before, email', token, body, payload, status, text', blob, hh, hg, hs1, hs2, hj, hp, hb1, hb2⟩

/-- The start of validity in the history is one that a call alone can have. -/
theorem validFrom_given {given : Option Time} {h : List Ev} {t : Time} (ht : ValidFrom given h t) :
    given = some t ∨ given = none := ht.imp id And.left

variable {env : Env} {base : Nat → Str} {s : Sys}

/-- The call running alone, with its identity and signature. -/
theorem url_replay_signed (h : Sys.Reach env base s) {pre post : List Event} {i : Nat} {o : UrlOptions} {url : Str}
    (ht : s.trace = pre ++ .returned i (.url (.ok url)) :: post) (hst : .started i (.url o) ∈ pre) :
    ∃ env' w w' email, SameComputation env' env ∧ ValidFrom o.accessibleAt (did pre i) (validFrom env' o.accessibleAt w) ∧
      buildSignedUrl env' o w = (.ok url, w') ∧ (∃ h1, h1 <+: did pre i ∧ Named o.signingKey h1 email) ∧
      (∀ a, Authorizes env' w w'.log o.signingKey a → a = email) ∧
      ∀ m s, Signs env' w'.log o.signingKey m s → SignedIn env (did pre i) o.signingKey m s := by
  obtain ⟨call, hst', _, hd⟩ := returned_done h ht
  have : call = .url o := started_unique h (i := i) (by rw [ht]; simp [hst']) (by rw [ht]; simp [hst])
  subst this
  obtain ⟨t, email, digest, hd⟩ := hd
  obtain ⟨h1, hp1, hn⟩ := hd.named
  obtain ⟨env', w, w2, w3, hc, hv, ha, hs, hau, hsi⟩ := key_replay hd.usable hn hd.signed o.accessibleAt t (validFrom_given hd.time)
  refine ⟨env', w, w3, email, hc, by rw [hv]; exact hd.time, ?_, ⟨h1, hp1, hn⟩, hau, hsi⟩
  rw [buildSignedUrl_eq _ _ _ (HeadersFit.not_overflows ((headersFit_congr hc).2 hd.fits)), hv, urlRejection_congr hc, hd.accepted]
  simp only [ha]
  rw [fullUrl_congr hc, if_neg (by have := hd.short; omega), if_neg (by simpa using hd.values)]
  have hp : (partsOf env' o t email).stringToSign = (partsOf env o t email).stringToSign := by
    rw [partsOf_congr hc]
  rw [hp, hs]
  simp only [partsOf_congr hc, hd.url_eq]

/-- C54. Every URL returned by a call, in any history, could have been returned by the call running alone, with the
same cryptography and start of validity. -/
theorem C54_url_replay (h : Sys.Reach env base s) {pre post : List Event} {i : Nat} {o : UrlOptions} {url : Str}
    (ht : s.trace = pre ++ .returned i (.url (.ok url)) :: post) (hst : .started i (.url o) ∈ pre) :
    ∃ env' w w', SameComputation env' env ∧ ValidFrom o.accessibleAt (did pre i) (validFrom env' o.accessibleAt w) ∧
      buildSignedUrl env' o w = (.ok url, w') := by
  obtain ⟨env', w, w', _, h1, h2, h3, _⟩ := url_replay_signed h ht hst
  exact ⟨env', w, w', h1, h2, h3⟩

theorem form_replay_signed (h : Sys.Reach env base s) {pre post : List Event} {i : Nat} {cs : List Call}
    {fs : List (Str × Str)} {o : SigningOptions}
    (ht : s.trace = pre ++ .returned i (.form (.ok fs)) :: post) (hst : .started i (.form cs) ∈ pre)
    (ho : (cs.filterMap callOptions).getLast? = some o) :
    ∃ env' w w' email, SameComputation env' env ∧ ValidFrom o.accessibleAt (did pre i) (validFrom env' o.accessibleAt w) ∧
      (Builder.ofCalls cs).build env' w = (.ok fs, w') ∧ (∃ h1, h1 <+: did pre i ∧ Named o.signingKey h1 email) ∧
      (∀ a, Authorizes env' w w'.log o.signingKey a → a = email) ∧
      ∀ m s, Signs env' w'.log o.signingKey m s → SignedIn env (did pre i) o.signingKey m s := by
  obtain ⟨call, hst', _, hd⟩ := returned_done h ht
  have : call = .form cs := started_unique h (i := i) (by rw [ht]; simp [hst']) (by rw [ht]; simp [hst])
  subst this
  have spec := ofCalls_spec cs
  obtain ⟨p, t, email, bucket, key, digest, hd', rfl⟩ := hd.1 o (spec.options.trans ho)
  replace hd := hd'
  obtain ⟨h1, hp1, hn⟩ := hd.named
  obtain ⟨env', w, w2, w3, hc, hv, ha, hs, hau, hsi⟩ := key_replay hd.usable hn hd.signed o.accessibleAt t (validFrom_given hd.time)
  refine ⟨env', w, w3, email, hc, by rw [hv]; exact hd.time, ?_, ⟨h1, hp1, hn⟩, hau, hsi⟩
  have hb : lastValue cs (s% "bucket") = some bucket := by rw [← spec.bucket]; exact hd.hbucket
  have hkey : lastValue cs (s% "key") = some key := by rw [← spec.key]; exact hd.hkey
  have hh : isHmac o.signingKey = false := by
    rcases hd.usable with ⟨_, _, hk, _⟩ | ⟨_, hk, _⟩ <;> rw [hk] <;> rfl
  have hrej : formRejection cs o t = none := by
    unfold formRejection
    have := hd.order
    have := hd.range
    rw [if_neg (by omega), if_neg (by omega), if_neg (by omega), if_neg (by simp [hb]), if_neg (by simp [hkey]),
      if_neg (by simp [hh])]
  have hpol : (policyFields (Builder.ofCalls cs) bucket key o email t []).policy = p.policy := by rw [hd.fields]; rfl
  rw [build_signed_eq env' cs o w ho, hv, hrej]
  simp only [ha, hb, hkey, Option.getD_some]
  rw [if_neg (by have := hd.metas; rw [spec.metas] at this; exact this), hpol, hs]
  simp only [hd.fields]

/-- C54. The same for forms, signed or not. -/
theorem C54_form_replay (h : Sys.Reach env base s) {pre post : List Event} {i : Nat} {cs : List Call}
    {fs : List (Str × Str)}
    (ht : s.trace = pre ++ .returned i (.form (.ok fs)) :: post) (hst : .started i (.form cs) ∈ pre) :
    ∃ env' w w', SameComputation env' env ∧
      (∀ o, (cs.filterMap callOptions).getLast? = some o →
        ValidFrom o.accessibleAt (did pre i) (validFrom env' o.accessibleAt w)) ∧
      (Builder.ofCalls cs).build env' w = (.ok fs, w') := by
  obtain ⟨call, hst', _, hd⟩ := returned_done h ht
  have : call = .form cs := started_unique h (i := i) (by rw [ht]; simp [hst']) (by rw [ht]; simp [hst])
  subst this
  have spec := ofCalls_spec cs
  cases ho : (cs.filterMap callOptions).getLast? with
  | none =>
    obtain ⟨key, hk, hm, rfl⟩ := hd.2 (spec.options.trans ho)
    refine ⟨env, quietWorld [], quietWorld [], ⟨rfl, rfl, rfl, rfl, rfl, rfl⟩, by simp, ?_⟩
    rw [build_eq]
    unfold buildPolicyAndSignature
    rw [spec.options, ho]
    simp only [M.pure_run, hk, if_neg hm]
  | some o =>
    obtain ⟨env', w, w', _, h1, h2, h3, _⟩ := form_replay_signed h ht hst ho
    refine ⟨env', w, w', h1, ?_, h3⟩
    intro o' ho'
    cases ho'
    exact h2

theorem named_identity (h : Sys.Reach env base s) {pre post : List Event} (ht : s.trace = pre ++ post) {i : Nat}
    {key : SigningKey} (hb : ∀ bt, key.boundToken? = some bt → bt.baseUrl = base bt.id) {h1 : List Ev}
    (hp : h1 <+: did pre i) {email : Str} (hn : Named key h1 email) : IdentityIn base pre key email := by
  cases key with
  | boundToken bt =>
    obtain ⟨token, hg⟩ := hn
    rw [hb bt rfl] at hg
    obtain ⟨j, c, t0, life, h1, h2, _⟩ := gotPair_refreshed h ht hp hg
    exact ⟨j, c, t0, life, h1, h2⟩
  | hmac a b => exact hn
  | serviceAccount a b => exact hn

theorem partsOf_for {o : UrlOptions} {t : Time} (ht : 0 ≤ t ∧ t < endOf9999) (email : Str)
    (ha : o.signingKey.xGoogAlgorithm.asStr = s% "GOOG4-RSA-SHA256") : PartsFor o t (partsOf env o t email) where
  algorithm := ha
  date := by
    obtain ⟨c, hc, hiso, hsec⟩ := iso_chars _ ht
    exact ⟨c, hc, hiso, hsec⟩
  region := rfl
  method := rfl
  pathLine := by simp only [partsOf]; exact percentDecode_encode _
  order := by simp only [partsOf, group_fst]; exact signedNames_lt _
  names := fun name => by simp only [partsOf, group_fst]; exact mem_signedNames_iff o name
  values := fun line hl => by
    rw [partsOf_headers, List.mem_map] at hl
    obtain ⟨n, _, rfl⟩ := hl
    rfl

/-- C54. The signature in a returned URL is the key owner's signature of the string to sign that belongs to the
request asked for and to this very URL; for a bound token it is the answer to the last request of the call itself, whatever other calls do meanwhile. The credential
names an identity of the key. -/
theorem C54_url_own_signature (h : Sys.Reach env base s) {pre post : List Event} {i : Nat} {o : UrlOptions} {url : Str}
    (ht : s.trace = pre ++ .returned i (.url (.ok url)) :: post) (hst : .started i (.url o) ∈ pre) :
    ∃ p : SignedParts, ∃ hex signature email t,
      url = s% "https://storage.googleapis.com" ++ p.path ++ s% "?" ++ p.query ++ s% "&X-Goog-Signature=" ++ hex ∧
      hexDecode hex = some signature ∧
      SignedIn env (did pre i) o.signingKey (utf8 (p.stringToSign)) signature ∧
      ValidFrom o.accessibleAt (did pre i) t ∧ PartsFor o t p ∧
      IdentityIn base pre o.signingKey email ∧
      (utf8 (s% "X-Goog-Credential"), percentDecode (email ++ s% "/" ++ p.date.take 8 ++ s% "/" ++
        o.region.getD (s% "auto") ++ s% "/storage/goog4_request")) ∈ queryParams (urlQuery url) := by
  obtain ⟨call, hst', hb, hd⟩ := returned_done h ht
  have : call = .url o := started_unique h (i := i) (by rw [ht]; simp [hst']) (by rw [ht]; simp [hst])
  subst this
  obtain ⟨t, email, digest, hd⟩ := hd
  obtain ⟨h1, hp, hn⟩ := hd.named
  have hr : 0 ≤ t ∧ t < endOf9999 := by
    have := hd.accepted
    unfold urlRejection at this
    split at this
    · cases this
    · rename_i hr
      omega
  have hq := urlQuery_decoded (env := env) (o := o) hr (email := email) digest
  rw [← hd.url_eq] at hq
  have halg : o.signingKey.xGoogAlgorithm.asStr = s% "GOOG4-RSA-SHA256" := by
    rcases hd.usable with ⟨_, _, hk, _⟩ | ⟨_, hk, _⟩ <;> rw [hk] <;> rfl
  refine ⟨partsOf env o t email, hexEncode digest, digest, email, t, hd.url_eq, hexDecode_hexEncode _, hd.signed, hd.time,
    partsOf_for hr email halg, named_identity h ht hb hp hn, ?_⟩
  rw [hq.mem_iff]
  simp only [List.append_assoc, List.mem_append, List.mem_cons]
  exact .inr (.inr (.inr (.inl (by simp [credentialOf, partsOf]))))

/-- C54. The signature in a returned form is the key owner's signature of this very form's policy; for a bound token it
is the answer to the last request of the call itself. The credential names an identity of the key. -/
theorem C54_form_own_signature (h : Sys.Reach env base s) {pre post : List Event} {i : Nat} {cs : List Call}
    {o : SigningOptions} {fs : List (Str × Str)}
    (ht : s.trace = pre ++ .returned i (.form (.ok fs)) :: post) (hst : .started i (.form cs) ∈ pre)
    (ho : (cs.filterMap callOptions).getLast? = some o) :
    ∃ policy hex signature email date, fieldValues fs (s% "policy") = [policy] ∧
      fieldValues fs (s% "x-goog-signature") = [hex] ∧ hexDecode hex = some signature ∧
      SignedIn env (did pre i) o.signingKey (utf8 policy) signature ∧
      IdentityIn base pre o.signingKey email ∧ fieldValues fs (s% "x-goog-date") = [date] ∧
      fieldValues fs (s% "x-goog-credential") =
        [email ++ s% "/" ++ date.take 8 ++ s% "/" ++ o.region.getD (s% "auto") ++ s% "/storage/goog4_request"] := by
  obtain ⟨call, hst', hb, hd⟩ := returned_done h ht
  have : call = .form cs := started_unique h (i := i) (by rw [ht]; simp [hst']) (by rw [ht]; simp [hst])
  subst this
  have hopt := (ofCalls_spec cs).options.trans ho
  obtain ⟨p, t, email, bucket, key, digest, hd', rfl⟩ := hd.1 o hopt
  obtain ⟨h1, hp, hn⟩ := hd'.named
  have hb' : ∀ bt, o.signingKey.boundToken? = some bt → bt.baseUrl = base bt.id := by
    intro bt hk
    exact hb bt (by simp [ApiCall.key?, hopt, hk])
  refine ⟨p.policy, p.signature, digest, email, p.date, values_policy _ _ _, values_signature _ _ _, ?_, hd'.signed,
    named_identity h ht hb' hp hn, values_date _ _ _, ?_⟩
  · rw [hd'.fields]; exact hexDecode_hexEncode _
  · have hr : (UnixTimestamp.mk (t / nsPerSec)).InRange := by
      have := hd'.range
      unfold UnixTimestamp.InRange nsPerSec
      simp only [endOf9999] at this ⊢
      omega
    have hdt : (Date.fromUnixTimestamp ⟨t / nsPerSec⟩).toStr = p.date.take 8 := by
      rw [hd'.fields]
      simp only [policyFields]
      rw [date_eq _ hr, toIso8601_eq _ hr]
      simp [DateTime.basic, DateTime.yyyymmdd, d4, d2]
    rw [values_credential, hd'.fields]
    rw [hd'.fields] at hdt
    simp only [policyFields] at hdt ⊢
    simp [CredentialScope.toStr, hdt]
    rfl

/-- C54, C42. If every refresh of a bound token got the same account, then under any interleaving the credential of a
returned URL or form and the account that is asked to sign it are that account. -/
theorem C54_one_account (h : Sys.Reach env base s) {pre post : List Event} (ht : s.trace = pre ++ post) {i : Nat}
    {bt : BoundToken} (hb : bt.baseUrl = base bt.id) {account : Str}
    (hone : ∀ j c t0 life, Refreshed (base bt.id) pre j bt.id c t0 life → c.email = account) :
    (∀ email, IdentityIn base pre (.boundToken bt) email → email = account) ∧
    ∀ m sg, SignedIn env (did pre i) (.boundToken bt) m sg → ∃ before token body status text,
      did pre i = before ++ [.sent (signBlobPost account token body), .status (some status), .body (some text)] := by
  refine ⟨?_, ?_⟩
  · rintro email ⟨j, c, t0, life, h1, h2⟩
    rw [← h2]; exact hone j c t0 life h1
  · rintro m sg ⟨before, email, token, body, _, status, text, _, hd, hg, _⟩
    rw [hb] at hg
    obtain ⟨j, c, t0, life, h1, h2, _⟩ := gotPair_refreshed h ht (i := i) ⟨_, hd.symm⟩ hg
    have := hone j c t0 life h1
    rw [h2] at this
    subst this
    exact ⟨before, token, body, status, text, hd⟩

open Conformance in
/-- Non-vacuity of C54: a URL and a form are returned by two calls that ran at the same time, with different answers of
the signing service. -/
example : ∃ s, Sys.Reach btEnv baseOf s ∧ (returnedOk s 0 && returnedOk s 1 &&
    s.trace.any (fun
      | .returned 0 (.url (.ok url)) => (s% "000001ff").drop 2 == url.drop (url.length - 6)
      | _ => false) &&
    s.trace.any (fun
      | .returned 1 (.form (.ok fs)) => fieldValues fs (s% "x-goog-signature") == [s% "010203"]
      | _ => false)) = true :=
  leads_reach (ms := finished) (by decide +kernel)

end CSS
