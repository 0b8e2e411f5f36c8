import Verif.Spec.SignedAccess
import Verif.Props.SigningRequests
import Verif.Props.Storage
/-
C84: what the signing service is asked to sign, in a history of concurrent calls, opens nothing but what the calls were asked for.
-/
set_option linter.unusedSimpArgs false
namespace CSS
open Spec

variable {env : Env} {base : Nat → Str} {s : Sys}

theorem validFrom_append {given : Option Time} {h : List Ev} {t : Time} (hv : ValidFrom given h t) (more : List Ev) :
    ValidFrom given (h ++ more) t := by
  rcases hv with hv | ⟨hg, hv⟩
  · exact .inl hv
  · refine .inr ⟨hg, ?_⟩
    cases h with
    | nil => cases hv
    | cons a b => exact hv

theorem mem_after {l pre post : List Event} {a b : Event} (h : l = pre ++ a :: post) (hb : b ∈ l) (hne : b ≠ a) :
    b ∈ post ∨ ∃ p q, l = p ++ b :: q ∧ a ∈ q := by
  subst h
  rcases List.mem_append.1 hb with hb | hb
  · obtain ⟨x, y, rfl⟩ := List.append_of_mem hb
    exact .inr ⟨x, y ++ a :: post, by simp, by simp⟩
  · rcases List.mem_cons.1 hb with hb | hb
    · exact absurd hb hne
    · exact .inl hb

/-- A call asks for the signature of one text only. -/
theorem asked_unique (h : Sys.Reach env base s) {i : Nat} {a b : Str} (ha : Asked s.trace i a) (hb : Asked s.trace i b) : a = b := by
  obtain ⟨e1, t1, b1, p1, m1, j1, d1⟩ := ha
  obtain ⟨e2, t2, b2, p2, m2, j2, d2⟩ := hb
  have hr : signBlobPost e2 t2 b2 = signBlobPost e1 t1 b1 := by
    apply Classical.byContradiction
    intro hne
    obtain ⟨pre, post, ht⟩ := List.append_of_mem m1
    rcases mem_after ht m2 (by simpa using hne) with hm | ⟨p, q, ht', hm⟩
    · exact C80_once h ht rfl _ hm
    · exact C80_once h ht' rfl _ hm
  have hbody : b2 = b1 := by
    have := congrArg Request.body hr
    simpa [signBlobPost] using this
  subst hbody
  have := jsonText_unique j1 j2
  simp only [Json.obj.injEq, List.cons.injEq, Prod.mk.injEq, Json.str.injEq, and_true, true_and] at this
  subst this
  rw [d1, Option.some.injEq] at d2
  exact utf8_inj d2

/-- The call got its pair before the last steps, if these do not leave a critical section. -/
theorem gotPair_before {b : Str} {id : Nat} {h1 h more : List Ev} {email token : Str} (hg : GotPair b id h1 email token)
    (hp : h1 <+: h ++ more) (hm : .unlocked id ∉ more) : h1 <+: h := by
  have hlast : h1.getLast? = some (.unlocked id) := by
    rcases hg with ⟨before, c, t, rfl, _⟩ | ⟨before, steps, c, t0, life, rfl, _⟩ <;> simp
  rcases Nat.le_total h1.length h.length with hl | hl
  · exact List.prefix_of_prefix_length_le hp (List.prefix_append _ _) hl
  · obtain ⟨k, rfl⟩ := List.prefix_of_prefix_length_le (List.prefix_append h more) hp hl
    rw [List.prefix_append_right_inj] at hp
    cases k with
    | nil => simp
    | cons a k =>
      rw [List.getLast?_append, Option.or_of_isSome (by simp)] at hlast
      exact absurd (hp.subset (List.mem_of_getLast? hlast)) hm

/-- Every refresh of the key's bound token got this account. -/
def Spec.AccountOf (base : Nat → Str) (trace : List Event) (key : SigningKey) (account : Str) : Prop :=
  ∃ bt, key = .boundToken bt ∧ ∀ j c t0 life, Refreshed (base bt.id) trace j bt.id c t0 life → c.email = account

theorem account_named (h : Sys.Reach env base s) {pre post : List Event} (ht : s.trace = pre ++ post) {i : Nat} {key : SigningKey}
    (hb : ∀ bt, key.boundToken? = some bt → bt.baseUrl = base bt.id) {account : Str} (ha : AccountOf base pre key account)
    {h1 : List Ev} {email : Str} (hp : h1 <+: did pre i) (hn : Named key h1 email) : email = account := by
  obtain ⟨bt, rfl, hone⟩ := ha
  obtain ⟨j, c, t0, life, hr, rfl⟩ := named_identity h ht hb hp hn
  exact hone j c t0 life hr

theorem accountOf_before {pre post : List Event} {key : SigningKey} {account : Str} (ha : AccountOf base (pre ++ post) key account) :
    AccountOf base pre key account := by
  obtain ⟨bt, rfl, hone⟩ := ha
  exact ⟨bt, rfl, fun j c t0 life hr => hone j c t0 life (refreshed_append hr)⟩

/-- What is known of a URL call that has asked for a signature. -/
structure UrlAsked (env : Env) (base : Nat → Str) (trace : List Event) (i : Nat) (o : UrlOptions) (p : SignedParts) (t : Time)
    (url : Str) : Prop where
  time : ValidFrom o.accessibleAt (did trace i) t
  would : WouldReturn env base trace i (.url (.ok url))
  parts : ∃ hex, url = p.url hex
  named : ∃ env' em, SameComputation env' env ∧ p = partsOf env' o t em ∧ ∀ account, AccountOf base trace o.signingKey account → em = account
  asks : ∀ (account : Str) (n e : Nat) (r : Incoming), '\n' ∉ url → (∀ h ∈ o.headers, '%' ∉ h.1) → Accepts account n e r → OneLine r →
    (∀ canonical message, r.Rebuilds account canonical message → message = p.stringToSign ∧ NoCollision canonical p.canonicalRequest) →
    AsksFor o t url r

theorem url_asked (h : Sys.Reach env base s) {i : Nat} {o : UrlOptions} {text : Str} (hst : .started i (.url o) ∈ s.trace)
    (ha : Asked s.trace i text) : ∃ p t url, p.stringToSign = text ∧ UrlAsked env base s.trace i o p t url := by
  obtain ⟨email, token, body, payload, hm, hj, hd⟩ := ha
  obtain ⟨pre, post, ht⟩ := List.append_of_mem hm
  have hst' : .started i (.url o) ∈ pre := by
    obtain ⟨bt, ⟨call, hc, _⟩, _⟩ := C40_history h ht
    have : call = .url o := started_unique h (i := i) (by rw [ht]; simp [hc]) hst
    exact this ▸ hc
  obtain ⟨_, _, _, _, p, _, _, _, _, _, _, s', answer, hex, hre, ht'⟩ := C80_url_message h ht rfl hst'
  have hsplit : s'.trace = (pre ++ [.did i (.sent (signBlobPost email token body)), .did i (.status (some 200)),
      .did i (.body (some answer))]) ++ .returned i (.url (.ok (p.url hex))) :: [] := by rw [ht']; simp
  obtain ⟨env', w, w', email', hsame, hv', hb, ⟨h1, hp1, hn1⟩, hau, hsi⟩ := url_replay_signed hre hsplit (List.mem_append_left _ hst')
  obtain ⟨em, digest, hrej, htr, hu, hs, hauth, hval, halg⟩ := signed_ok hb
  have hsigned := hs
  obtain ⟨hex', sg, _, _, _, hsg⟩ := hsigned
  have hin := hsi _ _ hsg
  have hmsg : (partsOf env' o (validFrom env' o.accessibleAt w) em).stringToSign = text := by
    rw [did_mid] at hin
    cases hk : o.signingKey with
    | boundToken bt =>
      rw [hk] at hin
      obtain ⟨before, em', token', body', payload', _, _, _, he, _, _, _, hj'', hd'', _⟩ := hin
      have := (List.append_inj' he rfl).2
      simp only [List.cons.injEq, Ev.sent.injEq] at this
      have hbody : body = body' := by
        have := congrArg Request.body this.1
        simpa [signBlobPost] using this
      subst hbody
      have := jsonText_unique hj hj''
      simp only [Json.obj.injEq, List.cons.injEq, Prod.mk.injEq, Json.str.injEq, and_true, true_and] at this
      subst this
      rw [hd, Option.some.injEq] at hd''
      exact (utf8_inj hd'').symm
    | hmac a b => rw [hk] at hin; exact hin.elim
    | serviceAccount a b =>
      exfalso
      obtain ⟨bt, ⟨call, hc, hkey⟩, _⟩ := C40_history h ht
      have : call = .url o := started_unique h (i := i) (by rw [ht]; simp [hc]) hst
      subst this
      simp [ApiCall.key?, hk, SigningKey.boundToken?] at hkey
  refine ⟨partsOf env' o (validFrom env' o.accessibleAt w) em, validFrom env' o.accessibleAt w, p.url hex, hmsg, ?_, ?_, ⟨_, hu⟩,
    ⟨env', em, hsame, rfl, ?_⟩, ?_⟩
  · rw [did_mid] at hv'
    rw [ht, did_append]
    exact validFrom_append (validFrom_before hv' (by simp)) _
  · exact ⟨pre, _, post, s', answer, ht, hre, ht'⟩
  · intro account hacc
    rw [ht] at hacc
    have hacc' := accountOf_before hacc
    rw [hau em hauth]
    obtain ⟨call, hcall, hbase, _⟩ := returned_done hre hsplit
    have : call = .url o := started_unique hre (i := i) (by rw [hsplit]; exact List.mem_append_left _ hcall)
      (by rw [ht']; exact List.mem_append_left _ hst')
    subst this
    refine account_named hre ht' hbase hacc' (i := i) (h1 := h1) ?_ hn1
    obtain ⟨bt, hk, _⟩ := hacc'
    rw [hk] at hn1
    obtain ⟨tk, hg⟩ := hn1
    rw [did_mid] at hp1
    exact gotPair_before hg hp1 (by simp)
  · intro account n e r hlf hpct hacc hr hunf
    obtain ⟨path, date, region, life, sh, hex', sg', start, seconds, a1, _, a3, a4, a5, a6, a7, _, a9, a10, a11, _, a13, a14, a15,
      a16⟩ := hacc
    obtain ⟨hmsg, hnc2⟩ := hunf _ _ ⟨path, date, region, sh, a1, a3, a4, a11, rfl, rfl⟩
    rw [hu] at hlf ⊢
    exact asks_of_message htr hrej halg hval hlf hpct hr a1 a5 a6 a7 a9 a10 a11 a13 hmsg hnc2

/-- What is known of a form call that has asked for a signature. -/
theorem form_asked (h : Sys.Reach env base s) {i : Nat} {cs : List Call} {text : Str} (hst : .started i (.form cs) ∈ s.trace)
    (ha : Asked s.trace i text) : ∃ o fs env' w w', (cs.filterMap callOptions).getLast? = some o ∧
      (Builder.ofCalls cs).build env' w = (.ok fs, w') ∧ fieldValues fs (s% "policy") = [text] ∧
      ValidFrom o.accessibleAt (did s.trace i) (validFrom env' o.accessibleAt w) ∧
      WouldReturn env base s.trace i (.form (.ok fs)) := by
  obtain ⟨email, token, body, payload, hm, hj, hd⟩ := ha
  obtain ⟨pre, post, ht⟩ := List.append_of_mem hm
  obtain ⟨bt, ⟨call, hc, hkey⟩, _⟩ := C40_history h ht
  have : call = .form cs := started_unique h (i := i) (by rw [ht]; simp [hc]) hst
  subst this
  obtain ⟨_, _, body', payload', policy, fs, hr, hj', hd', hp, s', answer, hre, ht'⟩ := C80_form_message h ht rfl hc
  have hbody : body = body' := by
    have := congrArg Request.body hr
    simpa [signBlobPost] using this
  subst hbody
  have := jsonText_unique hj hj'
  simp only [Json.obj.injEq, List.cons.injEq, Prod.mk.injEq, Json.str.injEq, and_true, true_and] at this
  subst this
  rw [hd, Option.some.injEq] at hd'
  have htext := utf8_inj hd'
  subst htext
  have hopt := (ofCalls_spec cs).options
  cases ho : (cs.filterMap callOptions).getLast? with
  | none => rw [ho] at hopt; simp [ApiCall.key?, hopt] at hkey
  | some o =>
    have hsplit : s'.trace = (pre ++ [.did i (.sent (signBlobPost email token body)), .did i (.status (some 200)),
        .did i (.body (some answer))]) ++ .returned i (.form (.ok fs)) :: [] := by rw [ht']; simp
    obtain ⟨env', w, w', _, _, hv, hb, _⟩ := form_replay_signed hre hsplit (List.mem_append_left _ hc) ho
    refine ⟨o, fs, env', w, w', rfl, hb, hp, ?_, pre, _, post, s', answer, ht, hre, ht'⟩
    rw [did_mid] at hv
    rw [ht, did_append]
    exact validFrom_append (validFrom_before hv (by simp)) _

theorem validFrom_unique {given : Option Time} {h more : List Ev} {t t' : Time} (ht : ValidFrom given h t)
    (ht' : ValidFrom given (h ++ more) t') : t = t' := by
  have := validFrom_append ht more
  rcases this with h1 | ⟨g1, h1⟩ <;> rcases ht' with h2 | ⟨g2, h2⟩
  · rw [h1] at h2; simpa using h2
  · rw [h1] at g2; cases g2
  · rw [h2] at g1; cases g1
  · rw [h1] at h2; simpa using h2

/-- What a call returned with a bound token, it has asked to be signed. -/
theorem signedIn_asked {tr post : List Event} {i : Nat} {bt : BoundToken} {text : Str} {sg : Bytes}
    (h : SignedIn env (did tr i) (.boundToken bt) (utf8 text) sg) : Asked (tr ++ post) i text := by
  obtain ⟨before, email, token, body, payload, status, txt, blob, hd, _, _, _, hj, hp, _⟩ := h
  have hm : Ev.sent (signBlobPost email token body) ∈ did tr i := by rw [hd]; simp
  exact ⟨email, token, body, payload, List.mem_append_left _ (mem_did hm), hj, hp⟩

theorem url_honest (h : Sys.Reach env base s) {i : Nat} {o : UrlOptions} {url account : Str} {p : SignedParts} (hst : .started i (.url o) ∈ s.trace)
    (hret : .returned i (.url (.ok url)) ∈ s.trace)
    (hp : ∀ text, Asked s.trace i text → p.stringToSign = text ∧ ∃ t url, UrlAsked env base s.trace i o p t url)
    (hacc : AccountOf base s.trace o.signingKey account) (hr : Regular o) (hpct : '%' ∉ account) (hlf : '\n' ∉ url) (time : Int) :
    OneLine (theRequest o url time) ∧ ∀ c m, (theRequest o url time).Rebuilds account c m → Asked s.trace i m ∧ c = p.canonicalRequest := by
  obtain ⟨pre, post, ht⟩ := List.append_of_mem hret
  obtain ⟨call, hst', hbase, _⟩ := returned_done h ht
  have : call = .url o := started_unique h (i := i) (by rw [ht]; exact List.mem_append_left _ hst') hst
  subst this
  obtain ⟨env', w, w', email, hsame, hv, hb, ⟨h1, hp1, hn1⟩, hau, hsi⟩ := url_replay_signed h ht hst'
  obtain ⟨em, digest, hrej, htr, hu, hs, hauth, hval, halg⟩ := signed_ok hb
  have hem : em = account := by
    rw [hau em hauth]
    exact account_named h ht hbase (accountOf_before (post := .returned i (.url (.ok url)) :: post) (ht ▸ hacc)) hp1 hn1
  subst hem
  obtain ⟨bt, hk, _⟩ := id hacc
  have hsigned := hs
  obtain ⟨hex', sg, _, _, _, hsg⟩ := hsigned
  have hin := hsi _ _ hsg
  rw [hk] at hin
  have hask := signedIn_asked (post := .returned i (.url (.ok url)) :: post) hin
  rw [← ht] at hask
  obtain ⟨_, t, url', hua⟩ := hp _ hask
  obtain ⟨env'', em', hsame', hpe, hone⟩ := hua.named
  have hem' := hone em hacc
  subst hem'
  have htime : t = validFrom env' o.accessibleAt w := by
    have h2 := hua.time
    rw [ht, did_append] at h2
    exact (validFrom_unique hv h2).symm
  have hpeq : p = partsOf env' o (validFrom env' o.accessibleAt w) em' := by
    rw [hpe, htime, partsOf_congr hsame', partsOf_congr hsame]
  refine ⟨⟨?_, hlf, ?_⟩, ?_⟩
  · obtain ⟨_, _, _, _, hm, _, _⟩ := urlRejection_none.1 hrej
    exact methods_no_lf hm
  · intro x hx hm
    rcases List.mem_cons.1 hx with rfl | hx
    · exact absurd hm (by decide)
    · exact plain_no_lf (headerValues_plain hval (asciiLower x.1) x.2 (by
        unfold headerValues requestHeaders
        exact List.mem_map.2 ⟨x, List.mem_filter.2 ⟨List.mem_cons_of_mem _ hx, by simp⟩, rfl⟩)) hm
  · intro c m hreb
    rw [hu] at hreb
    obtain ⟨h1, h2⟩ := rebuilds_parts htr digest hrej hr.toPlain hpct hreb
    rw [hpeq, h1, h2]
    refine ⟨?_, canonical_parts htr digest hr _⟩
    have := message_parts (env := env') htr (email := em') digest hr halg time
    exact this.symm ▸ hask

theorem asked_call (h : Sys.Reach env base s) {i : Nat} {text : Str} (ha : Asked s.trace i text) :
    ∃ call, .started i call ∈ s.trace := by
  obtain ⟨email, token, body, payload, hm, hj, hd⟩ := ha
  obtain ⟨pre, post, ht⟩ := List.append_of_mem hm
  obtain ⟨bt, ⟨call, hc, hkey⟩, _⟩ := C40_history h ht
  exact ⟨call, by rw [ht]; simp [hc]⟩

/-- What somebody sends to the storage server was signed for the calls: the text whose signature the server checks is one that
a call has asked the signing service to sign, and the canonical request does not collide with the one of that call. -/
def Spec.SignedForCalls (trace : List Event) (account : Str) (parts : Nat → SignedParts) : Sent → Prop
  | .request r _ => OneLine r ∧ ∀ canonical message, r.Rebuilds account canonical message →
    ∃ i, Asked trace i message ∧ NoCollision canonical (parts i).canonicalRequest
  | .form r _ _ => ∀ policy ∈ fieldValues r.fields (s% "policy"), ∃ i, Asked trace i policy

/-- It is what a call was asked for: the request of the URL that the call returns, or the form that the call returns, if the
signing service answers it. -/
def Spec.AskedOf (env : Env) (base : Nat → Str) (trace : List Event) : Sent → Prop
  | .request r _ => ∃ i o start url, .started i (.url o) ∈ trace ∧ ValidFrom o.accessibleAt (did trace i) start ∧
    WouldReturn env base trace i (.url (.ok url)) ∧ AsksFor o start url r
  | .form r _ _ => ∃ i cs o start fs, .started i (.form cs) ∈ trace ∧ (cs.filterMap callOptions).getLast? = some o ∧
    ValidFrom o.accessibleAt (did trace i) start ∧ WouldReturn env base trace i (.form (.ok fs)) ∧
    Submits cs start o.expiration fs r

/-- The URLs of the calls can be requested: no line feeds (C28), and header names as in C20. -/
def Spec.Requestable (env : Env) (base : Nat → Str) (trace : List Event) : Prop :=
  ∀ i o, .started i (.url o) ∈ trace → (∀ h ∈ o.headers, '%' ∉ h.1) ∧
    ∀ url, WouldReturn env base trace i (.url (.ok url)) → '\n' ∉ url

/-- `parts` are what each URL call has asked to be signed. -/
structure Spec.PartsAsked (env : Env) (base : Nat → Str) (trace : List Event) (parts : Nat → SignedParts) : Prop where
  /-- The text is theirs, and the call returns their URL if it is answered. -/
  signed : ∀ i o text, .started i (.url o) ∈ trace → Asked trace i text → text = (parts i).stringToSign ∧
    ∃ hex, WouldReturn env base trace i (.url (.ok ((parts i).url hex)))
  /-- What is requested with a returned URL, as it is meant, was signed for the calls. -/
  urls : ∀ i o url account time body, .started i (.url o) ∈ trace → .returned i (.url (.ok url)) ∈ trace →
    AccountOf base trace o.signingKey account → Regular o → '%' ∉ account → '\n' ∉ url →
    SignedForCalls trace account parts (.request (theRequest o url time) body)
  /-- What is posted with a returned form was signed for the calls. -/
  forms : ∀ i cs o fs account r filename file, .started i (.form cs) ∈ trace → (cs.filterMap callOptions).getLast? = some o →
    .returned i (.form (.ok fs)) ∈ trace → AccountOf base trace o.signingKey account → r.fields = fs →
    SignedForCalls trace account parts (.form r filename file)

theorem form_honest (h : Sys.Reach env base s) {i : Nat} {cs : List Call} {o : SigningOptions} {fs : List (Str × Str)} {account : Str}
    (hst : .started i (.form cs) ∈ s.trace) (ho : (cs.filterMap callOptions).getLast? = some o)
    (hret : .returned i (.form (.ok fs)) ∈ s.trace) (hacc : AccountOf base s.trace o.signingKey account) :
    ∀ policy ∈ fieldValues fs (s% "policy"), Asked s.trace i policy := by
  obtain ⟨pre, post, ht⟩ := List.append_of_mem hret
  obtain ⟨call, hst', hbase, _⟩ := returned_done h ht
  have : call = .form cs := started_unique h (i := i) (by rw [ht]; exact List.mem_append_left _ hst') hst
  subst this
  obtain ⟨bt, hk, _⟩ := hacc
  obtain ⟨policy, hex, sg, email, date, h1, _, _, h2, _⟩ := C54_form_own_signature h ht hst' ho
  rw [hk] at h2
  rw [h1, ht]
  intro p hp
  rw [List.mem_singleton.1 hp]
  exact signedIn_asked h2

/-- A URL has a line feed only if a parameter, the region or the e-mail has one. -/
theorem url_no_lf {o : UrlOptions} {w w' : World} {url : Str} (h : buildSignedUrl env o w = (.ok url, w')) (hb : '?' ∉ o.bucketName)
    (ho : '?' ∉ o.objectName) (hpar : ∀ p ∈ o.queryParameters, '\n' ∉ p.1 ∧ '\n' ∉ p.2) (hreg : '\n' ∉ o.region.getD (s% "auto"))
    (hem : ∀ email, Authorizes env w w'.log o.signingKey email → '\n' ∉ email) : '\n' ∉ url := by
  obtain ⟨email, digest, hrej, ht, hu, _, hauth, _, halg⟩ := signed_ok h
  have hem := hem email hauth
  have hdate : '\n' ∉ UnixTimestamp.toIso8601 ⟨validFrom env o.accessibleAt w / nsPerSec⟩ := by
    obtain ⟨dt, _, e, _⟩ := iso_chars _ ht
    rw [e]
    exact basic_no (by decide) (by decide) (by decide) dt
  have hnames : '\n' ∉ join (s% ";") (signedNames o.headers) := by
    obtain ⟨_, _, _, _, _, _, hn⟩ := urlRejection_none.1 hrej
    have := names_no_lf (env := env) (o := o) (t := 0) (email := []) fun x hx => (hn x hx).1
    rwa [show (partsOf env o 0 []).headers.map (·.1) = signedNames o.headers by simp only [partsOf, group_fst]] at this
  have hreq : ∀ p ∈ required o (validFrom env o.accessibleAt w) email, '\n' ∉ p.1 ∧ '\n' ∉ p.2 := by
    rw [required_eq o _ ht]
    simp only [List.forall_mem_cons]
    refine ⟨⟨by decide, by rw [halg]; decide⟩, ⟨by decide, ?_⟩, ⟨by decide, hdate⟩, ⟨by decide, ?_⟩, ⟨by decide, hnames⟩, by simp⟩
    · intro hm
      obtain ⟨d, hd, hm⟩ := List.mem_flatMap.1 hm
      split at hm
      · exact absurd hm (by decide)
      · rw [List.mem_singleton] at hm
        subst hm
        unfold credentialOf at hd
        simp only [List.mem_append] at hd
        rcases hd with ((((hd | hd) | hd) | hd) | hd) | hd
        · exact hem hd
        · exact absurd hd (by decide)
        · exact hdate (List.mem_of_mem_take hd)
        · exact absurd hd (by decide)
        · exact hreg hd
        · exact absurd hd (by decide)
    · intro hm
      exact absurd (natDec_digits _ _ hm) (by decide)
  have hq : '\n' ∉ (partsOf env o (validFrom env o.accessibleAt w) email).query := by
    rw [partsOf_query]
    intro hm
    rcases mem_join hm with hm | ⟨x, hx, hm⟩
    · exact absurd hm (by decide)
    · rw [mem_sortStr, List.mem_map] at hx
      obtain ⟨p, hp, rfl⟩ := hx
      have hp' : '\n' ∉ p.1 ∧ '\n' ∉ p.2 := by
        unfold allParams at hp
        rw [objectUrl_query_none hb ho] at hp
        rcases List.mem_append.1 hp with hp | hp
        · rcases List.mem_append.1 hp with hp | hp
          · exact absurd hp (by rw [show formParse (utf8 (none.getD [])) = [] from formParse_nil]; simp)
          · exact hpar p hp
        · exact hreq p hp
      unfold canonicalItem at hm
      simp only [List.mem_append, List.mem_singleton] at hm
      rcases hm with (hm | hm) | hm
      · exact encode_no_lf hp'.1 hm
      · exact absurd hm (by decide)
      · exact encode_no_lf hp'.2 hm
  have hpath : '\n' ∉ (objectUrl env o).path := by
    intro h
    have := (kept_path (normalPath_chars (objectUrl_normal env o).1 _ h)).1
    exact absurd this (by decide)
  rw [hu]
  unfold SignedParts.url
  simp only [List.mem_append, not_or]
  refine ⟨⟨⟨⟨⟨by decide, hpath⟩, by decide⟩, hq⟩, by decide⟩, fun hm => absurd (hexEncode_chars digest _ hm) (by decide)⟩

theorem identity_append {pre post : List Event} {key : SigningKey} {email : Str} (h : IdentityIn base pre key email) :
    IdentityIn base (pre ++ post) key email := by
  cases key with
  | boundToken bt =>
    obtain ⟨j, c, t0, life, h1, h2⟩ := h
    exact ⟨j, c, t0, life, refreshed_append h1, h2⟩
  | hmac a b => exact h
  | serviceAccount a b => exact h

/-- C84. When the URLs can be requested: if the options of the calls and the accounts of their keys have no line feeds, the
names no `?` and the header names no `%`. -/
theorem C84_requestable (h : Sys.Reach env base s) (hopt : ∀ i o, .started i (.url o) ∈ s.trace →
      '?' ∉ o.bucketName ∧ '?' ∉ o.objectName ∧ (∀ p ∈ o.queryParameters, '\n' ∉ p.1 ∧ '\n' ∉ p.2) ∧
      '\n' ∉ o.region.getD (s% "auto") ∧ (∀ h ∈ o.headers, '%' ∉ h.1) ∧
      ∀ email, IdentityIn base s.trace o.signingKey email → '\n' ∉ email) : Requestable env base s.trace := by
  intro i o hst
  obtain ⟨h1, h2, h3, h4, h5, h6⟩ := hopt i o hst
  refine ⟨h5, ?_⟩
  rintro url ⟨pre, r, post, s', answer, ht, hre, ht'⟩
  have hsplit : s'.trace = (pre ++ [.did i (.sent r), .did i (.status (some 200)), .did i (.body (some answer))]) ++
      .returned i (.url (.ok url)) :: [] := by rw [ht']; simp
  obtain ⟨bt, ⟨call, hc, hkey⟩, _⟩ := C40_history h ht
  have : call = .url o := started_unique h (i := i) (by rw [ht]; simp [hc]) hst
  subst this
  obtain ⟨call, hcall, hbase, _⟩ := returned_done hre hsplit
  have : call = .url o := started_unique hre (i := i) (by rw [hsplit]; exact List.mem_append_left _ hcall)
    (by rw [ht']; exact List.mem_append_left _ hc)
  subst this
  obtain ⟨env', w, w', email, _, _, hb, ⟨h1', hp1, hn1⟩, hau, _⟩ := url_replay_signed hre hsplit (List.mem_append_left _ hc)
  refine url_no_lf hb h1 h2 h3 h4 fun a ha => ?_
  rw [hau a ha]
  have hid : IdentityIn base pre o.signingKey email := by
    refine named_identity hre ht' hbase (i := i) (h1 := h1') ?_ hn1
    cases hk : o.signingKey with
    | boundToken bt' =>
      rw [hk] at hn1
      obtain ⟨tk, hg⟩ := hn1
      rw [did_mid] at hp1
      exact gotPair_before hg hp1 (by simp)
    | hmac a b => simp [ApiCall.key?, hk, SigningKey.boundToken?] at hkey
    | serviceAccount a b => simp [ApiCall.key?, hk, SigningKey.boundToken?] at hkey
  have := identity_append (post := .did i (.sent r) :: post) hid
  rw [← ht] at this
  exact h6 email this

/-- C84. In every history of concurrent calls: whatever the storage server accepts, if it was signed for the calls, it is what a
call was asked for. This holds also if the call failed or was dropped. -/
theorem C84_accepted (h : Sys.Reach env base s) (hq : Requestable env base s.trace) : ∃ parts : Nat → SignedParts,
    PartsAsked env base s.trace parts ∧
    ∀ account n e m, m.Accepted account n e → SignedForCalls s.trace account parts m → AskedOf env base s.trace m := by
  have key : ∀ i : Nat, ∃ p : SignedParts, ∀ o text, .started i (.url o) ∈ s.trace → Asked s.trace i text →
      p.stringToSign = text ∧ ∃ t url, UrlAsked env base s.trace i o p t url := by
    intro i
    by_cases hex : ∃ o text, .started i (.url o) ∈ s.trace ∧ Asked s.trace i text
    · obtain ⟨o, text, hst, ha⟩ := hex
      obtain ⟨p, t, url, h1, h2⟩ := url_asked h hst ha
      refine ⟨p, fun o' text' hst' ha' => ?_⟩
      have ho : o' = o := ApiCall.url.inj (started_unique h hst' hst)
      subst ho
      exact ⟨h1.trans (asked_unique h ha ha'), t, url, h2⟩
    · exact ⟨⟨[], [], [], [], [], [], [], []⟩, fun o text hst ha => absurd ⟨o, text, hst, ha⟩ hex⟩
  obtain ⟨parts, spec⟩ := Classical.axiomOfChoice key
  refine ⟨parts, ?_, ?_⟩
  · refine ⟨?_, ?_, ?_⟩
    · intro i o text hst ha
      obtain ⟨h1, t, url, h2⟩ := spec i o text hst ha
      obtain ⟨hex, he⟩ := h2.parts
      exact ⟨h1.symm, hex, he ▸ h2.would⟩
    · intro i o url account time body hst hret hacc hr hpct hlf
      obtain ⟨h1, h2⟩ := url_honest h hst hret (fun text ha => spec i o text hst ha) hacc hr hpct hlf time
      exact ⟨h1, fun c m hrb => ⟨i, (h2 c m hrb).1, fun _ => (h2 c m hrb).2⟩⟩
    · intro i cs o fs account r _ _ hst ho hret hacc hr policy hp
      exact ⟨i, form_honest h hst ho hret hacc policy (hr ▸ hp)⟩
  · intro account n e m hacc hsigned
    cases m with
    | request r body =>
      obtain ⟨hone, hsigned⟩ := hsigned
      obtain ⟨c, msg, hrb⟩ := accepts_rebuilds hacc
      obtain ⟨i, ha, hcol⟩ := hsigned c msg hrb
      obtain ⟨call, hst⟩ := asked_call h ha
      cases call with
      | url o =>
        obtain ⟨h1, t, url, h2⟩ := spec i o msg hst ha
        refine ⟨i, o, t, url, hst, h2.time, h2.would, h2.asks account n e r ((hq i o hst).2 url h2.would) (hq i o hst).1 hacc hone ?_⟩
        intro c' m' hrb'
        obtain ⟨e1, e2⟩ := rebuilds_unique hrb hrb'
        exact ⟨e1 ▸ h1.symm, e2 ▸ hcol⟩
      | form cs =>
        obtain ⟨o, fs, env', w, w', ho, hb, hp, _⟩ := form_asked h hst ha
        exact absurd rfl (C75_policy_is_no_message env' cs o w w' fs ho hb r account c msg hrb msg (by rw [hp]; exact List.mem_singleton.2 rfl))
    | form r filename file =>
      obtain ⟨hacc, _⟩ := hacc
      obtain ⟨policy, j, _, _, _, _, _, _, _, _, a1, a2, _⟩ := id hacc
      obtain ⟨i, ha⟩ := hsigned policy (by rw [a1]; exact List.mem_singleton.2 rfl)
      obtain ⟨call, hst⟩ := asked_call h ha
      cases call with
      | url o =>
        obtain ⟨h1, _⟩ := spec i o policy hst ha
        rw [← h1] at a2
        exact absurd (message_lf _ _ _ _) (policy_chars a2)
      | form cs =>
        obtain ⟨o, fs, env', w, w', ho, hb, hp, hv, hw⟩ := form_asked h hst ha
        exact ⟨i, cs, o, _, fs, hst, ho, hv, hw, C68_unforgeable env' cs o w w' fs n e ho hb account r hacc (by rw [a1, hp])⟩

theorem wouldReturn_built (h : Sys.Reach env base s) {i : Nat} {cs : List Call} {o : SigningOptions} {fs : List (Str × Str)}
    (hst : .started i (.form cs) ∈ s.trace) (hw : WouldReturn env base s.trace i (.form (.ok fs)))
    (ho : (cs.filterMap callOptions).getLast? = some o) : ∃ env' w w', (Builder.ofCalls cs).build env' w = (.ok fs, w') := by
  obtain ⟨pre, r, post, s', answer, ht, hre, ht'⟩ := hw
  obtain ⟨bt, ⟨call, hc, _⟩, _⟩ := C40_history h ht
  have : call = .form cs := started_unique h (i := i) (by rw [ht]; simp [hc]) hst
  subst this
  have hsplit : s'.trace = (pre ++ [.did i (.sent r), .did i (.status (some 200)), .did i (.body (some answer))]) ++
      .returned i (.form (.ok fs)) :: [] := by rw [ht']; simp
  obtain ⟨env', w, w', _, _, _, hb, _⟩ := form_replay_signed hre hsplit (List.mem_append_left _ hc) ho
  exact ⟨env', w, w', hb⟩

/-- C84. In every history of concurrent calls and every history of the storage server in which all that is accepted was signed
for the calls: the content of an object changes only by a request that a URL call was asked for, for this object (or its
bucket) and not a read, or by a form that a form call was asked for, for this name and a file of the given length. -/
theorem C84_changes (h : Sys.Reach env base s) (hq : Requestable env base s.trace) : ∃ parts : Nat → SignedParts,
    PartsAsked env base s.trace parts ∧
    ∀ account n e ms st st', Serves account n e ms st st' →
      (∀ m ∈ ms, m.Accepted account n e → SignedForCalls s.trace account parts m) →
      ∀ bucket object, st' bucket object ≠ st bucket object →
        (∃ r body i o start url, .request r body ∈ ms ∧ .started i (.url o) ∈ s.trace ∧ ¬ Reads o.httpMethod ∧
          ValidFrom o.accessibleAt (did s.trace i) start ∧ WouldReturn env base s.trace i (.url (.ok url)) ∧
          AsksFor o start url r ∧ (NamesObject url bucket object ∨ NamesBucket url bucket)) ∨
        ∃ r filename file i cs o start fs b key, .form r filename file ∈ ms ∧ .started i (.form cs) ∈ s.trace ∧
          (cs.filterMap callOptions).getLast? = some o ∧ ValidFrom o.accessibleAt (did s.trace i) start ∧
          WouldReturn env base s.trace i (.form (.ok fs)) ∧ Submits cs start o.expiration fs r ∧
          lastValue cs (s% "bucket") = some b ∧ lastValue cs (s% "key") = some key ∧ bucket = utf8 b ∧
          object = utf8 (expand filename key) ∧
          ∀ text, lastValue cs (s% "Content-Length") = some text → Decimal text file.length := by
  obtain ⟨parts, hp, hacc⟩ := C84_accepted h hq
  refine ⟨parts, hp, fun account n e ms st st' hs => ?_⟩
  induction hs with
  | done st => exact fun _ b k hne => absurd rfl hne
  | @next m ms st st' st'' hh _ ih =>
    intro hnf b k hne
    by_cases hch : st' b k = st b k
    · rcases ih (fun m' hm' => hnf m' (.tail _ hm')) b k (by rw [hch]; exact hne) with
        ⟨r, body, i, o, start, url, h1, h2⟩ | ⟨r, filename, file, i, cs, o, start, fs, b, key, h1, h2⟩
      · exact .inl ⟨r, body, i, o, start, url, .tail _ h1, h2⟩
      · exact .inr ⟨r, filename, file, i, cs, o, start, fs, b, key, .tail _ h1, h2⟩
    · have ha : m.Accepted account n e := Classical.byContradiction fun hr => hch (by rw [hh.rejected hr])
      have hmay := hh.others b k hch
      have huse := hacc account n e m ha (hnf m (.head _) ha)
      cases m with
      | request r body =>
        obtain ⟨i, o, start, url, hst, hv, hw, hask⟩ := huse
        refine .inl ⟨r, body, i, o, start, url, .head _, hst, hask.method ▸ hmay.1, hv, hw, hask, ?_⟩
        rw [← (asksFor_names hask (b := b) (k := k)).1, ← (asksFor_names hask (b := b) (k := k)).2]
        exact hmay.2
      | form r filename file =>
        obtain ⟨i, cs, o, start, fs, hst, ho, hv, hw, hsub⟩ := huse
        obtain ⟨hb, v, hv', hk⟩ := hmay
        have hkey : lastValue cs (s% "key") = some v := by
          obtain ⟨env', w, w', hbuild⟩ := wouldReturn_built h hst hw ho
          exact submitted_key ho hbuild hsub hv'
        exact .inr ⟨r, filename, file, i, cs, o, start, fs, r.bucket, v, .head _, hst, ho, hv, hw, hsub, hsub.bucket, hkey, hb, hk,
          fun text ht => ha.2 ▸ hsub.size text ht⟩

/-- C84. Likewise for reads: the server answers only a GET that a URL call was asked for, in its time, with the content of the
object of that URL. -/
theorem C84_reads (h : Sys.Reach env base s) (hq : Requestable env base s.trace) : ∃ parts : Nat → SignedParts,
    PartsAsked env base s.trace parts ∧
    ∀ account n e st r content, Answers account n e st r content → (∀ body, SignedForCalls s.trace account parts (.request r body)) →
      ∃ i o start url bucket object, .started i (.url o) ∈ s.trace ∧ o.httpMethod = s% "GET" ∧
        ValidFrom o.accessibleAt (did s.trace i) start ∧ WouldReturn env base s.trace i (.url (.ok url)) ∧
        start / 1000000000 ≤ r.time ∧ r.time * 1000000000 < o.expires ∧
        NamesObject url bucket object ∧ st bucket object = some content := by
  obtain ⟨parts, hp, hacc⟩ := C84_accepted h hq
  refine ⟨parts, hp, ?_⟩
  rintro account n e st r content ⟨ha, hm, _, b, k, hn, hc⟩ hnf
  obtain ⟨i, o, start, url, hst, hv, hw, hask⟩ := hacc account n e (.request r []) ha (hnf [])
  refine ⟨i, o, start, url, b, k, hst, hask.method.symm.trans hm, hv, hw, hask.time.1, ?_, (asksFor_names hask).1.1 hn, hc⟩
  have := hask.time
  omega

end CSS
