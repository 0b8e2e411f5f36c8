import Verif.Spec.KeyOwner
import Verif.Props.ConcurrentResults
import Verif.Props.Storage
/-
C83: in every history of concurrent calls, with a service account key or with a bound token, the storage server accepts what is
returned.
-/
namespace CSS
open Spec

/-- What the owner of the key has signed verifies, and the identity of the key is the owner. -/
theorem owner_signs (h : Sys.Reach env base s) {pre post : List Event} (ht : s.trace = pre ++ post) {i : Nat} {key : SigningKey}
    (hb : ∀ bt, key.boundToken? = some bt → bt.baseUrl = base bt.id) {account : Str} {n e : Nat}
    (ho : KeyOwner env base s.trace key account n e) :
    (∀ h1 email, h1 <+: did pre i → Named key h1 email → email = account) ∧
    ∀ m sg, SignedIn env (did pre i) key m sg → Rsa.Verifies n e m sg := by
  have hname : ∀ h1 email, h1 <+: did pre i → Named key h1 email → email = account := by
    intro h1 email hp hn
    have hid := named_identity h ht hb hp hn
    cases key with
    | boundToken bt =>
      obtain ⟨j, c, t0, life, hr, rfl⟩ := hid
      exact ho.1 j c t0 life (ht ▸ refreshed_append hr)
    | hmac a b => exact ho.elim
    | serviceAccount a b => exact hid.trans ho.1
  refine ⟨hname, fun m sg hs => ?_⟩
  cases key with
  | boundToken bt =>
    obtain ⟨before, email, token, body, payload, status, text, blob, hd, hg, h1, h2, h3, h4, h5, h6⟩ := hs
    have := hname before email ⟨_, hd.symm⟩ ⟨token, hg⟩
    subst this
    refine ho.2 i token body payload m status text blob sg ?_ h1 h2 h3 h4 h5 h6
    rw [ht, did_append, hd]
    exact ⟨before, did post i, by simp⟩
  | hmac a b => exact ho.elim
  | serviceAccount a b =>
    obtain ⟨_, hring, der, hder, hpub⟩ := ho
    obtain ⟨der', hder', hok, hsign⟩ := hs
    rw [hder, Option.some.injEq] at hder'
    subst hder'
    obtain ⟨n', e', hp, hv⟩ := hring _ _ _ hok hsign
    obtain ⟨rfl, rfl⟩ := publicKeyIn_unique hpub hp
    exact hv

/-- A returned URL, as the result of the call running alone, with signatures of the owner. -/
theorem url_replay_owned_same (h : Sys.Reach env base s) {o : UrlOptions} {url : Str} {hist : List Ev}
    (hret : ReturnedAfter s.trace (.url o) (.url (.ok url)) hist) {account : Str} {n e : Nat}
    (ho : KeyOwner env base s.trace o.signingKey account n e) :
    ∃ env' w w', SameComputation env' env ∧ ValidFrom o.accessibleAt hist (validFrom env' o.accessibleAt w) ∧ buildSignedUrl env' o w = (.ok url, w') ∧
      (∀ a, Authorizes env' w w'.log o.signingKey a → a = account) ∧
      ∀ m sg, Signs env' w'.log o.signingKey m sg → Rsa.Verifies n e m sg := by
  obtain ⟨i, pre, post, ht, hst, rfl⟩ := hret
  obtain ⟨call, hst', hb, _⟩ := returned_done h ht
  have : call = .url o := started_unique h (i := i) (by rw [ht]; simp [hst']) (by rw [ht]; simp [hst])
  subst this
  obtain ⟨env', w, w', email, hc, hv, hbuild, ⟨h1, hp, hn⟩, hau, hsi⟩ := url_replay_signed h ht hst
  obtain ⟨hname, hver⟩ := owner_signs h ht (i := i) hb ho
  exact ⟨env', w, w', hc, hv, hbuild, fun a ha => (hau a ha).trans (hname h1 email hp hn), fun m sg hs => hver m sg (hsi m sg hs)⟩

theorem url_replay_owned (h : Sys.Reach env base s) {o : UrlOptions} {url : Str} {hist : List Ev}
    (hret : ReturnedAfter s.trace (.url o) (.url (.ok url)) hist) {account : Str} {n e : Nat}
    (ho : KeyOwner env base s.trace o.signingKey account n e) :
    ∃ env' w w', ValidFrom o.accessibleAt hist (validFrom env' o.accessibleAt w) ∧ buildSignedUrl env' o w = (.ok url, w') ∧
      (∀ a, Authorizes env' w w'.log o.signingKey a → a = account) ∧
      ∀ m sg, Signs env' w'.log o.signingKey m sg → Rsa.Verifies n e m sg := by
  obtain ⟨env', w, w', _, hall⟩ := url_replay_owned_same h hret ho
  exact ⟨env', w, w', hall⟩

/-- A returned form, as the result of the call running alone, with signatures of the owner. -/
theorem form_replay_owned (h : Sys.Reach env base s) {cs : List Call} {fs : List (Str × Str)} {hist : List Ev} {o : SigningOptions}
    (hret : ReturnedAfter s.trace (.form cs) (.form (.ok fs)) hist) (hopt : (cs.filterMap callOptions).getLast? = some o)
    {account : Str} {n e : Nat} (ho : KeyOwner env base s.trace o.signingKey account n e) :
    ∃ env' w w', ValidFrom o.accessibleAt hist (validFrom env' o.accessibleAt w) ∧
      (Builder.ofCalls cs).build env' w = (.ok fs, w') ∧
      (∀ a, Authorizes env' w w'.log o.signingKey a → a = account) ∧
      ∀ m sg, Signs env' w'.log o.signingKey m sg → Rsa.Verifies n e m sg := by
  obtain ⟨i, pre, post, ht, hst, rfl⟩ := hret
  obtain ⟨call, hst', hb, _⟩ := returned_done h ht
  have : call = .form cs := started_unique h (i := i) (by rw [ht]; simp [hst']) (by rw [ht]; simp [hst])
  subst this
  have hb' : ∀ bt, o.signingKey.boundToken? = some bt → bt.baseUrl = base bt.id := by
    intro bt hk
    exact hb bt (by simp [ApiCall.key?, (ofCalls_spec cs).options.trans hopt, hk])
  obtain ⟨env', w, w', email, _, hv, hbuild, ⟨h1, hp, hn⟩, hau, hsi⟩ := form_replay_signed h ht hst hopt
  obtain ⟨hname, hver⟩ := owner_signs h ht (i := i) hb' ho
  exact ⟨env', w, w', hv, hbuild, fun a ha => (hau a ha).trans (hname h1 email hp hn), fun m sg hs => hver m sg (hsi m sg hs)⟩

/-- C83. In every history of concurrent calls, the server accepts a returned URL, with the requested method and the given
headers, exactly from the second at which it begins to be valid until it expires. -/
theorem C83_url_accepted_iff (h : Sys.Reach env base s) {o : UrlOptions} {url : Str} {hist : List Ev}
    (hret : ReturnedAfter s.trace (.url o) (.url (.ok url)) hist) (hr : Regular o) {account : Str} {n e : Nat}
    (ho : KeyOwner env base s.trace o.signingKey account n e) (hpct : '%' ∉ account) :
    ∃ start, ValidFrom o.accessibleAt hist start ∧ ∀ time : Int, Accepts account n e (theRequest o url time) ↔
      start / 1000000000 ≤ time ∧ time < start / 1000000000 + (o.expires - start) / 1000000000 := by
  obtain ⟨env', w, w', hv, hb, hau, hsi⟩ := url_replay_owned h hret ho
  refine ⟨_, hv, fun time => ⟨fun ha => ?_, fun ht => ?_⟩⟩
  · obtain ⟨h1, h2, _⟩ := C65_window env' o w w' url account n e _ hb rfl ha
    exact ⟨h1, h2⟩
  · obtain ⟨a, ha, hacc⟩ := C65_accepted env' o w w' url n e time hb hr hsi (fun a ha => hau a ha ▸ hpct) ht.1 ht.2
    exact hau a ha ▸ hacc

/-- C83. The same for forms, posted to the bucket in them: the server accepts a returned form exactly in its time, with a
file of the given length, if any, and if no metadata name was given two values. -/
theorem C83_form_accepted_iff (h : Sys.Reach env base s) {cs : List Call} {fs : List (Str × Str)} {hist : List Ev}
    {o : SigningOptions} (hret : ReturnedAfter s.trace (.form cs) (.form (.ok fs)) hist)
    (hopt : (cs.filterMap callOptions).getLast? = some o) {account : Str} {n e : Nat}
    (ho : KeyOwner env base s.trace o.signingKey account n e) :
    ∃ start, ValidFrom o.accessibleAt hist start ∧ ∀ r : Posted, r.fields = fs → lastValue cs (s% "bucket") = some r.bucket →
      (AcceptsPost account n e r ↔ start / 1000000000 ≤ r.time ∧ r.time < o.expiration / 1000000000 ∧
        (∀ text, lastValue cs (s% "Content-Length") = some text → Decimal text r.size) ∧
        ∀ m ∈ cs.filterMap callMeta, ∀ m' ∈ cs.filterMap callMeta, m.1 = m'.1 → m.2 = m'.2) := by
  obtain ⟨env', w, w', hv, hb, hau, hsi⟩ := form_replay_owned h hret hopt ho
  obtain ⟨a, ha, hacc⟩ := C67_accepted_iff env' cs o w w' fs n e hopt hb hsi
  rw [hau a ha] at hacc
  exact ⟨_, hv, hacc⟩

/-- C83. What is posted with a form that one call returned is what a GET of a URL that another call returned, for the same
bucket and name, answers with, as long as nothing changes the object in between. The two calls may run at the same time, and with
different keys of the same owner. -/
theorem C83_upload_download (h : Sys.Reach env base s) {cs : List Call} {fs : List (Str × Str)} {hist : List Ev}
    {fo : SigningOptions} {o : UrlOptions} {url : Str} {hist' : List Ev}
    (hform : ReturnedAfter s.trace (.form cs) (.form (.ok fs)) hist) (hopt : (cs.filterMap callOptions).getLast? = some fo)
    (hurl : ReturnedAfter s.trace (.url o) (.url (.ok url)) hist') (hp : PlainAccess o) (hget : o.httpMethod = s% "GET")
    {account : Str} {n e : Nat} (hfo : KeyOwner env base s.trace fo.signingKey account n e)
    (ho : KeyOwner env base s.trace o.signingKey account n e) (hpct : '%' ∉ account)
    (hbucket : lastValue cs (s% "bucket") = some o.bucketName) (hkey : lastValue cs (s% "key") = some o.objectName)
    (hvar : ¬ s% "${filename}" <:+: o.objectName)
    (hmeta : ∀ m ∈ cs.filterMap callMeta, ∀ m' ∈ cs.filterMap callMeta, m.1 = m'.1 → m.2 = m'.2) :
    ∃ start start', ValidFrom fo.accessibleAt hist start ∧ ValidFrom o.accessibleAt hist' start' ∧
      ∀ (time time' : Int) (filename : Str) (file : Bytes) (st st₁ st₂ : Store),
        start / 1000000000 ≤ time → time < fo.expiration / 1000000000 →
        start' / 1000000000 ≤ time' → time' < start' / 1000000000 + (o.expires - start') / 1000000000 →
        (∀ text, lastValue cs (s% "Content-Length") = some text → Decimal text file.length) →
        Handles account n e (.form ⟨o.bucketName, fs, file.length, time⟩ filename file) st st₁ →
        st₂ (utf8 o.bucketName) (utf8 o.objectName) = st₁ (utf8 o.bucketName) (utf8 o.objectName) →
        ∀ content, Answers account n e st₂ (theRequest o url time') content ↔ content = file := by
  obtain ⟨start, hv, hacc⟩ := C83_form_accepted_iff h hform hopt hfo
  obtain ⟨start', hv', hacc'⟩ := C83_url_accepted_iff h hurl hp.regular ho hpct
  obtain ⟨env₁, w₁, w₁', _, hb₁, _⟩ := form_replay_owned h hform hopt hfo
  obtain ⟨env₂, w₂, w₂', _, hb₂, _⟩ := url_replay_owned h hurl ho
  refine ⟨start, start', hv, hv', ?_⟩
  intro time time' filename file st st₁ st₂ h1 h2 h3 h4 hsize hs hkeep content
  have ha := (hacc ⟨o.bucketName, fs, file.length, time⟩ rfl hbucket).2 ⟨h1, h2, hsize, hmeta⟩
  have hst := hs.post ⟨ha, rfl⟩ _ _ _ _ rfl (form_key hopt hb₁ hkey)
  rw [expand_plain filename hvar] at hst
  rw [answers_iff ((hacc' time').2 ⟨h3, h4⟩) hget (plain_simple hb₂ hp time')
    ((C76_object_iff env₂ o w₂ w₂' url hb₂).2 hp.names).2, hkeep, hst, Option.some.injEq]
  exact eq_comm

end CSS
