import Verif.Props.ReqwestUrl
import Verif.Props.KeyOwner
/-
C104-C106 for calls that run concurrently, with any key that one account owns (for a bound token: the metadata server always names
this account, and the signing service signs with its private key).
-/
set_option linter.unusedSimpArgs false
namespace CSS
open Spec

variable {env : Env} {base : Nat → Str} {s : Sys}

/-- C104. As `C104_accepted_iff`, for a form that a call returned in a history of concurrent calls. -/
theorem C104_accepted_owner (h : Sys.Reach env base s) {cs : List Call} {fs : List (Str × Str)} {hist : List Ev} {o : SigningOptions}
    (hret : ReturnedAfter s.trace (.form cs) (.form (.ok fs)) hist) (hopt : (cs.filterMap callOptions).getLast? = some o)
    {account : Str} {n e : Nat} (ho : KeyOwner env base s.trace o.signingKey account n e) {bucket b : Str} {file : Bytes}
    (hbucket : lastValue cs (s% "bucket") = some bucket) (hb : FreshBoundary b fs file) :
    ∃ start, ValidFrom o.accessibleAt hist start ∧ ∀ time : Int,
      (∃ fields content, BareForm b (Reqwest.postBody b fs file) fields content ∧
        AcceptsPost account n e ⟨bucket, fields, content.length, time⟩) ↔
      start / 1000000000 ≤ time ∧ time < o.expiration / 1000000000 ∧
      (∀ text, lastValue cs (s% "Content-Length") = some text → Decimal text file.length) ∧
      (∀ m ∈ cs.filterMap callMeta, ∀ m' ∈ cs.filterMap callMeta, m.1 = m'.1 → m.2 = m'.2) ∧
      ∀ m ∈ cs.filterMap callMeta, VisibleName m.1 := by
  obtain ⟨env', w, w', _, hbuild, _, _⟩ := form_replay_owned h hret hopt ho
  obtain ⟨start, hv, hacc⟩ := C83_form_accepted_iff h hret hopt ho
  exact ⟨start, hv, fun time => bare_accepted hopt hbuild hb (hacc ⟨bucket, fs, file.length, time⟩ rfl hbucket)⟩

/-- C104. The integration test, where the form and the URL are returned by calls that run concurrently, with keys of the same
owner. -/
theorem C104_round_trip_owner (h : Sys.Reach env base s) {cs : List Call} {fs : List (Str × Str)} {hist : List Ev}
    {fo : SigningOptions} {o : UrlOptions} {url : Str} {hist' : List Ev}
    (hform : ReturnedAfter s.trace (.form cs) (.form (.ok fs)) hist) (hopt : (cs.filterMap callOptions).getLast? = some fo)
    (hurl : ReturnedAfter s.trace (.url o) (.url (.ok url)) hist') (hp : PlainAccess o) (hget : o.httpMethod = s% "GET")
    {account : Str} {n e : Nat} (hfo : KeyOwner env base s.trace fo.signingKey account n e)
    (ho : KeyOwner env base s.trace o.signingKey account n e) (hpct : '%' ∉ account)
    (hbucket : lastValue cs (s% "bucket") = some o.bucketName) (hkey : lastValue cs (s% "key") = some o.objectName)
    (hvar : ¬ s% "${filename}" <:+: o.objectName)
    (hmeta : ∀ m ∈ cs.filterMap callMeta, ∀ m' ∈ cs.filterMap callMeta, m.1 = m'.1 → m.2 = m'.2)
    (hname : ∀ m ∈ cs.filterMap callMeta, VisibleName m.1) :
    ∃ start start', ValidFrom fo.accessibleAt hist start ∧ ValidFrom o.accessibleAt hist' start' ∧
      ∀ (b : Str) (file : Bytes) (fields : List (Str × Str)) (content : Bytes), FreshBoundary b fs file →
        BareForm b (Reqwest.postBody b fs file) fields content →
        ∀ (time time' : Int) (st st₁ st₂ : Store),
          start / 1000000000 ≤ time → time < fo.expiration / 1000000000 →
          start' / 1000000000 ≤ time' → time' < start' / 1000000000 + (o.expires - start') / 1000000000 →
          (∀ text, lastValue cs (s% "Content-Length") = some text → Decimal text file.length) →
          Handles account n e (.form ⟨o.bucketName, fields, content.length, time⟩ [] content) st st₁ →
          st₂ (utf8 o.bucketName) (utf8 o.objectName) = st₁ (utf8 o.bucketName) (utf8 o.objectName) →
          ∀ answer, Answers account n e st₂ (theRequest o url time') answer ↔ answer = file := by
  obtain ⟨env', w, w', _, hbuild, _, _⟩ := form_replay_owned h hform hopt hfo
  obtain ⟨start, start', hv, hv', hall⟩ := C83_upload_download h hform hopt hurl hp hget hfo ho hpct hbucket hkey hvar hmeta
  refine ⟨start, start', hv, hv', fun b file fields content hb hread => ?_⟩
  obtain ⟨rfl, rfl⟩ := (bare_iff hb ((names_visible hopt hbuild).1 hname)).1 hread
  exact fun time time' st st₁ st₂ => hall time time' [] content st st₁ st₂

/-- A returned URL, as the result of the call running alone, with signatures of the owner: what any client may send. -/
theorem url_client_owned (h : Sys.Reach env base s) {o : UrlOptions} {url : Str} {hist : List Ev}
    (hret : ReturnedAfter s.trace (.url o) (.url (.ok url)) hist) (hr : Regular o) {account : Str} {n e : Nat}
    (ho : KeyOwner env base s.trace o.signingKey account n e) (hpct : '%' ∉ account) :
    ∃ env' w w', SameComputation env' env ∧ ValidFrom o.accessibleAt hist (validFrom env' o.accessibleAt w) ∧
      buildSignedUrl env' o w = (.ok url, w') ∧ (∀ a, Authorizes env' w w'.log o.signingKey a → a = account) ∧
      ∀ r : Incoming, r.method = o.httpMethod → r.url = url → SendsSigned o r →
        (Accepts account n e r ↔
          validFrom env' o.accessibleAt w / 1000000000 ≤ r.time ∧
          r.time < validFrom env' o.accessibleAt w / 1000000000 + (o.expires - validFrom env' o.accessibleAt w) / 1000000000 ∧
          ∀ x ∈ r.headers, s% "x-goog-" <+: asciiLower x.1 → ∃ y ∈ requestHeaders o, asciiLower y.1 = asciiLower x.1) := by
  obtain ⟨env', w, w', hc, hv, hb, hau, hsi⟩ := url_replay_owned_same h hret ho
  refine ⟨env', w, w', hc, hv, hb, hau, fun r hm hu hh => ?_⟩
  have key : ∀ hstart hend, Accepts account n e r ↔ _ := fun hstart hend =>
    C105_other_headers env' o w w' url account n e (theRequest o url r.time) r hb hr.headerNames rfl ⟨hm, hu, rfl⟩ hh (by
      obtain ⟨a, ha, hacc⟩ := C65_accepted env' o w w' url n e r.time hb hr hsi (fun a ha => hau a ha ▸ hpct) hstart hend
      exact hau a ha ▸ hacc)
  constructor
  · intro ha
    obtain ⟨h1, h2, _⟩ := C65_window env' o w w' url account n e r hb hu ha
    exact ⟨h1, h2, (key h1 h2).1 ha⟩
  · rintro ⟨h1, h2, h3⟩
    exact (key h1 h2).2 h3

/-- C105. As `C105_client`, for a URL that a call returned in a history of concurrent calls. -/
theorem C105_client_owner (h : Sys.Reach env base s) {o : UrlOptions} {url : Str} {hist : List Ev}
    (hret : ReturnedAfter s.trace (.url o) (.url (.ok url)) hist) (hr : Regular o) {account : Str} {n e : Nat}
    (ho : KeyOwner env base s.trace o.signingKey account n e) (hpct : '%' ∉ account) :
    ∃ start, ValidFrom o.accessibleAt hist start ∧ ∀ r : Incoming, r.method = o.httpMethod → r.url = url → SendsSigned o r →
      (Accepts account n e r ↔
        start / 1000000000 ≤ r.time ∧ r.time < start / 1000000000 + (o.expires - start) / 1000000000 ∧
        ∀ x ∈ r.headers, s% "x-goog-" <+: asciiLower x.1 → ∃ y ∈ requestHeaders o, asciiLower y.1 = asciiLower x.1) := by
  obtain ⟨env', w, w', _, hv, _, _, hall⟩ := url_client_owned h hret hr ho hpct
  exact ⟨_, hv, hall⟩

theorem owned_target {env' : Env} (hc : SameComputation env' env) {o : UrlOptions} {w w' : World} {url account : Str}
    (hb : buildSignedUrl env' o w = (.ok url, w')) (hau : ∀ a, Authorizes env' w w'.log o.signingKey a → a = account)
    (hp : PlainAccess o) (ht : PlainText account o) : Reqwest.target env url = some url := by
  have : Reqwest.target env url = Reqwest.target env' url := by
    unfold Reqwest.target
    simp only [parse_congr hc]
  rw [this]
  refine C106_same_url env' o w w' url hb ?_ ht.region ?_ ?_ ⟨hp.regular.bucket, hp.regular.object⟩
  · intro a ha
    rw [hau a ha]
    exact fun c hc => (ht.email c hc).1
  · rw [hp.parameters]; intro p hm; cases hm
  · rw [hp.headers]; intro p hm; cases hm

/-- C106. As `C106_get`, for a URL that a call returned in a history of concurrent calls. -/
theorem C106_get_owner (h : Sys.Reach env base s) {o : UrlOptions} {url : Str} {hist : List Ev}
    (hret : ReturnedAfter s.trace (.url o) (.url (.ok url)) hist) (hp : PlainAccess o) (hget : o.httpMethod = s% "GET")
    {account : Str} {n e : Nat} (ho : KeyOwner env base s.trace o.signingKey account n e) (ht : PlainText account o) :
    ∃ start, ValidFrom o.accessibleAt hist start ∧ ∀ (time : Int) (st : Store), ∃ r, Reqwest.get env url time = some r ∧
      ∀ content, Answers account n e st r content ↔
        (start / 1000000000 ≤ time ∧ time < start / 1000000000 + (o.expires - start) / 1000000000) ∧
        st (utf8 o.bucketName) (utf8 o.objectName) = some content := by
  obtain ⟨env', w, w', hc, hv, hb, hau, hall⟩ := url_client_owned h hret hp.regular ho (fun hm => (ht.email _ hm).2 rfl)
  refine ⟨_, hv, fun time st => ?_⟩
  have htarget := owned_target hc hb hau hp ht
  refine ⟨⟨s% "GET", url, [(s% "accept", s% "*/*"), (s% "host", s% "storage.googleapis.com")], time⟩, by
    unfold Reqwest.get; rw [htarget]; rfl, fun content => ?_⟩
  obtain ⟨hacc, hs⟩ := sent_simple
    (r := ⟨s% "GET", url, [(s% "accept", s% "*/*"), (s% "host", s% "storage.googleapis.com")], time⟩) hb hp rfl
    (fun hh => hall _ hget.symm rfl hh)
    (show headerValues [(s% "accept", s% "*/*"), (s% "host", s% "storage.googleapis.com")] _ = _ by decide +kernel)
    (show ∀ x ∈ [(s% "accept", s% "*/*"), (s% "host", s% "storage.googleapis.com")], _ by decide)
  have hn := ((C76_object_iff env' o w w' url hb).2 hp.names).2
  constructor
  · intro ha
    exact ⟨hacc.1 ha.1, (answers_iff ha.1 rfl hs hn).1 ha⟩
  · rintro ⟨h1, h2⟩
    exact (answers_iff (hacc.2 h1) rfl hs hn).2 h2

/-- C106. As `C106_post`, for a URL that a call returned in a history of concurrent calls. -/
theorem C106_post_owner (h : Sys.Reach env base s) {o : UrlOptions} {url : Str} {hist : List Ev}
    (hret : ReturnedAfter s.trace (.url o) (.url (.ok url)) hist) (hp : PlainAccess o) (hpost : o.httpMethod = s% "POST")
    {account : Str} {n e : Nat} (ho : KeyOwner env base s.trace o.signingKey account n e) (ht : PlainText account o) :
    ∃ start, ValidFrom o.accessibleAt hist start ∧
      ∀ (time : Int) (b : Str) (file : Bytes), FreshBoundary b [(s% "key", o.objectName)] file →
        ∃ r, Reqwest.post env url b (Reqwest.postBody b [(s% "key", o.objectName)] file) time = some r ∧
          ∀ st st' : Store, HandlesUpload account n e r (Reqwest.postBody b [(s% "key", o.objectName)] file) st st' →
            ∀ bucket object, st' bucket object =
              if (start / 1000000000 ≤ time ∧ time < start / 1000000000 + (o.expires - start) / 1000000000) ∧
                bucket = utf8 o.bucketName ∧ object = utf8 o.objectName
              then some file else st bucket object := by
  obtain ⟨env', w, w', hc, hv, hb, hau, hall⟩ := url_client_owned h hret hp.regular ho (fun hm => (ht.email _ hm).2 rfl)
  have htarget := owned_target hc hb hau hp ht
  refine ⟨_, hv, fun time b file hf => ?_⟩
  refine ⟨_, by unfold Reqwest.post; rw [htarget, Option.map_some], fun st st' hs bucket object => ?_⟩
  exact posted_simple hb hp hpost htarget (fun hm hu => hall _ hm hu) hf (by unfold Reqwest.post; rw [htarget, Option.map_some]) hs
    bucket object

end CSS
