import Verif.Spec.Reqwest
import Verif.Props.Reqwest
import Verif.Props.ClientHeaders
import Verif.Props.UrlChars
/-
C106: a Rust program that uses returned URLs with reqwest, as the integration tests of the crate do (tests/lib.rs:84-358).
Cases are in Cases/ReqwestUrl.lean.
-/
set_option linter.unusedSimpArgs false
namespace CSS
open Spec

private theorem kept_visible {c : Char} : Kept queryEncSet c ↔ 33 ≤ c.toNat ∧ c.toNat ≤ 126 ∧ c ∉ s% "\"#'<>" := by
  have key : ∀ d : Char, c = d ↔ c.toNat = d.toNat := fun d => ⟨congrArg _, fun h => Char.toNat_inj.1 h⟩
  simp only [Kept, queryEncSet, encControls, List.mem_cons, List.not_mem_nil, or_false, key]
  simp
  omega

private theorem parts_rest (p : SignedParts) (hex : Str) :
    p.url hex = hostname ++ (p.path ++ '?' :: (p.query ++ s% "&X-Goog-Signature=" ++ hex)) := by
  simp [SignedParts.url, hostname]

private theorem query_no_quotes {env : Env} {o : UrlOptions} {t : Time} {email : Str} (digest : Bytes) :
    ∀ c ∈ (partsOf env o t email).query ++ s% "&X-Goog-Signature=" ++ hexEncode digest, c ∉ s% "\"#'" := by
  intro c hc
  rw [List.mem_append, List.mem_append] at hc
  rcases hc with (hc | hc) | hc
  · rw [partsOf_query] at hc
    rcases mem_join hc with hc | ⟨x, hx, hc⟩
    · exact (by decide : ∀ c ∈ s% "&", c ∉ s% "\"#'") c hc
    · rw [mem_sortStr, List.mem_map] at hx
      obtain ⟨p, _, rfl⟩ := hx
      unfold canonicalItem at hc
      rw [List.mem_append, List.mem_append] at hc
      have sub : ∀ c ∈ s% "\"#'", c ∈ reserved := by decide
      rcases hc with (hc | hc) | hc
      · exact fun hm => percentEncode_not_reserved _ c hc (sub c hm)
      · exact (by decide : ∀ c ∈ s% "=", c ∉ s% "\"#'") c hc
      · exact fun hm => percentEncode_not_reserved _ c hc (sub c hm)
  · exact (by decide : ∀ c ∈ s% "&X-Goog-Signature=", c ∉ s% "\"#'") c hc
  · exact (by decide : ∀ c ∈ s% "0123456789abcdef", c ∉ s% "\"#'") c (hexEncode_chars digest c hc)

private theorem target_parts (env : Env) {p q : Str} (hp : NormalPath env.encodeCaret p) :
    Reqwest.target env (hostname ++ (p ++ '?' :: q)) = some (hostname ++ (p ++ '?' :: q)) ↔ ∀ c ∈ q, Kept queryEncSet c := by
  obtain ⟨r, hr⟩ := normalPath_head hp
  have ht : Reqwest.target env (hostname ++ (p ++ '?' :: q)) =
      some (hostname ++ { Url.parse env (p ++ '?' :: q) with fragment := none }.toRest) := by
    unfold Reqwest.target
    rw [stripPrefix_append, hr]
    rfl
  rw [ht]
  constructor
  · intro h
    rw [Option.some.injEq] at h
    have h := List.append_cancel_left h
    obtain ⟨hn1, hn2⟩ := parse_isNormal env (p ++ '?' :: q)
    have hq : ∀ {x : Str}, NormalPath env.encodeCaret x → '?' ∉ x := fun hx hm => (kept_path (normalPath_chars hx _ hm)).2.2.1 rfl
    revert hn1 hn2 h
    generalize Url.parse env (p ++ '?' :: q) = u
    obtain ⟨path, query, fragment⟩ := u
    intro h hn1 hn2
    cases query with
    | none =>
      simp only [Url.toRest, List.append_nil] at h
      exact absurd (h ▸ List.mem_append_right _ (.head _)) (hq hn1)
    | some q' =>
      simp only [Url.toRest, List.append_nil] at h
      have h1 := splitFirst_append (hq hn1) q'
      have h2 := splitFirst_append (hq hp) q
      rw [h, h2] at h1
      simp only [Prod.mk.injEq, Option.some.injEq] at h1
      rw [h1.2]
      exact hn2
  · intro hq
    rw [parse_normal hp hq]
    simp [Url.toRest]

/-- C106. reqwest parses and writes a returned URL anew. What it sends is the URL that was returned, exactly if the query of this URL
consists of visible ASCII characters without `<` and `>`. -/
theorem C106_same_url_iff (env : Env) (o : UrlOptions) (w w' : World) (url : Str) (h : buildSignedUrl env o w = (.ok url, w')) :
    Reqwest.target env url = some url ↔ ∀ c ∈ urlQuery url, 33 ≤ c.toNat ∧ c.toNat ≤ 126 ∧ c ≠ '<' ∧ c ≠ '>' := by
  obtain ⟨email, digest, _, ht, hu, _⟩ := signed_ok h
  have hu2 := hu
  rw [parts_rest] at hu2
  have hq := query_no_quotes (env := env) (o := o) (t := validFrom env o.accessibleAt w) (email := email) digest
  rw [hu, urlQuery_parts, parts_rest, target_parts env (p := (partsOf env o _ email).path) (objectUrl_normal env o).1]
  simp only [kept_visible]
  constructor
  · intro hk c hc
    obtain ⟨h1, h2, h3⟩ := hk c hc
    exact ⟨h1, h2, fun e => h3 (by rw [e]; decide), fun e => h3 (by rw [e]; decide)⟩
  · intro hk c hc
    obtain ⟨h1, h2, h3, h4⟩ := hk c hc
    refine ⟨h1, h2, fun hm => ?_⟩
    have := hq c hc
    simp only [List.mem_cons, List.not_mem_nil, or_false, not_or] at hm this
    obtain ⟨k1, k2, k3⟩ := this
    rcases hm with e | e | e | e | e
    · exact k1 e
    · exact k2 e
    · exact k3 e
    · exact h3 e
    · exact h4 e

/-- C106. That is so if the parameters, the region, the account and the header names consist of URI characters and no name contains a
question mark. -/
theorem C106_same_url (env : Env) (o : UrlOptions) (w w' : World) (url : Str) (h : buildSignedUrl env o w = (.ok url, w'))
    (hemail : ∀ email, Authorizes env w w'.log o.signingKey email → ∀ c ∈ email, c ∈ uriChars)
    (hregion : ∀ c ∈ o.region.getD (s% "auto"), c ∈ uriChars)
    (hparams : ∀ p ∈ o.queryParameters, ∀ c ∈ p.1 ++ p.2, c ∈ uriChars) (hheaders : ∀ x ∈ o.headers, ∀ c ∈ x.1, c ∈ uriChars)
    (hnames : '?' ∉ o.bucketName ∧ '?' ∉ o.objectName) : Reqwest.target env url = some url := by
  rw [C106_same_url_iff env o w w' url h]
  obtain ⟨email, digest, _, ht, hu, _, hauth, _⟩ := signed_ok h
  have sub : ∀ {x : Str}, (∀ c ∈ x, c ∈ uriChars) → WillBeLegal x := fun hx c hc => .tail _ (hx c hc)
  have hreq := (required_legal (o := o) (email := email) ht).2 ⟨sub (hemail email hauth), sub hregion, fun x hx => sub (hheaders x hx)⟩
  have hvis : ∀ c ∈ uriChars, 33 ≤ c.toNat ∧ c.toNat ≤ 126 ∧ c ≠ '<' ∧ c ≠ '>' := by decide +kernel
  rw [hu, urlQuery_parts]
  intro c hc
  apply hvis
  rw [List.mem_append, List.mem_append] at hc
  rcases hc with (hc | hc) | hc
  · rw [partsOf_query] at hc
    rcases mem_join hc with hc | ⟨x, hx, hc⟩
    · exact (by decide : ∀ c ∈ s% "&", c ∈ uriChars) c hc
    · rw [mem_sortStr, List.mem_map] at hx
      obtain ⟨p, hp, rfl⟩ := hx
      have hl : WillBeLegal (p.1 ++ p.2) := by
        unfold allParams at hp
        rw [objectUrl_query_none hnames.1 hnames.2] at hp
        rcases List.mem_append.1 hp with hp | hp
        · exact sub (hparams p (by
            have e : formParse (utf8 ((none : Option Str).getD [])) = [] := by decide +kernel
            rw [e] at hp; exact hp))
        · exact hreq p hp
      rw [willBeLegal_append] at hl
      unfold canonicalItem at hc
      rw [List.mem_append, List.mem_append] at hc
      rcases hc with (hc | hc) | hc
      · exact encoded_legal.2 hl.1 c hc
      · exact (by decide : ∀ c ∈ s% "=", c ∈ uriChars) c hc
      · exact encoded_legal.2 hl.2 c hc
  · exact (by decide : ∀ c ∈ s% "&X-Goog-Signature=", c ∈ uriChars) c hc
  · exact (by decide : ∀ c ∈ s% "0123456789abcdef", c ∈ uriChars) c (hexEncode_chars digest c hc)

/-- The account and the region of the URL are written with URI characters. -/
structure Spec.PlainText (email : Str) (o : UrlOptions) : Prop where
  email : ∀ c ∈ email, c ∈ uriChars ∧ c ≠ '%'
  region : ∀ c ∈ o.region.getD (s% "auto"), c ∈ uriChars

private theorem plain_target {env : Env} {o : UrlOptions} {w w' : World} {url email pem : Str} (h : buildSignedUrl env o w = (.ok url, w'))
    (hk : o.signingKey = .serviceAccount email pem) (hp : PlainAccess o) (ht : PlainText email o) : Reqwest.target env url = some url := by
  refine C106_same_url env o w w' url h ?_ ht.region ?_ ?_ ⟨hp.regular.bucket, hp.regular.object⟩
  · intro email' ha
    rw [hk] at ha
    have he : email' = email := ha
    rw [he]
    exact fun c hc => (ht.email c hc).1
  · rw [hp.parameters]; intro p hm; cases hm
  · rw [hp.headers]; intro p hm; cases hm

/-- What reqwest sends is accepted exactly in the window of the URL, and is a simple request. -/
theorem sent_simple {env : Env} {o : UrlOptions} {w w' : World} {url account : Str} {n e : Nat} {r : Incoming} {start : Int}
    (h : buildSignedUrl env o w = (.ok url, w')) (hp : PlainAccess o) (hu : r.url = url)
    (hacc : SendsSigned o r → (Accepts account n e r ↔
      start / 1000000000 ≤ r.time ∧ r.time < start / 1000000000 + (o.expires - start) / 1000000000 ∧
      ∀ x ∈ r.headers, s% "x-goog-" <+: asciiLower x.1 → ∃ y ∈ requestHeaders o, asciiLower y.1 = asciiLower x.1))
    (hhost : headerValues r.headers (s% "host") = [s% "storage.googleapis.com"])
    (hh : ∀ x ∈ r.headers, asciiLower x.1 ∈ [s% "host", s% "accept", s% "content-length", s% "content-type", s% "user-agent"]) :
    (Accepts account n e r ↔ start / 1000000000 ≤ r.time ∧ r.time < start / 1000000000 + (o.expires - start) / 1000000000) ∧
      r.Simple := by
  constructor
  · rw [hacc]
    · constructor
      · exact fun h => ⟨h.1, h.2.1⟩
      · refine fun h => ⟨h.1, h.2, fun x hx hp => ?_⟩
        exact absurd hp ((by decide : ∀ y ∈ [s% "host", s% "accept", s% "content-length", s% "content-type", s% "user-agent"],
          ¬ s% "x-goog-" <+: y) _ (hh x hx))
    · intro x hx
      unfold requestHeaders at hx
      rw [hp.headers, List.mem_singleton] at hx
      subst hx
      unfold requestHeaders
      rw [hp.headers]
      exact hhost
  · refine ⟨hh, ?_⟩
    rw [hu]
    exact (plain_simple h hp 0).2

private theorem sent_accepted {env : Env} {o : UrlOptions} {w w' : World} {url email pem : Str} {key : Bytes} {n e : Nat} {r : Incoming}
    (h : buildSignedUrl env o w = (.ok url, w')) (hk : o.signingKey = .serviceAccount email pem) (hp : PlainAccess o)
    (ht : PlainText email o) (hring : Rsa.Correct env) (hpem : env.pemParse pem = some key) (hpub : Rsa.PublicKeyIn key n e)
    (hm : r.method = o.httpMethod) (hu : r.url = url) (hhost : headerValues r.headers (s% "host") = [s% "storage.googleapis.com"])
    (hh : ∀ x ∈ r.headers, asciiLower x.1 ∈ [s% "host", s% "accept", s% "content-length", s% "content-type", s% "user-agent"]) :
    (Accepts email n e r ↔ validFrom env o.accessibleAt w / 1000000000 ≤ r.time ∧
      r.time < validFrom env o.accessibleAt w / 1000000000 + (o.expires - validFrom env o.accessibleAt w) / 1000000000) ∧ r.Simple :=
  sent_simple h hp hu (C105_client env o w w' url email pem key n e r h hk hp.regular hring hpem hpub (fun hc => (ht.email _ hc).2 rfl)
    hm hu) hhost hh

/-- C106. `reqwest::get` with a URL for a GET is answered exactly in the window of the URL, and then with the content of the object that
the URL was made for. -/
theorem C106_get (env : Env) (o : UrlOptions) (w w' : World) (url email pem : Str) (key : Bytes) (n e : Nat) (time : Int) (r : Incoming)
    (h : buildSignedUrl env o w = (.ok url, w')) (hp : PlainAccess o) (hget : o.httpMethod = s% "GET")
    (hk : o.signingKey = .serviceAccount email pem) (ht : PlainText email o) (hring : Rsa.Correct env)
    (hpem : env.pemParse pem = some key) (hpub : Rsa.PublicKeyIn key n e) (hr : Reqwest.get env url time = some r)
    (s : Store) (content : Bytes) :
    Answers email n e s r content ↔
      (validFrom env o.accessibleAt w / 1000000000 ≤ time ∧
        time < validFrom env o.accessibleAt w / 1000000000 + (o.expires - validFrom env o.accessibleAt w) / 1000000000) ∧
      s (utf8 o.bucketName) (utf8 o.objectName) = some content := by
  unfold Reqwest.get at hr
  rw [plain_target h hk hp ht, Option.map_some, Option.some.injEq] at hr
  subst hr
  obtain ⟨hacc, hs⟩ := sent_accepted (r := ⟨s% "GET", url, [(s% "accept", s% "*/*"), (s% "host", s% "storage.googleapis.com")], time⟩) h hk
    hp ht hring hpem hpub hget.symm rfl (show headerValues [(s% "accept", s% "*/*"), (s% "host", s% "storage.googleapis.com")] _ = _ by decide +kernel)
    (show ∀ x ∈ [(s% "accept", s% "*/*"), (s% "host", s% "storage.googleapis.com")], _ by decide)
  have hn := ((C76_object_iff env o w w' url h).2 hp.names).2
  constructor
  · intro ha
    exact ⟨hacc.1 ha.1, (answers_iff ha.1 rfl hs hn).1 ha⟩
  · rintro ⟨h1, h2⟩
    exact (answers_iff (hacc.2 h1) rfl hs hn).2 h2

private theorem key_visible {v : Str} : ∀ f ∈ [(s% "key", v)], VisibleName f.1 := by
  intro f hf
  rw [List.mem_singleton] at hf
  rw [hf]
  show VisibleName (s% "key")
  unfold VisibleName
  decide

theorem posted_simple {env env' : Env} {o : UrlOptions} {w w' : World} {url account : Str} {n e : Nat} {time start : Int} {r : Incoming}
    (h : buildSignedUrl env' o w = (.ok url, w')) (hp : PlainAccess o) (hpost : o.httpMethod = s% "POST")
    (htarget : Reqwest.target env url = some url)
    (hacc : r.method = o.httpMethod → r.url = url → SendsSigned o r → (Accepts account n e r ↔
      start / 1000000000 ≤ r.time ∧ r.time < start / 1000000000 + (o.expires - start) / 1000000000 ∧
      ∀ x ∈ r.headers, s% "x-goog-" <+: asciiLower x.1 → ∃ y ∈ requestHeaders o, asciiLower y.1 = asciiLower x.1))
    {b : Str} {file : Bytes} (hb : FreshBoundary b [(s% "key", o.objectName)] file)
    (hr : Reqwest.post env url b (Reqwest.postBody b [(s% "key", o.objectName)] file) time = some r) {s s' : Store}
    (hs : HandlesUpload account n e r (Reqwest.postBody b [(s% "key", o.objectName)] file) s s') (bucket object : Bytes) :
    s' bucket object =
      if (start / 1000000000 ≤ time ∧ time < start / 1000000000 + (o.expires - start) / 1000000000) ∧
        bucket = utf8 o.bucketName ∧ object = utf8 o.objectName
      then some file else s bucket object := by
  unfold Reqwest.post at hr
  rw [htarget, Option.map_some, Option.some.injEq] at hr
  have hmeth : r.method = o.httpMethod := by rw [← hr, hpost]
  have hurl : r.url = url := by rw [← hr]
  have htime : r.time = time := by rw [← hr]
  have hhost : headerValues r.headers (s% "host") = [s% "storage.googleapis.com"] := by
    rw [← hr]
    simp only [headerValues, List.filter_cons, List.filter_nil,
      (by decide +kernel : (decide (asciiLower (s% "content-type") = s% "host")) = false),
      (by decide +kernel : (decide (asciiLower (s% "content-length") = s% "host")) = false),
      (by decide +kernel : (decide (asciiLower (s% "accept") = s% "host")) = false),
      (by decide +kernel : (decide (asciiLower (s% "host") = s% "host")) = true)]
    rfl
  have htype : headerValues r.headers (s% "content-type") = [s% "multipart/form-data; boundary=" ++ b] := by
    rw [← hr]
    simp only [headerValues, List.filter_cons, List.filter_nil,
      (by decide +kernel : (decide (asciiLower (s% "content-type") = s% "content-type")) = true),
      (by decide +kernel : (decide (asciiLower (s% "content-length") = s% "content-type")) = false),
      (by decide +kernel : (decide (asciiLower (s% "accept") = s% "content-type")) = false),
      (by decide +kernel : (decide (asciiLower (s% "host") = s% "content-type")) = false)]
    rfl
  have hnames : ∀ x ∈ r.headers, asciiLower x.1 ∈ [s% "host", s% "accept", s% "content-length", s% "content-type", s% "user-agent"] := by
    rw [← hr]
    simp only [List.forall_mem_cons]
    exact ⟨by decide, by decide, by decide, by decide, fun _ h => by cases h⟩
  obtain ⟨hacc, hsimple⟩ := sent_simple h hp hurl (hacc hmeth hurl) hhost hnames
  rw [htime] at hacc
  have hn := ((C76_object_iff env' o w w' url h).2 hp.names).2
  split
  · rename_i hc
    rw [hc.2.1, hc.2.2]
    refine hs.upload (hacc.2 hc.1) (hmeth.trans hpost) hsimple b o.objectName file _ htype ?_ (by rw [hurl]; exact hn)
    exact (bare_iff hb key_visible).2 ⟨rfl, rfl⟩
  · rename_i hc
    apply Classical.byContradiction
    intro hne
    have hw : Accepts account n e r := Classical.byContradiction fun hna => hne (by rw [hs.rejected hna])
    have hmay := (hs.others bucket object hne).2
    rw [hurl] at hmay
    exact hc ⟨hacc.1 hw, only_named hn hmay⟩

/-- C106. Posting a form with the name of the object and a file with reqwest to a URL for a POST: in the window of the URL it stores the
file in exactly the object that the URL was made for, out of it nothing changes. -/
theorem C106_post (env : Env) (o : UrlOptions) (w w' : World) (url email pem : Str) (key : Bytes) (n e : Nat) (time : Int) (r : Incoming)
    (h : buildSignedUrl env o w = (.ok url, w')) (hp : PlainAccess o) (hpost : o.httpMethod = s% "POST")
    (hk : o.signingKey = .serviceAccount email pem) (ht : PlainText email o) (hring : Rsa.Correct env)
    (hpem : env.pemParse pem = some key) (hpub : Rsa.PublicKeyIn key n e) (b : Str) (file : Bytes)
    (hb : FreshBoundary b [(s% "key", o.objectName)] file)
    (hr : Reqwest.post env url b (Reqwest.postBody b [(s% "key", o.objectName)] file) time = some r) (s s' : Store)
    (hs : HandlesUpload email n e r (Reqwest.postBody b [(s% "key", o.objectName)] file) s s') (bucket object : Bytes) :
    s' bucket object =
      if (validFrom env o.accessibleAt w / 1000000000 ≤ time ∧
          time < validFrom env o.accessibleAt w / 1000000000 + (o.expires - validFrom env o.accessibleAt w) / 1000000000) ∧
        bucket = utf8 o.bucketName ∧ object = utf8 o.objectName
      then some file else s bucket object := by
  exact posted_simple h hp hpost (plain_target h hk hp ht) (fun hm hu => C105_client env o w w' url email pem key n e r h hk hp.regular hring
    hpem hpub (fun hc => (ht.email _ hc).2 rfl) hm hu) hb hr hs bucket object

/-- C106. What is posted with reqwest to a URL for a POST is what `reqwest::get` then gets with a URL for a GET of the same object, if
nothing else comes between. -/
theorem C106_post_then_get (env : Env) (o o' : UrlOptions) (w w' v v' : World) (url url' email pem : Str) (key : Bytes) (n e : Nat)
    (time time' : Int) (r r' : Incoming) (h : buildSignedUrl env o w = (.ok url, w')) (h' : buildSignedUrl env o' v = (.ok url', v'))
    (hp : PlainAccess o) (hp' : PlainAccess o') (hpost : o.httpMethod = s% "POST") (hget : o'.httpMethod = s% "GET")
    (hsame : o'.bucketName = o.bucketName ∧ o'.objectName = o.objectName)
    (hk : o.signingKey = .serviceAccount email pem) (hk' : o'.signingKey = .serviceAccount email pem)
    (ht : PlainText email o) (ht' : PlainText email o') (hring : Rsa.Correct env)
    (hpem : env.pemParse pem = some key) (hpub : Rsa.PublicKeyIn key n e) (b : Str) (file : Bytes)
    (hb : FreshBoundary b [(s% "key", o.objectName)] file)
    (hr : Reqwest.post env url b (Reqwest.postBody b [(s% "key", o.objectName)] file) time = some r)
    (hr' : Reqwest.get env url' time' = some r')
    (hin : validFrom env o.accessibleAt w / 1000000000 ≤ time ∧
      time < validFrom env o.accessibleAt w / 1000000000 + (o.expires - validFrom env o.accessibleAt w) / 1000000000)
    (hin' : validFrom env o'.accessibleAt v / 1000000000 ≤ time' ∧
      time' < validFrom env o'.accessibleAt v / 1000000000 + (o'.expires - validFrom env o'.accessibleAt v) / 1000000000)
    (s s' : Store) (hs : HandlesUpload email n e r (Reqwest.postBody b [(s% "key", o.objectName)] file) s s') (content : Bytes) :
    Answers email n e s' r' content ↔ content = file := by
  rw [C106_get env o' v v' url' email pem key n e time' r' h' hp' hget hk' ht' hring hpem hpub hr',
    C106_post env o w w' url email pem key n e time r h hp hpost hk ht hring hpem hpub b file hb hr s s' hs,
    if_pos ⟨hin, by rw [hsame.1], by rw [hsame.2]⟩, Option.some.injEq]
  exact ⟨fun h => h.2.symm, fun h => ⟨hin', h.symm⟩⟩

/-- C106. `reqwest::get` with a URL that was made for another method is not accepted, at any time and for any account, unless SHA-256
collides. -/
theorem C106_wrong_method (env : Env) (o : UrlOptions) (w w' : World) (url email pem : Str) (key : Bytes) (n e : Nat)
    (h : buildSignedUrl env o w = (.ok url, w')) (hp : PlainAccess o) (hget : o.httpMethod ≠ s% "GET")
    (hk : o.signingKey = .serviceAccount email pem) (ht : PlainText email o) (hring : Rsa.Correct env)
    (hpem : env.pemParse pem = some key) (hpub : Rsa.PublicKeyIn key n e) :
    ∃ p : SignedParts, IsSigned env w'.log o.signingKey url p ∧ ∀ account time r, Reqwest.get env url time = some r →
      (∀ canonical message, r.Rebuilds account canonical message →
        NoCollision message p.stringToSign ∧ NoCollision canonical p.canonicalRequest) →
      ¬ Accepts account n e r := by
  have htarget := plain_target h hk hp ht
  have hlf : '\n' ∉ url := by
    have hvis := (C106_same_url_iff env o w w' url h).1 htarget
    obtain ⟨_, digest, _, _, hu, _⟩ := signed_ok h
    rw [hu, urlQuery_parts] at hvis
    intro hm
    rw [hu, parts_rest, List.mem_append, List.mem_append, List.mem_cons] at hm
    rcases hm with hm | hm | hm | hm
    · exact absurd hm (by decide)
    · exact absurd (kept_path (normalPath_chars (objectUrl_normal env o).1 _ hm)).1 (by decide)
    · exact absurd hm (by decide)
    · exact absurd (hvis _ hm).1 (by decide)
  obtain ⟨p, hs, hasks⟩ := C66_same_signature env o w w' url n e h (by
    rw [hk]
    rintro m s ⟨der, h1, h2, h3⟩
    rw [hpem, Option.some.injEq] at h1
    subst h1
    obtain ⟨n', e', hp, hv⟩ := hring _ _ _ h2 h3
    obtain ⟨rfl, rfl⟩ := publicKeyIn_unique hpub hp
    exact hv) hlf hp.regular.headerNames
  refine ⟨p, hs, fun account time r hr hc ha => ?_⟩
  unfold Reqwest.get at hr
  rw [htarget, Option.map_some, Option.some.injEq] at hr
  have hm : r.method = s% "GET" := by rw [← hr]
  have hu : r.url = url := by rw [← hr]
  refine hget ((hasks account r ha ⟨?_, ?_, ?_⟩ (by rw [hu]) hc).method.symm.trans hm)
  · rw [hm]; decide
  · rw [hu]; exact hlf
  · rw [← hr]
    show ∀ x ∈ [(s% "accept", s% "*/*"), (s% "host", s% "storage.googleapis.com")], _
    decide

end CSS
