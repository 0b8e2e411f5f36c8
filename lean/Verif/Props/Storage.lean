import Verif.Spec.Storage
import Verif.Props.Server
import Verif.Props.PostServer
import Verif.Props.UrlPath
import Verif.Props.ImageUploaderServer
/-
C75: a signature for a URL is of no use in a form, and the other way round.
C76: what is uploaded with a form or a URL of the crate is downloaded with a URL of the crate.
C77: nobody can read or change an object without a URL or form that was made for it.
The server is that of Spec/Server, Spec/PostServer and Spec/Storage. Cases that meet the hypotheses are in
Props/StorageExamples.lean.
-/
set_option linter.unusedSimpArgs false
namespace CSS
open Spec

/-! ### C75 -/

theorem policy_chars {policy : Str} {j : Json} (h : CarriesJson policy j) : '\n' ∉ policy := by
  obtain ⟨text, hd, _⟩ := h
  rw [base64Decode_some hd]
  intro hm
  rcases b64Encode_chars _ _ hm with h | h
  · exact absurd h (by decide)
  · exact absurd h (by decide)

theorem message_lf (a b c d : Str) : '\n' ∈ join (s% "\n") [a, b, c, d] := by
  simp [join]

/-- C75. No text that is signed for a URL is a policy: the server reads no JSON in it. -/
theorem C75_message_is_no_policy (env : Env) (o : UrlOptions) (w w' : World) (url : Str)
    (h : buildSignedUrl env o w = (.ok url, w')) :
    ∃ p : SignedParts, IsSigned env w'.log o.signingKey url p ∧ ∀ j, ¬ CarriesJson p.stringToSign j := by
  obtain ⟨email, digest, _, _, _, hs, _⟩ := signed_ok h
  exact ⟨_, hs, fun j hj => policy_chars hj (message_lf _ _ _ _)⟩

/-- C75. No policy of a form is a message that the server rebuilds from any request with a signed URL. -/
theorem C75_policy_is_no_message (env : Env) (cs : List Call) (o : SigningOptions) (w w' : World) (fs : List (Str × Str))
    (ho : (cs.filterMap callOptions).getLast? = some o) (h : (Builder.ofCalls cs).build env w = (.ok fs, w'))
    (r : Incoming) (account canonical message : Str) (hr : r.Rebuilds account canonical message) :
    ∀ policy ∈ fieldValues fs (s% "policy"), message ≠ policy := by
  obtain ⟨email, policy, date, text, hex, sg, computed, _, _, _, _, hpol, hj, _⟩ := form_facts env cs o w w' fs ho h
  intro p hp
  rw [hpol, List.mem_singleton] at hp
  subst hp
  rintro rfl
  obtain ⟨_, _, _, _, _, _, _, _, _, hm⟩ := hr
  have := policy_chars ((hj _).2 rfl)
  rw [hm] at this
  exact this (message_lf _ _ _ _)

/-- C75. No form with the signature of a URL is accepted, unless SHA-256 collides on its policy and the message signed for
the URL. -/
theorem C75_url_signature_in_form (env : Env) (o : UrlOptions) (w w' : World) (url : Str) (n e : Nat)
    (h : buildSignedUrl env o w = (.ok url, w'))
    (hsig : ∀ m s, Signs env w'.log o.signingKey m s → Rsa.Verifies n e m s) :
    ∃ p : SignedParts, IsSigned env w'.log o.signingKey url p ∧ ∀ (account : Str) (r : Posted),
      (∀ v ∈ fieldValues r.fields (s% "x-goog-signature"), utf8 v ∈ paramValues url (s% "X-Goog-Signature")) →
      (∀ hex ∈ paramValues url (s% "X-Goog-Signature"), ∀ hex' ∈ paramValues url (s% "X-Goog-Signature"), hex = hex') →
      (∀ policy ∈ fieldValues r.fields (s% "policy"), NoCollision policy p.stringToSign) →
      ¬ AcceptsPost account n e r := by
  obtain ⟨email, digest, hrej, ht, hu, hs, hauth, hval, halg⟩ := signed_ok h
  refine ⟨_, hs, ?_⟩
  obtain ⟨hex, sg, hu', _, hx2, hsg⟩ := hs
  have hhex : hex = hexEncode digest := by
    rw [hu] at hu'
    unfold SignedParts.url at hu'
    exact (List.append_cancel_left hu').symm
  rw [hhex] at hx2
  have hin : utf8 (hexEncode digest) ∈ paramValues url (s% "X-Goog-Signature") := by
    rw [hu]; exact mem_params_of ht digest (.tail _ (.tail _ (.tail _ (.tail _ (.tail _ (.head _))))))
  rintro account r hsame hone hcol ⟨policy', j, conds, text', t, date', t', region, hex', sg', a1, a2, _, _, _, _, _, _, _, _, _, _,
    _, a14, a15, a16⟩
  have hxx := utf8_inj (hone _ (hsame hex' (by rw [a14]; exact List.mem_singleton.2 rfl)) _ hin)
  rw [hxx, hx2, Option.some.injEq] at a15
  rw [← a15] at a16
  have hp := hcol policy' (by rw [a1]; exact List.mem_singleton.2 rfl) (verifies_digest a16 (hsig _ _ hsg))
  exact policy_chars a2 (hp ▸ message_lf _ _ _ _)

/-- C75. No request whose URL has the signature of a form is accepted, unless SHA-256 collides on the policy and the message
that the server rebuilds. -/
theorem C75_form_signature_in_url (env : Env) (cs : List Call) (o : SigningOptions) (w w' : World) (fs : List (Str × Str))
    (n e : Nat) (ho : (cs.filterMap callOptions).getLast? = some o) (h : (Builder.ofCalls cs).build env w = (.ok fs, w'))
    (hsig : ∀ m s, Signs env w'.log o.signingKey m s → Rsa.Verifies n e m s) (account : Str) (r : Incoming)
    (hsame : ∀ v ∈ paramValues r.url (s% "X-Goog-Signature"), ∃ x ∈ fieldValues fs (s% "x-goog-signature"), v = utf8 x)
    (hcol : ∀ policy ∈ fieldValues fs (s% "policy"), ∀ canonical message, r.Rebuilds account canonical message →
      NoCollision message policy) : ¬ Accepts account n e r := by
  obtain ⟨email, policy, date, text, hex, sg, computed, _, _, _, _, hpol, hj, _, _, _, _, _, hs1, hs2, hs3⟩ :=
    form_facts env cs o w w' fs ho h
  rintro ⟨path, date, region, life, sh, hex', sg', start, seconds, a1, _, a3, a4, a5, a6, a7, _, a9, a10, a11, _, a13, a14, a15,
    a16⟩
  obtain ⟨x, hx, he⟩ := hsame (utf8 hex') (by rw [a14]; exact List.mem_singleton.2 rfl)
  rw [hs1, List.mem_singleton] at hx
  have hxx := (utf8_inj he).trans hx
  rw [hxx, hs2, Option.some.injEq] at a15
  rw [← a15] at a16
  have hp := hcol policy (by rw [hpol]; exact List.mem_singleton.2 rfl) _ _ ⟨path, date, region, sh, a1, a3, a4, a11, rfl, rfl⟩
    (verifies_digest a16 (hsig _ _ hs3))
  have := policy_chars ((hj _).2 rfl)
  rw [← hp] at this
  exact this (message_lf _ _ _ _)

/-! ### C76 -/

theorem slash_utf8 {s : Str} (h : '/' ∉ s) : (47 : UInt8) ∉ utf8 s := by
  intro hm
  obtain ⟨c, hc, he⟩ := mem_utf8_ascii hm (by decide)
  exact h ((Char.toNat_inj.1 he : c = '/') ▸ hc)

theorem first_slash : ∀ {a a' b b' : Bytes}, 47 ∉ a → 47 ∉ a' → a ++ 47 :: b = a' ++ 47 :: b' → a = a' ∧ b = b'
  | [], [], _, _, _, _, h => ⟨rfl, (List.cons.inj h).2⟩
  | [], x :: _, _, _, _, h', h => absurd (List.cons.inj h).1 fun e => h' (e ▸ .head _)
  | x :: _, [], _, _, h', _, h => absurd (List.cons.inj h).1 fun e => h' (e ▸ .head _)
  | x :: a, y :: a', _, _, h1, h2, h => by
    obtain ⟨e, h⟩ := List.cons.inj h
    obtain ⟨e', h⟩ := first_slash (fun m => h1 (.tail _ m)) (fun m => h2 (.tail _ m)) h
    exact ⟨by rw [e, e'], h⟩

theorem utf8_slash : utf8 (s% "/") = [47] := by decide

/-- A URL names at most one object. -/
theorem namesObject_unique {url : Str} {b o b' o' : Bytes} (h : NamesObject url b o) (h' : NamesObject url b' o') :
    b = b' ∧ o = o' := by
  obtain ⟨path, hp, hb, _, hd⟩ := h
  obtain ⟨path', hp', hb', _, hd'⟩ := h'
  rw [hp, Option.some.injEq] at hp'
  subst hp'
  rw [hd, utf8_slash] at hd'
  simp only [List.append_assoc, List.cons_append, List.nil_append] at hd'
  exact first_slash hb hb' (List.cons.inj hd').2

/-- And if it names one, it names no bucket. -/
theorem only_named {url : Str} {b o b' o' : Bytes} (h : NamesObject url b o) (h' : NamesObject url b' o' ∨ NamesBucket url b') :
    b' = b ∧ o' = o := by
  rcases h' with hn | ⟨path, hp1, hb, hd⟩
  · exact namesObject_unique hn h
  · obtain ⟨path', hp1', hb', hne', hd'⟩ := h
    rw [hp1', Option.some.injEq] at hp1
    subst hp1
    rw [hd', utf8_slash] at hd
    simp only [List.append_assoc, List.cons_append, List.nil_append, List.cons.injEq, true_and] at hd
    rcases hd with hd | hd
    · exact absurd (hd ▸ List.mem_append_right _ (.head _)) hb
    · exact absurd (first_slash hb' hb hd).2 hne'

/-- C76. A returned URL is that of the object it was made for, exactly for the names that a URL can express. -/
theorem C76_object_iff (env : Env) (o : UrlOptions) (w w' : World) (url : Str) (h : buildSignedUrl env o w = (.ok url, w')) :
    ('/' ∉ o.bucketName ∧ NamesObject url (utf8 o.bucketName) (utf8 o.objectName)) ↔ Addressable o.bucketName o.objectName := by
  obtain ⟨path, hp, hiff⟩ := C57_path_exact env o w w' url h
  have e : utf8 (s% "/" ++ o.bucketName ++ s% "/" ++ o.objectName) =
      utf8 (s% "/") ++ utf8 o.bucketName ++ utf8 (s% "/") ++ utf8 o.objectName := by
    rw [utf8_append, utf8_append, utf8_append]
  rw [e] at hiff
  constructor
  · rintro ⟨hb, path', hp', _, hne, hd⟩
    rw [hp, Option.some.injEq] at hp'
    subst hp'
    obtain ⟨h1, h2, h3, h4⟩ := hiff.1 hd
    exact ⟨hb, fun e => hne (by rw [e]; rfl), h1, h2, h3, h4⟩
  · rintro ⟨hb, hne, h1, h2, h3, h4⟩
    refine ⟨hb, path, hp, slash_utf8 hb, fun e => hne (utf8_inj (a := o.objectName) (b := []) e), hiff.2 ⟨h1, h2, h3, h4⟩⟩

/-- The options of a URL for plain access to an object: no headers, no parameters. -/
structure Spec.PlainAccess (o : UrlOptions) : Prop where
  headers : o.headers = []
  parameters : o.queryParameters = []
  region : '%' ∉ o.region.getD (s% "auto")
  names : Addressable o.bucketName o.objectName

theorem Spec.PlainAccess.regular {o : UrlOptions} (h : PlainAccess o) : Regular o where
  bucket := fun hm => h.names.chars _ (List.mem_append_left _ hm) (by decide)
  object := fun hm => h.names.chars _ (List.mem_append_right _ hm) (by decide)
  region := h.region
  paramNames := by rw [h.parameters]; intro p hp; cases hp
  headerNames := by rw [h.headers]; intro p hp; cases hp
  prefixes := by rw [h.parameters]; show ∀ a ∈ googNames, ∀ b ∈ googNames, a <+: b → a = b; decide
  headerValues := by rw [h.headers]; intro p hp; cases hp
  noPayload := by rw [h.headers]; intro p hp; cases hp

theorem plain_simple {env : Env} {o : UrlOptions} {w w' : World} {url : Str} (h : buildSignedUrl env o w = (.ok url, w'))
    (hp : PlainAccess o) (time : Int) : (theRequest o url time).Simple := by
  obtain ⟨email, digest, _, ht, hu, _⟩ := signed_ok h
  constructor
  · intro x hx
    change x ∈ (s% "host", s% "storage.googleapis.com") :: o.headers at hx
    rw [hp.headers, List.mem_singleton] at hx
    rw [hx]; decide
  · intro p hpm
    change p ∈ queryParams (urlQuery url) at hpm
    rw [hu, (urlQuery_decoded (env := env) ht (email := email) (o := o) digest).mem_iff, hp.parameters,
      formParse_nil_query hp.regular.toPlain] at hpm
    simp only [List.map_nil, List.nil_append] at hpm
    have : p.1 ∈ googNames.map utf8 := by
      have := List.mem_map_of_mem (f := Prod.fst) hpm
      exact this
    obtain ⟨name, hn, he⟩ := List.mem_map.1 this
    exact ⟨name, hn, he.symm⟩

theorem plain_accepted {env : Env} {o : UrlOptions} {w w' : World} {url email pem : Str} {key : Bytes} {n e : Nat} {time : Int}
    (h : buildSignedUrl env o w = (.ok url, w')) (hp : PlainAccess o) (hk : o.signingKey = .serviceAccount email pem)
    (hring : Rsa.Correct env) (hpem : env.pemParse pem = some key) (hpub : Rsa.PublicKeyIn key n e) (hemail : '%' ∉ email)
    (htime : validFrom env o.accessibleAt w / 1000000000 ≤ time ∧
      time < validFrom env o.accessibleAt w / 1000000000 + (o.expires - validFrom env o.accessibleAt w) / 1000000000) :
    Accepts email n e (theRequest o url time) ∧ (theRequest o url time).Simple ∧
      NamesObject url (utf8 o.bucketName) (utf8 o.objectName) :=
  ⟨C65_service_account env o w w' url email pem key n e time h hk hp.regular hring hpem hpub hemail htime.1 htime.2,
    plain_simple h hp time, ((C76_object_iff env o w w' url h).2 hp.names).2⟩

theorem answers_iff {account : Str} {n e : Nat} {s : Store} {r : Incoming} {content : Bytes} {b o : Bytes}
    (hacc : Accepts account n e r) (hm : r.method = s% "GET") (hs : r.Simple) (hn : NamesObject r.url b o) :
    Answers account n e s r content ↔ s b o = some content := by
  constructor
  · rintro ⟨_, _, _, b', o', hn', hc⟩
    obtain ⟨rfl, rfl⟩ := namesObject_unique hn hn'
    exact hc
  · exact fun hc => ⟨hacc, hm, hs, b, o, hn, hc⟩

/-- C76. A GET with a returned URL answers with the content of exactly the object that the URL was made for. -/
theorem C76_get (env : Env) (o : UrlOptions) (w w' : World) (url email pem : Str) (key : Bytes) (n e : Nat) (time : Int)
    (h : buildSignedUrl env o w = (.ok url, w')) (hp : PlainAccess o) (hget : o.httpMethod = s% "GET")
    (hk : o.signingKey = .serviceAccount email pem) (hring : Rsa.Correct env) (hpem : env.pemParse pem = some key)
    (hpub : Rsa.PublicKeyIn key n e) (hemail : '%' ∉ email)
    (htime : validFrom env o.accessibleAt w / 1000000000 ≤ time ∧
      time < validFrom env o.accessibleAt w / 1000000000 + (o.expires - validFrom env o.accessibleAt w) / 1000000000)
    (s : Store) (content : Bytes) :
    Answers email n e s (theRequest o url time) content ↔ s (utf8 o.bucketName) (utf8 o.objectName) = some content := by
  obtain ⟨h1, h2, h3⟩ := plain_accepted h hp hk hring hpem hpub hemail htime
  exact answers_iff h1 hget h2 h3

/-- C76. A PUT with a returned URL stores the body in exactly the object that the URL was made for, and changes no other. -/
theorem C76_put (env : Env) (o : UrlOptions) (w w' : World) (url email pem : Str) (key : Bytes) (n e : Nat) (time : Int)
    (h : buildSignedUrl env o w = (.ok url, w')) (hp : PlainAccess o) (hput : o.httpMethod = s% "PUT")
    (hk : o.signingKey = .serviceAccount email pem) (hring : Rsa.Correct env) (hpem : env.pemParse pem = some key)
    (hpub : Rsa.PublicKeyIn key n e) (hemail : '%' ∉ email)
    (htime : validFrom env o.accessibleAt w / 1000000000 ≤ time ∧
      time < validFrom env o.accessibleAt w / 1000000000 + (o.expires - validFrom env o.accessibleAt w) / 1000000000)
    (s s' : Store) (body : Bytes) (hs : Handles email n e (.request (theRequest o url time) body) s s') (b k : Bytes) :
    s' b k = if b = utf8 o.bucketName ∧ k = utf8 o.objectName then some body else s b k := by
  obtain ⟨h1, h2, h3⟩ := plain_accepted h hp hk hring hpem hpub hemail htime
  split
  · rename_i hbk
    rw [hbk.1, hbk.2]
    exact (hs.put h1 _ _ _ _ rfl h3 h2).1 hput
  · rename_i hbk
    apply Classical.byContradiction
    intro hne
    exact hbk (only_named h3 (hs.others b k hne).2)

/-- C76. A DELETE with a returned URL removes exactly the object that the URL was made for. -/
theorem C76_delete (env : Env) (o : UrlOptions) (w w' : World) (url email pem : Str) (key : Bytes) (n e : Nat) (time : Int)
    (h : buildSignedUrl env o w = (.ok url, w')) (hp : PlainAccess o) (hdel : o.httpMethod = s% "DELETE")
    (hk : o.signingKey = .serviceAccount email pem) (hring : Rsa.Correct env) (hpem : env.pemParse pem = some key)
    (hpub : Rsa.PublicKeyIn key n e) (hemail : '%' ∉ email)
    (htime : validFrom env o.accessibleAt w / 1000000000 ≤ time ∧
      time < validFrom env o.accessibleAt w / 1000000000 + (o.expires - validFrom env o.accessibleAt w) / 1000000000)
    (s s' : Store) (body : Bytes) (hs : Handles email n e (.request (theRequest o url time) body) s s') (b k : Bytes) :
    s' b k = if b = utf8 o.bucketName ∧ k = utf8 o.objectName then none else s b k := by
  obtain ⟨h1, h2, h3⟩ := plain_accepted h hp hk hring hpem hpub hemail htime
  split
  · rename_i hbk
    rw [hbk.1, hbk.2]
    exact (hs.put h1 _ _ _ _ rfl h3 h2).2 hdel
  · rename_i hbk
    apply Classical.byContradiction
    intro hne
    exact hbk (only_named h3 (hs.others b k hne).2)

theorem fieldValues_filterMap {g : Str → Option Str} {n : Str} : ∀ {l : List Str}, l.Nodup → n ∈ l →
    fieldValues (l.filterMap fun x => (g x).map fun v => (x, v)) n = (g n).toList
  | x :: l, hd, hm => by
    obtain ⟨hx, hl⟩ := List.nodup_cons.1 hd
    have rest : n ∉ l → fieldValues (l.filterMap fun x => (g x).map fun v => (x, v)) n = [] := by
      intro hn
      unfold fieldValues
      rw [List.map_eq_nil_iff, List.filter_eq_nil_iff]
      intro f hf
      obtain ⟨y, hy, he⟩ := List.mem_filterMap.1 hf
      obtain ⟨v, _, rfl⟩ := Option.map_eq_some_iff.1 he
      rw [decide_eq_true_eq]
      rintro rfl
      exact hn hy
    by_cases hxn : x = n
    · subst hxn
      cases hg : g x with
      | none => rw [List.filterMap_cons, hg]; exact rest hx
      | some v =>
        rw [List.filterMap_cons, hg]
        have := rest hx
        unfold fieldValues at this ⊢
        simp only [Option.map_some, List.filter_cons, decide_true, if_true, List.map_cons, this, Option.toList_some]
    · have ih := fieldValues_filterMap (g := g) hl (by rcases List.mem_cons.1 hm with h | h; exact absurd h.symm hxn; exact h)
      cases hg : g x with
      | none => rw [List.filterMap_cons, hg]; exact ih
      | some v =>
        rw [List.filterMap_cons, hg, ← ih]
        unfold fieldValues
        simp only [Option.map_some]
        rw [List.filter_cons_of_neg (by simpa using hxn)]

/-- A signed form has one key. -/
theorem form_key {env : Env} {cs : List Call} {o : SigningOptions} {w w' : World} {fs : List (Str × Str)} {key : Str}
    (ho : (cs.filterMap callOptions).getLast? = some o) (h : (Builder.ofCalls cs).build env w = (.ok fs, w'))
    (hkey : lastValue cs (s% "key") = some key) : fieldValues fs (s% "key") = [key] := by
  obtain ⟨_, _, _, _, _, _, computed, rfl, hcomp, _⟩ := form_facts env cs o w w' fs ho h
  have h1 := fieldValues_filterMap (g := fun n => (computed.lookup n).or (lastValue cs n)) (n := s% "key") (l := signedOrder)
    (by decide) (by decide)
  have h2 : fieldValues ((cs.filterMap callMeta).map fun m => (s% "x-goog-meta-" ++ m.1, m.2)) (s% "key") = [] := by
    unfold fieldValues
    rw [List.map_eq_nil_iff, List.filter_eq_nil_iff]
    intro f hf
    obtain ⟨m, _, rfl⟩ := List.mem_map.1 hf
    rw [decide_eq_true_eq]
    exact fun e => absurd (List.cons.inj e).1 (by decide)
  unfold signedForm
  have : ∀ a b : List (Str × Str), fieldValues (a ++ b) (s% "key") = fieldValues a (s% "key") ++ fieldValues b (s% "key") := by
    intro a b; unfold fieldValues; rw [List.filter_append, List.map_append]
  rw [this, h1, h2, hcomp _ (by decide) (by decide) (by decide) (by decide) (by decide), hkey]
  rfl

/-- A key without `${filename}` is taken as it is. -/
theorem expand_plain (filename : Str) : ∀ {key : Str}, ¬ s% "${filename}" <:+: key → expand filename key = key
  | [], _ => by rw [expand]
  | c :: r, h => by
    rw [expand, if_neg, expand_plain filename fun hi => h (List.infix_cons hi)]
    intro hp
    exact h (List.isPrefixOf_iff_prefix.1 hp).isInfix

/-- C76. Posting a returned form in its time, with a file of the given length, stores the file in exactly the object of the
form's bucket and key (with `${filename}` replaced), and changes no other. -/
theorem C76_post (env : Env) (cs : List Call) (o : SigningOptions) (w w' : World) (fs : List (Str × Str))
    (email pem bucket objectKey : Str) (key : Bytes) (n e : Nat) (time : Int)
    (ho : (cs.filterMap callOptions).getLast? = some o) (h : (Builder.ofCalls cs).build env w = (.ok fs, w'))
    (hk : o.signingKey = .serviceAccount email pem) (hring : Rsa.Correct env) (hpem : env.pemParse pem = some key)
    (hpub : Rsa.PublicKeyIn key n e) (hbucket : lastValue cs (s% "bucket") = some bucket)
    (hkey : lastValue cs (s% "key") = some objectKey)
    (htime : validFrom env o.accessibleAt w / 1000000000 ≤ time ∧ time < o.expiration / 1000000000)
    (filename : Str) (file : Bytes)
    (hsize : ∀ text, lastValue cs (s% "Content-Length") = some text → Decimal text file.length)
    (hmeta : ∀ m ∈ cs.filterMap callMeta, ∀ m' ∈ cs.filterMap callMeta, m.1 = m'.1 → m.2 = m'.2)
    (s s' : Store) (hs : Handles email n e (.form ⟨bucket, fs, file.length, time⟩ filename file) s s') (b k : Bytes) :
    s' b k = if b = utf8 bucket ∧ k = utf8 (expand filename objectKey) then some file else s b k := by
  have hacc : AcceptsPost email n e ⟨bucket, fs, file.length, time⟩ :=
    (C67_service_account env cs o w w' fs email pem key n e _ ho h hk hring hpem hpub rfl hbucket).2
      ⟨htime.1, htime.2, hsize, hmeta⟩
  have hfk := form_key ho h hkey
  split
  · rename_i hbk
    rw [hbk.1, hbk.2]
    exact hs.post ⟨hacc, rfl⟩ _ _ _ _ rfl hfk
  · rename_i hbk
    apply Classical.byContradiction
    intro hne
    obtain ⟨h1, x, hx, h2⟩ := hs.others b k hne
    rw [hfk, List.mem_singleton] at hx
    exact hbk ⟨h1, hx ▸ h2⟩

/-- C76. What is posted with a returned form is what a GET of a returned URL for the same bucket and name answers with, as
long as nothing changes the object in between. (This is `tests/lib.rs: test_build_html_form_data`, for all names, files,
keys and times.) -/
theorem C76_post_then_get (env : Env) (cs : List Call) (fo : SigningOptions) (w w' : World) (fs : List (Str × Str))
    (o : UrlOptions) (v v' : World) (url email pem : Str) (key : Bytes) (n e : Nat) (time time' : Int)
    (ho : (cs.filterMap callOptions).getLast? = some fo) (hform : (Builder.ofCalls cs).build env w = (.ok fs, w'))
    (hurl : buildSignedUrl env o v = (.ok url, v')) (hp : PlainAccess o) (hget : o.httpMethod = s% "GET")
    (hk : fo.signingKey = .serviceAccount email pem) (hk' : o.signingKey = .serviceAccount email pem)
    (hring : Rsa.Correct env) (hpem : env.pemParse pem = some key) (hpub : Rsa.PublicKeyIn key n e) (hemail : '%' ∉ email)
    (hbucket : lastValue cs (s% "bucket") = some o.bucketName) (hkey : lastValue cs (s% "key") = some o.objectName)
    (hvar : ¬ s% "${filename}" <:+: o.objectName)
    (htime : validFrom env fo.accessibleAt w / 1000000000 ≤ time ∧ time < fo.expiration / 1000000000)
    (htime' : validFrom env o.accessibleAt v / 1000000000 ≤ time' ∧
      time' < validFrom env o.accessibleAt v / 1000000000 + (o.expires - validFrom env o.accessibleAt v) / 1000000000)
    (filename : Str) (file : Bytes)
    (hsize : ∀ text, lastValue cs (s% "Content-Length") = some text → Decimal text file.length)
    (hmeta : ∀ m ∈ cs.filterMap callMeta, ∀ m' ∈ cs.filterMap callMeta, m.1 = m'.1 → m.2 = m'.2)
    (s s₁ s₂ : Store) (hs : Handles email n e (.form ⟨o.bucketName, fs, file.length, time⟩ filename file) s s₁)
    (hkeep : s₂ (utf8 o.bucketName) (utf8 o.objectName) = s₁ (utf8 o.bucketName) (utf8 o.objectName)) (content : Bytes) :
    Answers email n e s₂ (theRequest o url time') content ↔ content = file := by
  rw [C76_get env o v v' url email pem key n e time' hurl hp hget hk' hring hpem hpub hemail htime' s₂ content, hkeep,
    C76_post env cs fo w w' fs email pem o.bucketName o.objectName key n e time ho hform hk hring hpem hpub hbucket hkey htime
      filename file hsize hmeta s s₁ hs, expand_plain filename hvar, if_pos ⟨rfl, rfl⟩, Option.some.injEq]
  exact eq_comm

/-- C76. What is put with a returned URL is what a GET of a returned URL for the same bucket and name answers with, as long
as nothing changes the object in between. -/
theorem C76_put_then_get (env : Env) (o o' : UrlOptions) (w w' v v' : World) (url url' email pem : Str) (key : Bytes) (n e : Nat)
    (time time' : Int)
    (h : buildSignedUrl env o w = (.ok url, w')) (hp : PlainAccess o) (hput : o.httpMethod = s% "PUT")
    (h' : buildSignedUrl env o' v = (.ok url', v')) (hp' : PlainAccess o') (hget : o'.httpMethod = s% "GET")
    (hsame : o'.bucketName = o.bucketName ∧ o'.objectName = o.objectName)
    (hk : o.signingKey = .serviceAccount email pem) (hk' : o'.signingKey = .serviceAccount email pem)
    (hring : Rsa.Correct env) (hpem : env.pemParse pem = some key) (hpub : Rsa.PublicKeyIn key n e) (hemail : '%' ∉ email)
    (htime : validFrom env o.accessibleAt w / 1000000000 ≤ time ∧
      time < validFrom env o.accessibleAt w / 1000000000 + (o.expires - validFrom env o.accessibleAt w) / 1000000000)
    (htime' : validFrom env o'.accessibleAt v / 1000000000 ≤ time' ∧
      time' < validFrom env o'.accessibleAt v / 1000000000 + (o'.expires - validFrom env o'.accessibleAt v) / 1000000000)
    (s s₁ s₂ : Store) (body : Bytes) (hs : Handles email n e (.request (theRequest o url time) body) s s₁)
    (hkeep : s₂ (utf8 o.bucketName) (utf8 o.objectName) = s₁ (utf8 o.bucketName) (utf8 o.objectName)) (content : Bytes) :
    Answers email n e s₂ (theRequest o' url' time') content ↔ content = body := by
  rw [C76_get env o' v v' url' email pem key n e time' h' hp' hget hk' hring hpem hpub hemail htime' s₂ content, hsame.1, hsame.2,
    hkeep, C76_put env o w w' url email pem key n e time h hp hput hk hring hpem hpub hemail htime s s₁ body hs,
    if_pos ⟨rfl, rfl⟩, Option.some.injEq]
  exact eq_comm

/-! ### C77 -/

/-- A URL that was made by the crate. -/
structure Spec.IssuedUrl where
  env : Env
  options : UrlOptions
  before : World
  after : World
  url : Str

/-- It was returned; it is a URL that can be requested (C28), and the header names are as in C20. -/
def Spec.IssuedUrl.Built (i : IssuedUrl) : Prop :=
  buildSignedUrl i.env i.options i.before = (.ok i.url, i.after) ∧ '\n' ∉ i.url ∧ ∀ h ∈ i.options.headers, '%' ∉ h.1

/-- The instant from which it is valid. -/
def Spec.IssuedUrl.start (i : IssuedUrl) : Time := validFrom i.env i.options.accessibleAt i.before

/-- A form that was made by the crate. -/
structure Spec.IssuedForm where
  env : Env
  calls : List Call
  options : SigningOptions
  before : World
  after : World
  fields : List (Str × Str)

/-- It was returned, with signing options. -/
def Spec.IssuedForm.Built (f : IssuedForm) : Prop :=
  (f.calls.filterMap callOptions).getLast? = some f.options ∧
    (Builder.ofCalls f.calls).build f.env f.before = (.ok f.fields, f.after)

/-- The instant from which it is valid. -/
def Spec.IssuedForm.start (f : IssuedForm) : Time := validFrom f.env f.options.accessibleAt f.before

/-- What somebody sends is not forged: it is an HTTP request, the text whose signature the server checks is one that was
signed for a URL or for a form, and the canonical request collides with none of those that were signed. -/
def Spec.NotForged (account : Str) (urls : List IssuedUrl) (forms : List IssuedForm) (parts : IssuedUrl → SignedParts) :
    Sent → Prop
  | .request r _ => OneLine r ∧ ∀ canonical message, r.Rebuilds account canonical message →
    ((∃ i ∈ urls, message = (parts i).stringToSign) ∨ ∃ f ∈ forms, message ∈ fieldValues f.fields (s% "policy")) ∧
    ∀ i ∈ urls, NoCollision canonical (parts i).canonicalRequest
  | .form r _ _ => ∀ policy ∈ fieldValues r.fields (s% "policy"),
    (∃ i ∈ urls, policy = (parts i).stringToSign) ∨ ∃ f ∈ forms, policy ∈ fieldValues f.fields (s% "policy")

/-- What somebody sends uses a URL or a form that was made by the crate: it asks for what the URL was made for, or it
submits that form. -/
def Spec.Uses (urls : List IssuedUrl) (forms : List IssuedForm) : Sent → Prop
  | .request r _ => ∃ i ∈ urls, AsksFor i.options i.start i.url r
  | .form r _ _ => ∃ f ∈ forms, Submits f.calls f.start f.options.expiration f.fields r

/-- What it reads or changes is what that URL or form was made for: the object of the URL with its method (or anything in
the bucket, if the URL is that of a bucket); or the object of the form's bucket and key, with a file of the form's length. -/
def Spec.MadeFor (urls : List IssuedUrl) (forms : List IssuedForm) (bucket object : Bytes) : Sent → Prop
  | .request r _ => ∃ i ∈ urls, AsksFor i.options i.start i.url r ∧ r.method = i.options.httpMethod ∧
    (NamesObject i.url bucket object ∨ NamesBucket i.url bucket)
  | .form r filename file => ∃ f ∈ forms, Submits f.calls f.start f.options.expiration f.fields r ∧
    ∃ b key, lastValue f.calls (s% "bucket") = some b ∧ lastValue f.calls (s% "key") = some key ∧ bucket = utf8 b ∧
      object = utf8 (expand filename key) ∧
      ∀ text, lastValue f.calls (s% "Content-Length") = some text → Decimal text file.length

/-- `p` are the parts that were signed for the URL. The server rebuilds the same message from the request for the URL itself
(for a service account key, and options as in C65). -/
structure Spec.SignedAs (i : IssuedUrl) (p : SignedParts) : Prop where
  signed : IsSigned i.env i.after.log i.options.signingKey i.url p
  honest : ∀ email pem, i.options.signingKey = .serviceAccount email pem → Regular i.options → '%' ∉ email → ∀ time,
    OneLine (theRequest i.options i.url time) ∧
    ∀ canonical message, (theRequest i.options i.url time).Rebuilds email canonical message →
      message = p.stringToSign ∧ canonical = p.canonicalRequest

/-- The parts that C66 is about. -/
theorem issued_parts (n e : Nat) (i : IssuedUrl) (h : i.Built) :
    ∃ p : SignedParts, SignedAs i p ∧ (∀ j, ¬ CarriesJson p.stringToSign j) ∧
      ∀ account r, Accepts account n e r → OneLine r →
        (∀ canonical message, r.Rebuilds account canonical message →
          message = p.stringToSign ∧ NoCollision canonical p.canonicalRequest) → AsksFor i.options i.start i.url r := by
  obtain ⟨env, o, w, w', url⟩ := i
  obtain ⟨h, hlf, hpct⟩ := h
  change buildSignedUrl env o w = (.ok url, w') at h
  change '\n' ∉ url at hlf
  obtain ⟨email, digest, hrej, ht, hu, hs, hauth, hval, halg⟩ := signed_ok h
  refine ⟨_, ⟨hs, ?_⟩, fun j hj => policy_chars hj (message_lf _ _ _ _), ?_⟩
  · intro email' pem hk hr hemail time
    change o.signingKey = _ at hk
    rw [hk] at hauth
    have he : email = email' := hauth
    subst he
    refine ⟨⟨?_, hlf, ?_⟩, ?_⟩
    · obtain ⟨_, _, _, _, hm, _, _⟩ := urlRejection_none.1 hrej
      exact methods_no_lf hm
    · intro x hx hm
      rcases List.mem_cons.1 hx with rfl | hx
      · exact absurd hm (by decide)
      · exact plain_no_lf (headerValues_plain hval (asciiLower x.1) x.2 (by
          unfold headerValues requestHeaders
          exact List.mem_map.2 ⟨x, List.mem_filter.2 ⟨List.mem_cons_of_mem _ hx, by simp⟩, rfl⟩)) hm
    · intro c m hreb
      change (theRequest o url time).Rebuilds email c m at hreb
      rw [hu] at hreb
      obtain ⟨h1, h2⟩ := rebuilds_parts ht digest hrej hr.toPlain hemail hreb
      rw [h1, h2]
      exact ⟨message_parts ht digest hr halg _, canonical_parts ht digest hr _⟩
  · intro account r hacc hr hunf
    obtain ⟨path, date, region, life, sh, hex', sg', start, seconds, a1, _, a3, a4, a5, a6, a7, _, a9, a10, a11, _, a13, a14, a15,
      a16⟩ := hacc
    obtain ⟨hmsg, hnc2⟩ := hunf _ _ ⟨path, date, region, sh, a1, a3, a4, a11, rfl, rfl⟩
    change AsksFor o (validFrom env o.accessibleAt w) url r
    rw [hu] at hlf ⊢
    exact asks_of_message ht hrej halg hval hlf hpct hr a1 a5 a6 a7 a9 a10 a11 a13 hmsg hnc2

theorem accepts_rebuilds {account : Str} {n e : Nat} {r : Incoming} (h : Accepts account n e r) :
    ∃ canonical message, r.Rebuilds account canonical message := by
  obtain ⟨path, date, region, life, sh, hex', sg', start, seconds, a1, _, a3, a4, a5, a6, a7, _, a9, a10, a11, _⟩ := h
  exact ⟨_, _, path, date, region, sh, a1, a3, a4, a11, rfl, rfl⟩

/-- The server rebuilds one message from a request. -/
theorem rebuilds_unique {account : Str} {r : Incoming} {c m c' m' : Str} (h : r.Rebuilds account c m)
    (h' : r.Rebuilds account c' m') : m = m' ∧ c = c' := by
  obtain ⟨path, date, region, sh, a1, a2, a3, a4, rfl, rfl⟩ := h
  obtain ⟨path', date', region', sh', b1, b2, b3, b4, rfl, rfl⟩ := h'
  rw [a1, Option.some.injEq] at b1
  rw [a3, List.cons.injEq] at b3
  rw [a4, List.cons.injEq] at b4
  have e1 := b1
  have e2 := utf8_inj b3.1
  have e3 := utf8_inj b4.1
  subst e1 e2 e3
  rw [a2, List.cons.injEq] at b2
  have e4 := utf8_inj b2.1
  simp only [List.append_assoc] at e4
  have e5 := List.append_cancel_left (List.append_cancel_left (List.append_cancel_left (List.append_cancel_left e4)))
  have e6 := List.append_cancel_right e5
  subst e6
  exact ⟨rfl, rfl⟩

theorem key_not_ignored : ¬ Ignored (s% "key") := by
  rintro (h | h | h)
  · exact absurd h (by decide)
  · exact absurd h (by decide)
  · exact absurd h (by decide)

theorem key_not_exempt : ¬ exempt (s% "key") ∧ s% "key" ≠ s% "Content-Length" := by decide

/-- The key of a form that is submitted. -/
theorem submitted_key {env : Env} {cs : List Call} {o : SigningOptions} {w w' : World} {fs : List (Str × Str)}
    (ho : (cs.filterMap callOptions).getLast? = some o) (hb : (Builder.ofCalls cs).build env w = (.ok fs, w')) {start expiration : Time}
    {r : Posted} (h : Submits cs start expiration fs r) {v : Str} (hv : v ∈ fieldValues r.fields (s% "key")) :
    lastValue cs (s% "key") = some v := by
  rw [mem_fieldValues] at hv
  obtain ⟨g, hg, he⟩ := h.known _ hv key_not_ignored
  have hsame := h.same _ hv g hg he.symm key_not_exempt.1 key_not_exempt.2
  obtain ⟨_, _, _, _, _, _, computed, hfs, hcomp, _⟩ := form_facts env cs o w w' fs ho hb
  rw [hfs] at hg
  obtain ⟨x, y⟩ := g
  have he : x = s% "key" := he
  have hsame : v = y := hsame
  subst he hsame
  rcases mem_signedForm.1 hg with ⟨_, h1⟩ | ⟨h1, _⟩
  · rwa [hcomp _ (by decide) (by decide) (by decide) (by decide) (by decide), Option.none_or] at h1
  · exact absurd (List.cons.inj h1).1 (by decide)

theorem submits_key {f : IssuedForm} (hf : f.Built) {r : Posted} (h : Submits f.calls f.start f.options.expiration f.fields r) {v : Str}
    (hv : v ∈ fieldValues r.fields (s% "key")) : lastValue f.calls (s% "key") = some v := submitted_key hf.1 hf.2 h hv

theorem asksFor_names {o : UrlOptions} {start : Time} {url : Str} {r : Incoming} (h : AsksFor o start url r) {b k : Bytes} :
    (NamesObject r.url b k ↔ NamesObject url b k) ∧ (NamesBucket r.url b ↔ NamesBucket url b) := by
  obtain ⟨path, path', h1, h2, h3⟩ := h.path
  unfold NamesObject NamesBucket
  rw [h1, h2]
  constructor
  · constructor
    · rintro ⟨p, hp, hr⟩
      rw [Option.some.injEq] at hp
      subst hp
      exact ⟨_, rfl, by rwa [h3] at hr⟩
    · rintro ⟨p, hp, hr⟩
      rw [Option.some.injEq] at hp
      subst hp
      exact ⟨_, rfl, by rwa [h3]⟩
  · constructor
    · rintro ⟨p, hp, hr⟩
      rw [Option.some.injEq] at hp
      subst hp
      exact ⟨_, rfl, by rwa [h3] at hr⟩
    · rintro ⟨p, hp, hr⟩
      rw [Option.some.injEq] at hp
      subst hp
      exact ⟨_, rfl, by rwa [h3]⟩

/-- C77. Whatever the server accepts, if it is not forged, uses a URL or a form that was made. -/
theorem C77_accepted (account : Str) (n e : Nat) (urls : List IssuedUrl) (forms : List IssuedForm)
    (hu : ∀ i ∈ urls, i.Built) (hf : ∀ f ∈ forms, f.Built) :
    ∃ parts : IssuedUrl → SignedParts, (∀ i ∈ urls, SignedAs i (parts i)) ∧
      ∀ m, m.Accepted account n e → NotForged account urls forms parts m → Uses urls forms m := by
  have key : ∀ i : IssuedUrl, ∃ p : SignedParts, i.Built → SignedAs i p ∧
      (∀ j, ¬ CarriesJson p.stringToSign j) ∧ ∀ account r, Accepts account n e r → OneLine r →
        (∀ canonical message, r.Rebuilds account canonical message →
          message = p.stringToSign ∧ NoCollision canonical p.canonicalRequest) → AsksFor i.options i.start i.url r := by
    intro i
    by_cases hb : i.Built
    · obtain ⟨p, hp⟩ := issued_parts n e i hb
      exact ⟨p, fun _ => hp⟩
    · exact ⟨⟨[], [], [], [], [], [], [], []⟩, fun h => absurd h hb⟩
  obtain ⟨parts, spec⟩ := Classical.axiomOfChoice key
  refine ⟨parts, fun i hi => (spec i (hu i hi)).1, ?_⟩
  intro m hacc hnf
  cases m with
  | request r body =>
    obtain ⟨hone, hnf⟩ := hnf
    obtain ⟨c, msg, hrb⟩ := accepts_rebuilds hacc
    obtain ⟨hin | ⟨f, hfm, hin⟩, hcol⟩ := hnf c msg hrb
    · obtain ⟨i, hi, he⟩ := hin
      refine ⟨i, hi, (spec i (hu i hi)).2.2 account r hacc hone fun c' m' hrb' => ?_⟩
      obtain ⟨e1, e2⟩ := rebuilds_unique hrb hrb'
      exact ⟨e1 ▸ he, e2 ▸ hcol i hi⟩
    · exact absurd rfl (C75_policy_is_no_message f.env f.calls f.options f.before f.after f.fields (hf f hfm).1 (hf f hfm).2 r account c
        msg hrb msg hin)
  | form r filename file =>
    obtain ⟨hacc, _⟩ := hacc
    obtain ⟨policy, j, _, _, _, _, _, _, _, _, a1, a2, _⟩ := id hacc
    rcases hnf policy (by rw [a1]; exact List.mem_singleton.2 rfl) with ⟨i, hi, he⟩ | ⟨f, hfm, hin⟩
    · exact absurd (he ▸ a2) ((spec i (hu i hi)).2.1 j)
    · refine ⟨f, hfm, C68_unforgeable f.env f.calls f.options f.before f.after f.fields n e (hf f hfm).1 (hf f hfm).2 account r hacc ?_⟩
      obtain ⟨_, policy', _, _, _, _, _, _, _, _, _, hpol, _⟩ :=
        form_facts f.env f.calls f.options f.before f.after f.fields (hf f hfm).1 (hf f hfm).2
      rw [hpol, List.mem_singleton] at hin
      rw [a1, hpol, hin]

/-- C77. In every history of the server in which nothing is forged, the content of an object changes only by a PUT, POST
or DELETE with a URL that was made for this method and this object (or its bucket), or by a form that was made for its name, in
the time for which the URL or form was made. -/
theorem C77_changes (account : Str) (n e : Nat) (urls : List IssuedUrl) (forms : List IssuedForm)
    (hu : ∀ i ∈ urls, i.Built) (hf : ∀ f ∈ forms, f.Built) :
    ∃ parts : IssuedUrl → SignedParts, (∀ i ∈ urls, SignedAs i (parts i)) ∧
      ∀ ms s s', Serves account n e ms s s' → (∀ m ∈ ms, m.Accepted account n e → NotForged account urls forms parts m) →
        ∀ bucket object, s' bucket object ≠ s bucket object → ∃ m ∈ ms, m.Accepted account n e ∧
          m.MayChange bucket object ∧ MadeFor urls forms bucket object m := by
  obtain ⟨parts, hp, hacc⟩ := C77_accepted account n e urls forms hu hf
  refine ⟨parts, hp, fun ms s s' h => ?_⟩
  induction h with
  | done s => exact fun _ b k hne => absurd rfl hne
  | @next m ms s s' s'' hh _ ih =>
    intro hnf b k hne
    by_cases hch : s' b k = s b k
    · obtain ⟨m', hm', hr⟩ := ih (fun m' hm' => hnf m' (.tail _ hm')) b k (by rw [hch]; exact hne)
      exact ⟨m', .tail _ hm', hr⟩
    · have ha : m.Accepted account n e := Classical.byContradiction fun hr => hch (by rw [hh.rejected hr])
      have hmay := hh.others b k hch
      refine ⟨m, .head _, ha, hmay, ?_⟩
      have huse := hacc m ha (hnf m (.head _) ha)
      cases m with
      | request r body =>
        obtain ⟨i, hi, hask⟩ := huse
        refine ⟨i, hi, hask, hask.method, ?_⟩
        rw [← (asksFor_names hask (b := b) (k := k)).1, ← (asksFor_names hask (b := b) (k := k)).2]
        exact hmay.2
      | form r filename file =>
        obtain ⟨f, hfm, hsub⟩ := huse
        obtain ⟨hb, v, hv, hk⟩ := hmay
        exact ⟨f, hfm, hsub, r.bucket, v, hsub.bucket, submits_key (hf f hfm) hsub hv, hb, hk,
          fun text ht => ha.2 ▸ hsub.size text ht⟩

/-- C77. The server answers a read of an object only if a URL was made for reading it, and in the time for which it was
made; if nothing is forged. -/
theorem C77_reads (account : Str) (n e : Nat) (urls : List IssuedUrl) (forms : List IssuedForm)
    (hu : ∀ i ∈ urls, i.Built) (hf : ∀ f ∈ forms, f.Built) :
    ∃ parts : IssuedUrl → SignedParts, (∀ i ∈ urls, SignedAs i (parts i)) ∧
      ∀ s r content, Answers account n e s r content → (∀ body, NotForged account urls forms parts (.request r body)) →
        ∃ i ∈ urls, i.options.httpMethod = s% "GET" ∧
          (i.start / 1000000000 ≤ r.time ∧ r.time * 1000000000 < i.options.expires) ∧
          ∃ bucket object, NamesObject i.url bucket object ∧ s bucket object = some content := by
  obtain ⟨parts, hp, hacc⟩ := C77_accepted account n e urls forms hu hf
  refine ⟨parts, hp, ?_⟩
  rintro s r content ⟨ha, hm, _, b, k, hn, hc⟩ hnf
  obtain ⟨i, hi, hask⟩ := hacc (.request r []) ha (hnf [])
  refine ⟨i, hi, hask.method.symm.trans hm, ⟨hask.time.1, ?_⟩, b, k, (asksFor_names hask).1.1 hn, hc⟩
  have := hask.time
  omega

/-! ### The example server and the storage server together -/

theorem uuid_no_variable {id : Str} (h : ImageUploader.IsUuid id) : '$' ∉ id :=
  fun hm => absurd (h.2 _ hm) (by decide)

open CSS.ImageUploader CSS.Spec.ImageUploader in
theorem uuid_addressable {bucket id : Str} (hb : IsBucketName bucket) (hid : ImageUploader.IsUuid id) : Addressable bucket id := by
  have h1 : '/' ∉ bucket := fun h => bucket_chars hb _ h (by decide)
  have h2 : '/' ∉ id := fun h => uuid_chars hid _ h (by decide)
  have hpct : '%' ∉ bucket ++ s% "/" ++ id := by
    simp only [List.mem_append, not_or]
    exact ⟨⟨fun h => bucket_chars hb _ h (by decide), by decide⟩, fun h => uuid_chars hid _ h (by decide)⟩
  refine ⟨h1, ?_, ?_, ?_, ?_, ?_⟩
  · intro h; rw [h] at hid; exact absurd hid.1 (by decide)
  · intro c hc hx
    have hx' : c ∈ s% "?#%\\\t\n\r/" := (by decide : ∀ c ∈ s% "?#\\\t\n\r", c ∈ s% "?#%\\\t\n\r/") c hx
    rcases List.mem_append.1 hc with h | h
    · exact bucket_chars hb c h hx'
    · exact uuid_chars hid c h hx'
  · intro c hc
    exact (by decide : ∀ c ∈ s% "0123456789abcdef-", 32 < c.toNat) c (hid.2 c (List.mem_of_getLast? hc))
  · intro s hs
    rw [show bucket ++ s% "/" ++ id = bucket ++ '/' :: id by simp, splitOn_append h1, splitOn_none h2] at hs
    have hl : 3 ≤ s.length := by
      rcases List.mem_cons.1 hs with rfl | hs
      · exact hb.1
      · rw [List.mem_singleton.1 hs, hid.1]; decide
    constructor <;> (rintro rfl; exact absurd hl (by decide))
  · rintro ⟨a, x, y, b, he, _⟩
    exact hpct (by rw [he]; simp)

open CSS.ImageUploader CSS.Spec.ImageUploader in
/-- C76 for the example server. With a service account key, an image that is posted with a returned form, in its minute, is
what a GET of a listed URL for this image answers with, in its minute, as long as nothing changes the object in between. -/
theorem C76_image_uploader (env : Env) (cfg : Config) (id : Str) (n : Nat) (c : Str) (fs : List (Str × Str)) (url : Str)
    (now start now' start' : Time) (email pem : Str) (key : Bytes) (N E : Nat)
    (hform : FormFor env cfg id n c fs now start) (hurl : UrlFor env cfg id url now' start')
    (hb : IsBucketName cfg.bucketName) (hid : IsUuid id)
    (hk : cfg.signingKey = .serviceAccount email pem) (hring : Rsa.Correct env) (hpem : env.pemParse pem = some key)
    (hpub : Rsa.PublicKeyIn key N E) (hemail : '%' ∉ email) (time time' : Int)
    (htime : start / 1000000000 ≤ time ∧ time < (now + 60000000000) / 1000000000)
    (htime' : start' / 1000000000 ≤ time' ∧ time' < start' / 1000000000 + (now' + 60000000000 - start') / 1000000000)
    (filename : Str) (file : Bytes) (hsize : file.length = n)
    (s s₁ s₂ : Store) (hs : Handles email N E (.form ⟨cfg.bucketName, fs, file.length, time⟩ filename file) s s₁)
    (hkeep : s₂ (utf8 cfg.bucketName) (utf8 id) = s₁ (utf8 cfg.bucketName) (utf8 id)) (content : Bytes) :
    Answers email N E s₂ ⟨s% "GET", url, [(s% "host", s% "storage.googleapis.com")], time'⟩ content ↔ content = file := by
  obtain ⟨w, w', rfl, rfl, hf⟩ := hform
  obtain ⟨v, v', rfl, rfl, hu⟩ := hurl
  have haddr := uuid_addressable hb hid
  exact C76_post_then_get env _ ⟨none, env.now w.ticks + 60000000000, none, cfg.signingKey, cfg.useSignBlob⟩ _ w' fs _ _ v' url email pem key N E time time' rfl hf hu
    ⟨rfl, rfl, by show '%' ∉ s% "auto"; decide, haddr⟩ rfl hk hk hring hpem hpub hemail rfl rfl
    (fun h => uuid_no_variable hid (h.subset (by decide))) htime htime' filename file
    (by intro text ht; rw [← Option.some.inj ht, hsize]; exact natDec_decimal n) (by intro m hm; cases hm) s s₁ s₂ hs hkeep content

open CSS.ImageUploader CSS.Spec.ImageUploader in
/-- C76 for the example server, in every history: if the random ids are distinct, a registration was answered with a form, and
the upload was reported before a listing read the images, then the listing shows a URL with the following property. If the
storage server got the form with a file of the registered length in its minute, it answers a GET of the URL in its minute with
this file, as long as nothing changed the object in between. -/
theorem C76_image_history (env : Env) (cfg : Config) (tr : List Event) (st : State) (hrun : Run (.alone env cfg) cfg tr st)
    (hnd : (createdIds tr).Nodup) (i j n : Nat) (c m u : Str) (fs : List (Str × Str)) (req : Req) (urls : List Str)
    (hi : st.tasks[i]? = some (.create n c, .replied (.form fs m u))) (hj : st.tasks[j]? = some (req, .replied (.urls urls)))
    (hb : IsBucketName cfg.bucketName) (email pem : Str) (key : Bytes) (N E : Nat)
    (hk : cfg.signingKey = .serviceAccount email pem) (hring : Rsa.Correct env) (hpem : env.pemParse pem = some key)
    (hpub : Rsa.PublicKeyIn key N E) (hemail : '%' ∉ email) :
    ∃ (id : Str) (before after : List Event) (now start : Time), eventsOf tr i = [.created i id] ∧ FormFor env cfg id n c fs now start ∧
      tr = before ++ .listed j :: after ∧
      (UploadedIn before id → ∃ url ∈ urls, ∃ now' start', UrlFor env cfg id url now' start' ∧
        ∀ (time time' : Int) (filename : Str) (file : Bytes) (s s₁ s₂ : Store),
          start / 1000000000 ≤ time ∧ time < (now + 60000000000) / 1000000000 →
          start' / 1000000000 ≤ time' ∧ time' < start' / 1000000000 + (now' + 60000000000 - start') / 1000000000 →
          file.length = n →
          Handles email N E (.form ⟨cfg.bucketName, fs, file.length, time⟩ filename file) s s₁ →
          s₂ (utf8 cfg.bucketName) (utf8 id) = s₁ (utf8 cfg.bucketName) (utf8 id) →
          ∀ content, Answers email N E s₂ ⟨s% "GET", url, [(s% "host", s% "storage.googleapis.com")], time'⟩ content ↔
            content = file) := by
  obtain ⟨before, after, ids, htr, _, hids, hlen, hurl⟩ := C69_listing env cfg tr st hrun hnd j req urls hj
  rcases C70_create env cfg tr st hrun i n c _ hi with ⟨id, fields, now, start, he, hid, hf, hev⟩ | ⟨h | h, _⟩
  · rw [Reply.form.injEq] at he
    rw [← he.1] at hf
    refine ⟨id, before, after, now, start, hev, hf, htr, fun hup => ?_⟩
    obtain ⟨k, hk1, hk2⟩ := List.getElem_of_mem ((hids id).2 hup)
    have hk3 : k < urls.length := by omega
    obtain ⟨now', start', hu⟩ := hurl k urls[k] id (List.getElem?_eq_getElem hk3) (by rw [List.getElem?_eq_getElem hk1, hk2])
    exact ⟨urls[k], List.getElem_mem hk3, now', start', hu, fun time time' filename file s s₁ s₂ h1 h2 h3 h4 h5 content =>
      C76_image_uploader env cfg id n c fs urls[k] now start now' start' email pem key N E hf hu hb hid hk hring hpem hpub hemail time
        time' h1 h2 filename file h3 s s₁ s₂ h4 h5 content⟩
  · cases h
  · cases h

/-! ### The server exists -/

open Classical in
/-- Whatever it gets, there is something the server can do. -/
theorem handles_exists (account : Str) (n e : Nat) (m : Sent) (s : Store) : ∃ s', Handles account n e m s s' := by
  by_cases ha : m.Accepted account n e
  · cases m with
    | request r body =>
      refine ⟨fun b o => if NamesObject r.url b o ∧ r.method = s% "PUT" then some body
        else if NamesObject r.url b o ∧ r.method = s% "DELETE" then none else s b o, fun h => absurd ha h, ?_, ?_, ?_⟩
      · intro b o hne
        by_cases h1 : NamesObject r.url b o ∧ r.method = s% "PUT"
        · refine ⟨?_, .inl h1.1⟩
          rw [h1.2]; rintro (h | h) <;> exact absurd h (by decide)
        · by_cases h2 : NamesObject r.url b o ∧ r.method = s% "DELETE"
          · refine ⟨?_, .inl h2.1⟩
            rw [h2.2]; rintro (h | h) <;> exact absurd h (by decide)
          · exact absurd (by simp only [if_neg h1, if_neg h2]) hne
      · intro _ r' body' b o he hn hs
        cases he
        refine ⟨fun hm => by simp only [if_pos (And.intro hn hm)], fun hm => ?_⟩
        rw [if_neg, if_pos ⟨hn, hm⟩]
        rintro ⟨_, h⟩
        rw [hm] at h
        exact absurd h (by decide)
      · intro _ r' f file key he; cases he
    | form r filename file =>
      refine ⟨fun b o => if b = utf8 r.bucket ∧ ∃ key ∈ fieldValues r.fields (s% "key"), o = utf8 (expand filename key) then some file
        else s b o, fun h => absurd ha h, ?_, ?_, ?_⟩
      · intro b o hne
        by_cases h1 : b = utf8 r.bucket ∧ ∃ key ∈ fieldValues r.fields (s% "key"), o = utf8 (expand filename key)
        · exact h1
        · exact absurd (by simp only [if_neg h1]) hne
      · intro _ r' body' b o he; cases he
      · intro _ r' f file key he hk
        cases he
        rw [if_pos ⟨rfl, key, by rw [hk]; exact List.mem_singleton.2 rfl, rfl⟩]
  · exact ⟨s, fun _ => rfl, fun _ _ h => absurd rfl h, fun h => absurd h ha, fun h => absurd h ha⟩

/-- For everything that is sent to it, the server has a history. -/
theorem serves_exists (account : Str) (n e : Nat) : ∀ (ms : List Sent) (s : Store), ∃ s', Serves account n e ms s s'
  | [], s => ⟨s, .done s⟩
  | m :: ms, s => by
    obtain ⟨s', h⟩ := handles_exists account n e m s
    obtain ⟨s'', h'⟩ := serves_exists account n e ms s'
    exact ⟨s'', .next h h'⟩

end CSS
