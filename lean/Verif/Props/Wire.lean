import Verif.Spec.Wire
import Verif.Lemmas.UrlPathExact
import Verif.Lemmas.Form
import Verif.Props.UrlPath
import Verif.Props.Concurrent
import Verif.Props.TokenAccount
/- C93: what the requests to Google's servers look like on the wire. -/
namespace CSS
open Spec

theorem percentDecode_plain_append {a : Str} (h : '%' ∉ a) (b : Str) : percentDecode (a ++ b) = utf8 a ++ percentDecode b := by
  induction a with
  | nil => rfl
  | cons c a ih =>
    simp only [List.mem_cons, not_or] at h
    rw [List.cons_append, pd_plain (fun e => h.1 e.symm), ih h.2, utf8_cons, List.append_assoc]

/-- A text that does not begin with a hexadecimal digit does not continue an escape. -/
theorem percentDecode_append_nohex {c : Char} (hc : hexVal? c = none) (a b : Str) :
    percentDecode (a ++ c :: b) = percentDecode a ++ percentDecode (c :: b) := by
  rcases percentDecode_cases a with rfl | ⟨d, r, rfl, e, hn⟩ | ⟨x, y, r, v, rfl, hx, hy, e⟩
  · rfl
  · have ih := percentDecode_append_nohex hc r b
    rw [e, List.append_assoc, ← ih]
    by_cases hd : d = '%'
    · subst hd
      rw [List.cons_append, pd_raw]
      · rfl
      intro x y t h
      match r, h with
      | [], h => cases h; exact .inl hc
      | [z], h => cases h; exact .inr hc
      | z :: z' :: r, h =>
        cases h
        by_cases h1 : hexVal? x = none
        · exact .inl h1
        · by_cases h2 : hexVal? y = none
          · exact .inr h2
          · exact absurd ⟨rfl, x, y, r, rfl, h1, h2⟩ hn
    · rw [List.cons_append, pd_plain hd]
  · obtain ⟨u, hu⟩ := Option.ne_none_iff_exists'.1 hx
    obtain ⟨w, hw⟩ := Option.ne_none_iff_exists'.1 hy
    have ih := percentDecode_append_nohex hc r b
    rw [List.cons_append, List.cons_append, List.cons_append, pd_hex hu hw, pd_hex hu hw, ih, List.cons_append]
termination_by a.length

theorem hasEscape_append {a b : Str} (h : HasEscape b) : HasEscape (a ++ b) := by
  obtain ⟨u, x, y, v, rfl, hx, hy⟩ := h
  exact ⟨a ++ u, x, y, v, by simp, hx, hy⟩

theorem hasEscape_append_left {a b : Str} (h : HasEscape a) : HasEscape (a ++ b) := by
  obtain ⟨u, x, y, v, rfl, hx, hy⟩ := h
  exact ⟨u, x, y, v ++ b, by simp, hx, hy⟩

/-- The path of the signing request, from the account on. -/
def blobRest (email : Str) : Str := s% "projects/-/serviceAccounts/" ++ email ++ s% ":signBlob"

theorem blobRest_eq (email : Str) : s% "/" ++ s% "v1" ++ s% "/" ++ blobRest email =
    s% "/v1/projects/-/serviceAccounts/" ++ email ++ s% ":signBlob" := by
  simp [blobRest]

theorem target_of_url (env : Env) {email : Str} {r : Request}
    (hu : r.url = s% "https://iamcredentials.googleapis.com/v1/projects/-/serviceAccounts/" ++ email ++ s% ":signBlob") :
    r.target env = some ⟨s% "iamcredentials.googleapis.com",
      (Url.parse env (s% "/" ++ s% "v1" ++ s% "/" ++ blobRest email)).path,
      (Url.parse env (s% "/" ++ s% "v1" ++ s% "/" ++ blobRest email)).query⟩ := by
  have hs : stripPrefix (s% "https://" ++ s% "iamcredentials.googleapis.com") r.url =
      some (s% "/v1/projects/-/serviceAccounts/" ++ email ++ s% ":signBlob") := by
    have : r.url = s% "https://" ++ s% "iamcredentials.googleapis.com" ++
        (s% "/v1/projects/-/serviceAccounts/" ++ email ++ s% ":signBlob") := by simp [hu]
    rw [this, stripPrefix_append]
  rw [blobRest_eq]
  unfold Request.target knownHosts
  rw [List.findSome?_cons, hs]
  rfl

theorem signBlob_target (env : Env) (email token body : Str) :
    (signBlobPost email token body).target env = some ⟨s% "iamcredentials.googleapis.com",
      (Url.parse env (s% "/" ++ s% "v1" ++ s% "/" ++ blobRest email)).path,
      (Url.parse env (s% "/" ++ s% "v1" ++ s% "/" ++ blobRest email)).query⟩ := target_of_url env rfl

theorem splitOn_single {sep : Char} {s : Str} (h : sep ∉ s) : splitOn sep s = [s] := by
  induction s with
  | nil => rfl
  | cons c s ih =>
    simp only [List.mem_cons, not_or] at h
    simp only [splitOn, if_neg (Ne.symm h.1), ih h.2]

theorem blob_segments {email : Str} (h : '/' ∉ email) : splitOn '/' (s% "v1" ++ s% "/" ++ blobRest email) =
    [s% "v1", s% "projects", s% "-", s% "serviceAccounts", email ++ s% ":signBlob"] := by
  have hs : '/' ∉ email ++ s% ":signBlob" := by
    rw [List.mem_append, not_or]; exact ⟨h, by decide⟩
  have := splitOn_single hs
  have e : s% "v1" ++ s% "/" ++ blobRest email = s% "v1/projects/-/serviceAccounts/" ++ (email ++ s% ":signBlob") := by
    simp [blobRest]
  rw [e]
  generalize email ++ s% ":signBlob" = x at this
  simp [splitOn, this]

theorem mem_blob {email : Str} {c : Char} (h : c ∈ s% "v1" ++ blobRest email) :
    c ∈ s% "v1projects/-/serviceAccounts/:signBlob" ∨ c ∈ email := by
  simp only [blobRest, List.mem_append, List.mem_cons, List.not_mem_nil, or_false] at h ⊢
  grind

theorem blob_query_none {env : Env} {email : Str} (hq : '?' ∉ email) :
    (Url.parse env (s% "/" ++ s% "v1" ++ s% "/" ++ blobRest email)).query = none := by
  unfold Url.parse Url.splitParts
  simp only
  rw [splitFirst_no]
  · rfl
  intro hm
  have hm := splitFirst_fst_sub hm
  have hm := (List.mem_filter.1 hm).1
  obtain ⟨t, ht, _⟩ := trimEndC0_split (s% "/" ++ s% "v1" ++ s% "/" ++ blobRest email)
  have hm : '?' ∈ s% "/" ++ s% "v1" ++ s% "/" ++ blobRest email := by
    rw [ht]; exact List.mem_append_left _ hm
  rw [blobRest_eq] at hm
  simp only [List.mem_append] at hm
  rcases hm with (hm | hm) | hm
  · revert hm; decide
  · exact hq hm
  · revert hm; decide

theorem colon_not_hex : hexVal? ':' = none := by decide

theorem decode_blob (x : Str) : percentDecode (x ++ s% ":signBlob") = percentDecode x ++ utf8 (s% ":signBlob") := by
  rw [percentDecode_append_nohex colon_not_hex, percentDecode_plain (s := s% ":signBlob") (by decide)]

theorem blob_keep (env : Env) (x : Str) (hx : ∀ c ∈ x, c ∈ s% "/v1projects/-/serviceAccounts/:signBlob") :
    utf8PercentEncode (pathEncSet env.encodeCaret) x = x := by
  apply encode_id
  intro c hc
  have key : ∀ c ∈ s% "/v1projects/-/serviceAccounts/:signBlob", Kept (pathEncSet env.encodeCaret) c := by
    cases env.encodeCaret <;> (unfold Kept; decide)
  exact key c (hx c hc)

theorem blob_path {env : Env} {email : Str} (hp : PlainAccount email) :
    (Url.parse env (s% "/" ++ s% "v1" ++ s% "/" ++ blobRest email)).path =
      s% "/v1/projects/-/serviceAccounts/" ++ utf8PercentEncode (pathEncSet env.encodeCaret) email ++ s% ":signBlob" := by
  have h := objectUrl_path (env := env) (o := { Conformance.urlOptions with bucketName := s% "v1", objectName := blobRest email })
    (by
      intro c hc
      rcases mem_blob hc with hc | hc
      · have key : ∀ c ∈ s% "v1projects/-/serviceAccounts/:signBlob", c ∉ s% "?#\\\t\n\r" := by decide
        exact key c hc
      · intro hm
        exact hp.1 c hc (by simp only [List.mem_cons] at hm ⊢; exact .inr hm))
    (by
      intro c hc
      have : (blobRest email).getLast? = some 'b' := by
        unfold blobRest; rw [List.getLast?_append]; rfl
      have hc : (blobRest email).getLast? = some c := hc
      rw [this] at hc
      cases hc
      decide)
    (by
      intro s hs
      rw [blob_segments (fun h => hp.1 '/' h (by decide))] at hs
      simp only [List.mem_cons, List.not_mem_nil, or_false] at hs
      rcases hs with rfl | rfl | rfl | rfl | rfl
      · decide
      · decide
      · decide
      · decide
      · rw [decode_blob]
        have hl : (utf8 (s% ":signBlob")).length = 9 := by decide
        constructor
        all_goals
          intro e
          have e := congrArg List.length e
          rw [List.length_append, hl] at e
          have : (utf8 (s% ".")).length = 1 := by decide
          have : (utf8 (s% "..")).length = 2 := by decide
          omega)
  have h : (Url.parse env (s% "/" ++ s% "v1" ++ s% "/" ++ blobRest email)).path =
      utf8PercentEncode (pathEncSet env.encodeCaret) (s% "/" ++ s% "v1" ++ s% "/" ++ blobRest email) := h
  rw [h, blobRest_eq, encode_append, encode_append, blob_keep env (s% "/v1/projects/-/serviceAccounts/") (by decide), blob_keep env (s% ":signBlob") (by decide)]

theorem slash_of_encode (caret : Bool) {x : Str} (h : '/' ∈ utf8PercentEncode (pathEncSet caret) x) : '/' ∈ x := by
  induction x with
  | nil => simp [utf8PercentEncode, utf8] at h
  | cons c r ih =>
    by_cases hk : Kept (pathEncSet caret) c
    · rw [encode_cons_kept hk, List.mem_cons] at h
      rcases h with h | h
      · rw [h]; exact List.mem_cons_self ..
      · exact List.mem_cons_of_mem _ (ih h)
    · rw [encode_cons_not (pathEncSet_enc caret) hk, List.mem_append] at h
      rcases h with h | h
      · rw [List.mem_flatMap] at h
        obtain ⟨b, _, hb⟩ := h
        exact absurd (pctByte_mem hb) (by decide)
      · exact List.mem_cons_of_mem _ (ih h)

theorem encode_slash_mem (caret : Bool) {x : Str} (h : '/' ∈ x) : '/' ∈ utf8PercentEncode (pathEncSet caret) x := by
  obtain ⟨a, b, rfl⟩ := List.append_of_mem h
  rw [encode_append, encode_cons_kept (by cases caret <;> (unfold Kept; decide))]
  simp

theorem asks_iff (env : Env) (email : Str) : AsksAccount ⟨s% "iamcredentials.googleapis.com",
      (Url.parse env (s% "/" ++ s% "v1" ++ s% "/" ++ blobRest email)).path,
      (Url.parse env (s% "/" ++ s% "v1" ++ s% "/" ++ blobRest email)).query⟩ email ↔ PlainAccount email := by
  constructor
  · rintro ⟨_, hq, seg, hpath, hseg, hdec⟩
    simp only at hq hpath
    have hd : percentDecode (Url.parse env (s% "/" ++ s% "v1" ++ s% "/" ++ blobRest email)).path =
        utf8 (s% "/" ++ s% "v1" ++ s% "/" ++ blobRest email) := by
      rw [hpath, List.append_assoc, percentDecode_plain_append (by decide), decode_blob, hdec, blobRest_eq, utf8_append, utf8_append,
        List.append_assoc]
    obtain ⟨h1, h2, h3, h4⟩ := url_path_exact hd
    have hmem : ∀ c ∈ email, c ∈ s% "v1" ++ blobRest email := by
      intro c hc
      simp [blobRest, hc]
    have hesc : ¬ HasEscape email := by
      intro he
      apply h4
      have e : s% "v1" ++ s% "/" ++ blobRest email = s% "v1/projects/-/serviceAccounts/" ++ (email ++ s% ":signBlob") := by
        simp [blobRest]
      rw [e]
      exact hasEscape_append (hasEscape_append_left he)
    refine ⟨fun c hc hm => ?_, hesc⟩
    simp only [List.mem_cons] at hm
    rcases hm with rfl | hm
    · have he := objectUrl_path (env := env)
        (o := { Conformance.urlOptions with bucketName := s% "v1", objectName := blobRest email }) h1 h2 (by
          intro s hs
          have hse : ¬ HasEscape s := fun h => h4 (splitOn_escape hs h)
          rw [percentDecode_no_escape hse]
          exact ⟨fun e => (h3 s hs).1 (utf8_inj e), fun e => (h3 s hs).2 (utf8_inj e)⟩)
      have he : (Url.parse env (s% "/" ++ s% "v1" ++ s% "/" ++ blobRest email)).path =
        utf8PercentEncode (pathEncSet env.encodeCaret) (s% "/" ++ s% "v1" ++ s% "/" ++ blobRest email) := he
      rw [hpath, blobRest_eq, encode_append, encode_append, blob_keep env (s% "/v1/projects/-/serviceAccounts/") (by decide), blob_keep env (s% ":signBlob") (by decide)] at he
      have he := List.append_cancel_left (List.append_cancel_right he)
      apply hseg
      rw [he]
      exact encode_slash_mem _ hc
    · exact h1 c (hmem c hc) (by simp only [List.mem_cons]; exact hm)
  · intro hp
    have hq := blob_query_none (env := env) (email := email) (fun h => hp.1 '?' h (by decide))
    have hpath := blob_path (env := env) hp
    have hslash : '/' ∉ utf8PercentEncode (pathEncSet env.encodeCaret) email := fun h => hp.1 '/' (slash_of_encode _ h) (by decide)
    have hdec : percentDecode (utf8PercentEncode (pathEncSet env.encodeCaret) email) = utf8 email := by
      rw [percentDecode_pathEncode, percentDecode_no_escape hp.2]
    generalize Url.parse env (s% "/" ++ s% "v1" ++ s% "/" ++ blobRest email) = u at hq hpath ⊢
    exact ⟨rfl, hq, _, hpath, hslash, hdec⟩

/-- C93. In every history of concurrent calls, every request for a signature (the only request that carries a token) goes, on the
wire, to the host of the IAM Service Account Credentials API, whatever the metadata server has answered. It asks for the account
that the metadata server named in the refresh that gave the token, if and only if nothing in the name has a meaning in a URL. -/
theorem C93_account (h : Sys.Reach env base s) {pre post : List Event} {i : Nat} {r : Request}
    (ht : s.trace = pre ++ .did i (.sent r) :: post) (hm : r.method = s% "POST") :
    ∃ bt j c t0 life target, StartedWith pre i bt ∧ Refreshed (base bt.id) pre j bt.id c t0 life ∧
      r.headers.lookup (s% "authorization") = some (s% "Bearer " ++ c.token) ∧
      r.target env = some target ∧ target.host = s% "iamcredentials.googleapis.com" ∧
      (AsksAccount target c.email ↔ PlainAccount c.email) := by
  obtain ⟨bt, email, token, payload, j, c, t0, life, hst, rfl, href, rfl, rfl⟩ := C35_one_refresh h ht hm
  exact ⟨bt, j, c, t0, life, _, hst, href, rfl, signBlob_target env _ _ _, rfl, asks_iff env _⟩

/-- C93. The e-mail addresses of service accounts consist of letters, digits and `-`, `.`, `_`, `@`. These are asked for literally: the
request line is what the documentation says. -/
theorem C93_literal (env : Env) (email token body : Str)
    (he : ∀ c ∈ email, c ∈ s% "abcdefghijklmnopqrstuvwxyzABCDEFGHIJKLMNOPQRSTUVWXYZ0123456789-._@") :
    (signBlobPost email token body).target env = some ⟨s% "iamcredentials.googleapis.com",
      s% "/v1/projects/-/serviceAccounts/" ++ email ++ s% ":signBlob", none⟩ ∧ PlainAccount email := by
  have key : ∀ c ∈ s% "abcdefghijklmnopqrstuvwxyzABCDEFGHIJKLMNOPQRSTUVWXYZ0123456789-._@",
      c ∉ s% "/?#\\\t\n\r" ∧ c ≠ '%' ∧ Kept (pathEncSet env.encodeCaret) c := by
    cases env.encodeCaret <;> (unfold Kept; decide)
  have hp : PlainAccount email := by
    refine ⟨fun c hc => (key c (he c hc)).1, ?_⟩
    rintro ⟨a, x, y, b, rfl, _⟩
    exact (key '%' (he '%' (by simp))).2.1 rfl
  refine ⟨?_, hp⟩
  rw [signBlob_target, blob_path hp, blob_query_none (fun h => hp.1 '?' h (by decide)),
    encode_id (fun c hc => (key c (he c hc)).2.2)]

/-- C93. With the usual metadata server, the other requests are exactly the two documented ones. -/
theorem C93_metadata (h : Sys.Reach env base s) {pre post : List Event} {i : Nat} {r : Request}
    (ht : s.trace = pre ++ .did i (.sent r) :: post) (hm : r.method ≠ s% "POST")
    (hb : ∀ bt, StartedWith pre i bt → base bt.id = s% "http://metadata.google.internal") :
    r.method = s% "GET" ∧ r.headers = [(s% "Metadata-Flavor", s% "Google")] ∧
    (r.target env = some ⟨s% "metadata.google.internal", s% "/computeMetadata/v1/instance/service-accounts/default/email", none⟩ ∨
      r.target env = some ⟨s% "metadata.google.internal", s% "/computeMetadata/v1/instance/service-accounts/default/token", none⟩) := by
  obtain ⟨bt, hst, hr | ⟨hr, _⟩ | ⟨email, token, payload, j, c, t0, life, hr, _⟩⟩ := C40_history h ht
  · subst hr
    refine ⟨rfl, rfl, .inl ?_⟩
    rw [hb bt hst]
    unfold Request.target Url.parse
    cases env.encodeCaret <;> cases env.keepDriveLetter <;> decide +kernel
  · subst hr
    refine ⟨rfl, rfl, .inr ?_⟩
    rw [hb bt hst]
    unfold Request.target Url.parse
    cases env.encodeCaret <;> cases env.keepDriveLetter <;> decide +kernel
  · subst hr
    exact absurd rfl hm

/-- C93, for returned forms: the account that is asked to sign on the wire is the one in the credential, if nothing in its name
has a meaning in a URL, unless the account was replaced during the call (C58). -/
theorem C93_form (env : Env) (cs : List Call) (o : SigningOptions) (bt : BoundToken) (w w' : World)
    (fs : List (Str × Str)) (ho : (cs.filterMap callOptions).getLast? = some o) (hk : o.signingKey = .boundToken bt)
    (h : (Builder.ofCalls cs).build env w = (.ok fs, w')) :
    ∃ email date signer r target, fieldValues fs (s% "x-goog-credential") =
        [email ++ s% "/" ++ date ++ s% "/" ++ o.region.getD (s% "auto") ++ s% "/storage/goog4_request"] ∧
      w'.log.getLast? = some r ∧ r.target env = some target ∧ target.host = s% "iamcredentials.googleapis.com" ∧
      (AsksAccount target signer ↔ PlainAccount signer) ∧
      (signer = email ∨ AccountReplaced env bt w w'.log email signer) := by
  obtain ⟨email, date, signer, _, hc, ⟨r, hr, _, hu⟩, hs⟩ := C58_form_signer env cs o bt w w' fs ho hk h
  exact ⟨email, date.take 8, signer, r, _, hc, hr, target_of_url env hu, rfl, asks_iff env signer, hs⟩

/-- C93, for returned URLs. -/
theorem C93_url (env : Env) (o : UrlOptions) (bt : BoundToken) (w w' : World) (url : Str)
    (hk : o.signingKey = .boundToken bt) (h : buildSignedUrl env o w = (.ok url, w')) :
    ∃ email date signer r target, (utf8 (s% "X-Goog-Credential"), percentDecode (email ++ s% "/" ++ date ++ s% "/" ++
          o.region.getD (s% "auto") ++ s% "/storage/goog4_request")) ∈ queryParams (urlQuery url) ∧
      w'.log.getLast? = some r ∧ r.target env = some target ∧ target.host = s% "iamcredentials.googleapis.com" ∧
      (AsksAccount target signer ↔ PlainAccount signer) ∧
      (signer = email ∨ AccountReplaced env bt w w'.log email signer) := by
  obtain ⟨email, date, signer, _, hc, ⟨r, hr, _, hu⟩, hs⟩ := C58_url_signer env o bt w w' url hk h
  exact ⟨email, date.take 8, signer, r, _, hc, hr, target_of_url env hu, rfl, asks_iff env signer, hs⟩

/-! ### cases -/

/-- The metadata server of the running example, but its e-mail is `text`. -/
def namingNet (text : Str) : Nat → Request → NetResult
  | 0, _ => .response 200 (some text)
  | n, r => Conformance.btNet n r

/-- C93, why line ends matter: if the metadata server ends the e-mail with a line feed, the account without the line feed is
asked to sign, and the credential of the returned form has the line feed. -/
theorem C93_line_feed : ∃ env fs w' r target, (Builder.ofCalls Conformance.btCalls).build env Conformance.world = (.ok fs, w') ∧
    fieldValues fs (s% "x-goog-credential") = [s% "a@b.c\n/20220101/us-central1/storage/goog4_request"] ∧
    w'.log.getLast? = some r ∧ r.target env = some target ∧ AsksAccount target (s% "a@b.c") := by
  refine ⟨{ Conformance.env with net := namingNet (s% "a@b.c\n") }, _, _, _, _, rfl, by decide +kernel, rfl, rfl, by decide +kernel,
    by decide +kernel, s% "a@b.c", by decide +kernel, by decide, by decide⟩

/-- C93: an e-mail with a slash and dots makes the call ask another method of the API. -/
example : (signBlobPost (s% "x/../../../../v2/y?z=") (s% "t") (s% "{}")).target Conformance.env =
    some ⟨s% "iamcredentials.googleapis.com", s% "/v1/v2/y", some (s% "z=:signBlob")⟩ := by decide +kernel

end CSS
