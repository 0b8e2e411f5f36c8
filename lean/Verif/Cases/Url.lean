import Verif.Props.UrlShape
import Verif.Props.UrlParams
import Verif.Props.UrlHeaders
import Verif.Props.UrlPath
import Verif.Props.UrlErrors
import Verif.Props.UrlCommit
import Verif.Props.UrlExact
import Verif.Props.UrlReturns
/-
The theorems about signed URLs, each applied to a concrete case: C08, C16-C32, C52, C53, C61, C62.
-/
namespace CSS.Cases
open Spec Conformance

/-- C08_url_date, C16_url_shape, C17_signed_message, C20_signed_headers, C21_header_values, C24_method_signed,
C28_same_resource: the PUT of a nested object with a repeated header. -/
example : ∃ url w' p path hex more, buildSignedUrl env urlOptions world = (.ok url, w') ∧ IsSigned env w'.log testKey url p ∧
    p.method = s% "PUT" ∧ p.region = s% "auto" ∧ urlPath (s% "https://storage.googleapis.com") url = some path ∧
    urlQuery url = p.query ++ s% "&X-Goog-Signature=" ++ hex ∧ BasicDenotes p.date more := by
  obtain ⟨url, w', h⟩ := urlOptions_ok
  obtain ⟨p, h1, _, ⟨sec, hd, _⟩, hr, hm, _, hp, ⟨hex, hq⟩, _⟩ := C17_signed_message env urlOptions world w' url h
  exact ⟨url, w', p, _, hex, sec, h, h1, hm, hr, hp, hq, hd⟩
example : ∃ url w' p line, buildSignedUrl env urlOptions world = (.ok url, w') ∧ IsSigned env w'.log testKey url p ∧
    line ∈ p.headers ∧ line.1 = s% "x-goog-meta-r" ∧ line.2 = [s% "jane", s% "john doe"] := by
  obtain ⟨url, w', h⟩ := urlOptions_ok
  obtain ⟨p, h1, _, hv, hx, _⟩ := C21_header_values env urlOptions world w' url h
  obtain ⟨line, hl, hn, _⟩ := hx (s% "X-Goog-Meta-R", s% "jane") (by decide)
  refine ⟨url, w', p, line, h, h1, hl, by rw [hn]; decide, ?_⟩
  rw [hv line hl, hn]
  decide +kernel
example : ∃ url w' p, buildSignedUrl env urlOptions world = (.ok url, w') ∧ IsSigned env w'.log testKey url p ∧
    p.headers.map (·.1) = p.headers.map (·.1) ∧ s% "x-goog-meta-r" ∈ p.headers.map (·.1) ∧
    (utf8 (s% "X-Goog-SignedHeaders"), utf8 (join (s% ";") (p.headers.map (·.1)))) ∈ queryParams (urlQuery url) := by
  obtain ⟨url, w', h⟩ := urlOptions_ok
  obtain ⟨p, names, h1, rfl, _, _, hn, _, _, hq⟩ := C20_signed_headers env urlOptions world w' url h
  exact ⟨url, w', p, h, h1, rfl, (hn _).2 ⟨(s% "X-Goog-Meta-R", s% "jane"), by decide, by decide⟩, hq (by decide)⟩

/-- C18_required_parameters, C18_credential_exact and C18_required_once: with a service account and with a bound token. -/
example : ∃ url w', buildSignedUrl env urlOptions world = (.ok url, w') ∧
    (∀ name ∈ googNames, (paramValues url name).length = 1) ∧
    ∃ email date, Authorizes env world w'.log testKey email ∧ email = s% "test@example.com" ∧
      (utf8 (s% "X-Goog-Credential"), utf8 (email ++ s% "/" ++ date ++ s% "/auto/storage/goog4_request")) ∈
        queryParams (urlQuery url) := by
  obtain ⟨url, w', h⟩ := urlOptions_ok
  have he : ∀ email, Authorizes env world w'.log urlOptions.signingKey email → email = s% "test@example.com" := by
    intro email ha
    exact ha
  obtain ⟨email, date, ha, _, hm⟩ := C18_credential_exact env urlOptions world w' url h (by decide)
    (fun email ha => by rw [he email ha]; decide)
  refine ⟨url, w', h, C18_required_once env urlOptions world w' url h (by decide) (by decide) (by decide +kernel),
    email, date.take 8, ha, he email ha, ?_⟩
  have e : email ++ s% "/" ++ date.take 8 ++ s% "/" ++ urlOptions.region.getD (s% "auto") ++ s% "/storage/goog4_request" =
      email ++ s% "/" ++ date.take 8 ++ s% "/auto/storage/goog4_request" := by simp [urlOptions]
  rw [← e]
  exact hm

/-- C19_user_parameters_partial: a value with `&` and `=` arrives as it was given. -/
example : ∃ url w', buildSignedUrl env urlOptions world = (.ok url, w') ∧
    (utf8 (s% "userProject"), utf8 (s% "my&project=1")) ∈ queryParams (urlQuery url) := by
  obtain ⟨url, w', h⟩ := urlOptions_ok
  obtain ⟨_, extra, goog, _, _, _, hp⟩ := C19_user_parameters_partial env urlOptions world w' url h (by
    have no : ∀ s : Str, '%' ∉ s → ¬ HasEscape s := fun s hs ⟨pre, _, _, post, e, _⟩ => hs (by rw [e]; simp)
    intro p hp
    simp only [urlOptions, List.mem_cons, List.not_mem_nil, or_false] at hp
    rcases hp with rfl | rfl <;> exact ⟨no _ (by decide), no _ (by decide)⟩)
  refine ⟨url, w', h, hp.symm.subset ?_⟩
  simp [urlOptions]

/-- C22_headers_clean, C22_one_line_per_header, C23_never_valid_after_expires, C24_method_signed. -/
example : ∃ url w', buildSignedUrl env urlOptions world = (.ok url, w') ∧ PlainValue (s% "john doe") ∧
    ∃ date life d n, (utf8 (s% "X-Goog-Date"), utf8 date) ∈ queryParams (urlQuery url) ∧
      (utf8 (s% "X-Goog-Expires"), utf8 life) ∈ queryParams (urlQuery url) ∧
      BasicDenotes date d ∧ Decimal life n ∧ (d + n) * 1000000000 ≤ 1640998800000000007 := by
  obtain ⟨url, w', h⟩ := urlOptions_ok
  obtain ⟨date, life, d, n, h1, h2, h3, h4, _, h6, _⟩ := C23_never_valid_after_expires env urlOptions world w' url h
  exact ⟨url, w', h, (C22_headers_clean env urlOptions world w' url h (s% "x-goog-meta-r", s% "john doe") (by decide)).2.2,
    date, life, d, n, h1, h2, h3, h4, h6⟩

/-- C23_bad_expires_rejected: one nanosecond before the start of validity, and a lifetime of 604801 s. -/
example : ∃ e w', buildSignedUrl env { urlOptions with expires := 1640995200 * nsPerSec + 4 } world = (.err e, w') ∧ w'.log = [] := by
  obtain ⟨r, w', h, _, hl, _, hr⟩ := C23_bad_expires_rejected env { urlOptions with expires := 1640995200 * nsPerSec + 4 } world
    (.inl (by decide))
  obtain ⟨e, rfl⟩ := hr (.inl (by decide))
  exact ⟨e, w', h, hl⟩
example : ∃ e w', buildSignedUrl env { urlOptions with expires := (1640995200 + 604801) * nsPerSec + 5 } world = (.err e, w') ∧
    w'.log = [] := by
  obtain ⟨r, w', h, _, hl, _, hr⟩ := C23_bad_expires_rejected env { urlOptions with expires := (1640995200 + 604801) * nsPerSec + 5 } world
    (.inr (by decide))
  obtain ⟨e, rfl⟩ := hr (.inl (by decide))
  exact ⟨e, w', h, hl⟩

/-- C24_method_error_iff: the name in lower case. -/
example : ∃ e, (buildSignedUrl env { urlOptions with httpMethod := s% "put" } world).1 = .err (.httpMethod e) :=
  (C24_method_error_iff env { urlOptions with httpMethod := s% "put" } world).2 (by decide)

/-- C25_parameter_order. -/
example : buildSignedUrl env { urlOptions with queryParameters := [(s% "a", s% "b"), (s% "userProject", s% "my&project=1")] } world =
    buildSignedUrl env urlOptions world :=
  C25_parameter_order env urlOptions _ world (List.Perm.swap _ _ _)

/-- C26_same_headers: the order between different headers. C26_header_case: another spelling. -/
example : ∀ name, headerValues urlOptions.headers name =
    headerValues [(s% "content-type", s% "text/plain"), (s% "X-Goog-Meta-R", s% "jane"), (s% "x-goog-meta-r", s% "john doe")] name := by
  intro name
  simp only [urlOptions, headerValues]
  by_cases h1 : asciiLower (s% "content-type") = name
  · subst h1; decide +kernel
  · simp only [List.filter_cons, h1, decide_false, Bool.false_eq_true, if_false]
example : ∃ url w', buildSignedUrl env { urlOptions with headers :=
    [(s% "x-goog-meta-r", s% "jane"), (s% "Content-Type", s% "text/plain"), (s% "X-GOOG-META-R", s% "john doe")] } world = (.ok url, w') := by
  obtain ⟨url, w', h⟩ := urlOptions_ok
  exact ⟨url, w', C26_header_case env urlOptions _ world w' url (by decide +kernel) h⟩

/-- C27_path_decodes_partial and C28_same_resource. -/
example : ∃ url w' path, buildSignedUrl env urlOptions world = (.ok url, w') ∧
    urlPath (s% "https://storage.googleapis.com") url = some path ∧
    percentDecode path = utf8 (s% "/my-bucket/cat pics/tabby+é.jpeg") := by
  obtain ⟨url, w', h⟩ := urlOptions_ok
  obtain ⟨path, h1, h2, _⟩ := C27_path_decodes_partial env urlOptions world w' url h (by decide +kernel) (by decide +kernel) (by decide +kernel)
  exact ⟨url, w', path, h, h1, by rw [h2]; decide +kernel⟩

/-- C29_illegal_char_raw: a space in a parameter. -/
example : ∃ url w', buildSignedUrl env { urlOptions with queryParameters := [(s% "a", s% "b c")] } world = (.ok url, w') ∧ ' ' ∈ url := by
  obtain ⟨url, w', h⟩ := succeeds_iff (r := buildSignedUrl env { urlOptions with queryParameters := [(s% "a", s% "b c")] } world)
    (by decide +kernel)
  exact ⟨url, w', h, (C29_illegal_char_raw env _ world w' url h (s% "a", s% "b c") (by decide) ' ' (by decide) (by decide)).1⟩

/-- The running example with a region of 65535 characters. -/
def longRegion : UrlOptions := { urlOptions with region := some (List.replicate 65535 'r') }

theorem utf8_r : ∀ n, utf8 (List.replicate n 'r') = List.replicate n 114
  | 0 => rfl
  | n + 1 => by
    have e : utf8 ('r' :: List.replicate n 'r') = 114 :: utf8 (List.replicate n 'r') := rfl
    rw [List.replicate_succ, e, utf8_r n, List.replicate_succ]

theorem urlOptions_valid : ValidUrl env urlOptions (1640995200 * nsPerSec + 5) := by
  obtain ⟨url, w', h⟩ := urlOptions_ok
  exact ((C62_service_account env urlOptions world _ _ _ rfl rfl rfl).1 ⟨url, by rw [h]⟩).1

/-- C31_long_region_panics and C31_service_account_local. -/
theorem longRegion_panics : (buildSignedUrl env longRegion world).1 = .panic .urlToBeValid :=
  C31_long_region_panics env longRegion world _ _ (List.replicate 65535 'r') (1640995200 * nsPerSec + 5) rfl rfl
    urlOptions_valid rfl (by rw [utf8_r, List.length_replicate]; decide)
example : TooLong env longRegion (1640995200 * nsPerSec + 5) (s% "test@example.com") :=
  ((C31_service_account_local env longRegion world _ _ _ rfl rfl longRegion_panics).resolve_right (by simp)).2

/-- The running example with `n` headers, whose names are `a`, `aa`, `aaa` and so on. -/
def withHeaders (n : Nat) : UrlOptions :=
  { urlOptions with headers := (List.range n).map fun k => (List.replicate (k + 1) 'a', s% "v") }

/-- An environment in which no more than 3276 headers fit into a `HeaderMap`. -/
def crowded : Env := { env with headersFit := fun _ => false }

theorem withHeaders_length (n : Nat) : (withHeaders n).headers.length = n := by
  show ((List.range n).map _).length = _
  rw [List.length_map, List.length_range]

theorem withHeaders_valid (n : Nat) (hn : n ≤ 65535) : ∀ h ∈ (withHeaders n).headers, ValidHeader h := by
  intro h hh
  obtain ⟨k, hk, rfl⟩ := List.mem_map.1 hh
  have := List.mem_range.1 hk
  refine ⟨by rw [List.replicate_succ]; exact List.cons_ne_nil _ _, ?_, ?_, ?_⟩
  · intro c hc
    rw [List.eq_of_mem_replicate hc]
    decide
  · rw [List.length_replicate]
    omega
  · show ∀ c ∈ s% "v", _
    decide

/-- C31_panic_iff and C31_service_account_local: too many headers. -/
theorem manyHeaders_panics (n : Nat) (hn : n ≤ 65535) (hm : 3277 ≤ n) :
    (buildSignedUrl crowded (withHeaders n) world).1 = .panic .headerMapFull := by
  refine (C31_panic_iff crowded (withHeaders n) world .headerMapFull _ rfl).2 (.inl ⟨?_, rfl⟩)
  obtain ⟨h1, h2, h3, h4, h5, h6, _⟩ := urlOptions_valid
  refine ⟨h1, h2, h3, ?_, h5, h6, withHeaders_valid n hn, ?_⟩
  · show (urlOptions.expires - urlOptions.accessibleAt.getD (env.now world.ticks)) / 1000000000 ≤ _
    decide +kernel
  rintro (h | h)
  · rw [withHeaders_length] at h
    omega
  · cases h
example : TooManyHeaders crowded (withHeaders 3277) (1640995200 * nsPerSec + 5) :=
  ((C31_service_account_local crowded (withHeaders 3277) world _ _ _ rfl rfl
    (manyHeaders_panics 3277 (by decide) (by decide))).resolve_left (by simp)).2

/-- With one header less there is no such panic. -/
example : (buildSignedUrl crowded (withHeaders 3276) world).1 ≠ .panic .headerMapFull := by
  intro h
  rcases C31_service_account_local crowded (withHeaders 3276) world _ _ _ rfl rfl h with ⟨h, _⟩ | ⟨_, hm⟩
  · cases h
  · obtain ⟨_, _, _, _, _, _, _, hn⟩ := hm
    exact hn (.inl (Nat.le_of_eq (withHeaders_length 3276)))

/-- C32_url_deterministic: another clock and a network that is down. -/
example : (buildSignedUrl env urlOptions world).1 =
    (buildSignedUrl { env with now := fun _ => 0, net := fun _ _ => .execErr } urlOptions { world with ticks := 9 }).1 :=
  C32_url_deterministic env _ urlOptions world _ _ _ _ ⟨rfl, rfl, rfl, rfl, rfl, rfl⟩ rfl rfl

theorem formText_r (n : Nat) : formText (List.replicate n 'r') = List.replicate n 'r' := by
  unfold formText
  induction n with
  | zero => rfl
  | succ n ih =>
    rw [List.replicate_succ, List.flatMap_cons, ih, if_pos (by decide)]
    rfl

/-- C52_http_request_error_iff: a parameter of 65535 characters. -/
example : (buildSignedUrl env { urlOptions with queryParameters := [(List.replicate 65535 'r', [])] } world).1 = .err .httpRequest := by
  refine (C52_http_request_error_iff env _ world (1640995200 * nsPerSec + 5) rfl).2
    ⟨by decide, by decide, by decide, by decide, by decide, ?_⟩
  have hq : (objectParts env { urlOptions with queryParameters := [(List.replicate 65535 'r', [])] }).query = [] := by decide +kernel
  unfold userUrl
  rw [hq]
  simp only [withParams, if_true, List.nil_append, List.map_cons, List.map_nil, join, formPair, formText_r, utf8_append, utf8_r,
    List.length_append, List.length_replicate]
  omega

/-- C53_message_determines_request: two URLs with the same message, from parameters in another order. -/
example : ∃ u₁ w₁ u₂ w₂ p₁ p₂, buildSignedUrl env urlOptions world = (.ok u₁, w₁) ∧
    buildSignedUrl env { urlOptions with queryParameters := [(s% "a", s% "b"), (s% "userProject", s% "my&project=1")] } world =
      (.ok u₂, w₂) ∧ IsSigned env w₁.log testKey u₁ p₁ ∧ IsSigned env w₂.log testKey u₂ p₂ ∧
    (Sha256.hexDigest (utf8 p₁.canonicalRequest) = Sha256.hexDigest (utf8 p₂.canonicalRequest) →
      p₁.canonicalRequest = p₂.canonicalRequest) := by
  obtain ⟨url, w', h⟩ := urlOptions_ok
  have h' := C25_parameter_order env urlOptions _ world (List.Perm.swap (s% "a", s% "b") (s% "userProject", s% "my&project=1") [])
  rw [h] at h'
  obtain ⟨p, hp, _⟩ := C17_signed_message env urlOptions world w' url h
  exact ⟨url, w', url, w', p, p, h, h', hp, hp, fun _ => rfl⟩

/-- C62_returns_url_iff and C62_returns_url_unique. -/
example : ∃ url w', ReturnsUrl env urlOptions world url w' ∧ ∀ url₂ w₂, ReturnsUrl env urlOptions world url₂ w₂ → url₂ = url := by
  obtain ⟨url, w', h⟩ := urlOptions_ok
  have hr := (C62_returns_url_iff env urlOptions world w' url).1 h
  exact ⟨url, w', hr, fun url₂ w₂ h₂ => (C62_returns_url_unique env urlOptions world w₂ w' url₂ url h₂ hr).1⟩

/-- C61_url_exact. -/
example : ∃ url w' email extra goog, buildSignedUrl env urlOptions world = (.ok url, w') ∧
    Authorizes env world w'.log testKey email ∧ FormParams (queryItems (objectParts env urlOptions).query) extra ∧
    GoogParams urlOptions (1640995200 * nsPerSec + 5) email goog := by
  obtain ⟨url, w', h⟩ := urlOptions_ok
  obtain ⟨email, extra, goog, _, _, _, h1, h2, h3, _⟩ := C61_url_exact env urlOptions world w' url _ rfl h
  exact ⟨url, w', email, extra, goog, h, h1, h2, h3⟩

end CSS.Cases
