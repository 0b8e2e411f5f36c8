# Formal model of bouzuya/cloud-storage-signature in Lean 4

## 1. Approach

The crate is a pure core (canonicalisation, encoding, calendar, policy JSON) wrapped in a thin effectful shell
(clock, metadata server, IAM signBlob, RSA). The model is a set of total, computable Lean functions, one per Rust
function, over

* `Str = List Char` (Rust `String`; Rust `char` and Lean `Char` are both Unicode scalar values),
* `Bytes = List UInt8`,
* `Time = Int` nanoseconds since the Unix epoch (Rust `SystemTime`),
* `Res ε α = ok | err | panic` (Rust `Result` plus the panic path: `todo!()`, `expect`, arithmetic overflow).

Effects (clock, HTTP, token cache) are a state monad over a `World` (token caches, log of requests, clock readings)
with an arbitrary oracle `Env`. Theorems quantify over every oracle, so they hold for every behaviour of the clock,
the servers and the RSA implementation. A second, small-step model (`Model/Concurrent`) runs any number of
calls at the same time, with the lock, every `.await` and cancellation explicit; it is proved to agree with the
first model for a call that runs alone.

Layout:

* `Verif/Model/*` – the model; each definition cites the file and lines in /repo it models, and says where it simplifies.
* `Verif/Spec/*` – independent specifications: Gregorian calendar, RFC 4648, RFC 8259 grammar, UTF-8 (also lossy),
  percent-decoding, the URL Standard's path, query and form rules (`Spec/UrlStandard`), parts of a signed URL, histories. They do not use the model's functions, only its types (exceptions in section 5).
* `Verif/Lemmas/*` – helper lemmas. `Verif/Props/*` – the property theorems, each with a non-vacuity `example`.
* `Verif/Cases/*` – further theorems applied to concrete, non-trivial cases, one file per area; the comment on each
  `example` names the theorems.
* `Verif/Conformance.lean` – the model run on the crate's own test vectors (tests of the model, not proofs), and the
  concrete inputs used by the non-vacuity examples.
* `Verif/CrateTests.lean` – the crate's remaining unit tests, run on the model.
* `Verif/Props/Ground.lean` – the model's text primitives are proved equal to Lean core's.

## 2. Trusted base

* Lean 4.33.0's kernel. No `sorry`, no added axioms, no `native_decide` or `bv_decide`.
* Axioms: every theorem depends on a subset of `propext`, `Classical.choice`, `Quot.sound` (section 7 lists the set of
  every claimed theorem).
* The reading of the Rust source into Lean, definition by definition (the citations make this checkable by eye).
* The behaviour of the dependencies, which is written down from knowledge of their source because they are not in the
  sandbox (section 4). Where two versions differ the model has a switch in `Env` and theorems hold for both:
  `encodeCaret`, `keepDriveLetter` (crate `url`). `numOk` says which non-integer number literals serde_json accepts,
  `headersFit` which lists of more than 3276 header names fit into a `HeaderMap`.
* The specifications in `Verif/Spec`.

## 3. What is modelled

| Source | Model |
|---|---|
| src/lib.rs | re-exports only; nothing to model |
| src/signed_url.rs | `Model/SignedUrl` (`buildSignedUrl`), `Model/Concurrent` (`buildSignedUrlP`) |
| src/html_form_data.rs | `Model/HtmlForm` (`Call`, `Builder`, `Builder.build`), `Model/Concurrent` (`buildP`) |
| src/signing_key.rs, src/private/signing_key_inner.rs | `Model/SigningKey`, `Model/Pem` |
| src/private/bound_token.rs | `Model/BoundToken` (sequential), `Model/Serde` (response documents), `Model/Concurrent`, `Model/Wire` (request targets) |
| src/private/signed_url.rs | `Model/SignedUrl` |
| src/private/canonical_request.rs, string_to_sign.rs, credential_scope.rs, location.rs, service.rs, request_type.rs, signing_algorithm.rs, http_verb.rs | `Model/Canonical` |
| src/private/active_datetime.rs, expiration.rs, date.rs, utils/unix_timestamp.rs, policy_document/expiration.rs | `Model/Time` (writing), `Model/Rfc3339`, `Model/Iso8601` (reading) |
| src/private/policy_document.rs, policy_document/{condition,field,value}.rs | `Model/HtmlForm` (writing), `Model/PolicyRead` (reading) |
| the error types of all these files | `Model/ErrorText` (messages), `Model/ErrorChain` (causes), `Model/ErrorDebug` (`{:?}`, also of `HtmlFormData`) |
| examples/image-uploader/src/main.rs | `Model/ImageUploader` (start-up and the three handlers, any interleaving), `Model/ImageUploaderShared` (their calls of the crate run concurrently), `Model/ImageRestart` (crashes of the process), `Model/ImageHttp` (routes, extractors and bodies) |
| examples/image-uploader/index.html | `Model/ImagePage` (uploads, and the list on the page), `Model/ImageHttp` (its HTTP requests, and how it reads answers), `Model/Multipart` (the body of the upload, as the HTML Standard has the browser write it) |
| examples/image-uploader/cors-configuration.json, set-cloud-storage-cors-config.sh | `Model/Cors` (the file as text, and the cross-origin `fetch` of the page); browsers and the storage server are in `Spec/Cors` |
| tests/lib.rs | `Model/Reqwest` (the body that reqwest's multipart form makes of a returned form and a file; the requests that `reqwest::get` and a POST of a form make of a returned URL) |

Dependencies modelled as functions: chrono (timestamp to date, RFC 3339 reader), serde_json (compact writer, reader,
derived `Deserialize` of the three response and policy types), `pem::parse` (`Model/Pem`, for C95), base64 STANDARD (both directions), percent-encoding and
form_urlencoded, the path/query/fragment part of the WHATWG URL parser of `url`, `http::{Uri, HeaderName, HeaderValue,
HeaderMap}`, `sha256::digest` (proved equal to the FIPS 180-4 text in `Spec/Sha256`), `BTreeMap`/`BTreeSet` as sorted lists, `tokio::sync::Mutex`.

## 4. What is an oracle, a simplification, or left out

Oracles (arbitrary functions in `Env`): the clock; whether reqwest can build a request; each answer of the network;
PEM parsing (arbitrary everywhere except in C95, which takes it to be `Model/Pem`, written from the source of the crate pem as remembered, since
no dependency is in the sandbox); PKCS#8 parsing; RSA signing (may fail, for any key and message); the
environment variable with the metadata host. That the RSA implementation is right is a hypothesis where it matters (C65, C67,
`Rsa.Correct` in `Spec/Rsa`, RFC 8017); `Lemmas/ReferenceRsa` is an implementation that meets it and reproduces
the signature in the crate's own test.

The server that checks signatures is not in /repo. C65-C68 describe it from the Cloud Storage documentation
(`Spec/Server` for URLs, `Spec/PostServer` for forms). C75-C77 use the same server, and `Spec/Storage` adds what an accepted
request does to the contents of objects; metadata, access lists and answers other than contents are left out of it.

Simplifications, each a superset of what can happen unless stated otherwise:

* `SystemTime` is an unbounded integer; the only bound is the overflow check of `now + expires_in` (unix `i64` seconds).
* Errors are values with the crate's own data; `Model/ErrorText` gives their messages. The texts that other crates' errors add
  to a message are arbitrary, and so are their own causes; `Model/ErrorChain` gives the causes (`source()`),
  and `Model/ErrorDebug` the `{:?}` texts. Which characters beyond ASCII std prints as they are in `{:?}` is an oracle.
* reqwest: a request is method, URL, headers and body as given; `Model/Wire` adds the target that URL parsing makes of it for the IAM host and
  the default metadata host; other hosts, redirects and timeouts are part of the oracle.
* `HeaderMap` has at most 32768 slots and panics if it needs more. How many names fit depends on their hashes, so the oracle
  `headersFit` decides; at most 3276 headers always fit (the map grows only when a fifth of its slots is used). Allocations beyond `isize::MAX` bytes are not
  modelled, and `reqwest::Client::new()` (which panics if TLS cannot be initialised) is taken to succeed.
* serde_json's `f64` range: a number literal that is not a 64-bit integer is accepted if an arbitrary predicate `numOk`
  says so. Its recursion limit of 128 is modelled for `service_account_from_str`.
* tokio's mutex: no fairness is assumed (any waiting call may get the lock), which is a superset of FIFO order; C78 alone assumes it, and C90 derives it from a model of the queue (`Model/FifoLock.lean`) with weak fairness. It is
  released on drop and not poisoned by a panic.
* In the sequential model a call is not interrupted; interleaving and cancellation are in `Model/Concurrent`.
* Reading policy documents and RFC 3339 timestamps: the errors are not told apart (the crate does not either).
* The example server: each call of the crate happens in an arbitrary world, so any interleaving is covered; a handler may be
  dropped between any two steps. Mutex poisoning is left out. Of its page, an upload is a sequence of steps between the
  `await`s. HTTP between the two is in `Model/ImageHttp`: axum's routes and extractors, the bodies as JSON texts; which content types
  count as JSON is an oracle; bodies are UTF-8; the statuses 400 and 422 for bad bodies are not told apart.

Not modelled: `Debug` output in the alternate form (`{:#?}`; `{:?}` is in `Model/ErrorDebug`), and
memory use, timing and cryptographic strength, which no functional model can express. RSA being an arbitrary
function, "cannot be forged" is expressed as "the signed message determines the request" (C53, C66, C68, C50, C03-C05).

## 5. Where statements mention the model

Statements are about `buildSignedUrl`, `Builder.build`, `serviceAccountFromStr`, `BoundToken.getEmailAndToken` and the
step relation of `Model/Concurrent`, whose results are compared with specifications. Server answers are
described by `TokenText` and `SignBlobText` (`Spec/Documents`), which C55 proves to be what the parsers accept. The only
other model function in a statement is `utf8` (proved equal to Lean core's in `Props/Ground`).

## 6. Findings

Where the property one would expect is false, the negation is proved for a concrete input next to the strongest true
theorem. Five properties are false as users would state them (C15, C19, C27, C29, C42); they stay `partial` for that
reason alone. Their exact scopes are separate, proved properties: C59 (for C15), C56 (C19), C57 (C27), C60 (C29), C58 (C42).

1. `build_signed_url` panics (`todo!()`) for every valid input with an HMAC key, and both builders panic with a service
   account key and `use_sign_blob = true`, although the documentation allows either value (C13, C31).
2. It also panics if the URL exceeds 65534 bytes only after the X-Goog parameters are added, e.g. by a long region (C31).
3. A token lifetime beyond the range of `SystemTime`, or a clock before 1970, panics (C43). A token that is stored with an
   expiry before 1970 stays in the cache and makes every later use of the key panic, for ever (C89_poisoned, C89_key_lost).
4. `%` is not escaped in canonical parameters: a parameter value `%41` arrives as `A` (C19), two different inputs get the
   same encoding (C46), a header name with `%` is listed differently in X-Goog-SignedHeaders (C20).
5. Spaces, line breaks and non-ASCII characters of query parameters appear raw in the returned URL (C29).
6. Object names with `?`, `#`, `.` and `..` segments, `\`, tab, newline, trailing spaces or `%` address another object,
   possibly in another bucket (C27).
7. Canonical parameters are sorted by `name=value`, not by name (C30): `a-b` sorts before `a`. A server that sorts by name,
   as documented, rejects a URL with the parameters `a` and `a1` (C65).
8. The account in the credential can differ from the one that signs when the token is refreshed in between (C42).
9. Some invalid inputs are reported only after network requests: empty metadata names and non-ASCII header values (C15).
10. A region with a line break adds lines to the string to sign (C51), one with `/` makes the scope ambiguous (C09).
11. A fresh token is used even if it lives 30 s or less (C36); `X-Goog-Expires=0` is possible (C23).
12. User parameters called X-Goog-* are emitted beside the required ones (C18).
13. A policy with an exact match on Content-Length is written but cannot be read back (C50); the reader rejects tags with
    escapes, accepts second 60, lower-case `t`/`z` and the Unicode minus sign.
14. Documents of the metadata server may contain lone surrogate escapes in ignored members (C55).
15. Header values are signed with repeated spaces, which a server removes before checking, and an `x-goog-content-sha256`
    header does not change the last line `UNSIGNED-PAYLOAD`; the server rejects both URLs (C65).
16. `build` returns a form if a metadata name is given two values, but its conditions contradict each other and no server
    accepts it (C67).
17. The example server answers 204 to the report of an unknown image, without effect (C70). Its listing fails as a whole if one
    signature fails. Its page sends no `content_type` for files of unknown type, which the server requires (C81).
18. Failing to open a service account file and failing to read it (for example because it is not UTF-8) are reported alike, as
    "service account file open error" (C74).
19. The lock of a key is held while the metadata server is asked, without a timeout: one call that gets no answer keeps all
    calls with that key waiting (C78).
20. The page of the example empties its list by a loop over the live `childNodes`, which skips every other item: half of the
    images shown before stay on the page, with URLs that run out (C82).
21. `source()` of a URL error is always `None`, so the causes of a failed request, which reqwest does not put in its message, are
    lost; form errors have them (C85).
22. The account name that the metadata server answers is put into the URL of the signing request without escaping. A name that
    ends in a line feed is asked for without it, while the credential keeps it, so the returned form or URL is rejected; a name with
    `/../` or `?` would send the request to another method (C93).
23. With several thousand headers (more than 3276 at the earliest) `build_signed_url` can panic inside `HeaderMap` instead of returning
    an error (C31).
24. The example server keeps its images in memory only. After a crash it answers 204 to the report of an image that was registered
    before, and never lists it (C99). The page that uploaded it gets no error and shows a list without it (C100).
25. A form with a metadata name that is not visible ASCII is built and signed, but cannot be posted with reqwest, which writes such names
    in a notation that multipart/form-data does not have (C104).

## 7. Properties, theorems and axioms

Method of proof per group: C01-C02 induction over the list of setter calls; C03-C06, C09-C15 case analysis of `build` and
induction over metadata; C05, C41, C49, C50, C55 round trips by induction on values and texts against the RFC 8259
grammar; C07-C08, C47-C48 arithmetic of the day-number algorithm for all days; C16-C32, C52, C53, C56, C57,
C59-C62 characterisation of `buildSignedUrl` as one equation, then text lemmas; C63 the same for `build`; C64 relational: related worlds (and, for histories, related systems) stay related through every step; C65-C66 the server's view of the URL, by text lemmas; C67-C68 its view of the form, from C03-C09 and C63; C75 the alphabets of the two signed texts; C76 from C57, C65 and C67; C77 induction over the server's history with C66, C68 and C75; C33-C44, C54, C58, C69, C70, C72 invariants by induction
over executions; C78 a bound on the steps of each call, and fairness; C79 an invariant on the number of stored tokens and the cached expiry; C80 every program, once it has sent a POST, can only wait for the answer and return, so that C54 applies to a continuation of any history; C83 from the replay of C54 (a call in a history returns what it returns alone, with the same signature) and C65, C67, C76; C85 case analysis; C84 from C80 (any call that has asked can be continued to return), the replay of C54, and C66, C68, C75; C71 from C27 and C65; C73 case analysis of every
failing step; C74 no beginning of a message is a prefix of another; C81 an invariant over pages, example server and store, from C69,
C70 and C76; C82 induction over the list; C86 the invariant of C81 with calls that run concurrently, from C54 and C83; C87 an exact description of the histories of every program, by inversion of each step, and for the replay an environment that answers what the call observed; C88 an invariant of the handlers and C87; C89 from C87 (no error and no panic has a cause), C78 for liveness, and for the lost key induction over the events after the write; C90 an invariant on the queue, and induction on the number of calls ahead; C99 a history with crashes ends in one without, apart from earlier answers, so that C69-C71 and C86 apply; C100 the invariant of C81, with the identifiers of all processes in it; C102 the rules of the Fetch Standard case by case, and C81; C103 both systems step alike: what is sent is read back (C94, C97, C102); C104 as C97, with C76; C105 what the server rebuilds depends on the signed headers only, then C65; C106 a URL is a fixed point of the URL parser exactly if its parts are, then C105, C104, C76 and C66; C108 the exact conditions of C62 and C63 for the two calls of the server, and an invariant of the handlers (for concurrent calls with C87); C109 the same with C89; C107 names of variants have no parenthesis, and induction over strings; C101 the measure of C98 (a crash finishes every handler), and C100; C98 a measure on uploads and C96 for the handlers, and case analysis of every step that makes an upload fail; C97 the parts of a body are unique because its delimiter does not overlap itself, then C67 and C68; C96 a measure that each step of a handler lowers, and C78; C95 an invariant of the search for a marker, and induction over the lines; C94 the four kinds of paths, the RFC 8259 grammar, and induction over the runs of the site.

Axioms: `p` = propext, `c` = Classical.choice, `q` = Quot.sound.

| Property | Status | Theorems (file, axioms) | Note |
|---|---|---|---|
| C01 Unsigned form contains exactly the fields that were set, in the documented order | proved | `C01_unsigned_form` (Props/FormFields.lean, pq) |  |
| C02 Builder setters: last call wins and calls to different setters commute | proved | `C02_different_setters_commute` (Props/FormFields.lean, pq); `C02_last_call_wins` (Props/FormFields.lean, pq); `C02_metadata_accumulates` (Props/FormFields.lean, pq) |  |
| C03 Every emitted form field is pinned by the signed policy | proved | `C03_every_field_pinned` (Props/FormPolicy.lean, pcq) |  |
| C04 The policy contains no condition that the form does not satisfy | proved | `C04_every_condition_met` (Props/FormPolicy.lean, pcq) |  |
| C05 The policy field decodes to exactly the intended JSON document; values cannot inject structure | proved | `C05_policy_document` (Props/FormPolicy.lean, pcq) | RFC 8259 grammar, RFC 4648 base64 and UTF-8 as specification; the JSON reading is unique |
| C06 The form signature signs exactly the bytes of the policy field | proved | `C06_form_signature_service_account` (Props/FormPolicy.lean, pq); `C06_form_signature_bound_token` (Props/FormPolicy.lean, pcq) | RSA and the IAM endpoint are arbitrary oracles |
| C07 The policy never outlives the requested expiration | proved | `C07_policy_expiration` (Props/FormPolicy.lean, pcq) |  |
| C08 x-goog-date denotes the accessible_at instant and agrees with the credential scope date | proved | `C08_form_date` (Props/FormPolicy.lean, pcq); `C08_url_date` (Props/UrlShape.lean, pcq) | Forms and signed URLs. |
| C09 Credential structure and default region | proved | `C09_form_credential` (Props/FormPolicy.lean, pcq) |  |
| C10 Expiration/time validation of forms | proved | `C10_time_validation` (Props/FormErrors.lean, pcq) | Exact rejection rule for the expiration and the clock, for every key, options and state. |
| C11 HMAC keys never produce a signed form and never panic or do I/O in build() | proved | `C11_hmac_form` (Props/FormErrors.lean, pcq) | HMAC keys with a policy are rejected with no effect. |
| C12 Field names are unique unless metadata names repeat | proved | `C12_field_names_unique` (Props/FormFields.lean, pq) |  |
| C13 When a form or URL with a service account key and use_sign_blob panics | proved | `C13_service_account_panics` (Props/FormErrors.lean, pcq); `C13_unsigned_no_panic` (Props/FormErrors.lean, pq); `C13_bound_token_panic_iff` (Props/FormErrors.lean, pcq); `C13_bound_token_panics` (Props/FormErrors.lean, pcq); `C13_url_service_account_sign_blob` (Props/UrlErrors.lean, pcq) | The documented promise is violated; the panic set is exact. |
| C14 Service-account signing does no network I/O | proved | `C14_form_no_network` (Props/FormErrors.lean, pcq); `C14_url_no_network` (Props/UrlErrors.lean, pcq) |  |
| C15 Rejected inputs cause no network I/O | partial | `C15_form_rejected_without_network_partial` (Props/FormErrors.lean, pcq); `C15_empty_meta_name_after_network` (Props/FormErrors.lean, p); `C15_url_rejected_without_network_partial` (Props/UrlErrors.lean, pcq); `C15_header_value_after_network` (Props/UrlErrors.lean, p) | False for empty metadata names (forms) and non-ASCII header values (URLs): with a bound token they are reported only after requests were sent (counterexamples proved). Proved for all other invalid inputs. C59 proves that no signature is requested in these two cases. |
| C16 Signed URL shape: everything before the signature parameter is what was signed | proved | `C16_url_shape` (Props/UrlShape.lean, pcq) |  |
| C17 String-to-sign is GOOG4 format over the canonical request | proved | `C17_signed_message` (Props/UrlShape.lean, pcq) | The path line is related to the path by C28. The digest is the one of FIPS 180-4 (Spec/Sha256). |
| C18 Required X-Goog parameters are present with the right values | proved | `C18_required_parameters` (Props/UrlParams.lean, pcq); `C18_credential_exact` (Props/UrlParams.lean, pcq); `C18_required_once` (Props/UrlParams.lean, pcq); `C18_user_goog_parameter` (Props/UrlParams.lean, p) | Credential exact when authorizer and region contain no '%'; parameters given by the user under the same name are passed through (C18_user_goog_parameter). |
| C19 User query parameters survive signing | partial | `C19_user_parameters_partial` (Props/UrlParams.lean, pcq); `C19_percent_collision` (Props/UrlParams.lean, p) | False in general ('%' is not escaped; C19_percent_collision). Proved for all parameters without a percent escape; C56 proves that these are exactly the ones for which it holds. |
| C20 X-Goog-SignedHeaders lists exactly the request's headers, lower-case, sorted, unique, including host | proved | `C20_signed_headers` (Props/UrlHeaders.lean, pcq); `C20_percent_in_header_name` (Props/UrlHeaders.lean, p) | The parameter decodes to the line when no header name contains '%'; counterexample otherwise. |
| C21 Every header value is signed, in order | proved | `C21_header_values` (Props/UrlHeaders.lean, pcq) |  |
| C22 Header injection is impossible | proved | `C22_headers_clean` (Props/UrlHeaders.lean, pcq); `C22_one_line_per_header` (Props/UrlHeaders.lean, pcq) |  |
| C23 A signed URL is never valid after `expires` | proved | `C23_never_valid_after_expires` (Props/UrlShape.lean, pcq); `C23_bad_expires_rejected` (Props/UrlShape.lean, pcq) |  |
| C24 HTTP method validation | proved | `C24_method_error_iff` (Props/UrlShape.lean, pcq); `C24_method_signed` (Props/UrlShape.lean, pcq) |  |
| C25 Order of query parameters does not matter | proved | `C25_parameter_order` (Props/UrlParams.lean, pcq) | Equality of result and effects for every option set. |
| C26 Header order across different names and header-name case do not matter | proved | `C26_same_headers` (Props/UrlHeaders.lean, pcq); `C26_header_case` (Props/UrlHeaders.lean, pcq); `C26_header_swap` (Props/UrlHeaders.lean, pcq) |  |
| C27 The URL path addresses exactly the requested bucket and object | partial | `C27_path_decodes_partial` (Props/UrlPath.lean, pcq); `C27_path_exact_partial` (Props/UrlPath.lean, pcq); `C27_counterexamples` (Props/UrlPath.lean, p) | Percent-decoding the URL path gives back bucket and object for names without the special characters; false in general: C27_counterexamples lists ten names, including .. segments that move the URL to another bucket. C57 proves exactly for which names it holds. |
| C28 The canonical path and the URL path denote the same resource | proved | `C28_same_resource` (Props/UrlPath.lean, pcq) |  |
| C29 A returned URL consists of characters legal in a URI | partial | `C29_uri_chars_partial` (Props/UrlPath.lean, pcq); `C29_illegal_char_raw` (Props/UrlPath.lean, pcq); `C29_counterexample` (Props/UrlPath.lean, pcq) | Only URI characters occur when the names and parameters contain only characters that are legal or get encoded; false in general, C29_counterexample shows a raw space. C60 proves exactly when it holds. |
| C30 Canonical query parameters are sorted | proved | `C30_items_sorted` (Props/UrlParams.lean, pcq); `C30_not_sorted_by_name` (Props/UrlParams.lean, p) | Items are sorted; sorting by name is refuted by C30_not_sorted_by_name. |
| C31 Exactly when build_signed_url panics | proved | `C31_panic_iff` (Props/UrlErrors.lean, pcq); `C31_service_account_local` (Props/UrlErrors.lean, pcq); `C31_bound_token_sane` (Props/UrlErrors.lean, pcq); `C31_small_no_panic` (Props/UrlErrors.lean, pcq); `C31_long_region_panics` (Props/UrlErrors.lean, pcq); `C31_counterexample_long` (Props/UrlErrors.lean, pcq) |  |
| C32 Signing is deterministic | proved | `C32_url_deterministic` (Props/UrlErrors.lean, pcq); `C32_form_deterministic` (Props/UrlErrors.lean, pcq) |  |
| C33 A cached access token is reused without network I/O while more than 30 s remain | proved | `C33_cached` (Props/Token.lean, pq); `C33_refresh` (Props/Token.lean, pcq) | Cached token: no request, caches unchanged. Otherwise: exact list of requests, by the answers. |
| C34 A failed refresh leaves the cache unchanged | proved | `C34_failure_keeps_cache` (Props/Token.lean, pq); `C34_refused_keeps_cache` (Props/Token.lean, pcq); `C34_sign_caches` (Props/Token.lean, p) | For every failure and panic, and in particular whenever the server does not give a Bearer token with 2xx answers; signing changes the caches exactly as fetching the token does. |
| C35 E-mail and token always come from one and the same refresh | proved | `C35_one_refresh` (Props/Concurrent.lean, pcq) | All interleavings and cancellations. |
| C36 A cached token is never returned within 30 s of its expiry | proved | `C36_margin` (Props/Concurrent.lean, pcq); `C36_fresh_token_any_life` (Props/Concurrent.lean, pq) | All histories; the side remark on fresh tokens is proved by a witness. |
| C37 Concurrent refreshes are mutually exclusive and deduplicated | proved | `C37_exclusive` (Props/Concurrent.lean, pcq); `C37_needed` (Props/Concurrent.lean, pcq); `C37_deduplicated` (Props/Concurrent.lean, pcq) | All interleavings of any number of calls. |
| C38 Cancellation safety | proved | `C38_cancel` (Props/Concurrent.lean, p); `C38_cache_whole` (Props/Concurrent.lean, pcq); `C38_lock_owner` (Props/Concurrent.lean, pcq); `C38_progress` (Props/Concurrent.lean, pcq); `C38_bounded` (Props/Concurrent.lean, pcq) | A call dropped at any await point; progress of the others and a bound on the steps of a call. |
| C39 Only Bearer tokens are stored or returned | proved | `C39_bearer_only` (Props/Token.lean, pcq) | What is returned or newly cached comes from a document with token type Bearer. Histories: see C35. |
| C40 Credentials only travel to the IAM endpoint | proved | `C40_requests` (Props/Token.lean, pq); `C40_build_requests` (Props/Token.lean, pcq); `C40_history` (Props/Concurrent.lean, pcq) | Per call, per build, and for all concurrent histories. |
| C41 signBlob transports the message faithfully | proved | `C41_sign_blob` (Props/Token.lean, pcq); `C41_bad_blob` (Props/Token.lean, pcq) |  |
| C42 The account named in the credential is the account that signs | partial | `C42_form_same_account_partial` (Props/TokenAccount.lean, pcq); `C42_url_same_account_partial` (Props/TokenAccount.lean, pcq); `C42_counterexample` (Props/TokenAccount.lean, p) | False in general (C42_counterexample: account changes between authorizer and signature). Proved if the account is stable or no token expires during the call. C58 proves that a replacement of the account during the call is the only way it can fail. |
| C43 Server-supplied data crashes the caller only through an over-long token lifetime | proved | `C43_panic_iff` (Props/Token.lean, pcq); `C43_counterexample` (Props/Token.lean, p) | Exact panic condition, with a witness. |
| C44 Keys are isolated; clones share one cache | proved | `C44_other_keys_untouched` (Props/Token.lean, pcq); `C44_new_key_is_fresh` (Props/Token.lean, pq); `C44_clones_share` (Props/Token.lean, pcq); `C44_builds_touch_own_key_only` (Props/Token.lean, pcq); `C44_history` (Props/Concurrent.lean, pcq); `C44_lock_shows_own` (Props/Concurrent.lean, pcq) |  |
| C45 Hex encoding is faithful | proved | `C45_hex_faithful` (Props/Codec.lean, pq); `C45_hex_injective` (Props/Codec.lean, pq) | RFC-style hex decoder as specification |
| C46 Percent-encoding: output is free of reserved characters, idempotent, decoding-stable | proved | `C46_percentEncode_laws` (Props/Codec.lean, pq); `C46_percentEncode_roundtrip` (Props/Codec.lean, pq); `C46_percentEncode_injective` (Props/Codec.lean, pcq); `C46_percentEncode_per_char` (Props/Codec.lean, p); `C46_percentEncode_not_injective` (Props/Codec.lean, p) | non-injectivity for '%' proved by counterexample |
| C47 Timestamps render injectively and in chronological order | proved | `C47_rendering_denotes` (Props/Time.lean, pcq); `C47_order_and_injective` (Props/Time.lean, pcq); `C47_basic_is_read` (Props/TimeRead.lean, pcq); `C47_read_back` (Props/TimeRead.lean, pcq); `C47_basic_read_iff` (Props/TimeReadExact.lean, pcq); `C47_basic_read_unique` (Props/TimeReadExact.lean, pcq) | proleptic Gregorian calendar specification; the texts read are specified in Spec/Iso8601.lean |
| C48 Out-of-range times are rejected, never wrapped | proved | `C48_systemTime_accepted` (Props/Time.lean, pcq); `C48_systemTime_rejected` (Props/Time.lean, pcq); `C48_toSystemTime_back` (Props/TimeRead.lean, pcq); `C48_toSystemTime_panics` (Props/TimeRead.lean, pq) |  |
| C49 service_account_from_str extracts exactly client_email and private_key | proved | `C49_service_account_ok` (Props/Key.lean, pcq); `C49_service_account_no_panic` (Props/Key.lean, p); `C49_service_account_errors` (Props/Key.lean, pcq); `C49_service_account_from_path` (Props/Key.lean, pq) | RFC 8259 grammar as specification, with serde_json's depth and number limits explicit |
| C50 Policy documents survive a serialise/deserialise round trip | proved | `C50_round_trip` (Props/PolicyRead.lean, pcq); `C50_reading_sound` (Props/PolicyRead.lean, pcq); `C50_accepted` (Props/PolicyRead.lean, pcq); `C50_field_names` (Props/PolicyRead.lean, p); `C50_expiration` (Props/PolicyRead.lean, pcq); `C50_writing_injective` (Props/PolicyRead.lean, pcq); `C50_built_policy_readable` (Props/PolicyRead.lean, pcq); `C50_date_round_trip` (Props/PolicyRead.lean, pcq) | Round trip holds iff no condition names Content-Length; readers of documents, expirations, dates and field names are modelled with serde_json/chrono behaviour (trusted base). |
| C51 String-to-sign lines cannot be confused | proved | `C51_four_lines` (Props/UrlShape.lean, pcq); `C51_region_line_break` (Props/UrlShape.lean, pcq); `C51_string_to_sign_readable` (Props/UrlShape.lean, pcq) | Regions with a line break are a counterexample. |
| C52 Over-long URLs are rejected with an error exactly above the URI length limit | proved | `C52_http_request_error_iff` (Props/UrlErrors.lean, pcq); `C52_long_parameter` (Props/UrlErrors.lean, pcq); `C52_small_no_error` (Props/UrlErrors.lean, pcq) |  |
| C53 A signature commits to the whole request | proved | `C53_message_determines_request` (Props/UrlCommit.lean, pcq); `C53_split_values_same_url` (Props/UrlCommit.lean, p) | The signed message determines method, region, second, path, query and comma-joined header values; splitting a header value at a comma into two headers of the same name is shown to be the only header ambiguity (concrete witness). |
| C54 Concurrency does not change what calls return | proved | `C54_url_replay` (Props/ConcurrentResults.lean, pcq); `C54_form_replay` (Props/ConcurrentResults.lean, pcq); `C54_url_own_signature` (Props/ConcurrentResults.lean, pcq); `C54_form_own_signature` (Props/ConcurrentResults.lean, pcq); `C54_one_account` (Props/ConcurrentResults.lean, pcq) |  |
| C55 Exactly the documented answers of Google's servers are accepted | proved | `C55_token_text` (Props/Documents.lean, pcq); `C55_blob_text` (Props/Documents.lean, pcq); `C55_token_unique` (Props/Documents.lean, pcq); `C55_blob_unique` (Props/Documents.lean, pcq); `C55_token_document` (Props/Documents.lean, pcq); `C55_blob_document` (Props/Documents.lean, pcq); `C55_ignored_surrogate` (Props/Documents.lean, p) | Both directions, for every text: Spec/Documents.lean gives the texts (RFC 8259 strings and numbers for the members that are read, a skipped value elsewhere), and for RFC 8259 documents the members by value. C55_ignored_surrogate shows the one thing that is accepted and not JSON: a lone surrogate escape in an ignored value. |
| C56 Exactly which user query parameters survive signing | proved | `C56_user_parameters_exact` (Props/UrlParams.lean, pcq) | Equivalence, for every returned URL. |
| C57 Exactly which names the URL path addresses | proved | `C57_path_exact` (Props/UrlPath.lean, pcq) | Equivalence, for every returned URL. |
| C58 Exactly when another account signs | proved | `C58_form_signer` (Props/TokenAccount.lean, pcq); `C58_url_signer` (Props/TokenAccount.lean, pcq) | Holds for every successful call; C42_counterexample shows the replaced case occurs. |
| C59 Late rejections never ask for a signature | proved | `C59_form_late_rejection` (Props/FormErrors.lean, pcq); `C59_url_late_rejection` (Props/UrlErrors.lean, pcq) | Form and URL. |
| C60 Exactly which URLs consist of legal characters | proved | `C60_uri_chars_exact` (Props/UrlChars.lean, pcq) | Equivalence, for every returned URL. |
| C61 The whole signed URL is determined by the options and the URL Standard | proved | `C61_url_exact` (Props/UrlExact.lean, pcq); `C61_standard_path` (Props/UrlExact.lean, pcq); `C61_parameters_determined` (Props/UrlExact.lean, pcq) | Complete text of URL and signed message, against an independent statement of the URL Standard's path, query and form rules. |
| C62 Exactly when build_signed_url returns a URL, and which | proved | `C62_returns_url_iff` (Props/UrlReturns.lean, pcq); `C62_returns_url_unique` (Props/UrlReturns.lean, pcq); `C62_service_account` (Props/UrlReturns.lean, pcq) | ReturnsUrl (Spec/Calls) is written without the model's control flow; the iff covers the final world (requests, caches, clock readings) too. |
| C63 Exactly when HtmlFormData::build returns a form, and which | proved | `C63_returns_form_iff` (Props/FormReturns.lean, pcq); `C63_returns_form_unique` (Props/FormReturns.lean, pcq) | ReturnsForm (Spec/Calls); the policy text is specified character by character and refers to the returned fields themselves. |
| C64 Results reveal no secrets | proved | `C64_url_hides_tokens` (Props/Secrets.lean, pcq); `C64_form_hides_tokens` (Props/Secrets.lean, pcq); `C64_history` (Props/SecretsHistory.lean, pcq); `C64_url_hides_private_key` (Props/Secrets.lean, pcq); `C64_form_hides_private_key` (Props/Secrets.lean, pcq); `C64_hmac_secret_unused` (Props/Secrets.lean, pcq) | Errors are compared as the model has them, with the crate's own messages (Model/ErrorText). Texts that other crates add are not modelled: serde_json's position in the message for a malformed token document can depend on the length of a token. An error answer of the token endpoint is part of the error and may contain anything. |
| C65 The server accepts the returned URL | proved | `C65_accepted` (Props/Server.lean, pcq); `C65_service_account` (Props/Server.lean, pcq); `C65_window` (Props/Server.lean, pcq); `C65_prefix_rejected` (Props/ServerExamples.lean, pcq); `C65_spaces_rejected` (Props/ServerExamples.lean, pcq); `C65_payload_rejected` (Props/ServerExamples.lean, pcq); `Reference.accepted` (Props/ServerExamples.lean, pcq) | Spec/Server and Spec/Rsa describe the verifier. Reference.accepted runs it with a real 2048-bit key. C65_window holds for all options. |
| C66 A signature is good for one request only | proved | `C66_same_signature` (Props/Server.lean, pcq); `C66_unforgeable` (Props/Server.lean, pcq); `C66_hypotheses_met` (Props/Server.lean, pcq) | C66_hypotheses_met and Reference.accepted show that the hypotheses are met. |
| C67 Exactly when a server accepts a returned form | proved | `C67_accepted_iff` (Props/PostServer.lean, pcq); `C67_service_account` (Props/PostServer.lean, pcq); `C67_conflict_rejected` (Props/PostServer.lean, pcq); `Reference.form_accepted` (Props/PostServerExamples.lean, pcq) | Server written from the documentation (Spec/PostServer.lean). Case with the crate's test form and 2048-bit key: Props/PostServerExamples.lean. |
| C68 A signed form cannot be altered | proved | `C68_same_signature` (Props/PostServer.lean, pcq); `C68_unforgeable` (Props/PostServer.lean, pcq); `Reference.form_tampered` (Props/PostServerExamples.lean, pcq) | Up to SHA-256 collisions of the two policies, or given that only the signed policy can carry a valid signature. |
| C69 The example server lists exactly the uploaded images | proved | `C69_listing` (Props/ImageUploader.lean, pq); `ImageUploader.history` (Props/ImageUploaderExamples.lean, pq) | The ids being distinct is a hypothesis: they are random. Case: ImageUploader.history (two registrations, a listing that is overtaken by a report, a cancelled registration). |
| C70 The example server's forms upload exactly the registered image | proved | `C70_create` (Props/ImageUploader.lean, pq); `C70_update` (Props/ImageUploader.lean, pq); `C70_events` (Props/ImageUploader.lean, pq); `C70_registered` (Props/ImageUploaderServer.lean, pcq); `C70_form_accepted` (Props/ImageUploaderServer.lean, pcq); `C70_form_binding` (Props/ImageUploaderServer.lean, pcq); `ImageUploader.history_accepted` (Props/ImageUploaderExamples.lean, pcq) | Storage server as in C67 and C68; C70_registered says it of every history of the server. Case with a 2048-bit key: ImageUploader.history_accepted. |
| C71 A listed URL gives the image and nothing else, for at most a minute | proved | `C71_listed` (Props/ImageUploaderServer.lean, pcq); `C71_path` (Props/ImageUploaderServer.lean, pcq); `C71_accepted` (Props/ImageUploaderServer.lean, pcq); `C71_window` (Props/ImageUploaderServer.lean, pcq); `ImageUploader.history_accepted` (Props/ImageUploaderExamples.lean, pcq) | Storage server as in C65; C71_listed says it of every history of the server. Case with a 2048-bit key: ImageUploader.history_accepted. |
| C72 The example server with a service account never aborts a request | proved | `C72_setup` (Props/ImageUploaderServer.lean, pcq); `C72_never_aborts` (Props/ImageUploaderServer.lean, pcq); `ImageUploader.setup_config` (Props/ImageUploaderExamples.lean, pq) | With a bound token panics are possible if the metadata server's answers are not sane (C31, C43). |
| C73 Error messages are true | proved | `C73_url_message` (Props/ErrorText.lean, pcq); `C73_form_message` (Props/ErrorText.lean, pcq); `C73_unsigned_form_message` (Props/ErrorText.lean, pq); `C73_key_message` (Props/ErrorText.lean, pcq) | Spec/ErrorText lists, for every message, the circumstance it reports. Three texts are those of the crate http, written down from knowledge of its source. |
| C74 Error messages tell failures apart | proved | `C74_url_messages_distinct` (Props/ErrorText.lean, pq); `C74_form_messages_distinct` (Props/ErrorText.lean, pq); `C74_no_invalid_credential` (Props/ErrorText.lean, pcq); `C74_key_messages_distinct` (Props/ErrorText.lean, p); `C74_open_and_read_alike` (Props/ErrorText.lean, p) | The exception (open and read errors of a key file look alike) is part of the statement and shown by C74_open_and_read_alike. |
| C75 URL and form signatures are not interchangeable | proved | `C75_message_is_no_policy` (Props/Storage.lean, pcq); `C75_policy_is_no_message` (Props/Storage.lean, pcq); `C75_url_signature_in_form` (Props/Storage.lean, pcq); `C75_form_signature_in_url` (Props/Storage.lean, pcq) | Same server as in C65 and C67. |
| C76 What is uploaded is what is downloaded | proved | `C76_object_iff` (Props/Storage.lean, pcq); `C76_get` (Props/Storage.lean, pcq); `C76_put` (Props/Storage.lean, pcq); `C76_delete` (Props/Storage.lean, pcq); `C76_post` (Props/Storage.lean, pcq); `C76_post_then_get` (Props/Storage.lean, pcq); `C76_put_then_get` (Props/Storage.lean, pcq); `C76_image_uploader` (Props/Storage.lean, pcq); `C76_image_history` (Props/Storage.lean, pcq); `Reference.upload_download` (Props/StorageExamples.lean, pcq); `C76_question_mark` (Props/StorageExamples.lean, p) | Server: Spec/Storage.lean. Case with the crate's test form and a 2048-bit key: Reference.upload_download. C76_question_mark: the URL for a?b is that of object a (C57). |
| C77 Nothing is reachable except through a URL or form made for it | proved | `C77_accepted` (Props/Storage.lean, pcq); `C77_changes` (Props/Storage.lean, pcq); `C77_reads` (Props/Storage.lean, pcq) | Not forged: the text whose signature the server checks was signed for a URL or form, up to SHA-256 collisions. The server does something for every history (handles_exists, serves_exists). |
| C78 Every call ends | proved | `C78_every_call_ends` (Props/Liveness.lean, pcq); `C78_bounded` (Props/Liveness.lean, pcq); `C78_can_end` (Props/Liveness.lean, pcq); `C78_requests` (Props/Liveness.lean, pq); `C78_blocked` (Props/Liveness.lean, pcq); `Conformance.one_refreshes` (Props/Liveness.lean, pq) | Fairness (Spec/Liveness.lean) is a hypothesis on the history; C78_can_end shows that every reachable state lies on a fair history. |
| C79 Tokens are not fetched more often than they run out | proved | `C79_rate` (Props/Rate.lean, pcq); `Conformance.twice_meets` (Props/Rate.lean, pcq) | The bound is reached (Conformance.twice_meets). Failed and dropped refreshes are not counted: nothing is stored by them, and the next call asks again. |
| C80 Nothing but the call's own URL or policy is ever submitted for signing | proved | `C80_would_return` (Props/SigningRequests.lean, pcq); `C80_url_message` (Props/SigningRequests.lean, pcq); `C80_form_message` (Props/SigningRequests.lean, pcq); `C80_once` (Props/SigningRequests.lean, pcq) | For every history, so also for calls that fail, panic or are dropped after asking. Path and query are those of the URL that would be returned, to which C54_url_replay and with it C16-C32, C56, C57 apply; the same holds for forms with C54_form_replay. |
| C81 The pages of the example show exactly what was uploaded | proved | `C81_listed_is_stored` (Props/ImageSite.lean, pcq); `C81_own_image` (Props/ImageSite.lean, pcq); `C81_get` (Props/ImageSite.lean, pcq); `C81_upload_accepted` (Props/ImageSite.lean, pcq); `C81_unknown_type` (Props/ImageSite.lean, pq) | Site: pages, example server and storage server interleaved in any order. Case: ImageUploader.cat_shown. |
| C82 What is on the page of the example after each listing | proved | `C82_render` (Props/ImageSite.lean, pq); `C82_exact_iff` (Props/ImageSite.lean, pq); `C82_history` (Props/ImageSite.lean, pq) | The list on the page; the exact listing is shown only if at most one image was there (finding 20). |
| C83 Concurrent calls: the server accepts what is returned, and what is uploaded is what is downloaded | proved | `C83_url_accepted_iff` (Props/KeyOwner.lean, pcq); `C83_form_accepted_iff` (Props/KeyOwner.lean, pcq); `C83_upload_download` (Props/KeyOwner.lean, pcq); `Reference.shared_token` (Props/KeyOwnerExamples.lean, pcq); `C83_get` (Props/StorageShared.lean, pcq); `C83_put` (Props/StorageShared.lean, pcq); `C83_delete` (Props/StorageShared.lean, pcq) | Who owns a key: Spec/KeyOwner.lean. Case: Reference.shared_token, two calls sharing one token, answers signed with a 2048-bit key. Cases for GET, PUT and DELETE: Cases/StorageShared. |
| C84 What the signing service is asked to sign opens nothing but what the calls were asked for | proved | `C84_accepted` (Props/SignedAccess.lean, pcq); `C84_changes` (Props/SignedAccess.lean, pcq); `C84_reads` (Props/SignedAccess.lean, pcq); `C84_requestable` (Props/SignedAccess.lean, pcq) | Asked, WouldReturn: Spec/SignedAccess.lean; SignedForCalls, AskedOf, Requestable, PartsAsked before the theorems. Case: Props/SignedAccessExamples.lean, the URL of Reference.shared_token. |
| C85 What the causes of an error tell beyond its message | proved | `C85_form_causes` (Props/ErrorChain.lean, pq); `C85_form_has_causes` (Props/ErrorChain.lean, pq); `C85_key_causes` (Props/ErrorChain.lean, pcq); `C85_url_no_causes` (Props/ErrorChain.lean, none); `C85_url_hides_causes` (Props/ErrorChain.lean, p) | Model/ErrorChain.lean. Finding: C85_url_no_causes, C85_url_hides_causes. |
| C86 The example site works as well with a bound token shared by concurrent handlers | proved | `C86_listing` (Props/ImageSiteShared.lean, pcq); `C86_create` (Props/ImageSiteShared.lean, pcq); `C86_form_accepted` (Props/ImageSiteShared.lean, pcq); `C86_url_accepted` (Props/ImageSiteShared.lean, pcq); `C86_listed_is_stored` (Props/ImageSiteShared.lean, pcq); `C86_own_image` (Props/ImageSiteShared.lean, pcq); `C86_get` (Props/ImageSiteShared.lean, pcq); `C86_upload_accepted` (Props/ImageSiteShared.lean, pcq) | The case of C83 with the site of C81: a cat picture goes through the whole site while two calls share a token (Reference.shared_site). |
| C87 Why a concurrent call fails | proved | `C87_error` (Props/Failures.lean, pcq); `C87_panic` (Props/Failures.lean, pcq); `C87_not_passed_over` (Props/Failures.lean, pcq); `C87_determined` (Props/Failures.lean, pq); `C87_sane_panic` (Props/Failures.lean, pcq); `C87_url_replay` (Props/Failures.lean, pcq); `C87_form_replay` (Props/Failures.lean, pcq) | Beside it: a history with three calls that fail at three stages, one with two panics, and sane histories. |
| C88 Why the example server fails | proved | `C88_internal_server_error` (Props/ServerFailures.lean, pq); `C88_small_no_panic` (Props/ServerFailures.lean, pcq); `C88_never_aborts` (Props/ServerFailures.lean, pcq) | Extends C72_never_aborts (service account, calls alone) to bound tokens and concurrent calls. Beside it: a sane history in which the signing service does not answer and the server answers 500. |
| C89 Failures do not linger: a call in order with good answers succeeds, whatever went wrong before | proved | `C89_succeeds` (Props/Recovery.lean, pcq); `C89_recovers` (Props/Recovery.lean, pcq); `C89_old_expiry_stays` (Props/Recovery.lean, pcq); `C89_poisoned` (Props/Recovery.lean, pcq); `C89_key_lost` (Props/Recovery.lean, pcq) | C89_succeeds: in every sane reachable history a call whose own options and answers are in order succeeds; C89_recovers: and in a fair history it does return. C89_old_expiry_stays, C89_poisoned, C89_key_lost: the exception, an expiry before 1970 in the cache stays for ever and every call that meets it panics. Hypotheses met in Props/RecoveryExamples.lean (three failed calls, one dropped, then success; and a lost key). |
| C90 Calls that share a bound token are served in the order in which they asked | proved | `C90_same_behaviour` (Props/FifoLock.lean, pcq); `C90_first_come` (Props/FifoLock.lean, pcq); `C90_history` (Props/FifoLock.lean, p); `C90_fair` (Props/FifoLock.lean, pcq); `C90_every_call_ends` (Props/FifoLock.lean, pcq); `C90_can_end` (Props/FifoLock.lean, pcq) | Model/FifoLock.lean adds the queue of tokio's Mutex to the concurrent model. C90_same_behaviour: reachable states are the same with and without it, so all theorems about schedules apply. C90_first_come: who is not overtaken and the bound on how often the lock is taken before. C90_history and C90_fair: weakly fair histories with queues are fair in the sense of C78 (so C78_every_call_ends and C89_recovers need nothing of the lock beyond the queue); C90_every_call_ends; C90_can_end: such histories exist from every reachable state. That tokio's Mutex is first in, first out is taken from its documentation. |
| C91 Calls made one after another behave as single calls do | proved | `C91_alone` (Props/Alone.lean, pcq); `C91_one_by_one` (Props/Alone.lean, pcq); `C91_history` (Props/Alone.lean, pcq) | Spec/Alone.lean: alone, Shows, solo, OneByOne, AsAlone. C91_one_by_one: every list of calls in a fresh process; C91_history: every history without overlaps; C91_alone: in any reachable state with the lock of the key free. Cases: Cases/Alone.lean. |
| C92 A call is not disturbed by other calls | proved | `C92_undisturbed` (Props/Alone.lean, pcq); `C92_disturbed` (Cases/Disturbed.lean, pcq) | C92_undisturbed: env' computes like env and only its clock and network are chosen, so that they show what the call saw (Shows). For a call without a bound token the hypothesis is empty. Case: Cases/Alone.lean, a refreshing call overlapped by another that shares its key. C92_disturbed: the condition is needed. |
| C93 The account asked to sign on the wire is the one the metadata server named | proved | `C93_account` (Props/Wire.lean, pcq); `C93_literal` (Props/Wire.lean, pcq); `C93_metadata` (Props/Wire.lean, pcq); `C93_form` (Props/Wire.lean, pcq); `C93_url` (Props/Wire.lean, pcq); `C93_line_feed` (Props/Wire.lean, p) | Targets of all requests of all histories; exact condition on the account name; finding 22. |
| C94 The example server and its page understand each other over HTTP | proved | `C94_routed` (Props/ImageHttp.lean, pcq); `C94_page` (Props/ImageHttp.lean, pcq); `C94_refused` (Props/ImageHttp.lean, pcq); `C94_sent` (Props/ImageHttp.lean, pcq); `C94_untyped` (Props/ImageHttp.lean, pcq); `C94_bodies` (Props/ImageHttp.lean, pcq); `C94_received` (Props/ImageHttp.lean, pcq); `C94_site` (Props/ImageHttpSite.lean, pcq) | Exact characterisation of every outcome of routing; the site with HTTP is equivalent to the site without. |
| C95 Private keys are read from PEM texts however they are wrapped, and from nothing else | proved | `C95_read` (Props/Pem.lean, pcq); `C95_only` (Props/Pem.lean, pcq); `C95_written` (Props/Pem.lean, pcq); `C95_url` (Props/Pem.lean, pcq); `C95_accepted` (Props/Pem.lean, pcq); `C95_no_url` (Props/Pem.lean, pcq); `C95_no_form` (Props/Pem.lean, pcq); `C95_same_url` (Props/Pem.lean, pcq) | Model/Pem models pem::parse and contents(); elsewhere the reader of keys is arbitrary. C95_read and C95_only are not an equivalence: an empty line in the base64 and a sixth dash before BEGIN are refused (Cases/Pem). |
| C96 Every request to the example server is answered | proved | `C96_steps` (Props/ImageLive.lean, pq); `C96_not_stuck` (Props/ImageLive.lean, p); `C96_answered` (Props/ImageLive.lean, pcq); `C96_with_calls` (Props/ImageLive.lean, pcq) | That runtime and connections are fair is a hypothesis (Spec/ImageLive); that no handler holds the mutex of the images at an .await is part of the model (each use of it is one step). |
| C97 What a browser posts is the signed form | proved | `C97_parts` (Props/Multipart.lean, pcq); `C97_carried` (Props/Multipart.lean, pcq); `C97_accepted_iff` (Props/Multipart.lean, pcq); `C97_page` (Props/Multipart.lean, pcq); `C97_accepted_owner` (Props/MultipartShared.lean, pcq); `C97_page_owner` (Props/MultipartShared.lean, pcq); `C97_boundary_exists` (Props/Boundary.lean, pcq) | The browser is modelled from the HTML Standard (Model/Multipart), the server's reading from RFC 2046 and RFC 7578 (Spec/Multipart). The _owner theorems are for concurrent calls and every kind of key that one account owns. The file's type has no line end (File API). C97_boundary_exists: the boundary that the theorems need always exists (70 letters, for less than 2^70 bytes). |
| C98 Every upload of the example comes to its end, and fails only for a reason | proved | `C98_ends` (Props/ImageSiteLive.lean, pcq); `C98_not_stuck` (Props/ImageSiteLive.lean, pcq); `C98_why` (Props/ImageSiteLive.lean, pcq); `C98_why_owner` (Props/ImageSiteLive.lean, pcq); `C98_shown` (Props/ImageSiteLive.lean, pcq); `C98_shown_owner` (Props/ImageSiteLive.lean, pcq) | SiteMoves (Spec/ImageSiteLive) are the steps of the site with what happens at each; fairness of handlers and pages is a hypothesis of C98_ends and C98_shown. The _owner theorems are for an infinite history of concurrent calls. Cases: Props/ImageSiteLiveExamples. |
| C99 What a crash of the example server costs | proved | `C99_listing` (Props/ImageRestart.lean, pq); `C99_forgotten` (Props/ImageRestart.lean, pcq); `C99_report` (Props/ImageRestart.lean, pq); `C99_form` (Props/ImageRestart.lean, pcq); `C99_url` (Props/ImageRestart.lean, pcq); `C99_lost_silently` (Props/ImageRestart.lean, p); `ImageUploader.two_lives_reference` (Props/ImageRestartExamples.lean, pcq); `C99_without_crashes` (Props/ImageRestartEvents.lean, pq); `C99_shared_listing` (Props/ImageRestartShared.lean, pcq); `C99_shared_form` (Props/ImageRestartShared.lean, pcq); `C99_shared_url` (Props/ImageRestartShared.lean, pcq); `C99_shared_failures` (Props/ImageSiteRestartLiveShared.lean, pq) | Lives (Model/ImageRestart) has the steps of Run and a restart at any point; the images are in memory only. C99_lost_silently is the finding: an upload that was reported with success and is not listed. Case: ImageUploader.two_lives_reference. C99_without_crashes: without restarts these are the histories of C69-C72. C99_shared_* say the same for a server whose calls run concurrently and share a bound token, a new one in each life (case in Cases/RestartShared). C99_shared_failures: an answer 500 in any life has its cause in the calls of the crate. |
| C100 The pages of the example when the server's process may crash | proved | `C100_listed_is_stored` (Props/ImageSiteRestart.lean, pcq); `C100_own_image` (Props/ImageSiteRestart.lean, pcq); `C100_stays_stored` (Props/ImageSiteRestart.lean, pcq); `C100_get` (Props/ImageSiteRestart.lean, pcq); `C100_upload_accepted` (Props/ImageSiteRestart.lean, pcq); `C100_without_crashes` (Props/ImageSiteRestart.lean, pq); `ImageUploader.cat_forgotten` (Props/ImageSiteRestartExamples.lean, pcq); `C100_shared_listed_is_stored` (Props/ImageSiteRestartShared.lean, pcq); `C100_shared_own_image` (Props/ImageSiteRestartShared.lean, pcq); `C100_shared_get` (Props/ImageSiteRestartShared.lean, pcq); `C100_shared_upload_accepted` (Props/ImageSiteRestartShared.lean, pcq) | The site of C81 with a restart step that empties the server's list and drops its requests. cat_forgotten is a run with a crash between registration and upload: everything answers success, the file is stored, the page shows an empty list. C100_shared_* say the same for a server whose calls run concurrently and share a bound token, a new one in each life (case in Cases/RestartShared). |
| C101 Every upload of the example comes to its end however often the server crashes | proved | `C101_ends` (Props/ImageSiteRestartLive.lean, pcq); `C101_why` (Props/ImageSiteRestartLive.lean, pcq); `C101_shown` (Props/ImageSiteRestartLive.lean, pcq); `C101_shared_why` (Props/ImageSiteRestartLiveShared.lean, pcq); `C101_shared_shown` (Props/ImageSiteRestartLiveShared.lean, pcq) | CrashHistory (Spec/ImageSiteRestartLive) has the moves of C98 and crashes. Cases in Props/ImageSiteRestartLiveExamples: a history with infinitely many crashes, and a registration lost in a crash; with a bound token in Cases/RestartLiveShared: one with infinitely many crashes, and a registration answered 500. C101_why (calls one after another, service account) does not say why the server answered 500; C101_shared_why (any calls, concurrent or not, any key) says which call returned an error. |
| C102 The cross-origin upload of the example works with the configuration that comes with it | proved | `C102_file` (Props/Cors.lean, p); `C102_no_preflight` (Props/Cors.lean, pq); `C102_read_iff` (Props/Cors.lean, pcq); `C102_shipped_iff` (Props/Cors.lean, pcq); `C102_not_sent` (Props/Cors.lean, p); `C102_page` (Props/Cors.lean, pcq); `C102_shared_page` (Props/Cors.lean, pcq); `C102_shipped_page` (Props/Cors.lean, pcq) | The browser's rules are written from the Fetch Standard, the storage server's from the Cloud Storage documentation (Spec/Cors); the file is read as JSON text. C102_page and C102_shipped_page are for pages of the site whose server may crash, C102_shared_page for concurrent calls with any kind of key. Cases: Props/CorsExamples. |
| C103 The site of the example over the wire does what it does without | proved | `C103_site` (Props/ImageWire.lean, pcq); `C103_shared_site` (Props/ImageWire.lean, pcq); `C103_stored` (Props/ImageWire.lean, pcq); `C103_blocked` (Props/ImageWire.lean, pcq) | Spec/ImageWire has the site over the wire; it differs from the site of C100 only in what is exchanged. C103_site is for a service account, C103_shared_site for concurrent calls with any key that one account owns, with a crash in both. Forms are assumed to have less than 2^69 characters, so that a fresh boundary of 70 characters exists (C97_boundary_exists). Cases: Cases/ImageWire. Case of C103_shared_site: Cases/ImageWireShared. |
| C104 A form posted with reqwest, as in the crate's integration test, arrives and can be downloaded again | proved | `C104_parts` (Props/Reqwest.lean, pcq); `C104_unreadable` (Props/Reqwest.lean, pcq); `C104_accepted_iff` (Props/Reqwest.lean, pcq); `C104_round_trip` (Props/Reqwest.lean, pcq); `C104_accepted_owner` (Props/ReqwestShared.lean, pcq); `C104_round_trip_owner` (Props/ReqwestShared.lean, pcq) | Model/Reqwest writes the body as reqwest 0.12 does (percent-encoding of path segments in names, from memory of its source). How a server reads it is in Spec/Multipart and Spec/Reqwest, written from RFC 2046 and RFC 7578, which has no name* parameter. C104_accepted_iff and C104_round_trip are for a service account. Cases: Cases/Reqwest. The theorems with the suffix _owner are for calls in histories of concurrent calls and every key that one account owns (KeyOwner, as in C83), so also for bound tokens and token sources; cases: Cases/ReqwestShared. |
| C105 Headers that were not signed do not matter, unless they are called x-goog-… | proved | `C105_other_headers` (Props/ClientHeaders.lean, pcq); `C105_client` (Props/ClientHeaders.lean, pcq); `C105_client_owner` (Props/ReqwestShared.lean, pcq) | The server is that of Spec/Server. C105_other_headers is for all keys, C105_client for a service account. Header names with a percent sign are excluded (C66). Cases: Cases/ClientHeaders. The theorems with the suffix _owner are for calls in histories of concurrent calls and every key that one account owns (KeyOwner, as in C83), so also for bound tokens and token sources; cases: Cases/ReqwestShared. |
| C106 Returned URLs used with reqwest do what the crate's integration tests expect | proved | `C106_same_url_iff` (Props/ReqwestUrl.lean, pcq); `C106_same_url` (Props/ReqwestUrl.lean, pcq); `C106_get` (Props/ReqwestUrl.lean, pcq); `C106_post` (Props/ReqwestUrl.lean, pcq); `C106_post_then_get` (Props/ReqwestUrl.lean, pcq); `C106_wrong_method` (Props/ReqwestUrl.lean, pcq); `C106_get_owner` (Props/ReqwestShared.lean, pcq); `C106_post_owner` (Props/ReqwestShared.lean, pcq) | Model/Reqwest has the requests that reqwest 0.12 sends (from memory of its source). What a POST of a form to a signed URL stores is in Spec/Reqwest (HandlesUpload), as the integration tests of the crate expect it; the documentation describes it for forms with a policy only. C106_wrong_method assumes that SHA-256 does not collide on the two messages. Cases: Cases/ReqwestUrl. The theorems with the suffix _owner are for calls in histories of concurrent calls and every key that one account owns (KeyOwner, as in C83), so also for bound tokens and token sources; cases: Cases/ReqwestShared. |
| C107 Debug output identifies failures and forms and stays on one line | proved | `C107_url_debug_distinct` (Props/ErrorDebug.lean, pq); `C107_form_debug_distinct` (Props/ErrorDebug.lean, pq); `C107_key_debug_distinct` (Props/ErrorDebug.lean, pq); `C107_form_text_distinct` (Props/ErrorDebug.lean, pq); `C107_form_text` (Props/ErrorDebug.lean, pq); `C107_form_visible` (Props/ErrorDebug.lean, pq); `C107_url_visible` (Props/ErrorDebug.lean, pcq); `C107_form_error_visible` (Props/ErrorDebug.lean, pcq); `C107_key_visible` (Props/ErrorDebug.lean, pq); `C107_message_breaks_lines` (Props/ErrorDebug.lean, p) | Derived Debug of the error types and HtmlFormData as std writes it (debug_tuple, debug_list, escape_debug). Injectivity from the names of variants and from string literals ending where they end; the form's text is read by an independent specification of Rust string literals (Spec/Debug). |
| C108 The example server with a service account works as long as its key and its clock do | proved | `C108_form_iff` (Props/ImageWorks.lean, pcq); `C108_url_iff` (Props/ImageWorks.lean, pcq); `C108_never_fails` (Props/ImageWorks.lean, pcq); `C108_restarted_never_fails` (Props/ImageWorksSite.lean, pcq); `C108_shown` (Props/ImageWorksSite.lean, pcq); `C108_restarted_shown` (Props/ImageWorksSite.lean, pcq); `C108_shared_form` (Props/ImageWorksShared.lean, pcq); `C108_shared_url` (Props/ImageWorksShared.lean, pcq); `C108_shared_never_fails` (Props/ImageWorksShared.lean, pcq); `C108_shared_restarted` (Props/ImageWorksShared.lean, pcq); `C108_shared_shown` (Props/ImageWorksShared.lean, pcq) | The specification of a usable key and a steady clock is Spec/ImageWorks, and Spec/ImageWorksShared for concurrent calls. C108_form_iff and C108_url_iff are exact; C108_never_fails and C108_restarted_never_fails hold for any history. C108_shown and C108_restarted_shown are C98_shown and C101_shown without the assumption that the server does not answer 500. Cases in Cases/ImageWorks: a site with and without crashes, for a key whose public exponent is 1 (every message can be signed), a clock that goes on by a minute and one that goes back by a week. The C108_shared theorems say the same of calls that run among any concurrent ones: a call returns a form or a URL (C108_shared_form, C108_shared_url), the server does not fail (C108_shared_never_fails; C108_shared_restarted: nor in any of its lives), and C108_shared_shown is C101_shared_shown without the assumption that the server does not answer 500 or abort. Cases in Cases/ImageWorksShared: two calls at the same time, and a history with infinitely many crashes. |
| C109 The example server with a bound token works as long as its clock, the metadata server and the signing service do | proved | `C109_form` (Props/ImageWorksToken.lean, pcq); `C109_url` (Props/ImageWorksToken.lean, pcq); `C109_never_fails` (Props/ImageWorksToken.lean, pcq); `C109_restarted` (Props/ImageWorksToken.lean, pcq); `C109_shown` (Props/ImageWorksToken.lean, pcq) | The specification of calls that are answered well and of clocks in order is Spec/ImageWorksShared (with AnsweredWell of C89). C109_form and C109_url: a call of the server succeeds; C109_never_fails: no answer 500, no abort; C109_restarted: the same in every life, each with its own token and calls; C109_shown is C101_shared_shown without the assumption that the server does not answer 500 or abort. As in C88 the server does not read the clock in the last minute of SystemTime (Crate.inSaneLives). Cases in Cases/ImageWorksToken: two calls that share a token, and a history with infinitely many crashes. |
