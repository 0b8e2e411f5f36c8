{"id": "C01", "title": "Unsigned form contains exactly the fields that were set, in the documented order", "statement": "For a builder without policy_document_signing_options, build() succeeds exactly when key was set and no x_goog_meta name is empty; into_vec() is then acl, bucket, Cache-Control, Content-Disposition, Content-Encoding, Content-Length, Content-Type, Expires, key, success_action_redirect, success_action_status, x-goog-custom-time (each present iff it was set, with the value set last) followed by x-goog-meta-NAME for every x_goog_meta call in call order, and nothing else.", "quantifier": "every finite sequence of builder calls and every string value", "why_tests_cant": "the number of call sequences and values is unbounded; a test fixes one sequence", "anchors": ["src/html_form_data.rs: HtmlFormDataBuilder::build", "src/html_form_data.rs: HtmlFormData::into_vec"]}
{"id": "C02", "title": "Builder setters: last call wins and calls to different setters commute", "statement": "Calling the same single-valued setter twice is the same as the last call alone; swapping two adjacent calls of different setters never changes the result of build(); only x_goog_meta calls accumulate.", "quantifier": "every call sequence, every pair of adjacent calls, every position", "why_tests_cant": "quantifies over all sequences and positions", "anchors": ["src/html_form_data.rs: HtmlFormDataBuilder::{acl,bucket,...,x_goog_meta}"]}
{"id": "C03", "title": "Every emitted form field is pinned by the signed policy", "statement": "If build() succeeds with signing options, every field (name, value) of the form other than policy and x-goog-signature is covered by the policy document: Content-Length n by [\"content-length-range\", n, n], every other field by [\"eq\", \"$name\", value] with the identical value. So no field can be altered by whoever submits the form.", "quantifier": "every builder state, every key, every environment for which build() succeeds", "why_tests_cant": "must hold for each of 2^12 combinations of optional fields and all values", "anchors": ["src/html_form_data.rs: build", "src/html_form_data.rs: build_policy_and_x_goog_signature"]}
{"id": "C04", "title": "The policy contains no condition that the form does not satisfy", "statement": "If build() succeeds with signing options, each condition of the policy is an exact match on a field of the form with the identical value, or the content-length-range [n,n] of the form's Content-Length n; the conditions appear in form order.", "quantifier": "every builder state, key and environment for which build() succeeds", "why_tests_cant": "same as above; also must hold for arbitrary values", "anchors": ["src/html_form_data.rs: build_policy_and_x_goog_signature"]}
{"id": "C05", "title": "The policy field decodes to exactly the intended JSON document; values cannot inject structure", "statement": "The policy field is standard base64 whose decoding is UTF-8 text that any JSON reader parses to {\"conditions\": [...], \"expiration\": \"...\"} with exactly the intended conditions, whatever characters (quotes, backslashes, control characters, non-ASCII) user values contain.", "quantifier": "every string value of every field", "why_tests_cant": "needs every Unicode string, including quotes, escapes and control characters", "anchors": ["src/html_form_data.rs: build_policy_and_x_goog_signature", "src/private/policy_document/condition.rs: Serialize", "src/private/policy_document.rs: PolicyDocument"]}
{"id": "C06", "title": "The form signature signs exactly the bytes of the policy field", "statement": "With a service account key, x-goog-signature is the lower-case hex of the RSA signature of exactly the bytes of the policy field's value under that key; with a bound token and sign blob, it is the lower-case hex of the blob returned by signBlob for a request whose payload decodes to exactly those bytes.", "quantifier": "every builder, every key, every signing oracle", "why_tests_cant": "cannot enumerate messages, keys or remote responses", "anchors": ["src/html_form_data.rs: build_policy_and_x_goog_signature", "src/private/signing_key_inner.rs: sign", "src/private/signed_url.rs: hex_encode"]}
{"id": "C07", "title": "The policy never outlives the requested expiration", "statement": "The policy's expiration is the RFC 3339 UTC rendering of the requested expiration truncated to whole seconds: it denotes an instant not after the requested one and less than one second before it.", "quantifier": "every expiration instant (nanosecond resolution) accepted by build()", "why_tests_cant": "instants are unbounded in number; calendar arithmetic has irregular leap rules", "anchors": ["src/html_form_data.rs: build_policy_and_x_goog_signature", "src/private/utils/unix_timestamp.rs: to_rfc3339", "src/private/policy_document/expiration.rs"]}
{"id": "C08", "title": "x-goog-date denotes the accessible_at instant and agrees with the credential scope date", "statement": "The date in x-goog-date / X-Goog-Date denotes (in the proleptic Gregorian calendar, UTC) the accessible_at instant truncated to whole seconds, and the date inside the credential is exactly its first 8 characters.", "quantifier": "every accepted instant, for both forms and signed URLs", "why_tests_cant": "all days in 8000 years, all leap-year cases", "anchors": ["src/private/utils/unix_timestamp.rs: to_iso8601_basic_format_date_time", "src/private/utils/unix_timestamp.rs: to_date", "src/private/date.rs", "src/private/active_datetime.rs"]}
{"id": "C09", "title": "Credential structure and default region", "statement": "The form's x-goog-credential is AUTHORIZER/YYYYMMDD/REGION/storage/goog4_request where AUTHORIZER is the service account's client_email (or the metadata server's e-mail) and REGION is the given region or auto; for regions without '/', authorizer, date and region can be read back uniquely.", "quantifier": "every key, region and instant", "why_tests_cant": "unbounded strings; unique readability is a statement about all pairs of inputs", "anchors": ["src/html_form_data.rs: build_policy_and_x_goog_signature", "src/private/credential_scope.rs: Display", "src/private/location.rs"]}
{"id": "C10", "title": "Expiration/time validation of forms", "statement": "build() with signing options fails with 'expiration before accessible_at' exactly when expiration <= accessible_at; otherwise with an out-of-range error when accessible_at is before 1970 or after 9999, or expiration after 9999; no policy is ever produced for such times.", "quantifier": "all pairs of instants", "why_tests_cant": "boundary behaviour for all instants", "anchors": ["src/html_form_data.rs: build_policy_and_x_goog_signature", "src/private/utils/unix_timestamp.rs: from_system_time"]}
{"id": "C11", "title": "HMAC keys never produce a signed form and never panic or do I/O in build()", "statement": "With an HMAC key, build() with signing options returns an error; it never panics and sends no HTTP request.", "quantifier": "every builder, HMAC key and environment", "why_tests_cant": "all inputs", "anchors": ["src/html_form_data.rs: build_policy_and_x_goog_signature", "src/private/signing_key_inner.rs: x_goog_algorithm"]}
{"id": "C12", "title": "Field names are unique unless metadata names repeat", "statement": "If the x_goog_meta names are pairwise distinct, all field names of a built form are pairwise distinct; the only way to obtain a duplicate field is to repeat an x_goog_meta name.", "quantifier": "every builder", "why_tests_cant": "unbounded metadata lists, arbitrary names", "anchors": ["src/html_form_data.rs: build"]}
{"id": "C13", "title": "When a form or URL with a service account key and use_sign_blob panics", "statement": "The documentation says use_sign_blob may be either value for a service account key. In fact build() and build_signed_url panic (todo!()) for every valid input with a service account key and use_sign_blob = true. build() with signing options panics in exactly these cases for a service account key; with a bound token it panics exactly if times, bucket and key are valid and one of the (at most two) token requests of the call meets a clock or cached expiry before 1970 or a token lifetime that overflows the clock; without signing options it never panics.", "quantifier": "every builder, key, environment", "why_tests_cant": "a panic-freedom claim ranges over all inputs", "anchors": ["src/signing_key.rs: service_account", "src/private/signing_key_inner.rs: sign"]}
{"id": "C14", "title": "Service-account signing does no network I/O", "statement": "build() and build_signed_url with a service account or HMAC key never send an HTTP request, whatever the outcome.", "quantifier": "every input and environment", "why_tests_cant": "absence of an effect over all paths", "anchors": ["src/private/signing_key_inner.rs: authorizer", "src/private/signing_key_inner.rs: sign"]}
{"id": "C15", "title": "Rejected inputs cause no network I/O", "statement": "build() with missing key/bucket, bad times or unsupported algorithm, and build_signed_url with any invalid option (time, method, URL, header, expiration) return their error before any HTTP request is sent (a bad expiration together with more headers than a HeaderMap holds is a panic instead, also before any request).", "quantifier": "every invalid input, every key and environment", "why_tests_cant": "absence of an effect over all error paths", "anchors": ["src/html_form_data.rs: build_policy_and_x_goog_signature", "src/signed_url.rs: build_signed_url"]}
{"id": "C16", "title": "Signed URL shape: everything before the signature parameter is what was signed", "statement": "A returned URL is https://storage.googleapis.com PATH ? Q &X-Goog-Signature= HEX where Q is exactly the canonical query string line of the canonical request whose hash was signed, and HEX is the lower-case hex of the signature.", "quantifier": "every option set, key and environment for which build_signed_url succeeds", "why_tests_cant": "all inputs", "anchors": ["src/private/signed_url.rs: SignedUrl::new", "src/signed_url.rs: build_signed_url"]}
{"id": "C17", "title": "String-to-sign is GOOG4 format over the canonical request", "statement": "The signed message is ALGORITHM LF X-Goog-Date LF SCOPE LF hex(sha256(canonical request)), the canonical request being METHOD LF path LF query LF headers LF LF signed header names LF UNSIGNED-PAYLOAD, with METHOD equal to the requested http_method.", "quantifier": "every successful call", "why_tests_cant": "all inputs", "anchors": ["src/private/string_to_sign.rs", "src/private/canonical_request.rs: CanonicalRequest::new"]}
{"id": "C18", "title": "Required X-Goog parameters are present with the right values", "statement": "Decoding the query of a returned URL yields X-Goog-Algorithm, X-Goog-Credential, X-Goog-Date, X-Goog-Expires and X-Goog-SignedHeaders with the correct values (credential = authorizer/scope, when authorizer and region contain no '%').", "quantifier": "every successful call", "why_tests_cant": "all inputs incl. all e-mail/region strings", "anchors": ["src/private/signed_url.rs: add_signed_url_required_query_string_parameters"]}
{"id": "C19", "title": "User query parameters survive signing", "statement": "Decoding the query of a returned URL yields every user query parameter with its exact name and value. (False for names/values containing a percent escape; proved for '%'-free parameters, and a counterexample is proved.)", "quantifier": "every list of query parameters", "why_tests_cant": "all strings", "anchors": ["src/signed_url.rs: build_signed_url", "src/private/canonical_request.rs: canonical_query_string", "src/private/canonical_request.rs: percent_encode"]}
{"id": "C20", "title": "X-Goog-SignedHeaders lists exactly the request's headers, lower-case, sorted, unique, including host", "statement": "The X-Goog-SignedHeaders parameter and the signed-headers line of the canonical request are the same: the strictly increasing list of the lower-cased names of host and all user headers.", "quantifier": "every list of headers", "why_tests_cant": "unbounded header lists", "anchors": ["src/private/signed_url.rs: add_signed_url_required_query_string_parameters", "src/private/canonical_request.rs: CanonicalRequest::new"]}
{"id": "C21", "title": "Every header value is signed, in order", "statement": "For each header name the canonical request contains exactly one line name:v1,v2,... with all values supplied for that name (case-insensitively) in order; the host line starts with storage.googleapis.com.", "quantifier": "every list of headers", "why_tests_cant": "unbounded lists", "anchors": ["src/private/canonical_request.rs: CanonicalRequest::new", "src/signed_url.rs: build_signed_url"]}
{"id": "C22", "title": "Header injection is impossible", "statement": "build_signed_url fails if any header name is not an HTTP token or any header value contains CR, LF, another control character or a non-ASCII character; hence the canonical headers block has exactly one line per signed header.", "quantifier": "every header list", "why_tests_cant": "all strings", "anchors": ["src/signed_url.rs: build_signed_url", "src/private/canonical_request.rs: CanonicalRequest::new"]}
{"id": "C23", "title": "A signed URL is never valid after `expires`", "statement": "For a returned URL, X-Goog-Date + X-Goog-Expires is at most `expires` and more than `expires` - 2s, and 0 <= X-Goog-Expires <= 604800; any request with expires before accessible_at or more than 604800 s later is rejected (with an error; with a panic if there are also more headers than a HeaderMap holds).", "quantifier": "all pairs of instants at nanosecond resolution", "why_tests_cant": "double truncation over all instants", "anchors": ["src/signed_url.rs: build_signed_url", "src/private/expiration.rs"]}
{"id": "C24", "title": "HTTP method validation", "statement": "http_method is accepted iff it is one of DELETE, GET, HEAD, POST, PUT, and the first line of the canonical request is that method.", "quantifier": "every string", "why_tests_cant": "all strings", "anchors": ["src/private/http_verb.rs", "src/private/canonical_request.rs"]}
{"id": "C25", "title": "Order of query parameters does not matter", "statement": "Permuting query_parameters never changes the result of build_signed_url (same key, same times).", "quantifier": "every permutation of every parameter list", "why_tests_cant": "all permutations", "anchors": ["src/private/canonical_request.rs: canonical_query_string"]}
{"id": "C26", "title": "Header order across different names and header-name case do not matter", "statement": "Changing the letter case of header names, or reordering headers while keeping the relative order of values of equal names, never changes the signed URL, as long as the headers fit into a HeaderMap (at most 3276 headers always do).", "quantifier": "all header lists and reorderings", "why_tests_cant": "all permutations", "anchors": ["src/private/canonical_request.rs: CanonicalRequest::new", "src/signed_url.rs"]}
{"id": "C27", "title": "The URL path addresses exactly the requested bucket and object", "statement": "The percent-decoded path of a returned URL is /BUCKET/OBJECT. (False in general: '?', '#', '..', '%', backslash, tab/newline and trailing spaces are not escaped; counterexamples proved, including one that signs another bucket's object. Proved for all names free of these.)", "quantifier": "every bucket and object name", "why_tests_cant": "all strings; attacker-controlled names", "anchors": ["src/signed_url.rs: build_signed_url (TODO: escape bucket_name and object_name)"]}
{"id": "C28", "title": "The canonical path and the URL path denote the same resource", "statement": "Percent-decoding the path line of the canonical request gives the same bytes as percent-decoding the path of the returned URL.", "quantifier": "every successful call", "why_tests_cant": "all strings", "anchors": ["src/private/canonical_request.rs: percent_encode", "src/private/signed_url.rs: SignedUrl::new"]}
{"id": "C29", "title": "A returned URL consists of characters legal in a URI", "statement": "Every character of the returned URL is a legal URI character. (False: spaces, control and non-ASCII characters of query parameters are emitted raw; counterexample proved. Proved when decoded parameters consist of printable ASCII without space, quotes, <>, etc.)", "quantifier": "every option set", "why_tests_cant": "all strings", "anchors": ["src/private/canonical_request.rs: percent_encode", "src/private/signed_url.rs"]}
{"id": "C30", "title": "Canonical query parameters are sorted", "statement": "The canonical query string's name=value items are in byte order. (Sorting by parameter *name*, which the GOOG4 spec asks for, is false: a counterexample is proved.)", "quantifier": "every parameter list", "why_tests_cant": "all lists", "anchors": ["src/private/canonical_request.rs: canonical_query_string"]}
{"id": "C31", "title": "Exactly when build_signed_url panics", "statement": "build_signed_url returns Ok or Err except in these cases, in which it panics: valid options with an HMAC key; valid options with a service account key and use_sign_blob = true; a URL that exceeds 65534 bytes only once the X-Goog-* parameters are added (for example because of a long region); more headers than a HeaderMap of the http crate holds (at most 3276 always fit), all of them in order; a bound token with a clock before 1970 or an overflowing token lifetime. In particular, local signing with a service account never panics if names, parameters, region and header names are at most 6500 bytes together.", "quantifier": "every input, key, environment", "why_tests_cant": "panic freedom over all inputs", "anchors": ["src/signed_url.rs", "src/private/signed_url.rs", "src/private/signing_key_inner.rs"]}
{"id": "C32", "title": "Signing is deterministic", "statement": "With accessible_at given and a service account key, the result of build() and build_signed_url does not depend on the clock, network or token cache.", "quantifier": "all environments", "why_tests_cant": "all environments", "anchors": ["src/html_form_data.rs", "src/signed_url.rs"]}
{"id": "C33", "title": "A cached access token is reused without network I/O while more than 30 s remain", "statement": "If the cached token expires more than 30 s after now, the call returns the cached e-mail/token and sends no request; otherwise it sends the e-mail request and, if that succeeds, the token request, in that order, and no others.", "quantifier": "every cache state, clock and environment", "why_tests_cant": "all clock values and histories", "anchors": ["src/private/bound_token.rs: get_email_and_token"]}
{"id": "C34", "title": "A failed refresh leaves the cache unchanged", "statement": "If get e-mail/token fails for any reason (transport, status, body, JSON, token type), the cache is what it was before, so a later call behaves as if the failed call had not happened.", "quantifier": "every history and failure", "why_tests_cant": "all failure points", "anchors": ["src/private/bound_token.rs: get_email_and_token"]}
{"id": "C35", "title": "E-mail and token always come from one and the same refresh", "statement": "In every history of calls, a returned (e-mail, token) pair was produced by a single refresh: never the e-mail of one refresh with the token of another.", "quantifier": "all histories of calls, interleavings and cancellations", "why_tests_cant": "all histories", "anchors": ["src/private/bound_token.rs: get_email_and_token"]}
{"id": "C36", "title": "A cached token is never returned within 30 s of its expiry", "statement": "In every history, a token returned from the cache at time now satisfies now + 30 s < (time of its refresh) + expires_in. (A freshly fetched token is returned whatever its lifetime; witness proved.)", "quantifier": "all histories and clocks", "why_tests_cant": "all histories", "anchors": ["src/private/bound_token.rs: get_email_and_token"]}
{"id": "C37", "title": "Concurrent refreshes are mutually exclusive and deduplicated", "statement": "In every interleaving of concurrent calls on clones of one key, at most one refresh is in progress; after a successful refresh no further request is sent by callers that read the clock more than 30 s before the expiry.", "quantifier": "all schedules of any number of tasks", "why_tests_cant": "schedules cannot be enumerated", "anchors": ["src/private/bound_token.rs: get_email_and_token (tokio::sync::Mutex held across awaits)"]}
{"id": "C38", "title": "Cancellation safety", "statement": "Dropping a call at any await point leaves the cache either unchanged or fully updated and releases the lock, so other callers can proceed.", "quantifier": "all schedules with cancellation at any await point", "why_tests_cant": "all crash points", "anchors": ["src/private/bound_token.rs: get_email_and_token"]}
{"id": "C39", "title": "Only Bearer tokens are stored or returned", "statement": "A token whose token_type is not exactly Bearer is never returned and never cached.", "quantifier": "all histories and responses", "why_tests_cant": "all responses", "anchors": ["src/private/bound_token.rs: get_email_and_token"]}
{"id": "C40", "title": "Credentials only travel to the IAM endpoint", "statement": "Every request that carries an access token is a POST to https://iamcredentials.googleapis.com/v1/projects/-/serviceAccounts/EMAIL:signBlob with EMAIL and token from the same refresh; every other request is a GET of one of the two metadata URLs on the configured host with Metadata-Flavor: Google.", "quantifier": "every call sequence and environment", "why_tests_cant": "all executions", "anchors": ["src/private/bound_token.rs: sign", "src/private/bound_token.rs: get_email_and_token"]}
{"id": "C41", "title": "signBlob transports the message faithfully", "statement": "The signBlob request body is JSON whose payload base64-decodes to exactly the message, and the returned signature is exactly the base64-decoding of signedBlob; an answer without a signedBlob in strict base64 is an error.", "quantifier": "all messages and responses", "why_tests_cant": "all byte strings", "anchors": ["src/private/bound_token.rs: sign"]}
{"id": "C42", "title": "The account named in the credential is the account that signs", "statement": "With a bound token, the e-mail in X-Goog-Credential equals the account asked to sign. (False if a refresh happens in between and the account changed: counterexample proved; proved when the cache is still fresh at signing.)", "quantifier": "all environments", "why_tests_cant": "requires adversarial timing", "anchors": ["src/private/signed_url.rs: SignedUrl::new", "src/html_form_data.rs", "src/private/bound_token.rs"]}
{"id": "C43", "title": "Server-supplied data crashes the caller only through an over-long token lifetime", "statement": "Getting the e-mail and token panics on server-supplied data in exactly one case: both metadata requests are answered, the token is a Bearer token and now + expires_in is beyond the last instant SystemTime can represent (e.g. expires_in = u64::MAX). The only other panics come from a clock or a cached expiry before 1970.", "quantifier": "all responses", "why_tests_cant": "all responses", "anchors": ["src/private/bound_token.rs: get_email_and_token"]}
{"id": "C44", "title": "Keys are isolated; clones share one cache", "statement": "Using one bound-token key never changes the cached token of another independently created key; clones of a key share the cache.", "quantifier": "all histories", "why_tests_cant": "all histories", "anchors": ["src/private/bound_token.rs: BoundToken (Arc<Mutex>)", "src/signing_key.rs: bound_token"]}
{"id": "C45", "title": "Hex encoding is faithful", "statement": "The hex rendering has two lower-case hex digits per byte and can be decoded to exactly the signature bytes; distinct signatures give distinct hex.", "quantifier": "all byte strings", "why_tests_cant": "all byte strings", "anchors": ["src/private/signed_url.rs: hex_encode"]}
{"id": "C46", "title": "Percent-encoding: output is free of reserved characters, idempotent, decoding-stable", "statement": "The canonical percent-encoding replaces each of !\"#$&'()*+,:;=?@[] by '%' and the two upper-case hex digits of its code and copies every other character. It never outputs one of the replaced characters, is idempotent, percent-decodes to the same bytes as its input, and percent-decodes to the input itself when the input has no '%'. It is not injective in general (counterexample proved).", "quantifier": "all strings", "why_tests_cant": "all strings", "anchors": ["src/private/canonical_request.rs: percent_encode"]}
{"id": "C47", "title": "Timestamps render injectively and in chronological order", "statement": "For all instants in range, the X-Goog-Date rendering has the fixed 16-character shape YYYYMMDDTHHMMSSZ, the RFC 3339 rendering the fixed 20-character shape, both are injective on whole seconds, and string order equals chronological order. The crate's own readers give the rendered timestamp back. The reader of the basic format reads exactly the texts made of year, month, day, T, hour, minute, second and Z that name an instant of those years, where a number may have fewer digits and follow white space, a year may have a sign and a leap second counts as the second before it; every other text is an error.", "quantifier": "all timestamps of years 0000-9999", "why_tests_cant": "10^11 values", "anchors": ["src/private/utils/unix_timestamp.rs"]}
{"id": "C48", "title": "Out-of-range times are rejected, never wrapped", "statement": "A SystemTime is accepted iff it is at or after 1970-01-01T00:00:00Z and before 10000-01-01T00:00:00Z, and the accepted value is the whole number of seconds since the epoch. Converting an accepted timestamp to a SystemTime and back gives it again; one before 1970 has no such conversion and panics instead of wrapping.", "quantifier": "all SystemTime values", "why_tests_cant": "all values", "anchors": ["src/private/utils/unix_timestamp.rs: from_system_time", "src/private/utils/unix_timestamp.rs: TryFrom<i64>"]}
{"id": "C49", "title": "service_account_from_str extracts exactly client_email and private_key", "statement": "service_account_from_str succeeds iff the text is a JSON object whose client_email and private_key are strings; the key then uses exactly these (last occurrence wins, escapes decoded); the error is the documented one for the first violated condition.", "quantifier": "all strings", "why_tests_cant": "all JSON texts", "anchors": ["src/signing_key.rs: service_account_from_str"]}
{"id": "C50", "title": "Policy documents survive a serialise/deserialise round trip", "statement": "Reading back the JSON of a policy document (without a Content-Length exact match) with the crate's own deserialiser returns the same document; field names print and parse as inverse functions.", "quantifier": "all documents", "why_tests_cant": "all strings", "anchors": ["src/private/policy_document/condition.rs", "src/private/policy_document/field.rs", "src/private/policy_document/expiration.rs"]}
{"id": "C51", "title": "String-to-sign lines cannot be confused", "statement": "The string-to-sign has exactly four lines when the region has no line break, so date, scope and hash can be read back uniquely. (False for regions containing LF: counterexample.)", "quantifier": "all regions and instants", "why_tests_cant": "all strings", "anchors": ["src/private/string_to_sign.rs", "src/private/location.rs"]}
{"id": "C52", "title": "Over-long URLs are rejected with an error exactly above the URI length limit", "statement": "build_signed_url fails with an HTTP request error iff the normalised URL with the user's parameters exceeds 65534 bytes (other checks having passed); no other bucket, object or parameter value makes URL construction fail.", "quantifier": "all bucket, object and parameter strings", "why_tests_cant": "all strings", "anchors": ["src/signed_url.rs: build_signed_url"]}
{"id": "C54", "title": "Concurrency does not change what calls return", "statement": "Under every interleaving of any number of calls (some of them dropped), a URL or form returned by a call is one that the call could have returned running alone; its signature is the answer to that call's own signing request over its own content, never one made for another call; its credential names an e-mail that a refresh of the key got, and if all refreshes got the same account, that account is also the one asked to sign.", "quantifier": "all schedules, numbers of calls, keys, options and answers", "why_tests_cant": "schedules cannot be enumerated", "anchors": ["src/signed_url.rs: build_signed_url", "src/html_form_data.rs: build", "src/private/bound_token.rs: get_email_and_token, sign"]}
{"id": "C55", "title": "Exactly the documented answers of Google's servers are accepted", "statement": "An answer of the metadata server's token endpoint is accepted exactly if it is a JSON object in which access_token (a string), expires_in (an unsigned 64-bit integer literal) and token_type (a string) each occur exactly once, other members being ignored, or a JSON array of exactly these three values; the token, lifetime and type used are the ones of that document. An answer of signBlob is accepted exactly if it is a JSON object with the string members keyId and signedBlob each occurring exactly once, or the array of the two, and the signature is taken from signedBlob. Apart from lone surrogate escapes inside ignored values, nothing that is not JSON is accepted.", "quantifier": "every text", "why_tests_cant": "The documents are unbounded: any member order, whitespace, escapes, nesting of ignored members and repetition can occur.", "anchors": ["src/private/bound_token.rs: AccessToken", "src/private/bound_token.rs: SignBlobResponseBody", "src/private/bound_token.rs: BoundToken::get_email_and_token", "src/private/bound_token.rs: BoundToken::sign"]}
{"id": "C53", "title": "A signature commits to the whole request", "statement": "If two successful build_signed_url calls sign the same message (no SHA-256 collision between their canonical requests), they ask for the same method, region, start second, percent-decoded path, query (apart from the signature) and, for every header name, the same comma-joined values. So a signature obtained for one request cannot be reused for another, whatever characters the options contain.", "quantifier": "all pairs of option values, worlds and environments", "why_tests_cant": "ranges over all pairs of inputs, including line breaks and separators that could be confused", "anchors": ["src/private/canonical_request.rs", "src/private/string_to_sign.rs", "src/signed_url.rs: build_signed_url"]}
{"id": "C56", "title": "Exactly which user query parameters survive signing", "statement": "For every returned URL, a server that splits and percent-decodes the query reads the user's parameters with exactly their names and values if and only if no name and no value contains a percent escape ('%' and two hex digits); in every case it reads their percent-decoded forms, plus the six X-Goog parameters and what follows a '?' in the bucket or object name. (This is the exact scope of C19, which is false in general.)", "quantifier": "every list of query parameters, every option set, key and environment", "why_tests_cant": "an equivalence over all strings", "anchors": ["src/signed_url.rs: build_signed_url", "src/private/canonical_request.rs: percent_encode"]}
{"id": "C57", "title": "Exactly which names the URL path addresses", "statement": "For every returned URL, the path percent-decodes to /BUCKET/OBJECT if and only if the names contain no '?', '#', backslash, tab, LF or CR, the object name does not end in a space or control character, no slash-separated segment is '.' or '..', and the names contain no percent escape. (This is the exact scope of C27, which is false in general.)", "quantifier": "every bucket and object name, every option set, key and environment", "why_tests_cant": "an equivalence over all strings", "anchors": ["src/signed_url.rs: build_signed_url (TODO: escape bucket_name and object_name)"]}
{"id": "C58", "title": "Exactly when another account signs", "statement": "Whenever a form or URL is returned for a bound token, the account asked to sign is the one named in the credential, unless the account was replaced during the call: the token behind the credential (cached before, or fetched by the call's first two requests) had at most 30 s left when signing began, the metadata server was asked again in the two requests before the signing request, and named the other account. (This is the exact scope of C42, which is false in general.)", "quantifier": "all builder call sequences, URL options, clocks, caches and server answers", "why_tests_cant": "requires every timing and every server behaviour", "anchors": ["src/private/bound_token.rs: get_email_and_token, sign", "src/html_form_data.rs", "src/private/signed_url.rs: SignedUrl::new"]}
{"id": "C59", "title": "Late rejections never ask for a signature", "statement": "With an empty metadata name no signed form is returned, and with a header value containing anything but visible ASCII, space and tab no URL is returned; nothing is sent in these cases but, for a bound token, a prefix of the two metadata requests (e-mail, then token), never a request to sign. (These are the two inputs for which C15 is false.)", "quantifier": "all such inputs, keys, clocks, caches and server answers", "why_tests_cant": "absence of an effect over all error paths and server behaviours", "anchors": ["src/html_form_data.rs: build_policy_and_x_goog_signature", "src/private/canonical_request.rs"]}
{"id": "C60", "title": "Exactly which URLs consist of legal characters", "statement": "A returned URL consists of URI characters if and only if its path contains no '|' and no '^', and all of these consist of URI characters and double quotes: the user's parameters, the parameters read from a '?' in the bucket or object name, the region, the e-mail named in the credential and the header names. (This is the exact scope of C29, which is false in general.)", "quantifier": "every option set, key and environment", "why_tests_cant": "an equivalence over all strings", "anchors": ["src/private/canonical_request.rs: percent_encode", "src/private/signed_url.rs"]}
{"id": "C61", "title": "The whole signed URL is determined by the options and the URL Standard", "statement": "A returned URL is https://storage.googleapis.com, followed by the path that the URL Standard's parser reads from /BUCKET/OBJECT, '?', one name=value item per parameter in code point order, and &X-Goog-Signature= with the signature in hex. The parameters are exactly those a form reader (application/x-www-form-urlencoded, lossy UTF-8) finds after a '?' in the names, the user's, and the five X-Goog parameters. The signature is for the GOOG4 message of exactly this path, these items, the method, the region, the date and the headers with all their values.", "quantifier": "every bucket and object name (with any characters), option set, key, environment and returned URL", "why_tests_cant": "equality of whole texts for all strings, including dot segments, backslashes, control characters and escapes in names", "anchors": ["src/private/signed_url.rs: SignedUrl::new", "src/private/canonical_request.rs: CanonicalRequest", "src/signed_url.rs: build_signed_url"]}
{"id": "C62", "title": "Exactly when build_signed_url returns a URL, and which", "statement": "build_signed_url returns a URL if and only if: the options are in order (times, expiration, method, names, headers, and not more headers than a HeaderMap holds), the key names an account (for a bound token: the cached token is still good, or the metadata server answers both requests), the unsigned URL is not too long, all header values are visible ASCII, and the key signs the GOOG4 message of the URL (local RSA, or one signBlob request that IAM answers). The URL and the requests sent are then determined by the options, the start instant and these answers. With a service account key nothing but the clock and the key matters.", "quantifier": "every option set, key, world (caches, logs, clock), network and signature oracle, and every URL and final world", "why_tests_cant": "an equivalence over all inputs and all server behaviours: no input outside the description succeeds, none inside fails", "anchors": ["src/signed_url.rs: build_signed_url", "src/private/signing_key_inner.rs: SigningKeyInner", "src/private/bound_token.rs: BoundToken"]}
{"id": "C63", "title": "Exactly when HtmlFormData::build returns a form, and which", "statement": "build without signing options returns exactly the set fields iff a key was set and no metadata name is empty. With signing options it returns a form iff the start is before the expiration and both are between 1970 and 9999, bucket and key are set, no metadata name is empty, the key names an account, and the key signs the base64 policy. The fields are then the set ones and policy, x-goog-algorithm, x-goog-credential, x-goog-date and x-goog-signature in a fixed order followed by the metadata in call order; the policy is base64 of one JSON text, given character by character, which pins every field but policy and signature.", "quantifier": "every sequence of builder calls, key, world, network and signature oracle, and every list of fields and final world", "why_tests_cant": "an equivalence over all call sequences, strings and server behaviours", "anchors": ["src/html_form_data.rs: HtmlFormDataBuilder::build", "src/html_form_data.rs: build_policy_and_x_goog_signature", "src/private/policy_document.rs: PolicyDocument"]}
{"id": "C64", "title": "Results reveal no secrets", "statement": "The result of build_signed_url and of HtmlFormData::build (URL, form, error or panic) and the requests they send do not depend on the value of an access token, cached or received, except for the authorization header sent to IAM. Two private keys of the same account give URLs that differ only after X-Goog-Signature= and forms that differ only in x-goog-signature, where the signatures are for the same message. The secret of an HMAC key is never used. With any number of calls at the same time, exchanging the access tokens in the metadata server's documents yields a possible history with the same steps and the same results.", "quantifier": "every pair of runs (environments, worlds, options, builder calls) that differ only in the secret; every history of concurrent, cancellable calls", "why_tests_cant": "noninterference relates two runs for all inputs and all server behaviours; a test compares single runs", "anchors": ["src/private/bound_token.rs: BoundToken::sign", "src/private/signing_key_inner.rs: SigningKeyInner::sign", "src/private/signed_url.rs: SignedUrl::new", "src/html_form_data.rs: HtmlFormDataBuilder::build"]}
{"id": "C65", "title": "The server accepts the returned URL", "statement": "A server that checks signed URLs the way the Cloud Storage documentation says (it rebuilds the canonical request from the HTTP request, and verifies the RSA signature with the public key of the account) accepts the returned URL with the requested method and the given headers at every second from the start instant until it expires. This needs a right RSA implementation, no '?' in bucket and object name, no '%' in region, account, parameter and header names, no parameter names of the scheme or that are proper prefixes of each other, header values without superfluous spaces, and no x-goog-content-sha256 header; for the last three the server rejects the URL of a concrete input.", "quantifier": "every option set with these restrictions, world, network and RSA implementation, every time in the window", "why_tests_cant": "the verifier recomputes the message from the URL alone; that it finds the same bytes for all names, values, orders and headers cannot be sampled", "anchors": ["src/signed_url.rs: build_signed_url", "src/private/canonical_request.rs: canonical_request", "src/private/signed_url.rs: SignedUrl::new"]}
{"id": "C66", "title": "A signature is good for one request only", "statement": "Whatever request such a server accepts with the signature of a returned URL asks for what was signed: the same method, the same path after percent-decoding, the same query apart from the order of its items and the signature, the signed headers with the same values (tidied and comma-joined), no further x-goog- header, an unsigned payload, and at a time in the window that the options gave; unless SHA-256 collides on the two messages or the two canonical requests.", "quantifier": "every option set without line feed in the URL and '%' in header names, every public key under which the signature verifies, every HTTP request without line feeds", "why_tests_cant": "it ranges over everything an attacker can send", "anchors": ["src/signed_url.rs: build_signed_url", "src/private/string_to_sign.rs: StringToSign", "src/private/canonical_request.rs: canonical_request"]}
{"id": "C67", "title": "Exactly when a server accepts a returned form", "statement": "A server that checks forms as Cloud Storage documents it (policy signed by the credential's account, not expired, every condition met, every field covered by a condition) accepts the form that build returns, posted to the bucket in it, if and only if the time is in the window of the options, the uploaded file has the given content length (if one was given), and no metadata name was given two different values.", "quantifier": "all builder call sequences, keys, environments, files and times", "why_tests_cant": "combines the JSON text, base64, the conditions, the calendar and the signature for all field values; a test has one form", "anchors": ["src/html_form_data.rs: HtmlFormData::build", "src/html_form_data.rs: build_policy_and_x_goog_signature"]}
{"id": "C68", "title": "A signed form cannot be altered", "statement": "Any form that such a server accepts and that carries the signature of a returned form (or its policy) has the same fields with the same values (apart from fields the server ignores), goes to the same bucket, uploads a file of the given length and is posted in the window of the options, unless SHA-256 collides on the two policies.", "quantifier": "all builder call sequences and all forms an attacker may post", "why_tests_cant": "quantifies over all attackers' forms", "anchors": ["src/html_form_data.rs: HtmlFormData::build", "src/private/policy_document.rs: PolicyDocument"]}
{"id": "C69", "title": "The example server lists exactly the uploaded images", "statement": "In every history of the example server, if its random ids are distinct, a listing answers with one signed URL for each image that was registered and afterwards reported as uploaded before the images were read, and for no other, in the order of registration.", "quantifier": "all interleavings of any number of registrations, reports and listings, cancelled requests, all environments", "why_tests_cant": "ranges over all interleavings of concurrent requests", "anchors": ["examples/image-uploader/src/main.rs: list_images", "examples/image-uploader/src/main.rs: update_image"]}
{"id": "C70", "title": "The example server's forms upload exactly the registered image", "statement": "A registration either returns a form and registers exactly one image with a fresh id, or returns no form and registers nothing. A storage server that checks forms as documented accepts the returned form exactly from the second it was signed until one minute after the registration and with a file of exactly the registered length; any accepted form with this policy uploads to this bucket under the registered id with the registered type and length.", "quantifier": "all histories, registrations, environments, posted forms and times", "why_tests_cant": "ranges over all histories and over all forms an attacker may post", "anchors": ["examples/image-uploader/src/main.rs: create_image", "src/html_form_data.rs: HtmlFormData::build"]}
{"id": "C71", "title": "A listed URL gives the image and nothing else, for at most a minute", "statement": "The path of a URL listed by the example server is exactly /BUCKET/ID. With a service account key, a storage server that checks URLs as documented answers a GET of it exactly from the second it was signed for the whole seconds left of the minute; with any method, headers and key it never accepts it from one minute after the clock reading on.", "quantifier": "all bucket names, ids, clocks, environments, requests and times", "why_tests_cant": "ranges over all requests and times", "anchors": ["examples/image-uploader/src/main.rs: list_images", "src/signed_url.rs: build_signed_url"]}
{"id": "C72", "title": "The example server with a service account never aborts a request", "statement": "A started example server has either a bound token and remote signing or a service account key and local signing, as USE_SIGN_BLOB says. In the second case no request is ever aborted by a panic, in any history, if bucket name and e-mail together are at most 6400 bytes long and the clock is not within a minute of the end of its range.", "quantifier": "all environment variables, key files, histories and requests", "why_tests_cant": "absence of panics over all histories and inputs", "anchors": ["examples/image-uploader/src/main.rs: main", "examples/image-uploader/src/main.rs: create_image", "examples/image-uploader/src/main.rs: list_images"]}
{"id": "C73", "title": "Error messages are true", "statement": "When building a URL or form or reading a service account key fails, the message of the error names a circumstance that is really there: a time out of range, the method that is not supported, the lifetime in seconds that is too long, a bad header, a missing bucket or key, a request that could not be built or was not answered, or the status and body that the server answered to the last request sent.", "quantifier": "all options, calls, key files, caches, clocks, server answers and texts of the errors of other crates", "why_tests_cant": "the failure can come from any of many inputs and any of three requests, at any point of a history", "anchors": ["src/signed_url.rs: ErrorKind", "src/html_form_data.rs: ErrorKind", "src/signing_key.rs: ErrorKind", "src/private/bound_token.rs: BoundTokenError", "src/private/signing_key_inner.rs: Error", "src/private/signed_url.rs: Error"]}
{"id": "C74", "title": "Error messages tell failures apart", "statement": "The public error types are opaque, so the message is all a caller can look at. Two failures of URL or form building with the same message are the same failure, with the same data in it, whatever the other crates' texts are that some messages end with. The same holds for reading a service account key, except that failing to open and failing to read the file are reported alike.", "quantifier": "all pairs of errors and all texts of the errors of other crates", "why_tests_cant": "all pairs of failures with arbitrary data (method, seconds, status, body, token type)", "anchors": ["src/signed_url.rs: ErrorKind", "src/html_form_data.rs: ErrorKind", "src/signing_key.rs: ErrorKind", "src/private/bound_token.rs: BoundTokenError"]}
{"id": "C75", "title": "URL and form signatures are not interchangeable", "statement": "A URL and a form signed by the same key never share a signed text: no message signed for a URL can be read as a policy, and no policy equals a message that a server rebuilds from a request. So no server accepts a form carrying the signature of a URL, nor a request whose URL carries the signature of a form, unless SHA-256 collides.", "quantifier": "every URL and form the crate returns, for all options, keys, regions and histories of the token; every request and every form somebody sends with the other's signature", "why_tests_cant": "Tests look at some signatures; that no pair of inputs of the two kinds gives the same signed text is a statement about all pairs.", "anchors": ["src/signed_url.rs: build_signed_url", "src/html_form_data.rs: build", "src/private/string_to_sign.rs: StringToSign", "src/private/policy_document.rs: PolicyDocument"]}
{"id": "C76", "title": "What is uploaded is what is downloaded", "statement": "With a service account key: a file posted with a returned form, or put with a returned URL, in the time it is valid, is stored in exactly the object it was made for and nothing else changes; a GET with a returned URL for the same bucket and name answers with exactly that file, as long as nothing changes the object in between; a DELETE with a returned URL removes exactly its object. A returned URL is that of its object exactly for the names a URL can express. The example server gives this end to end: an image that is posted with the form of its registration, and reported before a listing, can be downloaded with a URL of that listing.", "quantifier": "all names, files, service account keys, times, forms and URLs, contents of the store, and histories of the example server", "why_tests_cant": "tests/lib.rs uploads and downloads one file over the network with one key at one time; agreement of the form and the URL on the object must hold for every name, file and time.", "anchors": ["tests/lib.rs: test_build_html_form_data", "src/signed_url.rs: build_signed_url", "src/html_form_data.rs: build", "examples/image-uploader/src/main.rs"]}
{"id": "C77", "title": "Nothing is reachable except through a URL or form made for it", "statement": "In every history of the storage server in which nobody forges signatures, the content of an object changes only through a URL made for that method and that object (or its bucket), or a form made for its name, in the time for which it was made; and the server answers a read only through a URL made for a GET of that object, in its time.", "quantifier": "every finite set of returned URLs and forms, every sequence of requests and forms anybody sends, every state of the store", "why_tests_cant": "It is about everything an attacker can send in any order, altered URLs and forms included.", "anchors": ["src/signed_url.rs: build_signed_url", "src/html_form_data.rs: build", "src/private/canonical_request.rs: CanonicalRequest", "src/private/policy_document.rs: PolicyDocument"]}
{"id": "C78", "title": "Every call ends", "statement": "However many calls of build and build_signed_url share keys, and whatever calls are started and dropped meanwhile: if the scheduler and the lock are fair and the servers answer (or the connections break), every call that is not dropped returns. Without new calls everything is over after at most 27 steps for each running call, and no call sends more than five requests. But while one call waits for a metadata server that does not answer, all calls that need this key's token wait with it (the crate sets no timeout).", "quantifier": "every infinite fair history of concurrent calls, from every reachable state; every finite continuation without new calls", "why_tests_cant": "Liveness: deadlocks and starvation depend on the schedule, and no finite number of schedules settles all infinite ones.", "anchors": ["src/private/bound_token.rs: get_email_and_token, sign", "src/signed_url.rs: build_signed_url", "src/html_form_data.rs: build"]}
{"id": "C79", "title": "Tokens are not fetched more often than they run out", "statement": "However many calls share a bound-token key: if every token that the metadata server gives lives at least L seconds (L >= 30) and the clock does not go back, all calls together get at most one token per L - 30 seconds, and one more.", "quantifier": "all histories of any number of concurrent and dropped calls, all answers, all time spans", "why_tests_cant": "The bound is about every schedule of any number of calls over any span of time; a test runs a few calls for a few seconds.", "anchors": ["src/private/bound_token.rs: BoundToken::get_email_and_token", "src/private/bound_token.rs: BoundToken::sign"]}
{"id": "C80", "title": "Nothing but the call's own URL or policy is ever submitted for signing", "statement": "Every request to the signing service, in any history of concurrent calls and also if its call fails or is dropped before the answer, carries exactly the string to sign of the request the call was asked for (method, headers, region, start second) and of the URL it would return, or the policy of the form it would return; once the service answers with a signature the call does return that URL or form. A call submits at most one message and sends nothing afterwards.", "quantifier": "every history of any number of calls, every schedule, cancellation point and answer", "why_tests_cant": "a wrongly signed message in a call that later fails or is cancelled never shows in a result; all schedules and abort points must be covered", "anchors": ["src/private/bound_token.rs: BoundToken::sign", "src/private/signed_url.rs: SignedUrl::new", "src/html_form_data.rs: HtmlFormDataBuilder::build_policy_and_x_goog_signature"]}
{"id": "C81", "title": "The pages of the example show exactly what was uploaded", "statement": "However many people use the example at the same time: every image URL that a page gets is a signed URL for an object whose content is exactly the file that was chosen in some upload, different URLs belong to different uploads, and the storage server answers a GET of the URL in its minute with that file. An upload that came to its end shows a URL for its own file. What the page posts is accepted by the storage server exactly from the second its form was signed until a minute after the registration. A file whose type the browser does not know is never uploaded.", "quantifier": "all interleavings of any number of pages, of the example server's handlers and of the storage server, all files, lost answers, closed pages and dropped requests", "why_tests_cant": "the example has no tests; the claim is about all interleavings of browser pages, two servers and failures", "anchors": ["examples/image-uploader/index.html: onChange, createImage, uploadImage, updateImage, loadImages", "examples/image-uploader/src/main.rs: create_image, list_images, update_image"]}
{"id": "C82", "title": "What is on the page of the example after each listing", "statement": "Rendering a listing keeps the items at odd positions of what was shown before and adds the listed images after them. So the page shows exactly the listing if and only if at most one image was on it before. Over any number of renderings the page ends with the last listing, shows only images of some listing, and fewer than twice as many as the longest one.", "quantifier": "all lists on the page, all listings, all numbers of renderings", "why_tests_cant": "with one image, as in a quick manual check, the page is right; the claim is about every length", "anchors": ["examples/image-uploader/index.html: renderListItems"]}
{"id": "C83", "title": "Concurrent calls: the server accepts what is returned, and what is uploaded is what is downloaded", "statement": "In every history of concurrent calls, with a service account key or a bound-token key: the storage server accepts a returned URL, with the requested method and headers, exactly from the second it begins to be valid until it expires; it accepts a returned form exactly in its time, with a file of the given length and no conflicting metadata; and a file posted with a form that one call returned is what a GET of a URL that another call returned answers with. It needs only that the key's owner is one account: right RSA for a service account; for a bound token, that the metadata server always names the same account and that the signing service signs with that account's private key. A GET with a returned URL for plain access is answered exactly in its window, with the content of exactly the object it was made for; a PUT or DELETE stores its body in, or removes, exactly this object, and changes nothing out of the window.", "quantifier": "all interleavings of any number of calls, with failures and dropped calls; all options, keys, accounts, files, times and contents of the store", "why_tests_cant": "the tests run one call at a time and never with a bound token; whether the right answer of the signing service gets into the right URL depends on the schedule", "anchors": ["src/signed_url.rs: build_signed_url", "src/html_form_data.rs: build", "src/signing_key/bound_token.rs: get_email_and_token, sign"]}
{"id": "C84", "title": "What the signing service is asked to sign opens nothing but what the calls were asked for", "statement": "Take everything that calls with bound tokens have asked the signing service to sign, also calls that failed, were dropped or are still waiting. Whatever the storage server accepts with a signature of one of these texts is what that call was asked for: the request of the URL, or the form, that the call returns if the service answers. So, in every history of the server in which what is accepted was signed for the calls, an object changes or is read only as the options of a call say. What is sent with returned URLs and forms, as they are meant, was signed for the calls.", "quantifier": "every history of concurrent calls (any interleaving, any answers and failures, any point in time), every history of the storage server, everything that anybody can send to it; provided that SHA-256 does not collide on the canonical requests, URLs have no line feeds, and header names no '%'", "why_tests_cant": "it ranges over all schedules of the calls and over everything that an attacker can send", "anchors": ["src/signed_url.rs: build_signed_url", "src/html_form_data.rs: build", "src/signing_key/bound_token.rs: sign"]}
{"id": "C85", "title": "What the causes of an error tell beyond its message", "statement": "Following source() of an error: the error of a form has at most three causes of the crate and the failing library call, each of which is the end of the text before, and then that library error's own causes; it has causes exactly if the message begins with the words of a failed authorizer, a failed signing with a bound token, or an unreadable PEM text. The error of a key file has its cause exactly if the file cannot be opened or read or is no JSON, and only in the last case is it not in the message. (Finding: the error of a URL never has a cause, so why a connection failed cannot be found out, while it can for forms.)", "quantifier": "every error that a call can return, every text and every chain of causes of the errors of other crates", "why_tests_cant": "all errors and all texts", "anchors": ["src/signed_url.rs: Error, ErrorKind", "src/private/signed_url.rs: Error", "src/html_form_data.rs: Error, ErrorKind", "src/private/signing_key_inner.rs: Error", "src/private/bound_token.rs: BoundTokenError", "src/signing_key.rs: Error, ErrorKind"]}
{"id": "C86", "title": "The example site works as well with a bound token shared by concurrent handlers", "statement": "Run the example server in a process where its handlers call the crate concurrently, with a service account key or a bound token that they share (USE_SIGN_BLOB=true). A listing still has exactly the reported images, each by a URL that a call returned for it, and a registration a form that a call returned for its new id. What is listed is stored, and a finished upload is in the list it shows. If one account owns the key (the metadata server always names it and the signing service signs with its private key), the storage server accepts what a page posts exactly until a minute after the registration, and answers a listed URL in its minute with exactly the file that was chosen in an upload.", "quantifier": "every history of concurrent calls (any interleaving, any answers and failures of the servers), every interleaving of handlers and pages, every file, every point in time; provided that the random ids are distinct", "why_tests_cant": "all schedules of handlers, pages and token refreshes, and all answers of the servers", "anchors": ["examples/image-uploader/src/main.rs: main, create_image, list_images, update_image", "examples/image-uploader/static/index.html", "src/private/bound_token.rs"]}
{"id": "C87", "title": "Why a concurrent call fails", "statement": "When a call with a bound token fails in a process with other calls, its error names what went wrong in its own requests and nothing else: the error of a request (not built, no answer, a refusing status with this body, a body that broke off, no valid document, a wrong token type, no base64) comes exactly after its own request at that stage ended so, with the refresh necessary. A request that went wrong is never passed over: the call fails with an error of a bound token. A call panics only for a URL too long, for more headers than a HeaderMap holds, a key that cannot sign, a clock or expiry before 1970 or a token that outlives SystemTime; with sane clocks and lifetimes and a bound token only for a URL too long or too many headers. The result of a call depends on its own observations only, and whatever it returns (a result, an error or a panic) it can return alone.", "quantifier": "every history of concurrent calls with any keys, any interleaving, any answers and failures of the servers, any clocks", "why_tests_cant": "all schedules and all combinations of failing answers of three servers' requests", "anchors": ["src/private/bound_token.rs: BoundToken::{get_email_and_token, refresh, sign}", "src/private/signing_key_inner.rs: SigningKeyInner::{authorizer, sign}", "src/signed_url.rs: BuildSignedUrlOptions", "src/html_form_data.rs: HtmlFormDataBuilder::build"]}
{"id": "C88", "title": "Why the example server fails", "statement": "Run the example server in a process with concurrent calls. An answer 500 always has a cause in the calls of the crate: for a registration the call for its form returned an error, for a listing the call for the URL of some reported image did. A connection is never aborted by a panic, whether USE_SIGN_BLOB is true or false, as long as clocks and token lifetimes are sane and bucket and account names are not absurdly long; more generally a call with a bound token with at most 3276 headers whose options and account take at most 6500 bytes does not panic in a sane history.", "quantifier": "every history of concurrent calls with any answers and failures, every interleaving of handlers, every configuration the server can start with", "why_tests_cant": "all schedules, all answers of three servers, all configurations", "anchors": ["examples/image-uploader/src/main.rs: main, create_image, list_images", "src/private/bound_token.rs", "src/signed_url.rs"]}
{"id": "C89", "title": "Failures do not linger: a call in order with good answers succeeds, whatever went wrong before", "statement": "With a bound token, whether a signing call succeeds depends only on its own options and the answers to its own requests. If the options are in order, the HTTP client can build the requests, every request of the call gets a complete answer with a status in 200..=299, token answers are token documents of type Bearer and signBlob answers hold base64, then the call returns a URL or a form: no matter how many calls with the same key (or others) failed, panicked, were dropped in the middle of a refresh, or are still running. In a fair history such a call does return. The one exception, and its exact cause: if a token was stored with an expiry before 1970 (a clock before 1970), the key is lost; nothing is ever stored for it again, every later call that takes its lock panics, and no call started later succeeds, even when clock and server are in order again.", "quantifier": "every reachable concurrent history (any number of calls, keys, interleavings, cancellations, failures and panics), every call with a bound token, every oracle; the positive part for every history with clocks from 1970 on and token lifetimes within SystemTime", "why_tests_cant": "The claim is about every earlier and concurrent history, including cancellation at every await point and failures of every kind; a test replays a few of them.", "anchors": ["src/private/bound_token.rs: get_email_and_token, sign", "src/signed_url.rs", "src/html_form_data.rs"]}
{"id": "C90", "title": "Calls that share a bound token are served in the order in which they asked", "statement": "The lock that calls with clones of one bound token share is first come, first served. A call that has asked for it stays in the queue until it gets it or is dropped; until then only calls that asked before it get the lock, and in total at most as often as there were such calls, however many others ask meanwhile and however often. Therefore no call is starved: if the runtime runs every task that is ready and every server answers or breaks the connection, then every call returns or is dropped, without assuming that a waiting call is ever preferred. The queue changes nothing else: exactly the same histories are possible with it as without it.", "quantifier": "all schedules of any number of concurrent calls, all positions in the queue, all moments at which calls are started and dropped, and all infinite histories in which a call that can go on at every moment does so sooner or later", "why_tests_cant": "starvation shows only in infinite histories, and a test sees a few interleavings of a few calls; the bound holds for every queue length and every pattern of arrivals and drops", "anchors": ["src/private/bound_token.rs: BoundToken.cache (tokio::sync::Mutex), get_email_and_token", "src/private/signing_key_inner.rs: SigningKeyInner"]}
{"id": "C91", "title": "Calls made one after another behave as single calls do", "statement": "In a process that makes its calls one after another, every call returns what it returns when made alone, given the cached token that the calls before it left, the clock readings and the answers it gets; it sends the same requests in the same order and leaves the same token behind. Conversely every list of calls can be made like this in a fresh process, and a call can be run from start to end in any state of any process in which the lock of its key is free, whatever other calls are doing.", "quantifier": "all lists of calls with any keys and options, all clock readings and answers, all histories in which the calls do not overlap, and all reachable states of concurrent programs", "why_tests_cant": "It relates two models of every call (the plain function and the interleaved program) for all lists of calls and all answers; tests run a few calls.", "anchors": ["src/signed_url.rs: build_signed_url", "src/html_form_data.rs: HtmlFormDataBuilder::build", "src/private/bound_token.rs: BoundToken::get_email_and_token, sign"]}
{"id": "C92", "title": "A call is not disturbed by other calls", "statement": "Unless another call replaces the cached token of its key between its start and its end, a call that runs concurrently with any others returns exactly what it returns when made alone with the cached token that was there at its start and the same clock readings and answers, sends exactly the same requests, and the cached token at its end is the one that it leaves behind when made alone. In particular calls with a service account key are never affected by other calls. The condition is needed: there is a history in which a call that overlaps with the refresh of another one sends requests that it never sends when made alone.", "quantifier": "all histories of any number of concurrent calls, with any interleaving, cancellation, clock readings and answers", "why_tests_cant": "Absence of interference must hold for every interleaving; a test exercises a few schedules.", "anchors": ["src/signed_url.rs: build_signed_url", "src/html_form_data.rs: HtmlFormDataBuilder::build", "src/private/bound_token.rs: BoundToken (Arc<Mutex<..>>), get_email_and_token, sign"]}
{"id": "C93", "title": "The account asked to sign on the wire is the one the metadata server named", "statement": "For a key that uses the metadata server, every signing request goes to the IAM credentials host, carries the token the metadata server issued, and, as a URL parser puts it on the wire, asks for a signature of exactly the account that the metadata server named, if and only if that name contains no slash, backslash, question mark, number sign, tab, line end or percent escape; every name made of letters, digits and -._@ is sent literally. The other requests are, for the default metadata server, GET requests with the required header to exactly the documented e-mail and token paths. The account of the credential in the returned form or URL is the account of the last signing request, unless the cached token was replaced in between. (A name that ends in a line feed is sent without it while the credential keeps it.)", "quantifier": "all histories of any number of concurrent calls, all account names and tokens that a metadata server can answer, all options", "why_tests_cant": "It must hold for every account name that a metadata server can answer and every interleaving; tests use one mocked name.", "anchors": ["src/private/bound_token.rs: BoundToken::get_email_and_token, sign", "src/html_form_data.rs: HtmlFormDataBuilder::build", "src/signed_url.rs: build_signed_url"]}
{"id": "C94", "title": "The example server and its page understand each other over HTTP", "statement": "A request reaches a handler of the example server with exactly the values it carries: POST /images with a JSON content type and at most 2 MiB that begin with an object holding an unsigned 64-bit content_length and a string content_type once each (or an array of the two) registers that size and type; GET or HEAD /images lists; PATCH /images/ID reports the percent-decoded ID; GET or HEAD / is the page. Every other request is refused, and for the documented reason: 404 for paths without methods, 405 for other methods, 400 for an ID that is not UTF-8, 415, 413, or a bad body. The answers are JSON texts of exactly the form fields, method and URL, or of the URLs. What the page sends is routed to what it asks for (a file without a type is refused), and what it reads is what the handler answered, so the site behaves over HTTP as it does without.", "quantifier": "all requests and bodies, all choices of accepted content types, all form fields, URLs and lists of URLs, all files below 2^53 bytes with types of up to 300000 characters, all runs of the site", "why_tests_cant": "The texts of requests and answers are unbounded and the runs of the site are interleaved arbitrarily; tests try a few bodies.", "anchors": ["examples/image-uploader/src/main.rs: create_image, list_images, update_image, main", "examples/image-uploader/index.html: createImage, loadImages, updateImage"]}
{"id": "C95", "title": "Private keys are read from PEM texts however they are wrapped, and from nothing else", "statement": "A private_key in the form of RFC 7468 (lines of any lengths, Unix or Windows line ends, blanks at line ends, other text before and behind, any label) is read as exactly the key in it, so how the key is wrapped makes no difference to the URLs that are returned, a URL is returned exactly if the options are in order and the RSA implementation takes those bytes and signs, and a JSON key file with such a text gives a signing key whose URLs the storage server accepts. What is read is always the base64 between -----BEGIN label----- and -----END label-----; with a text that shows no key no URL and no form is returned.", "quantifier": "all keys, all texts, all line widths, all options and worlds", "why_tests_cant": "Keys, wrappings and texts are unbounded; the tests use one key in one wrapping.", "anchors": ["src/private/signing_key_inner.rs: sign", "src/signing_key.rs: service_account, service_account_from_str"]}
{"id": "C96", "title": "Every request to the example server is answered", "statement": "However many requests the example server handles at the same time, and whatever clients go away: a handler is never stuck, it takes at most two steps of its own for a registration, one for a report and two more than there are images for a listing, whatever other handlers do meanwhile; so if handlers are run again and again and the calls of the crate are calls in a fair history (C78), every request is answered unless its client goes away.", "quantifier": "every history of the example server, finite or infinite, with any requests, answers of the crate and dropped handlers", "why_tests_cant": "Handlers interleave in unboundedly many ways, and the number of images is unbounded.", "anchors": ["examples/image-uploader/src/main.rs: create_image, list_images, update_image"]}
{"id": "C97", "title": "What a browser posts is the signed form", "statement": "When a browser posts the returned form with a file (multipart/form-data), the storage server reads from the body exactly the fields and the bytes of the file, and accepts the form exactly if the time is in its window, the file has the given length, no two values of one metadata name differ, and every field is plain: no quotation mark or line end in its name, and in its value line ends only as a carriage return and a line feed. (Browsers alter other fields; the policy pins the unaltered ones.) The page of the example posts only plain fields: within the minute its upload stores exactly the chosen file as the object of its image and changes nothing else; outside nothing changes.", "quantifier": "every sequence of builder calls, file name, type and content, every boundary that occurs in no value and not in the file, every time; every history of the site of the example", "why_tests_cant": "Files and values are arbitrary; delimiters, partial delimiters, quotation marks and line ends can occur anywhere in them.", "anchors": ["examples/image-uploader/index.html: uploadImage", "src/html_form_data.rs: HtmlFormData::into_vec", "src/html_form_data.rs: HtmlFormDataBuilder::build"]}
{"id": "C98", "title": "Every upload of the example comes to its end, and fails only for a reason", "statement": "However many pages are open at the same time: an upload is never stuck, and if handlers and pages are run again and again it comes to its end, shown or failed. It fails only because a request or an answer was lost or the page was closed, because the browser knows no type of the file, because the example server answered 500 (or aborted) to its registration or its listing, which has its cause in a call of the crate, or because its form was posted outside the minute it is good for. A report never fails. If nothing of this happens, the upload sooner or later shows a list with a URL of its own file, and the file is stored.", "quantifier": "all infinite histories of the site: any number of pages, handlers and files, any interleaving with the storage server and with concurrent calls of the crate, any losses", "why_tests_cant": "A test plays one upload in one order; here every interleaving of unboundedly many uploads must end, and every way to fail must be one of the listed ones.", "anchors": ["examples/image-uploader/index.html: onChange, createImage, uploadImage, updateImage, loadImages", "examples/image-uploader/src/main.rs: create_image, list_images, update_image"]}
{"id": "C99", "title": "What a crash of the example server costs", "statement": "If the process of the example server ends at any point and is started again, any number of times: a listing answers with one signed URL for each image that was registered and then reported since the process was last started, and for no other. An image registered before a crash is in no listing after it, even if it was uploaded and is reported again; the report is answered 204 all the same, so nobody is told. Forms and URLs that were returned before a crash stay exactly as good as without it.", "quantifier": "all histories of the server: any interleaving of registrations, reports and listings, cancelled requests, crashes at any points and any number of them; all environments", "why_tests_cant": "A crash can come between any two steps of any number of interleaved handlers; a test tries a few points.", "anchors": ["examples/image-uploader/src/main.rs: AppState, create_image, list_images, update_image, main"]}
{"id": "C100", "title": "The pages of the example when the server's process may crash", "statement": "If the process of the example server ends at any point and is started again, any number of times, while pages are open: a file that a page has uploaded stays stored under its own identifier, and a form received before a crash is accepted as without it, for its minute. Every URL in every listing leads to the content of a different file that was chosen on some page. A page whose upload has gone through shows a list with a URL of its own file if the process did not end between the registration of the file and the listing; if it did, no URL in that list leads to the file, although every request was answered with success and the file is stored. Without crashes the histories are those of C81.", "quantifier": "all histories of the site: any number of pages, files and handlers, any interleaving with the storage server, losses, crashes at any points and any number of them; all environments", "why_tests_cant": "A crash can come between any two steps of any number of interleaved uploads and handlers; a test tries a few points of one upload.", "anchors": ["examples/image-uploader/index.html: onChange, createImage, uploadImage, updateImage, loadImages", "examples/image-uploader/src/main.rs: AppState, create_image, list_images, update_image, main"]}
{"id": "C101", "title": "Every upload of the example comes to its end however often the server crashes", "statement": "If the process of the example server may end at any point and be started again, any number of times, even infinitely often: every upload still comes to its end, shown or failed, if handlers and pages are run again and again. A crash by itself makes no upload fail; an upload fails only because a request or an answer of it was lost (a request that the process had not answered when it ended is lost) or its page was closed, because the browser knows no type of the file, because the server answered 500 (then a call of the crate for its form, or for a URL of its list, returned an error) or aborted, or because its form was posted outside its minute. If nothing of this happens, the upload comes to show a list and its file is stored; the list has a URL of the own file unless the process ended between the registration and the listing. This also holds when the calls of the crate run concurrently in each life of the process, with any key that one account owns.", "quantifier": "all infinite histories of the site: any number of pages, handlers and files, any interleaving with the storage server, any losses, any crash points and any number of them", "why_tests_cant": "Termination of unboundedly many interleaved uploads under crashes at arbitrary points, possibly infinitely many, cannot be observed in finitely many runs.", "anchors": ["examples/image-uploader/index.html: onChange, createImage, uploadImage, updateImage, loadImages", "examples/image-uploader/src/main.rs: AppState, create_image, list_images, update_image, main"]}
{"id": "C102", "title": "The cross-origin upload of the example works with the configuration that comes with it", "statement": "With the CORS configuration that comes with the example, a page of any origin sends its upload without asking first and sees the storage server's answer; it goes on to report the upload exactly if that answer is 204 with an empty body. With any other configuration the browser still sends the upload, so the file may be stored, but the page sees the answer only if an entry of the bucket is for its origin and POST, and otherwise the upload has failed. The shipped configuration lets pages see the answers to POST requests only, and with no header of their own other than Content-Type and those that need no permission; other methods than GET, HEAD and POST are not even sent.", "quantifier": "every history of the site (pages, server, storage, crashes), every upload in it, every origin, boundary, answer and CORS configuration; every cross-origin request for the shipped configuration", "why_tests_cant": "Needs a browser's CORS rules against every origin, request and bucket configuration, at every point of every history of the site.", "anchors": ["examples/image-uploader/cors-configuration.json", "examples/image-uploader/set-cloud-storage-cors-config.sh", "examples/image-uploader/index.html uploadImage, onChange", "examples/image-uploader/src/main.rs create_image"]}
{"id": "C103", "title": "The site of the example over the wire does what it does without", "statement": "Put everything that the parts of the example exchange on the wire: JSON texts over HTTP between the pages and the server, multipart/form-data bodies from the pages to the storage server, and browsers that apply the CORS configuration of the bucket. Exactly those histories of the site are possible that are possible when the parts exchange values, with files and requests that can be sent, crashes of the server included: nothing is lost, changed or mixed up by the encodings. In particular a page that reports an upload, or shows a list, has its file stored byte for byte. This needs a CORS entry for POST: without one no page ever gets further than its upload, although its file may be stored.", "quantifier": "every history of the site (pages, server, storage server, losses, crashes), every file whose size and type fit, every CORS configuration, every boundary that does not occur in the data", "why_tests_cant": "Equality of two sets of unbounded concurrent histories, for all files, file names, forms, boundaries and crash points.", "anchors": ["examples/image-uploader/index.html: onChange, createImage, uploadImage, updateImage, loadImages", "examples/image-uploader/src/main.rs: create_image, list_images, update_image, main", "examples/image-uploader/cors-configuration.json", "src/html_form_data.rs: HtmlFormDataBuilder::build"]}
{"id": "C104", "title": "A form posted with reqwest, as in the crate's integration test, arrives and can be downloaded again", "statement": "A program builds a form, posts its fields and the bytes of a file with reqwest's multipart form (as the integration test does), builds a signed GET URL and fetches it. From the body the storage server reads exactly the fields of the form, in order and with their values unchanged, and then the bytes of the file; it accepts them exactly if the time is in the window of the form, the file has the given length, no two values of one metadata name differ, and every metadata name consists of visible ASCII characters other than \" # % / < > ? ` { }. With any other metadata name reqwest writes a name that is no name of multipart/form-data, and the server reads no form, although the build succeeded. The answer to the GET is the file, byte for byte. The same holds for a call among any concurrent calls, with a bound token or a token source too, if one account owns the key: the metadata server names this account, and the signing service answers with its signatures.", "quantifier": "every sequence of builder calls, key pair, file, object name, boundary that does not occur in the data, and every time", "why_tests_cant": "The integration test is ignored by default, needs a real bucket, and posts one file under one ASCII name; names, values, files, boundaries and times are unbounded.", "anchors": ["tests/lib.rs: test_build_html_form_data", "src/html_form_data.rs: HtmlFormDataBuilder::build, HtmlFormData::into_vec", "src/signed_url.rs: build_signed_url"]}
{"id": "C105", "title": "Headers that were not signed do not matter, unless they are called x-goog-…", "statement": "A returned URL works with any HTTP client: of two requests with the URL, the same method and time, and the same values of the signed headers, either both are accepted or none, whatever other headers the clients add (user agent, accept, cookies, request ids, in any order and letter case) - except that a request with a header whose name begins with x-goog- is accepted only if that name was given to build_signed_url. For a service account: a request with the returned URL, the given method and the given headers is accepted exactly in the window of the URL and if it has no further x-goog- header. The same holds for a call among any concurrent calls, with a bound token or a token source too, if one account owns the key: the metadata server names this account, and the signing service answers with its signatures.", "quantifier": "every option set, returned URL, time, and every two lists of request headers", "why_tests_cant": "The set of headers a client, proxy or browser may add is unbounded; tests use one client.", "anchors": ["src/signed_url.rs: build_signed_url (headers)", "src/private/canonical_request.rs: canonical_header, signed_headers"]}
{"id": "C106", "title": "Returned URLs used with reqwest do what the crate's integration tests expect", "statement": "reqwest parses a URL and writes it anew. What it sends is the returned URL itself exactly if its query consists of visible ASCII characters other than < and >, so whenever parameters, region, account and header names are made of URI characters; the object name does not matter. With a URL of a service account for plain access to an object: reqwest::get with a GET URL is answered exactly in the window of the URL, with the content of this object; posting a multipart form with the object name and a file to a POST URL stores the file, byte for byte, in exactly this object, in the window, and changes nothing out of it; a GET afterwards answers with the file; reqwest::get with a URL for another method is never accepted. The same holds for a call among any concurrent calls, with a bound token or a token source too, if one account owns the key: the metadata server names this account, and the signing service answers with its signatures.", "quantifier": "every option set, bucket and object name that a URL can express, file, boundary not in the data, contents of the store, and every time", "why_tests_cant": "The integration tests are ignored by default, need a real bucket and key, and use three names and files and one moment.", "anchors": ["tests/lib.rs: test_setup_a_txt, test_get, test_get_timeout, test_post_invalid_http_method, test_post, test_post_bin", "src/signed_url.rs: build_signed_url", "src/private/signed_url.rs: SignedUrl::new"]}
{"id": "C107", "title": "Debug output identifies failures and forms and stays on one line", "statement": "Applications log errors and forms with {:?}. Two failures of URL building, form building or reading a service account key with the same {:?} text are the same failure with the same data in it, also those whose messages are alike (opening and reading a file). The {:?} text of a form is Rust for the list of its fields: string literals of the names and values, in order, so forms with the same text have the same fields. Neither has line breaks or other control characters in it, whatever the method, the fields or the answers of servers contain (a message may have them), provided the other crates' texts have none.", "quantifier": "all pairs of errors, all texts of the errors of other crates, all forms, all choices of printable characters beyond ASCII", "why_tests_cant": "arbitrary server answers, methods and field values, and all pairs of failures", "anchors": ["src/signed_url.rs: Error, ErrorKind", "src/html_form_data.rs: Error, ErrorKind, HtmlFormData", "src/signing_key.rs: Error, ErrorKind", "src/private/bound_token.rs: BoundTokenError", "src/private/signing_key_inner.rs: Error"]}
{"id": "C108", "title": "The example server with a service account works as long as its key and its clock do", "statement": "With a service account key that can be read and signs, local signing and names that are not absurdly long, a registration gets its form exactly if less than a minute passes between the two readings of the clock (the one for the end of the form and the one for its start), the second is not before 1970 and the form ends before the year 10000; a listing gets the URL of an image exactly if the second reading is between 1970 and 9999, at most a minute after the first and less than about a week before the end of the URL. So with a steady clock no request is ever answered 500 or aborted, in any history and however often the process crashes. Then every upload whose requests are not lost, whose file has a type and whose form is posted in its minute comes to show a list, and its file is stored. All this also holds when the calls of the crate run concurrently, among any other calls in the process, if the readings of the clock by the calls of the server are in order.", "quantifier": "all configurations with a service account, all clocks, all histories of the server and of the site: any number of pages, handlers and files, any interleaving, any concurrent calls of the crate, any crash points", "why_tests_cant": "A test sees that requests succeed at the times it tries; that none ever fails, at any time and in any interleaving, and exactly which clock readings make one fail, are claims about all of them.", "anchors": ["examples/image-uploader/src/main.rs: create_image, list_images, main", "src/html_form_data.rs: build_policy_and_x_goog_signature", "src/signed_url.rs: build_signed_url", "examples/image-uploader/index.html"]}
{"id": "C109", "title": "The example server with a bound token works as long as its clock, the metadata server and the signing service do", "statement": "With USE_SIGN_BLOB=true, a call of the example server for a form or for the URL of an image succeeds if its own requests were answered well (complete answers with a status in 200..=299, a token document of type Bearer, a signature in base64) and its clock was in order (the form or URL ends within a week and before the year 10000, and less than a minute passes between the reading of the server and that of the call), whatever other calls in the process do or did: failed, panicked, dropped or still running. So if this holds for all calls of the server, no request is answered 500 and none is aborted, in any interleaving and however often the process crashes; and every upload whose requests are not lost, whose file has a type and whose form is posted in its minute comes to show a list, and its file is stored. Clocks and token lifetimes are sane, and the names of bucket and account are not absurdly long.", "quantifier": "all histories of concurrent calls of the crate, all answers to the other calls, all histories of the server and of the site, any interleaving, any crash points", "why_tests_cant": "A test runs a few requests against one fake server; that none ever fails because of another one, in any interleaving and after any failures, is a claim about all of them.", "anchors": ["examples/image-uploader/src/main.rs: create_image, list_images, main", "src/private/bound_token.rs: BoundToken", "src/html_form_data.rs: build_policy_and_x_goog_signature", "src/signed_url.rs: build_signed_url"]}
