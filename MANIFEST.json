{"claims": [
{"property": "C01", "status": "proved", "theorems": ["CSS.C01_unsigned_form"], "note": ""},
{"property": "C02", "status": "proved", "theorems": ["CSS.C02_different_setters_commute", "CSS.C02_last_call_wins", "CSS.C02_metadata_accumulates"], "note": ""},
{"property": "C03", "status": "proved", "theorems": ["CSS.C03_every_field_pinned"], "note": ""},
{"property": "C04", "status": "proved", "theorems": ["CSS.C04_every_condition_met"], "note": ""},
{"property": "C05", "status": "proved", "theorems": ["CSS.C05_policy_document"], "note": "RFC 8259 grammar, RFC 4648 base64 and UTF-8 as specification; the JSON reading is unique"},
{"property": "C06", "status": "proved", "theorems": ["CSS.C06_form_signature_service_account", "CSS.C06_form_signature_bound_token"], "note": "RSA and the IAM endpoint are arbitrary oracles"},
{"property": "C07", "status": "proved", "theorems": ["CSS.C07_policy_expiration"], "note": ""},
{"property": "C08", "status": "proved", "theorems": ["CSS.C08_form_date", "CSS.C08_url_date"], "note": "Forms and signed URLs."},
{"property": "C09", "status": "proved", "theorems": ["CSS.C09_form_credential"], "note": ""},
{"property": "C10", "status": "proved", "theorems": ["CSS.C10_time_validation"], "note": "Exact rejection rule for the expiration and the clock, for every key, options and state."},
{"property": "C11", "status": "proved", "theorems": ["CSS.C11_hmac_form"], "note": "HMAC keys with a policy are rejected with no effect."},
{"property": "C12", "status": "proved", "theorems": ["CSS.C12_field_names_unique"], "note": ""},
{"property": "C13", "status": "proved", "theorems": ["CSS.C13_service_account_panics", "CSS.C13_unsigned_no_panic", "CSS.C13_bound_token_panic_iff", "CSS.C13_bound_token_panics", "CSS.C13_url_service_account_sign_blob"], "note": "The documented promise is violated; the panic set is exact."},
{"property": "C14", "status": "proved", "theorems": ["CSS.C14_form_no_network", "CSS.C14_url_no_network"], "note": ""},
{"property": "C15", "status": "partial", "theorems": ["CSS.C15_form_rejected_without_network_partial", "CSS.C15_empty_meta_name_after_network", "CSS.C15_url_rejected_without_network_partial", "CSS.C15_header_value_after_network"], "note": "False for empty metadata names (forms) and non-ASCII header values (URLs): with a bound token they are reported only after requests were sent (counterexamples proved). Proved for all other invalid inputs. C59 proves that no signature is requested in these two cases."},
{"property": "C16", "status": "proved", "theorems": ["CSS.C16_url_shape"], "note": ""},
{"property": "C17", "status": "proved", "theorems": ["CSS.C17_signed_message"], "note": "The path line is related to the path by C28. The digest is the one of FIPS 180-4 (Spec/Sha256)."},
{"property": "C18", "status": "proved", "theorems": ["CSS.C18_required_parameters", "CSS.C18_credential_exact", "CSS.C18_required_once", "CSS.C18_user_goog_parameter"], "note": "Credential exact when authorizer and region contain no '%'; parameters given by the user under the same name are passed through (C18_user_goog_parameter)."},
{"property": "C19", "status": "partial", "theorems": ["CSS.C19_user_parameters_partial", "CSS.C19_percent_collision"], "note": "False in general ('%' is not escaped; C19_percent_collision). Proved for all parameters without a percent escape; C56 proves that these are exactly the ones for which it holds."},
{"property": "C20", "status": "proved", "theorems": ["CSS.C20_signed_headers", "CSS.C20_percent_in_header_name"], "note": "The parameter decodes to the line when no header name contains '%'; counterexample otherwise."},
{"property": "C21", "status": "proved", "theorems": ["CSS.C21_header_values"], "note": ""},
{"property": "C22", "status": "proved", "theorems": ["CSS.C22_headers_clean", "CSS.C22_one_line_per_header"], "note": ""},
{"property": "C23", "status": "proved", "theorems": ["CSS.C23_never_valid_after_expires", "CSS.C23_bad_expires_rejected"], "note": ""},
{"property": "C24", "status": "proved", "theorems": ["CSS.C24_method_error_iff", "CSS.C24_method_signed"], "note": ""},
{"property": "C25", "status": "proved", "theorems": ["CSS.C25_parameter_order"], "note": "Equality of result and effects for every option set."},
{"property": "C26", "status": "proved", "theorems": ["CSS.C26_same_headers", "CSS.C26_header_case", "CSS.C26_header_swap"], "note": ""},
{"property": "C27", "status": "partial", "theorems": ["CSS.C27_path_decodes_partial", "CSS.C27_path_exact_partial", "CSS.C27_counterexamples"], "note": "Percent-decoding the URL path gives back bucket and object for names without the special characters; false in general: C27_counterexamples lists ten names, including .. segments that move the URL to another bucket. C57 proves exactly for which names it holds."},
{"property": "C28", "status": "proved", "theorems": ["CSS.C28_same_resource"], "note": ""},
{"property": "C29", "status": "partial", "theorems": ["CSS.C29_uri_chars_partial", "CSS.C29_illegal_char_raw", "CSS.C29_counterexample"], "note": "Only URI characters occur when the names and parameters contain only characters that are legal or get encoded; false in general, C29_counterexample shows a raw space. C60 proves exactly when it holds."},
{"property": "C30", "status": "proved", "theorems": ["CSS.C30_items_sorted", "CSS.C30_not_sorted_by_name"], "note": "Items are sorted; sorting by name is refuted by C30_not_sorted_by_name."},
{"property": "C31", "status": "proved", "theorems": ["CSS.C31_panic_iff", "CSS.C31_service_account_local", "CSS.C31_bound_token_sane", "CSS.C31_small_no_panic", "CSS.C31_long_region_panics", "CSS.C31_counterexample_long"], "note": ""},
{"property": "C32", "status": "proved", "theorems": ["CSS.C32_url_deterministic", "CSS.C32_form_deterministic"], "note": ""},
{"property": "C33", "status": "proved", "theorems": ["CSS.C33_cached", "CSS.C33_refresh"], "note": "Cached token: no request, caches unchanged. Otherwise: exact list of requests, by the answers."},
{"property": "C34", "status": "proved", "theorems": ["CSS.C34_failure_keeps_cache", "CSS.C34_refused_keeps_cache", "CSS.C34_sign_caches"], "note": "For every failure and panic, and in particular whenever the server does not give a Bearer token with 2xx answers; signing changes the caches exactly as fetching the token does."},
{"property": "C35", "status": "proved", "theorems": ["CSS.C35_one_refresh"], "note": "All interleavings and cancellations."},
{"property": "C36", "status": "proved", "theorems": ["CSS.C36_margin", "CSS.C36_fresh_token_any_life"], "note": "All histories; the side remark on fresh tokens is proved by a witness."},
{"property": "C37", "status": "proved", "theorems": ["CSS.C37_exclusive", "CSS.C37_needed", "CSS.C37_deduplicated"], "note": "All interleavings of any number of calls."},
{"property": "C38", "status": "proved", "theorems": ["CSS.C38_cancel", "CSS.C38_cache_whole", "CSS.C38_lock_owner", "CSS.C38_progress", "CSS.C38_bounded"], "note": "A call dropped at any await point; progress of the others and a bound on the steps of a call."},
{"property": "C39", "status": "proved", "theorems": ["CSS.C39_bearer_only"], "note": "What is returned or newly cached comes from a document with token type Bearer. Histories: see C35."},
{"property": "C40", "status": "proved", "theorems": ["CSS.C40_requests", "CSS.C40_build_requests", "CSS.C40_history"], "note": "Per call, per build, and for all concurrent histories."},
{"property": "C41", "status": "proved", "theorems": ["CSS.C41_sign_blob", "CSS.C41_bad_blob"], "note": ""},
{"property": "C42", "status": "partial", "theorems": ["CSS.C42_form_same_account_partial", "CSS.C42_url_same_account_partial", "CSS.C42_counterexample"], "note": "False in general (C42_counterexample: account changes between authorizer and signature). Proved if the account is stable or no token expires during the call. C58 proves that a replacement of the account during the call is the only way it can fail."},
{"property": "C43", "status": "proved", "theorems": ["CSS.C43_panic_iff", "CSS.C43_counterexample"], "note": "Exact panic condition, with a witness."},
{"property": "C44", "status": "proved", "theorems": ["CSS.C44_other_keys_untouched", "CSS.C44_new_key_is_fresh", "CSS.C44_clones_share", "CSS.C44_builds_touch_own_key_only", "CSS.C44_history", "CSS.C44_lock_shows_own"], "note": ""},
{"property": "C45", "status": "proved", "theorems": ["CSS.C45_hex_faithful", "CSS.C45_hex_injective"], "note": "RFC-style hex decoder as specification"},
{"property": "C46", "status": "proved", "theorems": ["CSS.C46_percentEncode_laws", "CSS.C46_percentEncode_roundtrip", "CSS.C46_percentEncode_injective", "CSS.C46_percentEncode_per_char", "CSS.C46_percentEncode_not_injective"], "note": "non-injectivity for '%' proved by counterexample"},
{"property": "C47", "status": "proved", "theorems": ["CSS.C47_rendering_denotes", "CSS.C47_order_and_injective", "CSS.C47_basic_is_read", "CSS.C47_read_back", "CSS.C47_basic_read_iff", "CSS.C47_basic_read_unique"], "note": "proleptic Gregorian calendar specification; the texts read are specified in Spec/Iso8601.lean"},
{"property": "C48", "status": "proved", "theorems": ["CSS.C48_systemTime_accepted", "CSS.C48_systemTime_rejected", "CSS.C48_toSystemTime_back", "CSS.C48_toSystemTime_panics"], "note": ""},
{"property": "C49", "status": "proved", "theorems": ["CSS.C49_service_account_ok", "CSS.C49_service_account_no_panic", "CSS.C49_service_account_errors", "CSS.C49_service_account_from_path"], "note": "RFC 8259 grammar as specification, with serde_json's depth and number limits explicit"},
{"property": "C50", "status": "proved", "theorems": ["CSS.C50_round_trip", "CSS.C50_reading_sound", "CSS.C50_accepted", "CSS.C50_field_names", "CSS.C50_expiration", "CSS.C50_writing_injective", "CSS.C50_built_policy_readable", "CSS.C50_date_round_trip"], "note": "Round trip holds iff no condition names Content-Length; readers of documents, expirations, dates and field names are modelled with serde_json/chrono behaviour (trusted base)."},
{"property": "C51", "status": "proved", "theorems": ["CSS.C51_four_lines", "CSS.C51_region_line_break", "CSS.C51_string_to_sign_readable"], "note": "Regions with a line break are a counterexample."},
{"property": "C52", "status": "proved", "theorems": ["CSS.C52_http_request_error_iff", "CSS.C52_long_parameter", "CSS.C52_small_no_error"], "note": ""},
{"property": "C53", "status": "proved", "theorems": ["CSS.C53_message_determines_request", "CSS.C53_split_values_same_url"], "note": "The signed message determines method, region, second, path, query and comma-joined header values; splitting a header value at a comma into two headers of the same name is shown to be the only header ambiguity (concrete witness)."},
{"property": "C54", "status": "proved", "theorems": ["CSS.C54_url_replay", "CSS.C54_form_replay", "CSS.C54_url_own_signature", "CSS.C54_form_own_signature", "CSS.C54_one_account"], "note": ""},
{"property": "C55", "status": "proved", "theorems": ["CSS.C55_token_text", "CSS.C55_blob_text", "CSS.C55_token_unique", "CSS.C55_blob_unique", "CSS.C55_token_document", "CSS.C55_blob_document", "CSS.C55_ignored_surrogate"], "note": "Both directions, for every text: Spec/Documents.lean gives the texts (RFC 8259 strings and numbers for the members that are read, a skipped value elsewhere), and for RFC 8259 documents the members by value. C55_ignored_surrogate shows the one thing that is accepted and not JSON: a lone surrogate escape in an ignored value."},
{"property": "C56", "status": "proved", "theorems": ["CSS.C56_user_parameters_exact"], "note": "Equivalence, for every returned URL."},
{"property": "C57", "status": "proved", "theorems": ["CSS.C57_path_exact"], "note": "Equivalence, for every returned URL."},
{"property": "C58", "status": "proved", "theorems": ["CSS.C58_form_signer", "CSS.C58_url_signer"], "note": "Holds for every successful call; C42_counterexample shows the replaced case occurs."},
{"property": "C59", "status": "proved", "theorems": ["CSS.C59_form_late_rejection", "CSS.C59_url_late_rejection"], "note": "Form and URL."},
{"property": "C60", "status": "proved", "theorems": ["CSS.C60_uri_chars_exact"], "note": "Equivalence, for every returned URL."},
{"property": "C61", "status": "proved", "theorems": ["CSS.C61_url_exact", "CSS.C61_standard_path", "CSS.C61_parameters_determined"], "note": "Complete text of URL and signed message, against an independent statement of the URL Standard's path, query and form rules."},
{"property": "C62", "status": "proved", "theorems": ["CSS.C62_returns_url_iff", "CSS.C62_returns_url_unique", "CSS.C62_service_account"], "note": "ReturnsUrl (Spec/Calls) is written without the model's control flow; the iff covers the final world (requests, caches, clock readings) too."},
{"property": "C63", "status": "proved", "theorems": ["CSS.C63_returns_form_iff", "CSS.C63_returns_form_unique"], "note": "ReturnsForm (Spec/Calls); the policy text is specified character by character and refers to the returned fields themselves."},
{"property": "C64", "status": "proved", "theorems": ["CSS.C64_url_hides_tokens", "CSS.C64_form_hides_tokens", "CSS.C64_history", "CSS.C64_url_hides_private_key", "CSS.C64_form_hides_private_key", "CSS.C64_hmac_secret_unused"], "note": "Errors are compared as the model has them, with the crate's own messages (Model/ErrorText). Texts that other crates add are not modelled: serde_json's position in the message for a malformed token document can depend on the length of a token. An error answer of the token endpoint is part of the error and may contain anything."},
{"property": "C65", "status": "proved", "theorems": ["CSS.C65_accepted", "CSS.C65_service_account", "CSS.C65_window", "CSS.C65_prefix_rejected", "CSS.C65_spaces_rejected", "CSS.C65_payload_rejected", "CSS.Reference.accepted"], "note": "Spec/Server and Spec/Rsa describe the verifier. Reference.accepted runs it with a real 2048-bit key. C65_window holds for all options."},
{"property": "C66", "status": "proved", "theorems": ["CSS.C66_same_signature", "CSS.C66_unforgeable", "CSS.C66_hypotheses_met"], "note": "C66_hypotheses_met and Reference.accepted show that the hypotheses are met."},
{"property": "C67", "status": "proved", "theorems": ["CSS.C67_accepted_iff", "CSS.C67_service_account", "CSS.C67_conflict_rejected", "CSS.Reference.form_accepted"], "note": "Server written from the documentation (Spec/PostServer.lean). Case with the crate's test form and 2048-bit key: Props/PostServerExamples.lean."},
{"property": "C68", "status": "proved", "theorems": ["CSS.C68_same_signature", "CSS.C68_unforgeable", "CSS.Reference.form_tampered"], "note": "Up to SHA-256 collisions of the two policies, or given that only the signed policy can carry a valid signature."},
{"property": "C69", "status": "proved", "theorems": ["CSS.C69_listing", "CSS.ImageUploader.history"], "note": "The ids being distinct is a hypothesis: they are random. Case: ImageUploader.history (two registrations, a listing that is overtaken by a report, a cancelled registration)."},
{"property": "C70", "status": "proved", "theorems": ["CSS.C70_create", "CSS.C70_update", "CSS.C70_events", "CSS.C70_registered", "CSS.C70_form_accepted", "CSS.C70_form_binding", "CSS.ImageUploader.history_accepted"], "note": "Storage server as in C67 and C68; C70_registered says it of every history of the server. Case with a 2048-bit key: ImageUploader.history_accepted."},
{"property": "C71", "status": "proved", "theorems": ["CSS.C71_listed", "CSS.C71_path", "CSS.C71_accepted", "CSS.C71_window", "CSS.ImageUploader.history_accepted"], "note": "Storage server as in C65; C71_listed says it of every history of the server. Case with a 2048-bit key: ImageUploader.history_accepted."},
{"property": "C72", "status": "proved", "theorems": ["CSS.C72_setup", "CSS.C72_never_aborts", "CSS.ImageUploader.setup_config"], "note": "With a bound token panics are possible if the metadata server's answers are not sane (C31, C43)."},
{"property": "C73", "status": "proved", "theorems": ["CSS.C73_url_message", "CSS.C73_form_message", "CSS.C73_unsigned_form_message", "CSS.C73_key_message"], "note": "Spec/ErrorText lists, for every message, the circumstance it reports. Three texts are those of the crate http, written down from knowledge of its source."},
{"property": "C74", "status": "proved", "theorems": ["CSS.C74_url_messages_distinct", "CSS.C74_form_messages_distinct", "CSS.C74_no_invalid_credential", "CSS.C74_key_messages_distinct", "CSS.C74_open_and_read_alike"], "note": "The exception (open and read errors of a key file look alike) is part of the statement and shown by C74_open_and_read_alike."},
{"property": "C75", "status": "proved", "theorems": ["CSS.C75_message_is_no_policy", "CSS.C75_policy_is_no_message", "CSS.C75_url_signature_in_form", "CSS.C75_form_signature_in_url"], "note": "Same server as in C65 and C67."},
{"property": "C76", "status": "proved", "theorems": ["CSS.C76_object_iff", "CSS.C76_get", "CSS.C76_put", "CSS.C76_delete", "CSS.C76_post", "CSS.C76_post_then_get", "CSS.C76_put_then_get", "CSS.C76_image_uploader", "CSS.C76_image_history", "CSS.Reference.upload_download", "CSS.C76_question_mark"], "note": "Server: Spec/Storage.lean. Case with the crate's test form and a 2048-bit key: Reference.upload_download. C76_question_mark: the URL for a?b is that of object a (C57)."},
{"property": "C77", "status": "proved", "theorems": ["CSS.C77_accepted", "CSS.C77_changes", "CSS.C77_reads"], "note": "Not forged: the text whose signature the server checks was signed for a URL or form, up to SHA-256 collisions. The server does something for every history (handles_exists, serves_exists)."},
{"property": "C78", "status": "proved", "theorems": ["CSS.C78_every_call_ends", "CSS.C78_bounded", "CSS.C78_can_end", "CSS.C78_requests", "CSS.C78_blocked", "CSS.Conformance.one_refreshes"], "note": "Fairness (Spec/Liveness.lean) is a hypothesis on the history; C78_can_end shows that every reachable state lies on a fair history."},
{"property": "C79", "status": "proved", "theorems": ["CSS.C79_rate", "CSS.Conformance.twice_meets"], "note": "The bound is reached (Conformance.twice_meets). Failed and dropped refreshes are not counted: nothing is stored by them, and the next call asks again."},
{"property": "C80", "status": "proved", "theorems": ["CSS.C80_would_return", "CSS.C80_url_message", "CSS.C80_form_message", "CSS.C80_once"], "note": "For every history, so also for calls that fail, panic or are dropped after asking. Path and query are those of the URL that would be returned, to which C54_url_replay and with it C16-C32, C56, C57 apply; the same holds for forms with C54_form_replay."},
{"property": "C81", "status": "proved", "theorems": ["CSS.C81_listed_is_stored", "CSS.C81_own_image", "CSS.C81_get", "CSS.C81_upload_accepted", "CSS.C81_unknown_type"], "note": "Site: pages, example server and storage server interleaved in any order. Case: ImageUploader.cat_shown."},
{"property": "C82", "status": "proved", "theorems": ["CSS.C82_render", "CSS.C82_exact_iff", "CSS.C82_history"], "note": "The list on the page; the exact listing is shown only if at most one image was there (finding 20)."},
{"property": "C83", "status": "proved", "theorems": ["CSS.C83_url_accepted_iff", "CSS.C83_form_accepted_iff", "CSS.C83_upload_download", "CSS.Reference.shared_token", "CSS.C83_get", "CSS.C83_put", "CSS.C83_delete"], "note": "Who owns a key: Spec/KeyOwner.lean. Case: Reference.shared_token, two calls sharing one token, answers signed with a 2048-bit key. Cases for GET, PUT and DELETE: Cases/StorageShared."},
{"property": "C84", "status": "proved", "theorems": ["CSS.C84_accepted", "CSS.C84_changes", "CSS.C84_reads", "CSS.C84_requestable"], "note": "Asked, WouldReturn: Spec/SignedAccess.lean; SignedForCalls, AskedOf, Requestable, PartsAsked before the theorems. Case: Props/SignedAccessExamples.lean, the URL of Reference.shared_token."},
{"property": "C85", "status": "proved", "theorems": ["CSS.C85_form_causes", "CSS.C85_form_has_causes", "CSS.C85_key_causes", "CSS.C85_url_no_causes", "CSS.C85_url_hides_causes"], "note": "Model/ErrorChain.lean. Finding: C85_url_no_causes, C85_url_hides_causes."},
{"property": "C86", "status": "proved", "theorems": ["CSS.C86_listing", "CSS.C86_create", "CSS.C86_form_accepted", "CSS.C86_url_accepted", "CSS.C86_listed_is_stored", "CSS.C86_own_image", "CSS.C86_get", "CSS.C86_upload_accepted"], "note": "The case of C83 with the site of C81: a cat picture goes through the whole site while two calls share a token (Reference.shared_site)."},
{"property": "C87", "status": "proved", "theorems": ["CSS.C87_error", "CSS.C87_panic", "CSS.C87_not_passed_over", "CSS.C87_determined", "CSS.C87_sane_panic", "CSS.C87_url_replay", "CSS.C87_form_replay"], "note": "Beside it: a history with three calls that fail at three stages, one with two panics, and sane histories."},
{"property": "C88", "status": "proved", "theorems": ["CSS.C88_internal_server_error", "CSS.C88_small_no_panic", "CSS.C88_never_aborts"], "note": "Extends C72_never_aborts (service account, calls alone) to bound tokens and concurrent calls. Beside it: a sane history in which the signing service does not answer and the server answers 500."},
{"property": "C89", "status": "proved", "theorems": ["CSS.C89_succeeds", "CSS.C89_recovers", "CSS.C89_old_expiry_stays", "CSS.C89_poisoned", "CSS.C89_key_lost"], "note": "C89_succeeds: in every sane reachable history a call whose own options and answers are in order succeeds; C89_recovers: and in a fair history it does return. C89_old_expiry_stays, C89_poisoned, C89_key_lost: the exception, an expiry before 1970 in the cache stays for ever and every call that meets it panics. Hypotheses met in Props/RecoveryExamples.lean (three failed calls, one dropped, then success; and a lost key)."},
{"property": "C90", "status": "proved", "theorems": ["CSS.C90_same_behaviour", "CSS.C90_first_come", "CSS.C90_history", "CSS.C90_fair", "CSS.C90_every_call_ends", "CSS.C90_can_end"], "note": "Model/FifoLock.lean adds the queue of tokio's Mutex to the concurrent model. C90_same_behaviour: reachable states are the same with and without it, so all theorems about schedules apply. C90_first_come: who is not overtaken and the bound on how often the lock is taken before. C90_history and C90_fair: weakly fair histories with queues are fair in the sense of C78 (so C78_every_call_ends and C89_recovers need nothing of the lock beyond the queue); C90_every_call_ends; C90_can_end: such histories exist from every reachable state. That tokio's Mutex is first in, first out is taken from its documentation."},
{"property": "C91", "status": "proved", "theorems": ["CSS.C91_alone", "CSS.C91_one_by_one", "CSS.C91_history"], "note": "Spec/Alone.lean: alone, Shows, solo, OneByOne, AsAlone. C91_one_by_one: every list of calls in a fresh process; C91_history: every history without overlaps; C91_alone: in any reachable state with the lock of the key free. Cases: Cases/Alone.lean."},
{"property": "C92", "status": "proved", "theorems": ["CSS.C92_undisturbed", "CSS.C92_disturbed"], "note": "C92_undisturbed: env' computes like env and only its clock and network are chosen, so that they show what the call saw (Shows). For a call without a bound token the hypothesis is empty. Case: Cases/Alone.lean, a refreshing call overlapped by another that shares its key. C92_disturbed: the condition is needed."},
{"property": "C93", "status": "proved", "theorems": ["CSS.C93_account", "CSS.C93_literal", "CSS.C93_metadata", "CSS.C93_form", "CSS.C93_url", "CSS.C93_line_feed"], "note": "Targets of all requests of all histories; exact condition on the account name; finding 22."},
{"property": "C94", "status": "proved", "theorems": ["CSS.C94_routed", "CSS.C94_page", "CSS.C94_refused", "CSS.C94_sent", "CSS.C94_untyped", "CSS.C94_bodies", "CSS.C94_received", "CSS.C94_site"], "note": "Exact characterisation of every outcome of routing; the site with HTTP is equivalent to the site without."},
{"property": "C95", "status": "proved", "theorems": ["CSS.C95_read", "CSS.C95_only", "CSS.C95_written", "CSS.C95_url", "CSS.C95_accepted", "CSS.C95_no_url", "CSS.C95_no_form", "CSS.C95_same_url"], "note": "Model/Pem models pem::parse and contents(); elsewhere the reader of keys is arbitrary. C95_read and C95_only are not an equivalence: an empty line in the base64 and a sixth dash before BEGIN are refused (Cases/Pem)."},
{"property": "C96", "status": "proved", "theorems": ["CSS.C96_steps", "CSS.C96_not_stuck", "CSS.C96_answered", "CSS.C96_with_calls"], "note": "That runtime and connections are fair is a hypothesis (Spec/ImageLive); that no handler holds the mutex of the images at an .await is part of the model (each use of it is one step)."},
{"property": "C97", "status": "proved", "theorems": ["CSS.C97_parts", "CSS.C97_carried", "CSS.C97_accepted_iff", "CSS.C97_page", "CSS.C97_accepted_owner", "CSS.C97_page_owner", "CSS.C97_boundary_exists"], "note": "The browser is modelled from the HTML Standard (Model/Multipart), the server's reading from RFC 2046 and RFC 7578 (Spec/Multipart). The _owner theorems are for concurrent calls and every kind of key that one account owns. The file's type has no line end (File API). C97_boundary_exists: the boundary that the theorems need always exists (70 letters, for less than 2^70 bytes)."},
{"property": "C98", "status": "proved", "theorems": ["CSS.C98_ends", "CSS.C98_not_stuck", "CSS.C98_why", "CSS.C98_why_owner", "CSS.C98_shown", "CSS.C98_shown_owner"], "note": "SiteMoves (Spec/ImageSiteLive) are the steps of the site with what happens at each; fairness of handlers and pages is a hypothesis of C98_ends and C98_shown. The _owner theorems are for an infinite history of concurrent calls. Cases: Props/ImageSiteLiveExamples."},
{"property": "C99", "status": "proved", "theorems": ["CSS.C99_listing", "CSS.C99_forgotten", "CSS.C99_report", "CSS.C99_form", "CSS.C99_url", "CSS.C99_lost_silently", "CSS.ImageUploader.two_lives_reference", "CSS.C99_without_crashes", "CSS.C99_shared_listing", "CSS.C99_shared_form", "CSS.C99_shared_url", "CSS.C99_shared_failures"], "note": "Lives (Model/ImageRestart) has the steps of Run and a restart at any point; the images are in memory only. C99_lost_silently is the finding: an upload that was reported with success and is not listed. Case: ImageUploader.two_lives_reference. C99_without_crashes: without restarts these are the histories of C69-C72. C99_shared_* say the same for a server whose calls run concurrently and share a bound token, a new one in each life (case in Cases/RestartShared). C99_shared_failures: an answer 500 in any life has its cause in the calls of the crate."},
{"property": "C100", "status": "proved", "theorems": ["CSS.C100_listed_is_stored", "CSS.C100_own_image", "CSS.C100_stays_stored", "CSS.C100_get", "CSS.C100_upload_accepted", "CSS.C100_without_crashes", "CSS.ImageUploader.cat_forgotten", "CSS.C100_shared_listed_is_stored", "CSS.C100_shared_own_image", "CSS.C100_shared_get", "CSS.C100_shared_upload_accepted"], "note": "The site of C81 with a restart step that empties the server's list and drops its requests. cat_forgotten is a run with a crash between registration and upload: everything answers success, the file is stored, the page shows an empty list. C100_shared_* say the same for a server whose calls run concurrently and share a bound token, a new one in each life (case in Cases/RestartShared)."},
{"property": "C101", "status": "proved", "theorems": ["CSS.C101_ends", "CSS.C101_why", "CSS.C101_shown", "CSS.C101_shared_why", "CSS.C101_shared_shown"], "note": "CrashHistory (Spec/ImageSiteRestartLive) has the moves of C98 and crashes. Cases in Props/ImageSiteRestartLiveExamples: a history with infinitely many crashes, and a registration lost in a crash; with a bound token in Cases/RestartLiveShared: one with infinitely many crashes, and a registration answered 500. C101_why (calls one after another, service account) does not say why the server answered 500; C101_shared_why (any calls, concurrent or not, any key) says which call returned an error."},
{"property": "C102", "status": "proved", "theorems": ["CSS.C102_file", "CSS.C102_no_preflight", "CSS.C102_read_iff", "CSS.C102_shipped_iff", "CSS.C102_not_sent", "CSS.C102_page", "CSS.C102_shared_page", "CSS.C102_shipped_page"], "note": "The browser's rules are written from the Fetch Standard, the storage server's from the Cloud Storage documentation (Spec/Cors); the file is read as JSON text. C102_page and C102_shipped_page are for pages of the site whose server may crash, C102_shared_page for concurrent calls with any kind of key. Cases: Props/CorsExamples."},
{"property": "C103", "status": "proved", "theorems": ["CSS.C103_site", "CSS.C103_shared_site", "CSS.C103_stored", "CSS.C103_blocked"], "note": "Spec/ImageWire has the site over the wire; it differs from the site of C100 only in what is exchanged. C103_site is for a service account, C103_shared_site for concurrent calls with any key that one account owns, with a crash in both. Forms are assumed to have less than 2^69 characters, so that a fresh boundary of 70 characters exists (C97_boundary_exists). Cases: Cases/ImageWire. Case of C103_shared_site: Cases/ImageWireShared."},
{"property": "C104", "status": "proved", "theorems": ["CSS.C104_parts", "CSS.C104_unreadable", "CSS.C104_accepted_iff", "CSS.C104_round_trip", "CSS.C104_accepted_owner", "CSS.C104_round_trip_owner"], "note": "Model/Reqwest writes the body as reqwest 0.12 does (percent-encoding of path segments in names, from memory of its source). How a server reads it is in Spec/Multipart and Spec/Reqwest, written from RFC 2046 and RFC 7578, which has no name* parameter. C104_accepted_iff and C104_round_trip are for a service account. Cases: Cases/Reqwest. The theorems with the suffix _owner are for calls in histories of concurrent calls and every key that one account owns (KeyOwner, as in C83), so also for bound tokens and token sources; cases: Cases/ReqwestShared."},
{"property": "C105", "status": "proved", "theorems": ["CSS.C105_other_headers", "CSS.C105_client", "CSS.C105_client_owner"], "note": "The server is that of Spec/Server. C105_other_headers is for all keys, C105_client for a service account. Header names with a percent sign are excluded (C66). Cases: Cases/ClientHeaders. The theorems with the suffix _owner are for calls in histories of concurrent calls and every key that one account owns (KeyOwner, as in C83), so also for bound tokens and token sources; cases: Cases/ReqwestShared."},
{"property": "C106", "status": "proved", "theorems": ["CSS.C106_same_url_iff", "CSS.C106_same_url", "CSS.C106_get", "CSS.C106_post", "CSS.C106_post_then_get", "CSS.C106_wrong_method", "CSS.C106_get_owner", "CSS.C106_post_owner"], "note": "Model/Reqwest has the requests that reqwest 0.12 sends (from memory of its source). What a POST of a form to a signed URL stores is in Spec/Reqwest (HandlesUpload), as the integration tests of the crate expect it; the documentation describes it for forms with a policy only. C106_wrong_method assumes that SHA-256 does not collide on the two messages. Cases: Cases/ReqwestUrl. The theorems with the suffix _owner are for calls in histories of concurrent calls and every key that one account owns (KeyOwner, as in C83), so also for bound tokens and token sources; cases: Cases/ReqwestShared."},
{"property": "C107", "status": "proved", "theorems": ["CSS.C107_url_debug_distinct", "CSS.C107_form_debug_distinct", "CSS.C107_key_debug_distinct", "CSS.C107_form_text_distinct", "CSS.C107_form_text", "CSS.C107_form_visible", "CSS.C107_url_visible", "CSS.C107_form_error_visible", "CSS.C107_key_visible", "CSS.C107_message_breaks_lines"], "note": "Derived Debug of the error types and HtmlFormData as std writes it (debug_tuple, debug_list, escape_debug). Injectivity from the names of variants and from string literals ending where they end; the form's text is read by an independent specification of Rust string literals (Spec/Debug)."},
{"property": "C108", "status": "proved", "theorems": ["CSS.C108_form_iff", "CSS.C108_url_iff", "CSS.C108_never_fails", "CSS.C108_restarted_never_fails", "CSS.C108_shown", "CSS.C108_restarted_shown", "CSS.C108_shared_form", "CSS.C108_shared_url", "CSS.C108_shared_never_fails", "CSS.C108_shared_restarted", "CSS.C108_shared_shown"], "note": "The specification of a usable key and a steady clock is Spec/ImageWorks, and Spec/ImageWorksShared for concurrent calls. C108_form_iff and C108_url_iff are exact; C108_never_fails and C108_restarted_never_fails hold for any history. C108_shown and C108_restarted_shown are C98_shown and C101_shown without the assumption that the server does not answer 500. Cases in Cases/ImageWorks: a site with and without crashes, for a key whose public exponent is 1 (every message can be signed), a clock that goes on by a minute and one that goes back by a week. The C108_shared theorems say the same of calls that run among any concurrent ones: a call returns a form or a URL (C108_shared_form, C108_shared_url), the server does not fail (C108_shared_never_fails; C108_shared_restarted: nor in any of its lives), and C108_shared_shown is C101_shared_shown without the assumption that the server does not answer 500 or abort. Cases in Cases/ImageWorksShared: two calls at the same time, and a history with infinitely many crashes."},
{"property": "C109", "status": "proved", "theorems": ["CSS.C109_form", "CSS.C109_url", "CSS.C109_never_fails", "CSS.C109_restarted", "CSS.C109_shown"], "note": "The specification of calls that are answered well and of clocks in order is Spec/ImageWorksShared (with AnsweredWell of C89). C109_form and C109_url: a call of the server succeeds; C109_never_fails: no answer 500, no abort; C109_restarted: the same in every life, each with its own token and calls; C109_shown is C101_shared_shown without the assumption that the server does not answer 500 or abort. As in C88 the server does not read the clock in the last minute of SystemTime (Crate.inSaneLives). Cases in Cases/ImageWorksToken: two calls that share a token, and a history with infinitely many crashes."}
]}
