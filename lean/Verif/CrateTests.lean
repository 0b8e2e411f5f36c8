import Verif.Model.Iso8601
import Verif.Conformance
import Verif.Model.PolicyRead
/-
The crate's remaining unit tests whose subject is modelled, run on the model by the kernel. They test the
model, they are not proofs of properties. Error texts and positions are not modelled: where a test expects a
message, the example here expects the variant (or, for reading a policy document, that it is refused).
-/
namespace CSS.CrateTests
open CSS.Conformance

/-- `serde_json::from_str::<Condition>`: one condition and nothing after it. -/
def readOne (s : Str) : Option Condition :=
  match readCondition s with
  | some (c, r) => if skipWs r = [] then some c else none
  | none => none

/-! src/private/policy_document/condition.rs -/

/-- `test_eq_array` -/
example : readOne (s% "[\"eq\", \"$Content-Type\", \"image/jpeg\"]") =
      some (.exactMatching .contentType (s% "image/jpeg")) ∧
    readOne (s% "[\"eq\", \"$Content-Length\", \"123\"]") = none ∧
    readOne (s% "[\"eq\"]") = none ∧
    readOne (s% "[\"eq\", \"$Content-Type\"]") = none ∧
    readOne (s% "[\"eq\", \"$Content-Type\", \"image/jpeg\", \"foo\"]") = none := by decide +kernel

/-- `test_eq_object` -/
example : readOne (s% "{\"Content-Type\": \"image/jpeg\"}") =
      some (.exactMatching .contentType (s% "image/jpeg")) ∧
    readOne (s% "{\"Content-Length\": \"123\"}") = none ∧
    readOne (s% "{\"Content-Type\": \"image/jpeg\", \"key\": \"foo\"}") = none := by decide +kernel

/-- `test_starts_with` -/
example : readOne (s% "[\"starts-with\", \"$key\", \"\"]") = some (.startsWith .key (s% "")) ∧
    readOne (s% "[\"starts-with\", \"$Content-Length\", \"\"]") = none ∧
    readOne (s% "[\"starts-with\", \"$\", \"\"]") = none ∧
    readOne (s% "[\"starts-with\", \"key\", \"\"]") = none ∧
    readOne (s% "[\"starts-with\"]") = none ∧
    readOne (s% "[\"starts-with\", \"$key\"]") = none ∧
    readOne (s% "[\"starts-with\", \"$key\", 123]") = none ∧
    readOne (s% "[\"starts-with\", \"$key\", \"\", \"foo\"]") = none := by decide +kernel

/-- `test_content_length_range` -/
example : readOne (s% "[\"content-length-range\", 0, 1000000]") = some (.contentLengthRange 0 1000000) ∧
    readOne (s% "[\"content-length-range\"]") = none ∧
    readOne (s% "[\"content-length-range\", 0]") = none ∧
    readOne (s% "[\"content-length-range\", 0, \"1000000\"]") = none ∧
    readOne (s% "[\"content-length-range\", 0, 1000000, 123]") = none := by decide +kernel

/-- `test_serialize` -/
example : ∀ p ∈ [(Condition.exactMatching .contentType (s% "image/jpeg"), s% "[\"eq\",\"$Content-Type\",\"image/jpeg\"]"),
      (.startsWith .key (s% ""), s% "[\"starts-with\",\"$key\",\"\"]"),
      (.contentLengthRange 0 1000000, s% "[\"content-length-range\",0,1000000]")],
    p.1.toJson.render = p.2 ∧ readOne p.2 = some p.1 := by decide +kernel

/-! src/private/policy_document/field.rs -/

/-- `test`: every known name. -/
example : ∀ p ∈ [(s% "acl", Field.acl), (s% "bucket", .bucket), (s% "Cache-Control", .cacheControl),
      (s% "Content-Disposition", .contentDisposition), (s% "Content-Encoding", .contentEncoding),
      (s% "Content-Length", .contentLength), (s% "Content-Type", .contentType), (s% "Expires", .expires),
      (s% "file", .file), (s% "key", .key), (s% "policy", .policy),
      (s% "success_action_redirect", .successActionRedirect), (s% "success_action_status", .successActionStatus),
      (s% "x-goog-algorithm", .xGoogAlgorithm), (s% "x-goog-credential", .xGoogCredential),
      (s% "x-goog-custom-time", .xGoogCustomTime), (s% "x-goog-date", .xGoogDate),
      (s% "x-goog-signature", .xGoogSignature), (s% "x-goog-meta-reviewer", .xGoogMeta (s% "reviewer"))],
    Field.new p.1 = some p.2 ∧ p.2.toStr = p.1 := by decide +kernel
/-- `test`: unknown names. -/
example : Field.new (s% "") = none ∧ Field.new (s% "Acl") = none ∧ Field.new (s% "x-goog-meta-") = none := by
  decide +kernel

/-! src/private/policy_document/expiration.rs, src/private/policy_document.rs -/

/-- 2020-06-16T11:11:11Z -/
def exp : PolicyExpiration := ⟨⟨1592305871⟩⟩

/-- `test` of expiration.rs -/
example : PolicyExpiration.fromStr (s% "2020-06-16T11:11:11Z") = .ok exp ∧
    exp.toStr = s% "2020-06-16T11:11:11Z" ∧
    readExpiration (s% "\"2020-06-16T11:11:11Z\"") = some (exp, []) := by decide +kernel

/-- `test` of policy_document.rs: a document with conditions in both notations. The pretty printer
(`to_string_pretty`) is used by no code of the crate outside the tests and is not modelled. -/
example : readPolicy (s% "{
  \"conditions\": [
    {\"bucket\": \"travel-maps\"},
    [\"eq\", \"$Content-Type\", \"image/jpeg\"],
    [\"starts-with\", \"$key\", \"\"],
    [\"content-length-range\", 0, 1000000]
  ],
  \"expiration\": \"2020-06-16T11:11:11Z\"
}") = some ⟨[.exactMatching .bucket (s% "travel-maps"), .exactMatching .contentType (s% "image/jpeg"),
    .startsWith .key (s% ""), .contentLengthRange 0 1000000], exp⟩ := by decide +kernel

/-- `test_policy_document` -/
example : readPolicy (s% "{
  \"conditions\": [
    [\"starts-with\", \"$key\", \"\"],
    {\"bucket\": \"travel-maps\"},
    {\"success_action_redirect\": \"http://www.example.com/success_notification.html\"},
    [\"eq\", \"$Content-Type\", \"image/jpeg\"],
    [\"content-length-range\", 0, 1000000],
    {\"x-goog-algorithm\": \"GOOG4-RSA-SHA256\"},
    {\"x-goog-credential\": \"example_account@example_project.iam.gserviceaccount.com/20191102/us-central1/storage/goog4_request\"},
    {\"x-goog-date\": \"20191102T043530Z\"}
  ],
  \"expiration\": \"2020-06-16T11:11:11Z\"
}") = some ⟨[.startsWith .key (s% ""), .exactMatching .bucket (s% "travel-maps"),
    .exactMatching .successActionRedirect (s% "http://www.example.com/success_notification.html"),
    .exactMatching .contentType (s% "image/jpeg"), .contentLengthRange 0 1000000,
    .exactMatching .xGoogAlgorithm (s% "GOOG4-RSA-SHA256"),
    .exactMatching .xGoogCredential (s% "example_account@example_project.iam.gserviceaccount.com/20191102/us-central1/storage/goog4_request"),
    .exactMatching .xGoogDate (s% "20191102T043530Z")], exp⟩ := by decide +kernel

/-- The document of `test_impl_serialize_policy_document`, printed without white space. -/
example : (PolicyDocument.toJson ⟨[.startsWith .key (s% ""), .exactMatching .bucket (s% "travel-maps"),
    .contentLengthRange 0 1000000, .exactMatching .xGoogDate (s% "20191102T043530Z")], exp⟩).render =
    s% "{\"conditions\":[[\"starts-with\",\"$key\",\"\"],[\"eq\",\"$bucket\",\"travel-maps\"],[\"content-length-range\",0,1000000],[\"eq\",\"$x-goog-date\",\"20191102T043530Z\"]],\"expiration\":\"2020-06-16T11:11:11Z\"}" := by
  decide +kernel

/-! src/private/utils/unix_timestamp.rs, date.rs, active_datetime.rs, expiration.rs -/

/-- `test_convert_i64` -/
example : UnixTimestamp.tryFrom (-62167219200) = .ok ⟨-62167219200⟩ ∧ UnixTimestamp.tryFrom 0 = .ok ⟨0⟩ ∧
    UnixTimestamp.tryFrom 253402300799 = .ok ⟨253402300799⟩ ∧
    (∀ x ∈ [-62167219201, 253402300800], UnixTimestamp.tryFrom x = .err (.outOfRange x)) := by decide +kernel

/-- `test_chrono`, `test_convert_rfc3339`, and the test of active_datetime.rs -/
example : ∀ p ∈ [(s% "0000-01-01T00:00:00Z", s% "00000101T000000Z"), (s% "2020-01-02T03:04:05Z", s% "20200102T030405Z"),
      (s% "9999-12-31T23:59:59Z", s% "99991231T235959Z")],
    (UnixTimestamp.fromRfc3339 p.1).bind (fun t => .ok (t.toRfc3339, t.toIso8601)) = .ok p := by decide +kernel
example : (match UnixTimestamp.fromRfc3339 (s% "+10000-01-01T00:00:00Z") with | .err _ => true | _ => false) = true := by
  decide +kernel

/-- `test_convert_iso8601_basic_format_date_time` -/
example : (∀ s ∈ [s% "00000101T000000Z", s% "20200102T030405Z", s% "99991231T235959Z"],
      (UnixTimestamp.fromIso8601 s).bind (fun t => .ok t.toIso8601) = .ok s) ∧
    UnixTimestamp.fromIso8601 (s% "+100000101T000000Z") = .err (.invalidFormat (s% "+100000101T000000Z")) := by decide +kernel

/-- `test` and `test_try_from_str` of date.rs -/
example : ∀ p ∈ [(s% "0000-01-01T00:00:00+00:00", s% "00000101"), (s% "2020-01-02T03:04:05+00:00", s% "20200102"),
      (s% "9999-12-31T23:59:59+00:00", s% "99991231")],
    (UnixTimestamp.fromRfc3339 p.1).bind (fun t => .ok (Date.fromUnixTimestamp t).toStr) = .ok p.2 ∧
    (Date.tryFrom p.2).map Date.toStr = some p.2 := by decide +kernel

/-- `test` of expiration.rs -/
example : (match Expiration.tryFrom (-1) with | .err _ => true | _ => false) = true ∧
    Expiration.tryFrom 0 = .ok ⟨0⟩ ∧ Expiration.tryFrom 604800 = .ok ⟨604800⟩ ∧
    Expiration.toStr ⟨604800⟩ = s% "604800" ∧
    (match Expiration.tryFrom 604801 with | .err _ => true | _ => false) = true := by decide +kernel

/-! src/private/credential_scope.rs -/

/-- `test` -/
example : let d := Date.fromUnixTimestamp ⟨1577934245⟩
    (CredentialScope.new d ⟨s% "us-east1"⟩ .storage .goog4Request).bind (fun c => .ok c.toStr) =
      .ok (s% "20200102/us-east1/storage/goog4_request") ∧
    (match CredentialScope.new d ⟨s% "us-east1"⟩ .storage .aws4Request with | .err _ => true | _ => false) = true ∧
    (match CredentialScope.new d ⟨s% "us-east1"⟩ .s3 .goog4Request with | .err _ => true | _ => false) = true ∧
    (match CredentialScope.new d ⟨s% "us-east1"⟩ .s3 .aws4Request with | .ok _ => true | _ => false) = true := by
  decide +kernel

/-! src/private/canonical_request.rs, src/private/signed_url.rs -/

/-- `test_request`: method, path, query and headers, each for itself. -/
example : testRequest.method.toStr = s% "POST" ∧
    percentEncode testRequest.uri.path = s% "/example-bucket/cat-pics/tabby.jpeg" ∧
    canonicalQueryString testRequest.uri = s% "generation=1360887697105000&userProject=my-project" ∧
    signedHeaders testRequest.headers = s% "content-type;host;x-goog-meta-reviewer" := by decide +kernel

/-! src/private/bound_token.rs -/

/-- `test_internal_gce_metadata_host` -/
example : (match (BoundToken.new (ε := KeyError) { env with metadataHost := some (s% "169.254.169.254") } world).1 with
    | .ok bt => bt.baseUrl | _ => []) = s% "http://169.254.169.254" := by decide +kernel

/-! src/html_form_data.rs -/

/-- `test_key_only`, and tests/lib.rs `test_readme_html_form_data_example` -/
example : ((Builder.ofCalls [.key (s% "example-object")]).build env world).1 =
    .ok [(s% "key", s% "example-object")] := by decide +kernel
/-- `test_key_not_found` -/
example : ((Builder.ofCalls []).build env world).1 = .err .keyNotFound := by decide +kernel
/-- `test_x_goog_meta_name_empty` -/
example : ((Builder.ofCalls [.key (s% "example-object"), .xGoogMeta (s% "") (s% "value")]).build env world).1 =
    .err .xGoogMetaNameEmpty := by decide +kernel
/-- `test_when_policy_is_false` -/
example : ((Builder.ofCalls [
      .acl (s% "public-read"), .bucket (s% "example-bucket"), .cacheControl (s% "max-age=3600"),
      .contentDisposition (s% "attachment"), .contentEncoding (s% "gzip"), .contentLength 1024,
      .contentType (s% "application/octet-stream"), .expires (s% "2022-01-01T00:00:00Z"),
      .key (s% "example-object"), .successActionRedirect (s% "https://example.com/success"),
      .successActionStatus 201, .xGoogCustomTime (s% "2022-01-01T00:00:00Z"),
      .xGoogMeta (s% "reviewer") (s% "jane"), .xGoogMeta (s% "project-manager") (s% "john")]).build env world).1 =
    .ok [(s% "acl", s% "public-read"), (s% "bucket", s% "example-bucket"),
      (s% "Cache-Control", s% "max-age=3600"), (s% "Content-Disposition", s% "attachment"),
      (s% "Content-Encoding", s% "gzip"), (s% "Content-Length", s% "1024"),
      (s% "Content-Type", s% "application/octet-stream"), (s% "Expires", s% "2022-01-01T00:00:00Z"),
      (s% "key", s% "example-object"), (s% "success_action_redirect", s% "https://example.com/success"),
      (s% "success_action_status", s% "201"), (s% "x-goog-custom-time", s% "2022-01-01T00:00:00Z"),
      (s% "x-goog-meta-reviewer", s% "jane"), (s% "x-goog-meta-project-manager", s% "john")] := by decide +kernel

/-! tests/v0_6.rs -/

/-- The metadata server of both tests; `status` is that of the email answer. -/
def v06Net (status : Nat) : Nat → Request → NetResult := fun _ r =>
  if r.url = s% "http://127.0.0.1:1234/computeMetadata/v1/instance/service-accounts/default/email" then
    .response status (some (s% "info@example.com"))
  else if r.url = s% "http://127.0.0.1:1234/computeMetadata/v1/instance/service-accounts/default/token" then
    .response 200 (some (s% "{\"access_token\":\"access_token1\",\"expires_in\":3600,\"token_type\":\"Bearer\"}"))
  else .response 404 (some [])

def v06Env (status : Nat) : Env :=
  { env with net := v06Net status, metadataHost := some (s% "127.0.0.1:1234") }

/-- `SigningKey::bound_token()` and then the form. -/
def v06 (status : Nat) (useSignBlob : Bool) : M FormError (List (Str × Str)) := do
  let key ← SigningKey.newBoundToken (v06Env status)
  (Builder.ofCalls [.bucket (s% "bucket_name1"), .key (s% "object_name1"),
    .policyDocumentSigningOptions { accessibleAt := none, expiration := 1640995260 * nsPerSec, region := none,
                                    signingKey := key, useSignBlob := useSignBlob }]).build (v06Env status)

/-- `test_dont_panic_when_bound_token_and_use_sign_blob_is_false` -/
example : (v06 200 false world).1 = .err (.signing .boundTokenMustUseSignBlob) := by decide +kernel
/-- `test_gce_metadata_host_env` -/
example : (v06 400 true world).1 =
    .err (.boundTokenAuthorizer (.boundTokenAuthorizer (.emailRequestStatus 400 (s% "info@example.com")))) := by
  decide +kernel

end CSS.CrateTests
