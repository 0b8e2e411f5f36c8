import Verif.Model.SignedUrl
import Verif.Model.HtmlForm
/-
The `Display` texts of the crate's errors. The public error types (`signed_url::Error`, `html_form_data::Error`,
`signing_key::Error`) are opaque wrappers with `#[error(transparent)]`, so these texts are all that a caller sees.
-/
namespace CSS

/-- The texts of the errors of other crates that the crate's messages end with (`{0}` of a `#[source]`): whatever
reqwest, base64, serde_json, pem, ring and std report. Not modelled: any text. -/
structure SourceTexts where
  boundToken : BoundTokenError → Str
  key : KeyError → Str
  file : SigningKeyError → Str

/-- `Display` of `i64`. -/
def intDec (n : Int) : Str := if n < 0 then '-' :: natDec (-n).toNat else natDec n.toNat

/-- `Display` of `BoundTokenError`: src/private/bound_token.rs:14-55 (`SignBlobRequestSerialize` never occurs: a map with
one string is serialized) -/
def BoundTokenError.text (src : BoundTokenError → Str) (e : BoundTokenError) : Str :=
  match e with
  | .emailRequestBuild => s% "bound token / email request / build error: " ++ src e
  | .emailRequestErrorResponse => s% "bound token / email request / error response error: " ++ src e
  | .emailRequestExecute => s% "bound token / email request / execute error: " ++ src e
  | .emailRequestStatus status body =>
    s% "bound token / email request / status error: " ++ (natDec status ++ (s% " " ++ body))
  | .emailRequestSuccessResponse => s% "bound token / email request / success response error: " ++ src e
  | .signBlobRequestBuild => s% "bound token / signBlob request / build error: " ++ src e
  | .signBlobRequestErrorResponse => s% "bound token / signBlob request / error response error: " ++ src e
  | .signBlobRequestExecute => s% "bound token / signBlob request / execute error: " ++ src e
  | .signBlobRequestStatus status body =>
    s% "bound token / signBlob request / status error: " ++ (natDec status ++ (s% " " ++ body))
  | .signBlobRequestSuccessResponse => s% "bound token / signBlob request / success response error: " ++ src e
  | .signBlobRequestSuccessResponseBase64Decode =>
    s% "bound token / signBlob request / success response base64 decode error: " ++ src e
  | .signBlobRequestSuccessResponseDeserialize =>
    s% "bound token / signBlob request / success response deserialize error: " ++ src e
  | .tokenRequestBuild => s% "bound token / token request / build error: " ++ src e
  | .tokenRequestErrorResponse => s% "bound token / token request / error response error: " ++ src e
  | .tokenRequestExecute => s% "bound token / token request / execute error: " ++ src e
  | .tokenRequestInvalidTokenType t => s% "bound token / token request / invalid token_type error: " ++ t
  | .tokenRequestStatus status body =>
    s% "bound token / token request / status error: " ++ (natDec status ++ (s% " " ++ body))
  | .tokenRequestSuccessResponse => s% "bound token / token request / success response error: " ++ src e
  | .tokenRequestSuccessResponseDeserialize =>
    s% "bound token / token request / success response deserialize error: " ++ src e

/-- `Display` of `signing_key_inner::Error`: src/private/signing_key_inner.rs:3-17 -/
def KeyError.text (src : SourceTexts) (e : KeyError) : Str :=
  match e with
  | .boundTokenAuthorizer b => s% "bound token authorizer error: " ++ b.text src.boundToken
  | .boundTokenMustUseSignBlob => s% "bound token must use sign blob"
  | .boundTokenSigning b => s% "bound token signing error: " ++ b.text src.boundToken
  | .serviceAccountPrivateKeyPemParsing => s% "service account private key pem parsing error: " ++ src.key e
  | .serviceAccountPrivateKeyPkcs8Parsing => s% "service account private key pkcs8 parsing error: " ++ src.key e
  | .serviceAccountSigning => s% "service account signing error: " ++ src.key e

/-- `Display` of `credential_scope::Error`: src/private/credential_scope.rs:5-9 -/
def CredentialScopeError.text : CredentialScopeError → Str
  | .invalidCombination service requestType =>
    s% "SERVICE '" ++ (service.asStr ++ (s% "' and REQUEST_TYPE '" ++ (requestType.asStr ++ s% "' is an invalid combination")))

/-- `Display` of `signed_url::Error`: src/signed_url.rs:12-39, with the transparent errors of src/private/expiration.rs:1-5,
src/private/http_verb.rs:1-5, src/private/signed_url.rs:12-20, src/private/canonical_request.rs:5-9. Three texts are those
of the crate `http`: `InvalidUri` (too long), `InvalidHeaderName`, `InvalidHeaderValue`. -/
def BuildUrlError.text (src : SourceTexts) (e : BuildUrlError) : Str :=
  match e with
  | .credentialScope c => c.text
  | .expiration (.outOfRange n) => s% "out of range (0..=604800) : " ++ intDec n
  | .expirationOutOfRange => s% "expiration out of range"
  | .httpMethod (.invalidHttpVerb m) => s% "invalid http verb: " ++ m
  | .httpRequest => s% "uri too long"
  | .invalidHeaderName => s% "invalid HTTP header name"
  | .invalidHeaderValue => s% "failed to parse header value"
  | .now => s% "now out of range"
  | .signedUrl (.canonicalRequest .headerValueContainsInvalidCharacter) =>
    s% "header value contains non visible ascii characters"
  | .signedUrl .hostHeaderNotFound => s% "host header not found"
  | .signedUrl (.signing k) => s% "signing error: " ++ k.text src

/-- `Display` of `html_form_data::Error`: src/html_form_data.rs:11-38 -/
def FormError.text (src : SourceTexts) (e : FormError) : Str :=
  match e with
  | .accessibleAtOutOfRange => s% "accessible_at out of range"
  | .boundTokenAuthorizer k => s% "bound token authorizer: " ++ k.text src
  | .bucketNotFound => s% "bucket not found"
  | .expirationBeforeAccessibleAt => s% "expiration before accessible_at"
  | .expirationOutOfRange => s% "expiration out of range"
  | .keyNotFound => s% "key not found"
  | .signing k => k.text src
  | .xGoogAlgorithmNotSupported => s% "x-goog-algorithm not supported"
  | .xGoogCredentialInvalid _ => s% "x-goog-credential invalid"
  | .xGoogMetaNameEmpty => s% "x-goog-meta-* field name is empty"

/-- `Display` of `signing_key::Error`: src/signing_key.rs:3-26. The texts of `ServiceAccountFileOpen` and
`ServiceAccountFileRead` begin alike. -/
def SigningKeyError.text (src : SourceTexts) (e : SigningKeyError) : Str :=
  match e with
  | .serviceAccountFileOpen => s% "service account file open error: " ++ src.file e
  | .serviceAccountFileRead => s% "service account file open error: " ++ src.file e
  | .serviceAccountJsonClientEmailIsNotFound => s% "service account json client_email is not found"
  | .serviceAccountJsonClientEmailIsNotString => s% "service account json client_email is not string"
  | .serviceAccountJsonDeserialize => s% "service account json deserialize error"
  | .serviceAccountJsonPrivateKeyIsNotFound => s% "service account json private_key is not found"
  | .serviceAccountJsonPrivateKeyIsNotString => s% "service account json private_key is not string"
  | .serviceAccountJsonRootIsNotObject => s% "service account json root is not object"

end CSS
