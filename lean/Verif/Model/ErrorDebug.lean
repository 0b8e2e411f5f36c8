import Verif.Model.ErrorText
/-
The `Debug` texts (`{:?}`) of the public types that have one: the three error types and `HtmlFormData`. All are derived, so
they are written by std's `debug_tuple` and `debug_list`. Only `{:?}` is modelled, not the multi-line `{:#?}`.
-/
namespace CSS

/-- The `Debug` texts of values that are not of this crate: the errors of reqwest, base64, serde_json, pem, ring, std and
http. Not modelled: any text. `printable` says which characters beyond ASCII std writes as they are. -/
structure DebugTexts where
  boundToken : BoundTokenError → Str
  key : KeyError → Str
  file : SigningKeyError → Str
  http : BuildUrlError → Str
  toStr : Str
  printable : Char → Bool

/-- `{:x}` of an unsigned number, with fuel. -/
def natHexAux : Nat → Nat → Str
  | 0, _ => []
  | f + 1, n => if n < 16 then [hexLower n] else natHexAux f (n / 16) ++ [hexLower (n % 16)]

/-- `{:x}` of an unsigned number: no leading zeros. -/
def natHex (n : Nat) : Str := natHexAux (n + 1) n

/-- How std writes a character of a string in `{:?}` (`char::escape_debug_ext` with `escape_single_quote: false`). ASCII
from the space to `~` is printable, control characters are not. -/
def escapeDebug (printable : Char → Bool) (c : Char) : Str :=
  if c = '\x00' then s% "\\0"
  else if c = '\t' then s% "\\t"
  else if c = '\r' then s% "\\r"
  else if c = '\n' then s% "\\n"
  else if c = '"' then s% "\\\""
  else if c = '\\' then s% "\\\\"
  else if 32 ≤ c.toNat ∧ c.toNat ≤ 126 then [c]
  else if 127 < c.toNat ∧ printable c = true then [c]
  else s% "\\u{" ++ natHex c.toNat ++ s% "}"

/-- `Debug` of `str`. -/
def debugStr (printable : Char → Bool) (s : Str) : Str :=
  '"' :: (s.flatMap (escapeDebug printable) ++ s% "\"")

/-- Texts with `", "` between them. -/
def commaSep : List Str → Str
  | [] => []
  | [x] => x
  | x :: y :: r => x ++ (s% ", " ++ commaSep (y :: r))

/-- A derived `Debug` of a variant or a tuple struct: the name, and the fields in parentheses if there are any. -/
def debugTuple (name : Str) (fields : List Str) : Str :=
  if fields = [] then name else name ++ (s% "(" ++ (commaSep fields ++ s% ")"))

/-- `Debug` of `BoundTokenError`: src/private/bound_token.rs:13-55. -/
def BoundTokenError.debug (t : DebugTexts) (e : BoundTokenError) : Str :=
  match e with
  | .emailRequestBuild => debugTuple (s% "EmailRequestBuild") [t.boundToken e]
  | .emailRequestErrorResponse => debugTuple (s% "EmailRequestErrorResponse") [t.boundToken e]
  | .emailRequestExecute => debugTuple (s% "EmailRequestExecute") [t.boundToken e]
  | .emailRequestStatus status body => debugTuple (s% "EmailRequestStatus") [natDec status, debugStr t.printable body]
  | .emailRequestSuccessResponse => debugTuple (s% "EmailRequestSuccessResponse") [t.boundToken e]
  | .signBlobRequestBuild => debugTuple (s% "SignBlobRequestBuild") [t.boundToken e]
  | .signBlobRequestErrorResponse => debugTuple (s% "SignBlobRequestErrorResponse") [t.boundToken e]
  | .signBlobRequestExecute => debugTuple (s% "SignBlobRequestExecute") [t.boundToken e]
  | .signBlobRequestStatus status body => debugTuple (s% "SignBlobRequestStatus") [natDec status, debugStr t.printable body]
  | .signBlobRequestSuccessResponse => debugTuple (s% "SignBlobRequestSuccessResponse") [t.boundToken e]
  | .signBlobRequestSuccessResponseBase64Decode =>
    debugTuple (s% "SignBlobRequestSuccessResponseBase64Decode") [t.boundToken e]
  | .signBlobRequestSuccessResponseDeserialize =>
    debugTuple (s% "SignBlobRequestSuccessResponseDeserialize") [t.boundToken e]
  | .tokenRequestBuild => debugTuple (s% "TokenRequestBuild") [t.boundToken e]
  | .tokenRequestErrorResponse => debugTuple (s% "TokenRequestErrorResponse") [t.boundToken e]
  | .tokenRequestExecute => debugTuple (s% "TokenRequestExecute") [t.boundToken e]
  | .tokenRequestInvalidTokenType s => debugTuple (s% "TokenRequestInvalidTokenType") [debugStr t.printable s]
  | .tokenRequestStatus status body => debugTuple (s% "TokenRequestStatus") [natDec status, debugStr t.printable body]
  | .tokenRequestSuccessResponse => debugTuple (s% "TokenRequestSuccessResponse") [t.boundToken e]
  | .tokenRequestSuccessResponseDeserialize => debugTuple (s% "TokenRequestSuccessResponseDeserialize") [t.boundToken e]

/-- `Debug` of `signing_key_inner::Error`: src/private/signing_key_inner.rs:3-17. -/
def KeyError.debug (t : DebugTexts) (e : KeyError) : Str :=
  match e with
  | .boundTokenAuthorizer b => debugTuple (s% "BoundTokenAuthorizer") [b.debug t]
  | .boundTokenMustUseSignBlob => debugTuple (s% "BoundTokenMustUseSignBlob") []
  | .boundTokenSigning b => debugTuple (s% "BoundTokenSigning") [b.debug t]
  | .serviceAccountPrivateKeyPemParsing => debugTuple (s% "ServiceAccountPrivateKeyPemParsing") [t.key e]
  | .serviceAccountPrivateKeyPkcs8Parsing => debugTuple (s% "ServiceAccountPrivateKeyPkcs8Parsing") [t.key e]
  | .serviceAccountSigning => debugTuple (s% "ServiceAccountSigning") [t.key e]

/-- `Debug` of `Service`: src/private/service.rs:2-6. -/
def Service.debug : Service → Str
  | .storage => debugTuple (s% "Storage") []
  | .s3 => debugTuple (s% "S3") []

/-- `Debug` of `RequestType`: src/private/request_type.rs:2-6. -/
def RequestType.debug : RequestType → Str
  | .goog4Request => debugTuple (s% "Goog4Request") []
  | .aws4Request => debugTuple (s% "Aws4Request") []

/-- `Debug` of `credential_scope::Error`: src/private/credential_scope.rs:5-9. -/
def CredentialScopeError.debug : CredentialScopeError → Str
  | .invalidCombination s r => debugTuple (s% "InvalidCombinationOfServiceAndRequestType") [s.debug, r.debug]

/-- `Debug` of `expiration::Error`: src/private/expiration.rs:1-5. -/
def ExpirationError.debug : ExpirationError → Str
  | .outOfRange n => debugTuple (s% "OutOfRange") [intDec n]

/-- `Debug` of `http_verb::Error`: src/private/http_verb.rs:1-5. -/
def HttpVerbError.debug (t : DebugTexts) : HttpVerbError → Str
  | .invalidHttpVerb m => debugTuple (s% "InvalidHttpVerb") [debugStr t.printable m]

/-- `Debug` of `canonical_request::Error`: src/private/canonical_request.rs:5-9. -/
def CanonicalRequestError.debug (t : DebugTexts) : CanonicalRequestError → Str
  | .headerValueContainsInvalidCharacter => debugTuple (s% "HeaderValueContainsInvalidCharacter") [t.toStr]

/-- `Debug` of `private::signed_url::Error`: src/private/signed_url.rs:12-20. -/
def SignedUrlError.debug (t : DebugTexts) : SignedUrlError → Str
  | .canonicalRequest e => debugTuple (s% "CanonicalRequest") [e.debug t]
  | .hostHeaderNotFound => debugTuple (s% "HostHeaderNotFound") []
  | .signing k => debugTuple (s% "Signing") [k.debug t]

/-- `Debug` of `signed_url::ErrorKind`: src/signed_url.rs:15-39. -/
def BuildUrlError.debugKind (t : DebugTexts) (e : BuildUrlError) : Str :=
  match e with
  | .credentialScope c => debugTuple (s% "CredentialScope") [c.debug]
  | .expiration c => debugTuple (s% "Expiration") [c.debug]
  | .expirationOutOfRange => debugTuple (s% "ExpirationOutOfRange") []
  | .httpMethod c => debugTuple (s% "HttpMethod") [c.debug t]
  | .httpRequest => debugTuple (s% "HttpRequest") [t.http e]
  | .invalidHeaderName => debugTuple (s% "InvalidHeaderName") [t.http e]
  | .invalidHeaderValue => debugTuple (s% "InvalidHeaderValue") [t.http e]
  | .now => debugTuple (s% "Now") []
  | .signedUrl c => debugTuple (s% "SignedUrl") [c.debug t]

/-- `Debug` of `signed_url::Error`: src/signed_url.rs:11-13. -/
def BuildUrlError.debug (t : DebugTexts) (e : BuildUrlError) : Str := debugTuple (s% "Error") [e.debugKind t]

/-- `Debug` of `html_form_data::ErrorKind`: src/html_form_data.rs:15-39. -/
def FormError.debugKind (t : DebugTexts) : FormError → Str
  | .accessibleAtOutOfRange => debugTuple (s% "AccessibleAtOutOfRange") []
  | .boundTokenAuthorizer k => debugTuple (s% "BoundTokenAuthorizer") [k.debug t]
  | .bucketNotFound => debugTuple (s% "BucketNotFound") []
  | .expirationBeforeAccessibleAt => debugTuple (s% "ExpirationBeforeAccessibleAt") []
  | .expirationOutOfRange => debugTuple (s% "ExpirationOutOfRange") []
  | .keyNotFound => debugTuple (s% "KeyNotFound") []
  | .signing k => debugTuple (s% "Signing") [k.debug t]
  | .xGoogAlgorithmNotSupported => debugTuple (s% "XGoogAlgorithmNotSupported") []
  | .xGoogCredentialInvalid c => debugTuple (s% "XGoogCredentialInvalid") [c.debug]
  | .xGoogMetaNameEmpty => debugTuple (s% "XGoogMetaNameEmpty") []

/-- `Debug` of `html_form_data::Error`: src/html_form_data.rs:11-13. -/
def FormError.debug (t : DebugTexts) (e : FormError) : Str := debugTuple (s% "Error") [e.debugKind t]

/-- `Debug` of `signing_key::ErrorKind`: src/signing_key.rs:7-26. -/
def SigningKeyError.debugKind (t : DebugTexts) (e : SigningKeyError) : Str :=
  match e with
  | .serviceAccountFileOpen => debugTuple (s% "ServiceAccountFileOpen") [t.file e]
  | .serviceAccountFileRead => debugTuple (s% "ServiceAccountFileRead") [t.file e]
  | .serviceAccountJsonClientEmailIsNotFound => debugTuple (s% "ServiceAccountJsonClientEmailIsNotFound") []
  | .serviceAccountJsonClientEmailIsNotString => debugTuple (s% "ServiceAccountJsonClientEmailIsNotString") []
  | .serviceAccountJsonDeserialize => debugTuple (s% "ServiceAccountJsonDeserialize") [t.file e]
  | .serviceAccountJsonPrivateKeyIsNotFound => debugTuple (s% "ServiceAccountJsonPrivateKeyIsNotFound") []
  | .serviceAccountJsonPrivateKeyIsNotString => debugTuple (s% "ServiceAccountJsonPrivateKeyIsNotString") []
  | .serviceAccountJsonRootIsNotObject => debugTuple (s% "ServiceAccountJsonRootIsNotObject") []

/-- `Debug` of `signing_key::Error`: src/signing_key.rs:3-5. -/
def SigningKeyError.debug (t : DebugTexts) (e : SigningKeyError) : Str := debugTuple (s% "Error") [e.debugKind t]

/-- `Debug` of a field of a form: a pair of strings, written like a tuple struct without a name. -/
def debugField (printable : Char → Bool) (f : Str × Str) : Str :=
  debugTuple [] [debugStr printable f.1, debugStr printable f.2]

/-- `Debug` of `HtmlFormData`, whose field is a vector of pairs of strings: src/html_form_data.rs:166-167. -/
def debugForm (printable : Char → Bool) (fields : List (Str × Str)) : Str :=
  debugTuple (s% "HtmlFormData") [s% "[" ++ (commaSep (fields.map (debugField printable)) ++ s% "]")]

end CSS
