import Verif.Model.ErrorText
/-
`std::error::Error::source` of the crate's errors, as thiserror derives it: a `#[source]` field is the source, a
`#[error(transparent)]` variant has the source of its field, and any other variant has none. The chain of an error is the list
of the texts that a caller gets by following `source()`.
-/
namespace CSS

/-- The texts of the errors of other crates, and the texts of their own sources. Not modelled: any texts. -/
structure ForeignErrors extends SourceTexts where
  boundTokenMore : BoundTokenError → List Str
  keyMore : KeyError → List Str
  fileMore : SigningKeyError → List Str

/-- `BoundTokenError::source`: src/private/bound_token.rs:14-55 -/
def BoundTokenError.chain (f : ForeignErrors) (e : BoundTokenError) : List Str :=
  match e with
  | .emailRequestStatus .. | .signBlobRequestStatus .. | .tokenRequestInvalidTokenType .. | .tokenRequestStatus .. => []
  | .emailRequestBuild | .emailRequestErrorResponse | .emailRequestExecute | .emailRequestSuccessResponse
  | .signBlobRequestBuild | .signBlobRequestErrorResponse | .signBlobRequestExecute | .signBlobRequestSuccessResponse
  | .signBlobRequestSuccessResponseBase64Decode | .signBlobRequestSuccessResponseDeserialize
  | .tokenRequestBuild | .tokenRequestErrorResponse | .tokenRequestExecute | .tokenRequestSuccessResponse
  | .tokenRequestSuccessResponseDeserialize => f.boundToken e :: f.boundTokenMore e

/-- `signing_key_inner::Error::source`: src/private/signing_key_inner.rs:3-17. The errors of ring are no sources. -/
def KeyError.chain (f : ForeignErrors) (e : KeyError) : List Str :=
  match e with
  | .boundTokenAuthorizer b => b.text f.boundToken :: b.chain f
  | .boundTokenMustUseSignBlob => []
  | .boundTokenSigning b => b.text f.boundToken :: b.chain f
  | .serviceAccountPrivateKeyPemParsing => f.key e :: f.keyMore e
  | .serviceAccountPrivateKeyPkcs8Parsing => []
  | .serviceAccountSigning => []

/-- `private::signed_url::Error::source`: src/private/signed_url.rs:12-20. The error of the key is not a source. -/
def SignedUrlError.chain : SignedUrlError → List Str
  | .canonicalRequest .headerValueContainsInvalidCharacter => []
  | .hostHeaderNotFound => []
  | .signing _ => []

/-- `signed_url::Error::source`: src/signed_url.rs:11-39. The errors of `http` that occur (invalid URI, header name, header
value) have no sources. -/
def BuildUrlError.chain : BuildUrlError → List Str
  | .credentialScope (.invalidCombination ..) => []
  | .expiration (.outOfRange _) => []
  | .expirationOutOfRange => []
  | .httpMethod (.invalidHttpVerb _) => []
  | .httpRequest => []
  | .invalidHeaderName => []
  | .invalidHeaderValue => []
  | .now => []
  | .signedUrl e => e.chain

/-- `html_form_data::Error::source`: src/html_form_data.rs:11-38 -/
def FormError.chain (f : ForeignErrors) : FormError → List Str
  | .boundTokenAuthorizer k => k.text f.toSourceTexts :: k.chain f
  | .signing k => k.chain f
  | .accessibleAtOutOfRange | .bucketNotFound | .expirationBeforeAccessibleAt | .expirationOutOfRange | .keyNotFound
  | .xGoogAlgorithmNotSupported | .xGoogCredentialInvalid _ | .xGoogMetaNameEmpty => []

/-- `signing_key::Error::source`: src/signing_key.rs:3-26 -/
def SigningKeyError.chain (f : ForeignErrors) (e : SigningKeyError) : List Str :=
  match e with
  | .serviceAccountFileOpen | .serviceAccountFileRead | .serviceAccountJsonDeserialize => f.file e :: f.fileMore e
  | .serviceAccountJsonClientEmailIsNotFound | .serviceAccountJsonClientEmailIsNotString
  | .serviceAccountJsonPrivateKeyIsNotFound | .serviceAccountJsonPrivateKeyIsNotString
  | .serviceAccountJsonRootIsNotObject => []

end CSS
