import Verif.Model.BoundToken
import Verif.Model.Canonical
/- src/private/signing_key_inner.rs and src/signing_key.rs -/
namespace CSS

/-- `signing_key_inner::Error`: src/private/signing_key_inner.rs:4-17 -/
inductive KeyError where
  | boundTokenAuthorizer (e : BoundTokenError)
  | boundTokenMustUseSignBlob
  | boundTokenSigning (e : BoundTokenError)
  | serviceAccountPrivateKeyPemParsing
  | serviceAccountPrivateKeyPkcs8Parsing
  | serviceAccountSigning
  deriving DecidableEq, Repr

/-- `SigningKeyInner`: src/private/signing_key_inner.rs:19-32. The public constructors `SigningKey::hmac`
(src/signing_key.rs:49-51) and `SigningKey::service_account` (src/signing_key.rs:59-64) are the constructors
`hmac` and `serviceAccount`; they check nothing. -/
inductive SigningKey where
  | boundToken (bt : BoundToken)
  | hmac (accessId secret : Str)
  | serviceAccount (clientEmail privateKey : Str)
  deriving DecidableEq, Repr

/-- `SigningKey::bound_token`: src/signing_key.rs:42-44 -/
def SigningKey.newBoundToken {ε} (env : Env) : M ε SigningKey := do
  let bt ← BoundToken.new env
  pure (.boundToken bt)

/-- `SigningKeyInner::authorizer`: src/private/signing_key_inner.rs:35-47 -/
def SigningKey.authorizer (env : Env) : SigningKey → M KeyError Str
  | .boundToken bt => do
    let p ← M.mapErr .boundTokenAuthorizer (getEmailAndToken env bt)
    pure p.1
  | .hmac accessId _ => pure accessId
  | .serviceAccount clientEmail _ => pure clientEmail

/-- RSA signing with a PEM key: src/private/signing_key_inner.rs:66-80 -/
def rsaSignPem (env : Env) (privateKey : Str) (message : Bytes) : Res KeyError Bytes :=
  match env.pemParse privateKey with
  | none => .err .serviceAccountPrivateKeyPemParsing
  | some der =>
    if env.rsaFromPkcs8 der = false then .err .serviceAccountPrivateKeyPkcs8Parsing
    else match env.rsaSign der message with
      | none => .err .serviceAccountSigning
      | some sig => .ok sig

/-- `SigningKeyInner::sign`: src/private/signing_key_inner.rs:49-84 -/
def SigningKey.sign (env : Env) (key : SigningKey) (useSignBlob : Bool) (message : Bytes) :
    M KeyError Bytes :=
  match key with
  | .boundToken bt =>
    if useSignBlob then M.mapErr .boundTokenSigning (bt.sign env message)
    else M.err .boundTokenMustUseSignBlob
  | .hmac _ _ => M.panic .hmacTodo
  | .serviceAccount _ privateKey =>
    if useSignBlob then M.panic .serviceAccountSignBlobTodo
    else M.lift (rsaSignPem env privateKey message)

/-- `SigningKeyInner::x_goog_algorithm`: src/private/signing_key_inner.rs:86-93 -/
def SigningKey.xGoogAlgorithm : SigningKey → SigningAlgorithm
  | .boundToken _ | .serviceAccount _ _ => .goog4RsaSha256
  | .hmac _ _ => .goog4HmacSha256

/-- `signing_key::ErrorKind`: src/signing_key.rs:9-26 -/
inductive SigningKeyError where
  | serviceAccountFileOpen
  | serviceAccountFileRead
  | serviceAccountJsonClientEmailIsNotFound
  | serviceAccountJsonClientEmailIsNotString
  | serviceAccountJsonDeserialize
  | serviceAccountJsonPrivateKeyIsNotFound
  | serviceAccountJsonPrivateKeyIsNotString
  | serviceAccountJsonRootIsNotObject
  deriving DecidableEq, Repr

/-- `Value::as_object`. -/
def Json.asObject : Json → Option (List (Str × Json))
  | .obj ms => some ms
  | _ => none
/-- `Value::as_str`. -/
def Json.asStr : Json → Option Str
  | .str s => some s
  | _ => none

/-- `SigningKey::service_account_from_str`: src/signing_key.rs:80-99 -/
def SigningKey.serviceAccountFromStr (env : Env) (s : Str) : Res SigningKeyError SigningKey := do
  let jsonValue ← Res.ofOption .serviceAccountJsonDeserialize (parseJson env.numOk s)
  let jsonObject ← Res.ofOption .serviceAccountJsonRootIsNotObject jsonValue.asObject
  let ce ← Res.ofOption .serviceAccountJsonClientEmailIsNotFound (objGet jsonObject (s% "client_email"))
  let clientEmail ← Res.ofOption .serviceAccountJsonClientEmailIsNotString ce.asStr
  let pk ← Res.ofOption .serviceAccountJsonPrivateKeyIsNotFound (objGet jsonObject (s% "private_key"))
  let privateKey ← Res.ofOption .serviceAccountJsonPrivateKeyIsNotString pk.asStr
  pure (.serviceAccount clientEmail privateKey)

/-- The file system for `service_account_from_path`: opening a path fails, reading it as UTF-8 text
fails, or it has a text. -/
inductive FileResult where
  | openError | readError | text (s : Str)
  deriving DecidableEq, Repr

/-- `SigningKey::service_account_from_path`: src/signing_key.rs:69-75 -/
def SigningKey.serviceAccountFromPath (env : Env) (file : FileResult) : Res SigningKeyError SigningKey :=
  match file with
  | .openError => .err .serviceAccountFileOpen
  | .readError => .err .serviceAccountFileRead
  | .text s => SigningKey.serviceAccountFromStr env s

end CSS
