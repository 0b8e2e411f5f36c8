import Verif.Model.SigningKey
/- src/private/policy_document/{condition,field,value}.rs, src/private/policy_document.rs and
src/html_form_data.rs -/
namespace CSS

/-- `field::Inner`: src/private/policy_document/field.rs:24-45 -/
inductive Field where
  | acl | bucket | cacheControl | contentDisposition | contentEncoding | contentLength | contentType
  | expires | file | key | policy | successActionRedirect | successActionStatus | xGoogAlgorithm
  | xGoogCredential | xGoogCustomTime | xGoogDate | xGoogSignature
  | xGoogMeta (name : Str)
  deriving DecidableEq, Repr

/-- Rust `str::strip_prefix`. -/
def stripPrefix : Str → Str → Option Str
  | [], s => some s
  | _ :: _, [] => none
  | p :: ps, c :: cs => if p = c then stripPrefix ps cs else none

/-- `Field::new`: src/private/policy_document/field.rs:9-11,47-80 (`none` = unknown field error) -/
def Field.new (s : Str) : Option Field :=
  if s = s% "acl" then some .acl
  else if s = s% "bucket" then some .bucket
  else if s = s% "Cache-Control" then some .cacheControl
  else if s = s% "Content-Disposition" then some .contentDisposition
  else if s = s% "Content-Encoding" then some .contentEncoding
  else if s = s% "Content-Length" then some .contentLength
  else if s = s% "Content-Type" then some .contentType
  else if s = s% "Expires" then some .expires
  else if s = s% "file" then some .file
  else if s = s% "key" then some .key
  else if s = s% "policy" then some .policy
  else if s = s% "success_action_redirect" then some .successActionRedirect
  else if s = s% "success_action_status" then some .successActionStatus
  else if s = s% "x-goog-algorithm" then some .xGoogAlgorithm
  else if s = s% "x-goog-credential" then some .xGoogCredential
  else if s = s% "x-goog-custom-time" then some .xGoogCustomTime
  else if s = s% "x-goog-date" then some .xGoogDate
  else if s = s% "x-goog-signature" then some .xGoogSignature
  else match stripPrefix (s% "x-goog-meta-") s with
    | none => none
    | some m => if m = [] then none else some (.xGoogMeta m)

/-- `Display for Field`: src/private/policy_document/field.rs:82-107 -/
def Field.toStr : Field → Str
  | .acl => s% "acl"
  | .bucket => s% "bucket"
  | .cacheControl => s% "Cache-Control"
  | .contentDisposition => s% "Content-Disposition"
  | .contentEncoding => s% "Content-Encoding"
  | .contentLength => s% "Content-Length"
  | .contentType => s% "Content-Type"
  | .expires => s% "Expires"
  | .file => s% "file"
  | .key => s% "key"
  | .policy => s% "policy"
  | .successActionRedirect => s% "success_action_redirect"
  | .successActionStatus => s% "success_action_status"
  | .xGoogAlgorithm => s% "x-goog-algorithm"
  | .xGoogCredential => s% "x-goog-credential"
  | .xGoogCustomTime => s% "x-goog-custom-time"
  | .xGoogDate => s% "x-goog-date"
  | .xGoogSignature => s% "x-goog-signature"
  | .xGoogMeta s => s% "x-goog-meta-" ++ s

/-- `Condition`: src/private/policy_document/condition.rs:3-8 (`u64` bounds as naturals) -/
inductive Condition where
  | exactMatching (f : Field) (v : Str)
  | startsWith (f : Field) (v : Str)
  | contentLengthRange (min max : Nat)
  deriving DecidableEq, Repr

/-- `Serialize for Condition`: src/private/policy_document/condition.rs:95-112 -/
def Condition.toJson : Condition → Json
  | .exactMatching f v => .arr [.str (s% "eq"), .str (s% "$" ++ f.toStr), .str v]
  | .startsWith f v => .arr [.str (s% "starts-with"), .str (s% "$" ++ f.toStr), .str v]
  | .contentLengthRange a b =>
    .arr [.str (s% "content-length-range"), .num (natDec a), .num (natDec b)]

/-- `PolicyDocument`: src/private/policy_document.rs:12-16 -/
structure PolicyDocument where
  conditions : List Condition
  expiration : PolicyExpiration
  deriving DecidableEq, Repr

/-- `#[derive(Serialize)]` on `PolicyDocument`: src/private/policy_document.rs:12-16 -/
def PolicyDocument.toJson (d : PolicyDocument) : Json :=
  .obj [(s% "conditions", .arr (d.conditions.map Condition.toJson)),
        (s% "expiration", .str d.expiration.toStr)]

/-- `html_form_data::ErrorKind`: src/html_form_data.rs:16-39 (`PolicyDocumentSerialization` never
occurs: serialising strings and integers to a `String` cannot fail) -/
inductive FormError where
  | accessibleAtOutOfRange
  | boundTokenAuthorizer (e : KeyError)
  | bucketNotFound
  | expirationBeforeAccessibleAt
  | expirationOutOfRange
  | keyNotFound
  | signing (e : KeyError)
  | xGoogAlgorithmNotSupported
  | xGoogCredentialInvalid (e : CredentialScopeError)
  | xGoogMetaNameEmpty
  deriving DecidableEq, Repr

/-- `PolicyDocumentSigningOptions`: src/html_form_data.rs:186-192 -/
structure SigningOptions where
  accessibleAt : Option Time
  expiration : Time
  region : Option Str
  signingKey : SigningKey
  useSignBlob : Bool
  deriving DecidableEq, Repr

/-- `HtmlFormDataBuilder`: src/html_form_data.rs:198-221 (`u64`, `u16` as naturals) -/
structure Builder where
  acl : Option Str := none
  bucket : Option Str := none
  cacheControl : Option Str := none
  contentDisposition : Option Str := none
  contentEncoding : Option Str := none
  contentLength : Option Nat := none
  contentType : Option Str := none
  expires : Option Str := none
  key : Option Str := none
  signingOptions : Option SigningOptions := none
  successActionRedirect : Option Str := none
  successActionStatus : Option Nat := none
  xGoogCustomTime : Option Str := none
  xGoogMeta : List (Str × Str) := []
  deriving DecidableEq, Repr

/-- `HtmlFormData::builder`: src/html_form_data.rs:171-173 -/
def Builder.default : Builder := {}

/-- The builder's methods as data: src/html_form_data.rs:225-234, 307-379 -/
inductive Call where
  | acl (v : Str)
  | bucket (v : Str)
  | cacheControl (v : Str)
  | contentDisposition (v : Str)
  | contentEncoding (v : Str)
  | contentLength (v : Nat)
  | contentType (v : Str)
  | expires (v : Str)
  | key (v : Str)
  | policyDocumentSigningOptions (v : SigningOptions)
  | successActionRedirect (v : Str)
  | successActionStatus (v : Nat)
  | xGoogCustomTime (v : Str)
  | xGoogMeta (name value : Str)
  deriving DecidableEq, Repr

/-- The builder's methods: src/html_form_data.rs:225-234, 307-379 -/
def Builder.apply (b : Builder) : Call → Builder
  | .acl v => { b with acl := some v }
  | .bucket v => { b with bucket := some v }
  | .cacheControl v => { b with cacheControl := some v }
  | .contentDisposition v => { b with contentDisposition := some v }
  | .contentEncoding v => { b with contentEncoding := some v }
  | .contentLength v => { b with contentLength := some v }
  | .contentType v => { b with contentType := some v }
  | .expires v => { b with expires := some v }
  | .key v => { b with key := some v }
  | .policyDocumentSigningOptions v => { b with signingOptions := some v }
  | .successActionRedirect v => { b with successActionRedirect := some v }
  | .successActionStatus v => { b with successActionStatus := some v }
  | .xGoogCustomTime v => { b with xGoogCustomTime := some v }
  | .xGoogMeta n v => { b with xGoogMeta := b.xGoogMeta ++ [(n, v)] }

/-- A chain of builder calls on `HtmlFormData::builder()`. -/
def Builder.ofCalls (cs : List Call) : Builder := cs.foldl Builder.apply Builder.default

/-- `Condition::ExactMatching(Field::new(name).expect(..), Value::new(v))`: e.g.
src/html_form_data.rs:452-455 -/
def eqCondition (name v : Str) : Res FormError Condition := do
  let f ← Res.expect .fieldName (Field.new name)
  pure (.exactMatching f v)

/-- `if let Some(v) = .. { conditions.push(ExactMatching(..)) }`: e.g. src/html_form_data.rs:446-451 -/
def optCondition (name : Str) : Option Str → Res FormError (List Condition)
  | none => .ok []
  | some v => do
    let c ← eqCondition name v
    pure [c]

/-- The metadata loop: src/html_form_data.rs:539-548 -/
def metaConditions : List (Str × Str) → Res FormError (List Condition)
  | [] => .ok []
  | (name, value) :: r =>
    if name = [] then .err .xGoogMetaNameEmpty
    else do
      let c ← eqCondition (s% "x-goog-meta-" ++ name) value
      let cs ← metaConditions r
      pure (c :: cs)

/-- The conditions: src/html_form_data.rs:445-548 -/
def buildConditions (b : Builder) (bucket key : Str) (alg : SigningAlgorithm) (credential date : Str) :
    Res FormError (List Condition) := do
  let acl ← optCondition (s% "acl") b.acl
  let bucket ← eqCondition (s% "bucket") bucket
  let cacheControl ← optCondition (s% "Cache-Control") b.cacheControl
  let contentDisposition ← optCondition (s% "Content-Disposition") b.contentDisposition
  let contentEncoding ← optCondition (s% "Content-Encoding") b.contentEncoding
  let contentLength : List Condition := match b.contentLength with
    | none => []
    | some n => [.contentLengthRange n n]
  let contentType ← optCondition (s% "Content-Type") b.contentType
  let expires ← optCondition (s% "Expires") b.expires
  let key ← eqCondition (s% "key") key
  let redirect ← optCondition (s% "success_action_redirect") b.successActionRedirect
  let status ← optCondition (s% "success_action_status") (b.successActionStatus.map natDec)
  let algorithm ← eqCondition (s% "x-goog-algorithm") alg.asStr
  let cred ← eqCondition (s% "x-goog-credential") credential
  let customTime ← optCondition (s% "x-goog-custom-time") b.xGoogCustomTime
  let date ← eqCondition (s% "x-goog-date") date
  let metas ← metaConditions b.xGoogMeta
  pure (acl ++ [bucket] ++ cacheControl ++ contentDisposition ++ contentEncoding ++ contentLength
    ++ contentType ++ expires ++ [key] ++ redirect ++ status ++ [algorithm, cred] ++ customTime ++ [date]
    ++ metas)

/-- The five computed fields returned by `build_policy_and_x_goog_signature`. -/
structure PolicyFields where
  policy : Str
  algorithm : Str
  credential : Str
  date : Str
  signature : Str
  deriving DecidableEq, Repr

/-- `build_policy_and_x_goog_signature` for `Some(options)`: src/html_form_data.rs:401-575 -/
def buildPolicy (env : Env) (b : Builder) (o : SigningOptions) : M FormError PolicyFields := do
  let accessibleAt ← M.timeOrNow env o.accessibleAt
  if o.expiration ≤ accessibleAt then M.err .expirationBeforeAccessibleAt
  else
    let accessibleAt ← M.lift ((UnixTimestamp.fromSystemTime accessibleAt).mapErr
      fun _ => FormError.accessibleAtOutOfRange)
    let expiration ← M.lift ((UnixTimestamp.fromSystemTime o.expiration).mapErr
      fun _ => FormError.expirationOutOfRange)
    let region := o.region.getD (s% "auto")
    let bucket ← M.lift (Res.ofOption .bucketNotFound b.bucket)
    let key ← M.lift (Res.ofOption .keyNotFound b.key)
    let alg := o.signingKey.xGoogAlgorithm
    if alg ≠ .goog4RsaSha256 then M.err .xGoogAlgorithmNotSupported
    else
      let email ← M.mapErr .boundTokenAuthorizer (o.signingKey.authorizer env)
      let scope ← M.lift ((CredentialScope.new (Date.fromUnixTimestamp accessibleAt)
        (Location.tryFrom region) .storage .goog4Request).mapErr .xGoogCredentialInvalid)
      let credential := email ++ s% "/" ++ scope.toStr
      let date := accessibleAt.toIso8601
      let conditions ← M.lift (buildConditions b bucket key alg credential date)
      let policy := (PolicyDocument.mk conditions ⟨expiration⟩).toJson.render
      let encoded := b64Encode (utf8 policy)
      let digest ← M.mapErr .signing (o.signingKey.sign env o.useSignBlob (utf8 encoded))
      pure ⟨encoded, alg.asStr, credential, date, hexEncode digest⟩

/-- `build_policy_and_x_goog_signature`: src/html_form_data.rs:387-577 -/
def buildPolicyAndSignature (env : Env) (b : Builder) : M FormError (Option PolicyFields) :=
  match b.signingOptions with
  | none => pure none
  | some o => do
    let p ← buildPolicy env b o
    pure (some p)

/-- `if let Some(v) = .. { vec.push((name, v)) }`: e.g. src/html_form_data.rs:242-244 -/
def optField (name : Str) : Option Str → List (Str × Str)
  | none => []
  | some v => [(name, v)]

/-- The metadata loop of `build`: src/html_form_data.rs:297-302 -/
def metaFields : List (Str × Str) → Res FormError (List (Str × Str))
  | [] => .ok []
  | (name, value) :: r =>
    if name = [] then .err .xGoogMetaNameEmpty
    else do
      let fs ← metaFields r
      pure ((s% "x-goog-meta-" ++ name, value) :: fs)

/-- `HtmlFormDataBuilder::build` then `HtmlFormData::into_vec`: src/html_form_data.rs:237-304, 178-180 -/
def Builder.build (env : Env) (b : Builder) : M FormError (List (Str × Str)) := do
  let p ← buildPolicyAndSignature env b
  let key ← M.lift (Res.ofOption .keyNotFound b.key)
  let metas ← M.lift (metaFields b.xGoogMeta)
  pure (optField (s% "acl") b.acl
    ++ optField (s% "bucket") b.bucket
    ++ optField (s% "Cache-Control") b.cacheControl
    ++ optField (s% "Content-Disposition") b.contentDisposition
    ++ optField (s% "Content-Encoding") b.contentEncoding
    ++ optField (s% "Content-Length") (b.contentLength.map natDec)
    ++ optField (s% "Content-Type") b.contentType
    ++ optField (s% "Expires") b.expires
    ++ [(s% "key", key)]
    ++ optField (s% "policy") (p.map (·.policy))
    ++ optField (s% "success_action_redirect") b.successActionRedirect
    ++ optField (s% "success_action_status") (b.successActionStatus.map natDec)
    ++ optField (s% "x-goog-algorithm") (p.map (·.algorithm))
    ++ optField (s% "x-goog-credential") (p.map (·.credential))
    ++ optField (s% "x-goog-custom-time") b.xGoogCustomTime
    ++ optField (s% "x-goog-date") (p.map (·.date))
    ++ optField (s% "x-goog-signature") (p.map (·.signature))
    ++ metas)

end CSS
