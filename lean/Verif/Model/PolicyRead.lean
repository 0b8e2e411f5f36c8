import Verif.Model.HtmlForm
import Verif.Model.Serde
import Verif.Model.Rfc3339
/-
Reading a policy document back: `serde_json::from_str::<PolicyDocument>`
(src/private/policy_document.rs:11-16, src/private/policy_document/condition.rs:10-93,
src/private/policy_document/expiration.rs:44-69). Errors are not told apart.
serde_json's recursion limit of 128 is out of reach: typed values nest at most three deep here, and
ignored values are skipped without recursion.
-/
namespace CSS

/-- `next_element::<String>()`, `next_value::<String>()`. -/
def readString (s : Str) : Option (Str × Str) :=
  match parseKind .string s with
  | some (.s v, r) => some (v, r)
  | _ => none

/-- `next_element::<u64>()`: src/private/policy_document/condition.rs:73-78 -/
def readU64 (s : Str) : Option (Nat × Str) :=
  match parseKind .u64 s with
  | some (.n v, r) => some (v, r)
  | _ => none

/-- `next_element::<&str>()`: a string that can be borrowed from the text, that is, one written without
escapes. src/private/policy_document/condition.rs:45-47 -/
def readBorrowed (s : Str) : Option (Str × Str) :=
  match skipWs s with
  | '"' :: r =>
    match parseStrBody r with
    | none => none
    | some (v, r') => if r = v ++ '"' :: r' then some (v, r') else none
  | _ => none

/-- The comma before a further element of an array. -/
def readComma (s : Str) : Option Str :=
  match skipWs s with
  | ',' :: r => some r
  | _ => none

/-- One punctuation character. For `]` and `}` this is serde_json's `end_seq`, `end_map`: nothing may follow
the elements read. -/
def readTok (c : Char) (s : Str) : Option Str :=
  match skipWs s with
  | [] => none
  | d :: r => if d = c then some r else none

/-- `Field::new` and the check against `Content-Length`:
src/private/policy_document/condition.rs:31-34,58-61 -/
def readField (name : Str) : Option Field :=
  match Field.new name with
  | none => none
  | some f => if f = .contentLength then none else some f

/-- `visit_seq`: src/private/policy_document/condition.rs:39-85. `s` starts after `[`. -/
def readCondSeq (s : Str) : Option (Condition × Str) := do
  let (tag, s) ← readBorrowed s
  if tag = s% "eq" ∨ tag = s% "starts-with" then do
    let s ← readComma s
    let (dollar, s) ← readString s
    let name ← stripPrefix (s% "$") dollar
    let f ← readField name
    let s ← readComma s
    let (v, s) ← readString s
    let s ← readTok ']' s
    some (if tag = s% "eq" then .exactMatching f v else .startsWith f v, s)
  else if tag = s% "content-length-range" then do
    let s ← readComma s
    let (a, s) ← readU64 s
    let s ← readComma s
    let (b, s) ← readU64 s
    let s ← readTok ']' s
    some (.contentLengthRange a b, s)
  else none

/-- `visit_map`: src/private/policy_document/condition.rs:24-37. `s` starts after `{`. -/
def readCondMap (s : Str) : Option (Condition × Str) := do
  let (k, s) ← readString s
  let s ← readTok ':' s
  let (v, s) ← readString s
  let f ← readField k
  let s ← readTok '}' s
  some (.exactMatching f v, s)

/-- `Deserialize for Condition` (`deserialize_any`): src/private/policy_document/condition.rs:10-93 -/
def readCondition (s : Str) : Option (Condition × Str) :=
  match skipWs s with
  | '[' :: r => readCondSeq r
  | '{' :: r => readCondMap r
  | _ => none

/-- The elements of `Vec<Condition>` after the first. `n` bounds their number. -/
def readConditionsMore : Nat → Str → Option (List Condition × Str)
  | 0, _ => none
  | n + 1, s =>
    match skipWs s with
    | ']' :: r => some ([], r)
    | ',' :: r =>
      match readCondition r with
      | none => none
      | some (c, r') => (readConditionsMore n r').map fun p => (c :: p.1, p.2)
    | _ => none

/-- `Vec<Condition>`: src/private/policy_document.rs:14 -/
def readConditions (s : Str) : Option (List Condition × Str) :=
  match skipWs s with
  | '[' :: r =>
    match skipWs r with
    | ']' :: r' => some ([], r')
    | _ =>
      match readCondition r with
      | none => none
      | some (c, r') => (readConditionsMore (r'.length + 1) r').map fun p => (c :: p.1, p.2)
  | _ => none

/-- `Deserialize for Expiration`: src/private/policy_document/expiration.rs:44-69 -/
def readExpiration (s : Str) : Option (PolicyExpiration × Str) :=
  match readString s with
  | none => none
  | some (v, r) =>
    match PolicyExpiration.fromStr v with
    | .ok e => some (e, r)
    | _ => none

/-- The fields read so far. -/
structure PolicyAcc where
  conditions : Option (List Condition)
  expiration : Option PolicyExpiration
  deriving DecidableEq

/-- One member of the object: unknown keys are skipped, repeated known keys are an error
(`#[derive(Deserialize)]`, src/private/policy_document.rs:11-16). -/
def readMember (k : Str) (acc : PolicyAcc) (s : Str) : Option (PolicyAcc × Str) :=
  if k = s% "conditions" then
    match acc.conditions with
    | some _ => none
    | none => (readConditions s).map fun p => ({ acc with conditions := some p.1 }, p.2)
  else if k = s% "expiration" then
    match acc.expiration with
    | some _ => none
    | none => (readExpiration s).map fun p => ({ acc with expiration := some p.1 }, p.2)
  else (skipValue s).map fun r => (acc, r)

/-- The members of the object, from the key of the first one on. `n` bounds their number. -/
def readMembers : Nat → PolicyAcc → Str → Option (PolicyAcc × Str)
  | 0, _, _ => none
  | n + 1, acc, s => do
    let (k, s) ← readString s
    let s ← readTok ':' s
    let (acc, s) ← readMember k acc s
    match skipWs s with
    | '}' :: r => some (acc, r)
    | ',' :: r => readMembers n acc r
    | _ => none

/-- `serde_json::from_str::<PolicyDocument>` (as in the tests of src/private/policy_document.rs). An
array of the two values is accepted, too (serde's derived `visit_seq`). An object without members lacks
both fields. -/
def readPolicy (s : Str) : Option PolicyDocument :=
  match skipWs s with
  | '{' :: r =>
    match readMembers (r.length + 1) ⟨none, none⟩ r with
    | some (⟨some cs, some e⟩, r') => if skipWs r' = [] then some ⟨cs, e⟩ else none
    | _ => none
  | '[' :: r => do
    let (cs, r) ← readConditions r
    let r ← readComma r
    let (e, r) ← readExpiration r
    let r ← readTok ']' r
    if skipWs r = [] then some ⟨cs, e⟩ else none
  | _ => none

end CSS
