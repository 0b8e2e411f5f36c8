import Verif.Model.Json
/-
`#[derive(serde::Deserialize)]` structs read by `serde_json::from_str` directly from text:
`AccessToken` (src/private/bound_token.rs:6-11) and `SignBlobResponseBody`
(src/private/bound_token.rs:183-189).
-/
namespace CSS

/-- The Rust types of the fields. -/
inductive Kind where
  | string | u64
  deriving DecidableEq, Repr
inductive FieldVal where
  | s (v : Str)
  | n (v : Nat)
  deriving DecidableEq, Repr

/-- Read a value of a known field. `u64` accepts only an unsigned integer literal in range. -/
def parseKind (k : Kind) (s : Str) : Option (FieldVal × Str) :=
  match k with
  | .string =>
    match skipWs s with
    | '"' :: r => (parseStrBody r).map fun p => (.s p.1, p.2)
    | _ => none
  | .u64 =>
    match parseNumBody (skipWs s) with
    | some (true, lit, r) => if decVal lit ≤ 18446744073709551615 then some (.n (decVal lit), r) else none
    | _ => none

/-- serde_json `ignore_str`: like `parseStrBody` but surrogates are not paired. -/
def skipStrBody : Str → Option Str
  | [] => none
  | '"' :: r => some r
  | '\\' :: 'u' :: a :: b :: c :: d :: r => if (hex4 a b c d).isSome then skipStrBody r else none
  | '\\' :: e :: r =>
    if e = '"' ∨ e = '\\' ∨ e = '/' ∨ e = 'b' ∨ e = 'f' ∨ e = 'n' ∨ e = 'r' ∨ e = 't' then skipStrBody r
    else none
  | c :: r => if c.toNat < 32 ∨ c = '\\' then none else skipStrBody r

/-- serde_json `ignore_value` (the value of an unknown field): same grammar, no number range check, no
depth limit. The first argument bounds the number of tokens. `stack` = the open brackets, innermost
first; `false` = array. -/
def skipTokens : Nat → List Bool → Str → Option Str
  | 0, _, _ => none
  | f + 1, stack, s =>
    -- read one scalar or opening bracket
    let afterValue (r : Str) : Option Str := closeTokens f stack r
    match skipWs s with
    | 'n' :: 'u' :: 'l' :: 'l' :: r => afterValue r
    | 't' :: 'r' :: 'u' :: 'e' :: r => afterValue r
    | 'f' :: 'a' :: 'l' :: 's' :: 'e' :: r => afterValue r
    | '"' :: r =>
      match skipStrBody r with
      | none => none
      | some r' => afterValue r'
    | '[' :: r =>
      match skipWs r with
      | ']' :: r' => afterValue r'
      | r' => skipTokens f (false :: stack) r'
    | '{' :: r =>
      match skipWs r with
      | '}' :: r' => afterValue r'
      | r' => skipKey f (true :: stack) r'
    | '-' :: r =>
      match parseNumBody r with
      | none => none
      | some (_, _, r') => afterValue r'
    | r =>
      match parseNumBody r with
      | none => none
      | some (_, _, r') => afterValue r'
where
  /-- After a complete value inside the brackets `stack`. -/
  closeTokens : Nat → List Bool → Str → Option Str
  | _, [], s => some s
  | 0, _ :: _, _ => none
  | f + 1, b :: stack, s =>
    match skipWs s with
    | ',' :: r => if b then skipKey f (b :: stack) r else skipTokens f (b :: stack) r
    | ']' :: r => if b then none else closeTokens f stack r
    | '}' :: r => if b then closeTokens f stack r else none
    | _ => none
  /-- An object key and its colon. -/
  skipKey : Nat → List Bool → Str → Option Str
  | 0, _, _ => none
  | f + 1, stack, s =>
    match skipWs s with
    | '"' :: r =>
      match skipStrBody r with
      | none => none
      | some r' =>
        match skipWs r' with
        | ':' :: r2 => skipTokens f stack r2
        | _ => none
    | _ => none

def skipValue (s : Str) : Option Str := skipTokens (2 * s.length + 2) [] s

/-- Members of a struct written as a JSON object: unknown keys are skipped, a repeated known key is an
error. `s` starts after an opening quote of a key; `n` bounds the number of members. -/
def structMembers (fields : List (Str × Kind)) : Nat → List (Str × FieldVal) → Str →
    Option (List (Str × FieldVal) × Str)
  | 0, _, _ => none
  | n + 1, acc, s =>
    match parseStrBody s with
    | none => none
    | some (k, r) =>
      match skipWs r with
      | ':' :: r1 =>
        let step : Option (List (Str × FieldVal) × Str) :=
          match fields.lookup k with
          | none => (skipValue r1).map fun r2 => (acc, r2)
          | some kind =>
            if (acc.lookup k).isSome then none
            else (parseKind kind r1).map fun p => ((k, p.1) :: acc, p.2)
        match step with
        | none => none
        | some (acc', r2) =>
          match skipWs r2 with
          | '}' :: r3 => some (acc', r3)
          | ',' :: r3 =>
            match skipWs r3 with
            | '"' :: r4 => structMembers fields n acc' r4
            | _ => none
          | _ => none
      | _ => none

/-- The same struct written as a JSON array (serde's derived `visit_seq`): exactly the fields in
declaration order. -/
def structSeq : List (Str × Kind) → Bool → Str → Option (List FieldVal × Str)
  | [], _, s =>
    match skipWs s with
    | ']' :: r => some ([], r)
    | _ => none
  | (_, kind) :: fs, first, s =>
    let s1 : Option Str := if first then some s else
      match skipWs s with
      | ',' :: r => some r
      | _ => none
    match s1 with
    | none => none
    | some s2 =>
      match parseKind kind s2 with
      | none => none
      | some (v, r) => (structSeq fs false r).map fun p => (v :: p.1, p.2)

/-- `serde_json::from_str::<Struct>`: the values of the fields in declaration order. -/
def parseStruct (fields : List (Str × Kind)) (s : Str) : Option (List FieldVal) :=
  match skipWs s with
  | '{' :: r =>
    match skipWs r with
    | '"' :: r1 =>
      match structMembers fields (r1.length + 1) [] r1 with
      | none => none
      | some (acc, r2) => if skipWs r2 = [] then fields.mapM (fun f => acc.lookup f.1) else none
    | _ => none
  | '[' :: r =>
    match structSeq fields true r with
    | none => none
    | some (vs, r2) => if skipWs r2 = [] then some vs else none
  | _ => none

/-- `AccessToken`: src/private/bound_token.rs:6-11 -/
structure AccessToken where
  accessToken : Str
  expiresIn : Nat
  tokenType : Str
  deriving DecidableEq, Repr

/-- `serde_json::from_str::<AccessToken>`: src/private/bound_token.rs:159 -/
def parseAccessToken (s : Str) : Option AccessToken :=
  match parseStruct [(s% "access_token", .string), (s% "expires_in", .u64), (s% "token_type", .string)] s with
  | some [.s a, .n e, .s t] => some ⟨a, e, t⟩
  | _ => none

/-- `serde_json::from_str::<SignBlobResponseBody>` (`rename_all = "camelCase"`), giving `signed_blob`:
src/private/bound_token.rs:183-189,230 -/
def parseSignBlobResponse (s : Str) : Option Str :=
  match parseStruct [(s% "keyId", .string), (s% "signedBlob", .string)] s with
  | some [.s _, .s b] => some b
  | _ => none

end CSS
