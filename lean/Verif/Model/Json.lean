import Verif.Model.Text
/-
The part of serde_json 1.0 the crate relies on: compact writing (`to_string`) and reading
(`from_str`), src/html_form_data.rs:555, src/signing_key.rs:81, src/private/bound_token.rs:159,199,230.
-/
namespace CSS

/-- JSON values. Numbers keep their literal text; objects keep all members in source order. -/
inductive Json where
  | null
  | bool (b : Bool)
  | num (lit : Str)
  | str (s : Str)
  | arr (xs : List Json)
  | obj (ms : List (Str × Json))
  deriving Repr

/-! ### Writer -/

/-- serde_json `format_escaped_str_contents`: escapes for `"`, `\`, and control characters < 0x20. -/
def jsonEscapeChar (c : Char) : Str :=
  let n := c.toNat
  if n = 34 then ['\\', '"']
  else if n = 92 then ['\\', '\\']
  else if n = 8 then ['\\', 'b']
  else if n = 9 then ['\\', 't']
  else if n = 10 then ['\\', 'n']
  else if n = 12 then ['\\', 'f']
  else if n = 13 then ['\\', 'r']
  else if n < 32 then ['\\', 'u', '0', '0', hexLower (n / 16), hexLower (n % 16)]
  else [c]

/-- serde_json string writer. -/
def jsonStr (s : Str) : Str := ['"'] ++ s.flatMap jsonEscapeChar ++ ['"']

mutual
/-- serde_json compact writer. -/
def Json.render : Json → Str
  | .null => s% "null"
  | .bool true => s% "true"
  | .bool false => s% "false"
  | .num l => l
  | .str s => jsonStr s
  | .arr [] => s% "[]"
  | .arr (x :: xs) => ['['] ++ x.render ++ Json.renderElems xs ++ [']']
  | .obj [] => s% "{}"
  | .obj ((k, v) :: ms) => ['{'] ++ jsonStr k ++ [':'] ++ v.render ++ Json.renderMembers ms ++ ['}']
/-- Remaining array elements, each preceded by a comma. -/
def Json.renderElems : List Json → Str
  | [] => []
  | x :: xs => [','] ++ x.render ++ Json.renderElems xs
/-- Remaining object members, each preceded by a comma. -/
def Json.renderMembers : List (Str × Json) → Str
  | [] => []
  | (k, v) :: ms => [','] ++ jsonStr k ++ [':'] ++ v.render ++ Json.renderMembers ms
end

/-! ### Reader -/

/-- JSON whitespace. -/
def isJsonWs (c : Char) : Bool := c = ' ' || c = '\n' || c = '\t' || c = '\r'
def skipWs (s : Str) : Str := s.dropWhile isJsonWs

/-- Value of a hex digit character. -/
def hexDigitVal (c : Char) : Option Nat :=
  let n := c.toNat
  if 48 ≤ n ∧ n ≤ 57 then some (n - 48)
  else if 65 ≤ n ∧ n ≤ 70 then some (n - 55)
  else if 97 ≤ n ∧ n ≤ 102 then some (n - 87)
  else none

/-- Four hex digits. -/
def hex4 (a b c d : Char) : Option Nat := do
  let a ← hexDigitVal a
  let b ← hexDigitVal b
  let c ← hexDigitVal c
  let d ← hexDigitVal d
  some (a * 4096 + b * 256 + c * 16 + d)

/-- The contents of a JSON string after the opening quote: decoded text and what follows the closing
quote. Raw control characters, bad escapes and lone surrogates are errors. -/
def parseStrBody : Str → Option (Str × Str)
  | [] => none
  | '"' :: r => some ([], r)
  | '\\' :: 'u' :: a :: b :: c :: d :: r =>
    match hex4 a b c d with
    | none => none
    | some u =>
      if 0xDC00 ≤ u ∧ u ≤ 0xDFFF then none
      else if 0xD800 ≤ u ∧ u ≤ 0xDBFF then
        match r with
        | '\\' :: 'u' :: a' :: b' :: c' :: d' :: r' =>
          match hex4 a' b' c' d' with
          | none => none
          | some l =>
            if 0xDC00 ≤ l ∧ l ≤ 0xDFFF then
              (parseStrBody r').map fun p =>
                (Char.ofNat (0x10000 + (u - 0xD800) * 1024 + (l - 0xDC00)) :: p.1, p.2)
            else none
        | _ => none
      else (parseStrBody r).map fun p => (Char.ofNat u :: p.1, p.2)
  | '\\' :: e :: r =>
    if e = '"' ∨ e = '\\' ∨ e = '/' then (parseStrBody r).map fun p => (e :: p.1, p.2)
    else if e = 'b' then (parseStrBody r).map fun p => (Char.ofNat 8 :: p.1, p.2)
    else if e = 'f' then (parseStrBody r).map fun p => (Char.ofNat 12 :: p.1, p.2)
    else if e = 'n' then (parseStrBody r).map fun p => ('\n' :: p.1, p.2)
    else if e = 'r' then (parseStrBody r).map fun p => ('\r' :: p.1, p.2)
    else if e = 't' then (parseStrBody r).map fun p => ('\t' :: p.1, p.2)
    else none
  | c :: r =>
    if c.toNat < 32 ∨ c = '\\' then none
    else (parseStrBody r).map fun p => (c :: p.1, p.2)

/-- A decimal digit. -/
def isDigit (c : Char) : Bool := 48 ≤ c.toNat && c.toNat ≤ 57

/-- Value of a digit string. -/
def decVal (s : Str) : Nat := s.foldl (fun n c => n * 10 + (c.toNat - 48)) 0

/-- A number literal after its optional minus sign: integer part, fraction, exponent. Returns whether it
is an integer literal, its text, and the rest. -/
def parseNumBody (s : Str) : Option (Bool × Str × Str) :=
  let ip := s.takeWhile isDigit
  let r := s.dropWhile isDigit
  if ip = [] ∨ (ip.head? = some '0' ∧ ip.length ≠ 1) then none
  else
    let fr : Option (Str × Str) :=
      match r with
      | '.' :: r1 => if r1.takeWhile isDigit = [] then none
                     else some ('.' :: r1.takeWhile isDigit, r1.dropWhile isDigit)
      | _ => some ([], r)
    match fr with
    | none => none
    | some (f, r2) =>
      let ex : Option (Str × Str) :=
        match r2 with
        | e :: r3 =>
          if e = 'e' ∨ e = 'E' then
            let (sg, r4) : Str × Str := match r3 with
              | '+' :: t => (['+'], t)
              | '-' :: t => (['-'], t)
              | _ => ([], r3)
            if r4.takeWhile isDigit = [] then none
            else some (e :: sg ++ r4.takeWhile isDigit, r4.dropWhile isDigit)
          else some ([], r2)
        | [] => some ([], r2)
      match ex with
      | none => none
      | some (x, r5) => some (f = [] && x = [], ip ++ f ++ x, r5)

/-- A number; literals that are not `u64`/`i64` integers must be accepted by `numOk` (finite `f64`). -/
def parseNum (numOk : Str → Bool) (s : Str) : Option (Json × Str) :=
  match s with
  | '-' :: r =>
    match parseNumBody r with
    | none => none
    | some (isInt, lit, r') =>
      if (isInt && decVal lit ≤ 9223372036854775808) || numOk ('-' :: lit) then some (.num ('-' :: lit), r')
      else none
  | _ =>
    match parseNumBody s with
    | none => none
    | some (isInt, lit, r') =>
      if (isInt && decVal lit ≤ 18446744073709551615) || numOk lit then some (.num lit, r') else none

/-- Array elements after the first: `(ws , value)* ws ]`. `n` bounds the number of iterations. -/
def parseElems (pv : Str → Option (Json × Str)) : Nat → Str → Option (List Json × Str)
  | 0, _ => none
  | n + 1, s =>
    match skipWs s with
    | ']' :: r => some ([], r)
    | ',' :: r =>
      match pv r with
      | none => none
      | some (v, r') => (parseElems pv n r').map fun p => (v :: p.1, p.2)
    | _ => none

/-- One object member after its opening quote. -/
def parseMember (pv : Str → Option (Json × Str)) (s : Str) : Option ((Str × Json) × Str) :=
  match parseStrBody s with
  | none => none
  | some (k, r) =>
    match skipWs r with
    | ':' :: r' => (pv r').map fun p => ((k, p.1), p.2)
    | _ => none

/-- Object members after the first: `(ws , ws member)* ws }`. -/
def parseMembers (pv : Str → Option (Json × Str)) : Nat → Str → Option (List (Str × Json) × Str)
  | 0, _ => none
  | n + 1, s =>
    match skipWs s with
    | '}' :: r => some ([], r)
    | ',' :: r =>
      match skipWs r with
      | '"' :: r1 =>
        match parseMember pv r1 with
        | none => none
        | some (m, r') => (parseMembers pv n r').map fun p => (m :: p.1, p.2)
      | _ => none
    | _ => none

/-- A JSON value. The first argument is serde_json's remaining recursion depth minus one. -/
def parseValue (numOk : Str → Bool) : Nat → Str → Option (Json × Str)
  | d, s =>
    match skipWs s with
    | 'n' :: 'u' :: 'l' :: 'l' :: r => some (.null, r)
    | 't' :: 'r' :: 'u' :: 'e' :: r => some (.bool true, r)
    | 'f' :: 'a' :: 'l' :: 's' :: 'e' :: r => some (.bool false, r)
    | '"' :: r => (parseStrBody r).map fun p => (.str p.1, p.2)
    | '[' :: r =>
      match d with
      | 0 => none
      | d' + 1 =>
        match skipWs r with
        | ']' :: r' => some (.arr [], r')
        | r' =>
          match parseValue numOk d' r' with
          | none => none
          | some (v, r2) =>
            (parseElems (parseValue numOk d') (r2.length + 1) r2).map fun p => (.arr (v :: p.1), p.2)
    | '{' :: r =>
      match d with
      | 0 => none
      | d' + 1 =>
        match skipWs r with
        | '}' :: r' => some (.obj [], r')
        | '"' :: r' =>
          match parseMember (parseValue numOk d') r' with
          | none => none
          | some (m, r2) =>
            (parseMembers (parseValue numOk d') (r2.length + 1) r2).map fun p => (.obj (m :: p.1), p.2)
        | _ => none
    | s' => parseNum numOk s'

/-- `serde_json::from_str::<Value>`: one value, then only whitespace. Recursion limit 128. -/
def parseJson (numOk : Str → Bool) (s : Str) : Option Json :=
  match parseValue numOk 127 s with
  | some (v, r) => if skipWs r = [] then some v else none
  | none => none

/-- `serde_json::Map::get` after parsing: a later duplicate key replaces an earlier one. -/
def objGet (ms : List (Str × Json)) (k : Str) : Option Json :=
  (ms.reverse.find? fun m => m.1 = k).map (·.2)

end CSS
