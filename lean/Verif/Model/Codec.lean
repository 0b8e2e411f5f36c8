import Verif.Model.Text
/-
Byte/text codecs: `hex_encode` (src/private/signed_url.rs:121-127), `percent_encode`
(src/private/canonical_request.rs:75-102), and the parts of the crates base64 0.22 (STANDARD engine),
percent-encoding 2.3 and form_urlencoded 1.2 that the code calls.
-/
namespace CSS

/-- `hex_encode`: src/private/signed_url.rs:121-127 (`{b:02x}` for every byte, in order). -/
def hexEncode (bs : Bytes) : Str :=
  bs.flatMap fun b => [hexLower (b.toNat / 16), hexLower (b.toNat % 16)]

/-! ### base64 (STANDARD: `A-Za-z0-9+/`, padding) -/

/-- The base64 alphabet; `n < 64`. -/
def b64Char (n : Nat) : Char :=
  if n < 26 then Char.ofNat (65 + n)
  else if n < 52 then Char.ofNat (97 + (n - 26))
  else if n < 62 then Char.ofNat (48 + (n - 52))
  else if n = 62 then '+' else '/'

/-- `base64::Engine::encode(&STANDARD, ..)` (called in src/html_form_data.rs:557, bound_token.rs:201). -/
def b64Encode : Bytes → Str
  | [] => []
  | [a] => [b64Char (a.toNat / 4), b64Char (a.toNat % 4 * 16), '=', '=']
  | [a, b] =>
    [b64Char (a.toNat / 4), b64Char (a.toNat % 4 * 16 + b.toNat / 16), b64Char (b.toNat % 16 * 4), '=']
  | a :: b :: c :: r =>
    b64Char (a.toNat / 4) :: b64Char (a.toNat % 4 * 16 + b.toNat / 16)
      :: b64Char (b.toNat % 16 * 4 + c.toNat / 64) :: b64Char (c.toNat % 64) :: b64Encode r

/-- Value of a base64 character. -/
def b64Val (c : Char) : Option Nat :=
  let n := c.toNat
  if 65 ≤ n ∧ n ≤ 90 then some (n - 65)
  else if 97 ≤ n ∧ n ≤ 122 then some (n - 97 + 26)
  else if 48 ≤ n ∧ n ≤ 57 then some (n - 48 + 52)
  else if n = 43 then some 62
  else if n = 47 then some 63
  else none

/-- `base64::Engine::decode(&STANDARD, ..)` (src/private/bound_token.rs:233): groups of four, padding
required and canonical, non-zero trailing bits rejected. -/
def b64Decode : Str → Option Bytes
  | [] => some []
  | [c0, c1, c2, c3] => do
    let v0 ← b64Val c0
    let v1 ← b64Val c1
    if c2 = '=' ∧ c3 = '=' then
      if v1 % 16 = 0 then some [UInt8.ofNat (v0 * 4 + v1 / 16)] else none
    else
      let v2 ← b64Val c2
      if c3 = '=' then
        if v2 % 4 = 0 then
          some [UInt8.ofNat (v0 * 4 + v1 / 16), UInt8.ofNat (v1 % 16 * 16 + v2 / 4)]
        else none
      else
        let v3 ← b64Val c3
        some [UInt8.ofNat (v0 * 4 + v1 / 16), UInt8.ofNat (v1 % 16 * 16 + v2 / 4),
          UInt8.ofNat (v2 % 4 * 64 + v3)]
  | c0 :: c1 :: c2 :: c3 :: r => do
    let v0 ← b64Val c0
    let v1 ← b64Val c1
    let v2 ← b64Val c2
    let v3 ← b64Val c3
    let rest ← b64Decode r
    some (UInt8.ofNat (v0 * 4 + v1 / 16) :: UInt8.ofNat (v1 % 16 * 16 + v2 / 4)
      :: UInt8.ofNat (v2 % 4 * 64 + v3) :: rest)
  | _ => none

/-! ### percent encoding -/

/-- One step of `percent_encode`: src/private/canonical_request.rs:79-98 -/
def percentEncodeChar (c : Char) : Str :=
  match c with
  | '!' => s% "%21"
  | '"' => s% "%22"
  | '#' => s% "%23"
  | '$' => s% "%24"
  | '&' => s% "%26"
  | '\'' => s% "%27"
  | '(' => s% "%28"
  | ')' => s% "%29"
  | '*' => s% "%2A"
  | '+' => s% "%2B"
  | ',' => s% "%2C"
  | ':' => s% "%3A"
  | ';' => s% "%3B"
  | '=' => s% "%3D"
  | '?' => s% "%3F"
  | '@' => s% "%40"
  | '[' => s% "%5B"
  | ']' => s% "%5D"
  | c => [c]

/-- `percent_encode`: src/private/canonical_request.rs:76-102 -/
def percentEncode (s : Str) : Str := s.flatMap percentEncodeChar

/-- `%XX`, upper case (crate percent-encoding). -/
def pctByte (b : UInt8) : Str := ['%', hexUpper (b.toNat / 16), hexUpper (b.toNat % 16)]

/-- Value of a hex digit byte (crate percent-encoding `char::to_digit(16)`). -/
def hexVal (b : UInt8) : Option Nat :=
  let n := b.toNat
  if 48 ≤ n ∧ n ≤ 57 then some (n - 48)
  else if 65 ≤ n ∧ n ≤ 70 then some (n - 55)
  else if 97 ≤ n ∧ n ≤ 102 then some (n - 87)
  else none

/-- `percent_encoding::percent_decode`: `%` followed by two hex digits is a byte, anything else is
itself. -/
def pctDecode : Bytes → Bytes
  | [] => []
  | [a] => [a]
  | [a, b] => [a, b]
  | a :: b :: c :: r =>
    if a.toNat = 37 then
      match hexVal b, hexVal c with
      | some x, some y => UInt8.ofNat (x * 16 + y) :: pctDecode r
      | _, _ => a :: pctDecode (b :: c :: r)
    else a :: pctDecode (b :: c :: r)

/-! ### form_urlencoded -/

/-- `form_urlencoded` unreserved bytes: `*-._0-9A-Za-z`. -/
def formUnreserved (b : UInt8) : Bool :=
  let n := b.toNat
  n = 42 || n = 45 || n = 46 || n = 95 || (48 ≤ n && n ≤ 57) || (65 ≤ n && n ≤ 90) || (97 ≤ n && n ≤ 122)

/-- `form_urlencoded::byte_serialize` on one byte. -/
def formByte (b : UInt8) : Str :=
  if formUnreserved b then [Char.ofNat b.toNat]
  else if b.toNat = 32 then ['+']
  else pctByte b

/-- `form_urlencoded::byte_serialize` of a string. -/
def formEncode (s : Str) : Str := (utf8 s).flatMap formByte

/-- `Serializer::append_pair`: separator if the query is non-empty, then `name=value`. -/
def appendPair (query : Str) (k v : Str) : Str :=
  (if query = [] then [] else query ++ ['&']) ++ formEncode k ++ ['='] ++ formEncode v

/-- `Serializer::extend_pairs`. -/
def extendPairs (query : Str) (ps : List (Str × Str)) : Str :=
  ps.foldl (fun q p => appendPair q p.1 p.2) query

/-- Byte-level split at every occurrence of `sep` (`form_urlencoded::Parse`, `splitn`). -/
def splitAll (sep : UInt8) : Bytes → List Bytes
  | [] => [[]]
  | b :: r =>
    if b = sep then [] :: splitAll sep r
    else match splitAll sep r with
      | [] => [[b]]
      | h :: t => (b :: h) :: t

/-- Byte-level split at the first occurrence of `sep`. -/
def splitFirstB (sep : UInt8) : Bytes → Bytes × Bytes
  | [] => ([], [])
  | b :: r => if b = sep then ([], r) else (b :: (splitFirstB sep r).1, (splitFirstB sep r).2)

/-- `form_urlencoded` decode: `+` to space, percent-decode, lossy UTF-8. -/
def formDecode (bs : Bytes) : Str :=
  utf8Lossy (pctDecode (bs.map fun b => if b.toNat = 43 then 32 else b))

/-- `form_urlencoded::parse`: split at `&`, skip empty pieces, split at first `=`, decode. -/
def formParse (q : Bytes) : List (Str × Str) :=
  ((splitAll 38 q).filter (fun p => !p.isEmpty)).map fun p =>
    (formDecode (splitFirstB 61 p).1, formDecode (splitFirstB 61 p).2)

end CSS
