import Verif.Model.Text
/-
Specification decoders, written from the RFCs and independent of the model's encoders.
-/
namespace CSS.Spec

/-- `a` is strictly before `b` in lexicographic order of code points. -/
def LexLt : Str → Str → Prop
  | [], [] => False
  | [], _ :: _ => True
  | _ :: _, [] => False
  | a :: as, b :: bs => a.toNat < b.toNat ∨ (a = b ∧ LexLt as bs)

/-- Value of a lower-case hexadecimal digit. -/
def lowerHexVal (c : Char) : Option Nat := (s% "0123456789abcdef").idxOf? c

/-- Read lower-case hexadecimal text, two digits per byte. -/
def hexDecode : Str → Option Bytes
  | [] => some []
  | a :: b :: r => do
    let x ← lowerHexVal a
    let y ← lowerHexVal b
    let rest ← hexDecode r
    some (UInt8.ofNat (x * 16 + y) :: rest)
  | _ => none

/-- RFC 4648 base64 alphabet. -/
def b64Alphabet : Str := s% "ABCDEFGHIJKLMNOPQRSTUVWXYZabcdefghijklmnopqrstuvwxyz0123456789+/"

/-- RFC 4648 base64 with mandatory padding: every group of four characters carries 24 bits, the last
group may end in `=` or `==`; unused bits must be zero. -/
def base64Decode : Str → Option Bytes
  | [] => some []
  | [a, b, '=', '='] => do
    let x ← b64Alphabet.idxOf? a
    let y ← b64Alphabet.idxOf? b
    let n := x * 64 + y
    if n % 16 = 0 then some [UInt8.ofNat (n / 16)] else none
  | [a, b, c, '='] => do
    let x ← b64Alphabet.idxOf? a
    let y ← b64Alphabet.idxOf? b
    let z ← b64Alphabet.idxOf? c
    let n := (x * 64 + y) * 64 + z
    if n % 4 = 0 then some [UInt8.ofNat (n / 1024), UInt8.ofNat (n / 4 % 256)] else none
  | a :: b :: c :: d :: r => do
    let x ← b64Alphabet.idxOf? a
    let y ← b64Alphabet.idxOf? b
    let z ← b64Alphabet.idxOf? c
    let w ← b64Alphabet.idxOf? d
    let rest ← base64Decode r
    let n := ((x * 64 + y) * 64 + z) * 64 + w
    some (UInt8.ofNat (n / 65536) :: UInt8.ofNat (n / 256 % 256) :: UInt8.ofNat (n % 256) :: rest)
  | _ => none

/-- Value of a hexadecimal digit of either case. -/
def hexVal? (c : Char) : Option Nat :=
  match (s% "0123456789ABCDEF").idxOf? c with
  | some n => some n
  | none => (s% "0123456789abcdef").idxOf? c

/-- RFC 3986 percent-decoding of a text: `%XX` is the byte `XX`; every other character stands for
its UTF-8 bytes. -/
def percentDecode : Str → Bytes
  | [] => []
  | c :: r =>
    if c = '%' then
      match r with
      | a :: b :: r' =>
        match hexVal? a, hexVal? b with
        | some x, some y => UInt8.ofNat (x * 16 + y) :: percentDecode r'
        | _, _ => utf8Char c ++ percentDecode (a :: b :: r')
      | [a] => utf8Char c ++ percentDecode [a]
      | [] => utf8Char c
    else utf8Char c ++ percentDecode r

/-- The text contains a percent escape: `%` and two hexadecimal digits. -/
def HasEscape (s : Str) : Prop :=
  ∃ before x y after, s = before ++ '%' :: x :: y :: after ∧ hexVal? x ≠ none ∧ hexVal? y ≠ none

/-- The pieces between occurrences of `sep`. -/
def splitOn (sep : Char) : Str → List Str
  | [] => [[]]
  | c :: r =>
    if c = sep then [] :: splitOn sep r
    else match splitOn sep r with
      | [] => [[c]]
      | h :: t => (c :: h) :: t

/-- Text before and after the first occurrence of `sep` (after = empty if there is none). -/
def cutAt (sep : Char) : Str → Str × Str
  | [] => ([], [])
  | c :: r => if c = sep then ([], r) else (c :: (cutAt sep r).1, (cutAt sep r).2)

/-- The query parameters a server reads from a query string: split at `&`, cut at the first `=`,
percent-decode names and values to bytes. -/
def queryParams (q : Str) : List (Bytes × Bytes) :=
  (splitOn '&' q).map fun item => (percentDecode (cutAt '=' item).1, percentDecode (cutAt '=' item).2)

/-- The query string of a URL: what follows the first `?`, up to a `#`. -/
def urlQuery (url : Str) : Str := (cutAt '#' (cutAt '?' url).2).1

/-- The path of an `https://host/path?query` URL: what follows the host, up to `?` or `#`. -/
def urlPath (host url : Str) : Option Str :=
  if host.isPrefixOf url then some (cutAt '#' (cutAt '?' (url.drop host.length)).1).1 else none

end CSS.Spec
