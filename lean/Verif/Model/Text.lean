/-
Text primitives shared by the model. `Str` models Rust `String`/`&str` as its list of Unicode
scalar values (Rust `char` = Lean `Char`); bytes only appear where the Rust code looks at bytes.
-/
namespace CSS

/-- Rust `String`: the list of its `char`s. -/
abbrev Str := List Char
/-- Rust `Vec<u8>` / `&[u8]`. -/
abbrev Bytes := List UInt8

/-- `s% "abc"` is the explicit character list `['a','b','c']` (so that the kernel computes on it). -/
macro "s%" s:str : term => do
  let cs := s.getString.toList.map (fun c => Lean.Syntax.mkCharLit c)
  `(([$(cs.toArray),*] : Str))

/-- Decimal digit as a character, `n < 10`. -/
def digit (n : Nat) : Char := Char.ofNat (48 + n)

/-- Worker of `natDec`; the first argument bounds the number of digits. -/
def natDecAux : Nat → Nat → Str
  | 0, _ => []
  | f + 1, n => if n < 10 then [digit n] else natDecAux f (n / 10) ++ [digit (n % 10)]

/-- Rust `u64/u32/u16/i64::to_string()` for a non-negative value (std integer `Display`). -/
def natDec (n : Nat) : Str := natDecAux (n + 1) n

/-- Rust `{:0k}` / chrono's zero padding: pad on the left with `'0'` to width `k`. -/
def padZero (k : Nat) (s : Str) : Str := List.replicate (k - s.length) '0' ++ s

/-- Hex digit, lower case (`{:x}`), `n < 16`. -/
def hexLower (n : Nat) : Char := Char.ofNat (if n < 10 then 48 + n else 87 + n)
/-- Hex digit, upper case (`percent-encoding` crate table), `n < 16`. -/
def hexUpper (n : Nat) : Char := Char.ofNat (if n < 10 then 48 + n else 55 + n)

/-- Rust `[..].join(sep)` on slices of strings. -/
def join (sep : Str) : List Str → Str
  | [] => []
  | [x] => x
  | x :: y :: r => x ++ sep ++ join sep (y :: r)

/-- Split at the first occurrence of `c`: text before it, and the text after it if `c` occurs. -/
def splitFirst (c : Char) : Str → Str × Option Str
  | [] => ([], none)
  | x :: r => if x = c then ([], some r) else ((x :: (splitFirst c r).1), (splitFirst c r).2)

/-- Rust `char::to_ascii_lowercase`. -/
def asciiLowerChar (c : Char) : Char :=
  if 65 ≤ c.toNat ∧ c.toNat ≤ 90 then Char.ofNat (c.toNat + 32) else c
/-- Rust `str::to_ascii_lowercase`. -/
def asciiLower (s : Str) : Str := s.map asciiLowerChar

/-! ### UTF-8 -/

/-- UTF-8 encoding of one `char` (Rust `char::encode_utf8`). -/
def utf8Char (c : Char) : Bytes :=
  let n := c.toNat
  if n < 0x80 then [UInt8.ofNat n]
  else if n < 0x800 then [UInt8.ofNat (0xC0 + n / 64), UInt8.ofNat (0x80 + n % 64)]
  else if n < 0x10000 then
    [UInt8.ofNat (0xE0 + n / 4096), UInt8.ofNat (0x80 + n / 64 % 64), UInt8.ofNat (0x80 + n % 64)]
  else
    [UInt8.ofNat (0xF0 + n / 262144), UInt8.ofNat (0x80 + n / 4096 % 64),
     UInt8.ofNat (0x80 + n / 64 % 64), UInt8.ofNat (0x80 + n % 64)]

/-- Rust `str::as_bytes`. -/
def utf8 (s : Str) : Bytes := s.flatMap utf8Char

/-- A UTF-8 continuation byte. -/
def isCont (b : UInt8) : Bool := 0x80 ≤ b.toNat && b.toNat < 0xC0

/-- Second byte allowed after a 3-byte lead (std `run_utf8_validation`). -/
def ok3 (b0 b1 : UInt8) : Bool :=
  (b0.toNat = 0xE0 && 0xA0 ≤ b1.toNat && b1.toNat ≤ 0xBF) ||
  (0xE1 ≤ b0.toNat && b0.toNat ≤ 0xEC && isCont b1) ||
  (b0.toNat = 0xED && 0x80 ≤ b1.toNat && b1.toNat ≤ 0x9F) ||
  (0xEE ≤ b0.toNat && b0.toNat ≤ 0xEF && isCont b1)

/-- Second byte allowed after a 4-byte lead. -/
def ok4 (b0 b1 : UInt8) : Bool :=
  (b0.toNat = 0xF0 && 0x90 ≤ b1.toNat && b1.toNat ≤ 0xBF) ||
  (0xF1 ≤ b0.toNat && b0.toNat ≤ 0xF3 && isCont b1) ||
  (b0.toNat = 0xF4 && 0x80 ≤ b1.toNat && b1.toNat ≤ 0x8F)

/-- U+FFFD -/
def replacementChar : Char := Char.ofNat 0xFFFD

/-- Rust `String::from_utf8_lossy`: each maximal invalid subpart becomes U+FFFD. Used by
`form_urlencoded::parse` (src/private/canonical_request.rs:68). -/
def utf8Lossy : Bytes → Str
  | [] => []
  | b0 :: r =>
    if b0.toNat < 0x80 then Char.ofNat b0.toNat :: utf8Lossy r
    else if 0xC2 ≤ b0.toNat ∧ b0.toNat ≤ 0xDF then
      match r with
      | b1 :: r1 =>
        if isCont b1 then
          Char.ofNat ((b0.toNat - 0xC0) * 64 + (b1.toNat - 0x80)) :: utf8Lossy r1
        else replacementChar :: utf8Lossy (b1 :: r1)
      | [] => [replacementChar]
    else if 0xE0 ≤ b0.toNat ∧ b0.toNat ≤ 0xEF then
      match r with
      | b1 :: r1 =>
        if ok3 b0 b1 then
          match r1 with
          | b2 :: r2 =>
            if isCont b2 then
              Char.ofNat ((b0.toNat - 0xE0) * 4096 + (b1.toNat - 0x80) * 64 + (b2.toNat - 0x80))
                :: utf8Lossy r2
            else replacementChar :: utf8Lossy (b2 :: r2)
          | [] => [replacementChar]
        else replacementChar :: utf8Lossy (b1 :: r1)
      | [] => [replacementChar]
    else if 0xF0 ≤ b0.toNat ∧ b0.toNat ≤ 0xF4 then
      match r with
      | b1 :: r1 =>
        if ok4 b0 b1 then
          match r1 with
          | b2 :: r2 =>
            if isCont b2 then
              match r2 with
              | b3 :: r3 =>
                if isCont b3 then
                  Char.ofNat ((b0.toNat - 0xF0) * 262144 + (b1.toNat - 0x80) * 4096
                    + (b2.toNat - 0x80) * 64 + (b3.toNat - 0x80)) :: utf8Lossy r3
                else replacementChar :: utf8Lossy (b3 :: r3)
              | [] => [replacementChar]
            else replacementChar :: utf8Lossy (b2 :: r2)
          | [] => [replacementChar]
        else replacementChar :: utf8Lossy (b1 :: r1)
      | [] => [replacementChar]
    else replacementChar :: utf8Lossy r

/-! ### Ordering -/

/-- Lexicographic `≤` on byte strings. -/
def bytesLe : Bytes → Bytes → Bool
  | [], _ => true
  | _ :: _, [] => false
  | a :: as, b :: bs => if a.toNat < b.toNat then true else if b.toNat < a.toNat then false else bytesLe as bs

/-- Rust `Ord for str` (`≤`): lexicographic order of the UTF-8 bytes. Used by `Vec<String>::sort`,
`BTreeSet<String>` and `BTreeMap<String, _>`. -/
def strLe (a b : Str) : Bool := bytesLe (utf8 a) (utf8 b)

/-- Insertion into a sorted list. -/
def insertStr (x : Str) : List Str → List Str
  | [] => [x]
  | y :: ys => if strLe x y then x :: y :: ys else y :: insertStr x ys

/-- Rust `Vec<String>::sort()`. The sorted arrangement of a list of strings is unique (equal strings
are indistinguishable), so insertion sort computes the same vector as std's merge sort. -/
def sortStr : List Str → List Str
  | [] => []
  | x :: xs => insertStr x (sortStr xs)

end CSS
