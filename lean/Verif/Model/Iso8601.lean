import Verif.Model.Rfc3339
/-
`UnixTimestamp::from_iso8601_basic_format_date_time` and `UnixTimestamp::to_system_time`
(src/private/utils/unix_timestamp.rs:17-23, 64-67), which only the crate's tests use, with the part of `chrono` 0.4.42 behind
`NaiveDateTime::parse_from_str` (`format::parse::parse_internal`, `format::scan::number`, `Parsed`). chrono's errors are
not told apart, because src/private/utils/unix_timestamp.rs:20 does not.
-/
namespace CSS

/-- Rust `char::is_whitespace` (Unicode White_Space). -/
def isWhiteSpace (c : Char) : Bool :=
  let n := c.toNat
  (9 ≤ n && n ≤ 13) || n = 32 || n = 0x85 || n = 0xA0 || n = 0x1680 || (0x2000 ≤ n && n ≤ 0x200A) || n = 0x2028 || n = 0x2029 ||
    n = 0x202F || n = 0x205F || n = 0x3000

/-- chrono `scan::number(s, 1, max)`: one to `max` ASCII digits, as many as there are (`none`: no limit). A value that does not
fit an `i64` is an error there; here the callers reject it. -/
def scanDigits (max : Option Nat) (s : Str) : Option (Nat × Str) :=
  let ds := match max with
    | some n => (s.take n).takeWhile isDigit
    | none => s.takeWhile isDigit
  if ds = [] then none else some (decVal ds, s.drop ds.length)

/-- chrono `parse_internal` for an unsigned numeric item: white space is skipped. -/
def scanItem (max : Nat) (s : Str) : Option (Nat × Str) := scanDigits (some max) (s.dropWhile isWhiteSpace)

/-- The same for `%Y`: with a sign any number of digits may follow, without one at most four. -/
def scanYear (s : Str) : Option (Int × Str) :=
  match s.dropWhile isWhiteSpace with
  | '-' :: r => (scanDigits none r).map fun p => (-(p.1 : Int), p.2)
  | '+' :: r => (scanDigits none r).map fun p => ((p.1 : Int), p.2)
  | r => (scanDigits (some 4) r).map fun p => ((p.1 : Int), p.2)

/-- chrono `NaiveDateTime::parse_from_str(s, "%Y%m%dT%H%M%SZ")`, then `.and_utc().timestamp()`. Years are those of
`NaiveDate`, -262143 to 262142; the calendar repeats every 400 years of 146097 days. A second `60` counts as the leap second
after `59`. -/
def parseIso8601 (s : Str) : Option Int := do
  let (y, s) ← scanYear s
  let (mo, s) ← scanItem 2 s
  let (d, s) ← scanItem 2 s
  let s ← scanChar 'T' s
  let (h, s) ← scanItem 2 s
  let (mi, s) ← scanItem 2 s
  let (se, s) ← scanItem 2 s
  let s ← scanChar 'Z' s
  if s ≠ [] then none
  else if 24 ≤ h ∨ 60 ≤ mi ∨ 61 ≤ se then none
  else if y < -262143 ∨ 262142 < y then none
  else do
    let o ← ymdToOrdinal (y % 400).toNat mo d
    some ((numDaysFromCe (y % 400).toNat o + y / 400 * 146097 - 719163) * 86400 +
      (h * 3600 + mi * 60 + (if se = 60 then 59 else se) : Nat))

/-- Errors of `from_iso8601_basic_format_date_time`: src/private/utils/unix_timestamp.rs:3-11 -/
inductive Iso8601Error where
  | invalidFormat (s : Str)
  | outOfRange (n : Int)
  deriving DecidableEq, Repr

/-- `UnixTimestamp::from_iso8601_basic_format_date_time`: src/private/utils/unix_timestamp.rs:17-23 -/
def UnixTimestamp.fromIso8601 (s : Str) : Res Iso8601Error UnixTimestamp :=
  match parseIso8601 s with
  | none => .err (.invalidFormat s)
  | some n =>
    match UnixTimestamp.tryFrom n with
    | .ok t => .ok t
    | .err (.outOfRange n) => .err (.outOfRange n)
    | .panic p => .panic p

/-- `UnixTimestamp::to_system_time`: src/private/utils/unix_timestamp.rs:64-67. `self.0 as u64` of a negative number is 2^64
more, which does not fit the `i64` seconds of `SystemTime`; the addition then panics (`none`). -/
def UnixTimestamp.toSystemTime (t : UnixTimestamp) : Option Time :=
  let secs := t.val % 18446744073709551616
  if 9223372036854775807 < secs then none else some (secs * nsPerSec)

end CSS
