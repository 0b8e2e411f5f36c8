import Verif.Model.Time
import Verif.Model.Json
/-
Reading timestamps and dates: `UnixTimestamp::from_rfc3339` (src/private/utils/unix_timestamp.rs:25-29),
`Expiration: FromStr` (src/private/policy_document/expiration.rs:30-42), `Date: TryFrom<&str>`
(src/private/date.rs:18-43), with the part of `chrono` 0.4.42 behind `DateTime::parse_from_rfc3339`
(`format::parse::parse_rfc3339`, `format::scan`, `Parsed::to_datetime`). chrono's errors are not told
apart, because src/private/utils/unix_timestamp.rs:27 does not.
-/
namespace CSS

/-- chrono `scan::number(s, n, n)`: exactly `n` ASCII digits. -/
def scanNumber (n : Nat) (s : Str) : Option (Nat × Str) :=
  if (s.take n).length = n ∧ (s.take n).all isDigit = true then some (decVal (s.take n), s.drop n) else none

/-- chrono `scan::char`. -/
def scanChar (c : Char) : Str → Option Str
  | [] => none
  | d :: r => if d = c then some r else none

/-- chrono `parse_rfc3339`, the separator of date and time. -/
def scanSep : Str → Option Str
  | [] => none
  | c :: r => if c = 't' ∨ c = 'T' ∨ c = ' ' then some r else none

/-- chrono `parse_rfc3339`, the optional fraction: `scan::nanosecond` takes up to nine digits and skips
further ones. The value of the fraction is dropped: only whole seconds are used afterwards. -/
def scanFraction : Str → Option Str
  | '.' :: r => if r.takeWhile isDigit = [] then none else some (r.dropWhile isDigit)
  | s => some s

/-- chrono `scan::timezone_offset` as called by `parse_rfc3339` (`Z` allowed, colon and minutes
required, U+2212 allowed as minus sign), followed by the check that the offset is at most 23:59. -/
def scanOffset : Str → Option (Int × Str)
  | [] => none
  | c :: r =>
    if c = 'Z' ∨ c = 'z' then some (0, r)
    else if c = '+' ∨ c = '-' ∨ c = '−' then
      match scanNumber 2 r with
      | none => none
      | some (h, r1) =>
        match scanChar ':' r1 with
        | none => none
        | some r2 =>
          match scanNumber 2 r2 with
          | none => none
          | some (m, r3) =>
            if 60 ≤ m then none
            else if 86340 < h * 3600 + m * 60 then none
            else some (if c = '+' then (h * 3600 + m * 60 : Nat) else -((h * 3600 + m * 60 : Nat) : Int), r3)
    else none

/-- chrono `NaiveDate::from_ymd_opt`, as ordinal: day of the year, from 1. -/
def ymdToOrdinal (y m d : Nat) : Option Nat :=
  if 1 ≤ m ∧ m ≤ 12 ∧ 1 ≤ d ∧ d ≤ (monthLengths (isLeap y)).getD (m - 1) 0 then
    some (((monthLengths (isLeap y)).take (m - 1)).sum + d)
  else none

/-- chrono `NaiveDate::num_days_from_ce`: 0001-01-01 is day 1. -/
def numDaysFromCe (y ordinal : Nat) : Int :=
  let year : Int := (y : Int) - 1
  let (year, ndays) : Int × Int :=
    if year < 0 then (year + (1 + (-year) / 400) * 400, -((1 + (-year) / 400) * 146097)) else (year, 0)
  ndays + (year * 1461) / 4 - year / 100 + year / 100 / 4 + ordinal

/-- chrono `DateTime::parse_from_rfc3339(s)` followed by `.timestamp()`. A second `60` counts as the leap
second after `59`, whose timestamp is that of `59`. 719163 is the day number of 1970-01-01. -/
def parseRfc3339 (s : Str) : Option Int := do
  let (y, s) ← scanNumber 4 s
  let s ← scanChar '-' s
  let (mo, s) ← scanNumber 2 s
  let s ← scanChar '-' s
  let (d, s) ← scanNumber 2 s
  let s ← scanSep s
  let (h, s) ← scanNumber 2 s
  let s ← scanChar ':' s
  let (mi, s) ← scanNumber 2 s
  let s ← scanChar ':' s
  let (se, s) ← scanNumber 2 s
  let s ← scanFraction s
  let (off, s) ← scanOffset s
  if s ≠ [] then none
  else if 24 ≤ h ∨ 60 ≤ mi ∨ 61 ≤ se then none
  else do
    let o ← ymdToOrdinal y mo d
    some ((numDaysFromCe y o - 719163) * 86400 + (h * 3600 + mi * 60 + (if se = 60 then 59 else se) : Nat) - off)

/-- Errors of `UnixTimestamp::from_rfc3339`: src/private/utils/unix_timestamp.rs:3-11 -/
inductive Rfc3339Error where
  | invalidFormat (s : Str)
  | outOfRange (n : Int)
  deriving DecidableEq, Repr

/-- `UnixTimestamp::from_rfc3339`: src/private/utils/unix_timestamp.rs:25-29 -/
def UnixTimestamp.fromRfc3339 (s : Str) : Res Rfc3339Error UnixTimestamp :=
  match parseRfc3339 s with
  | none => .err (.invalidFormat s)
  | some n =>
    match UnixTimestamp.tryFrom n with
    | .ok t => .ok t
    | .err (.outOfRange n) => .err (.outOfRange n)
    | .panic p => .panic p

/-- `FromStr for Expiration`: src/private/policy_document/expiration.rs:30-42. The `unreachable!()` of
line 36 is indeed not reachable: `from_rfc3339` never returns that variant. -/
def PolicyExpiration.fromStr (s : Str) : Res Rfc3339Error PolicyExpiration := do
  let t ← UnixTimestamp.fromRfc3339 s
  pure ⟨t⟩

/-- Rust `str::parse::<u32>`: an optional `+`, then one or more digits, at most `u32::MAX`. -/
def parseU32 (s : Str) : Option Nat :=
  let ds := match s with
    | '+' :: r => r
    | _ => s
  if ds = [] ∨ ds.all isDigit = false then none
  else if decVal ds ≤ 4294967295 then some (decVal ds) else none

/-- `TryFrom<&str> for Date`: src/private/date.rs:18-43 (`none` = `InvalidFormat`). The length is counted
in bytes. The check of the year (lines 29-31) can fail only for `u32` values of more than eight digits. -/
def Date.tryFrom (s : Str) : Option Date :=
  if (utf8 s).length ≠ 8 then none
  else
    match parseU32 s with
    | none => none
    | some n =>
      let yyyy := n / 10000
      let mm := n % 10000 / 100
      let dd := n % 100
      if 9999 < yyyy then none
      else if ¬ (1 ≤ mm ∧ mm ≤ 12) then none
      else if ¬ (1 ≤ dd ∧ dd ≤ 31) then none
      else some ⟨yyyy * 10000 + mm * 100 + dd⟩

end CSS
