import Verif.Model.Outcome
/-
src/private/utils/unix_timestamp.rs, src/private/date.rs, src/private/active_datetime.rs,
src/private/expiration.rs, src/private/policy_document/expiration.rs, and the part of `chrono` 0.4.42
they use (`DateTime::from_timestamp`, `Datelike::{year,month,day}`, `format`).
-/
namespace CSS

/-- `UnixTimestamp(i64)`: src/private/utils/unix_timestamp.rs:13-14 -/
structure UnixTimestamp where
  val : Int
  deriving DecidableEq, Repr

/-- src/private/utils/unix_timestamp.rs:3-11 (only the variant reachable from the public API). -/
inductive UnixTimestampError where
  | outOfRange (n : Int)
  deriving DecidableEq, Repr

/-- `TryFrom<i64> for UnixTimestamp`: src/private/utils/unix_timestamp.rs:76-87 -/
def UnixTimestamp.tryFrom (v : Int) : Res UnixTimestampError UnixTimestamp :=
  if -62167219200 ≤ v ∧ v ≤ 253402300799 then .ok ⟨v⟩ else .err (.outOfRange v)

/-- `UnixTimestamp::from_system_time`: src/private/utils/unix_timestamp.rs:31-41.
`duration_since(UNIX_EPOCH)` fails before the epoch; `as_secs` truncates; the `u64 -> i64` conversion
fails above `i64::MAX`. -/
def UnixTimestamp.fromSystemTime (t : Time) : Res UnixTimestampError UnixTimestamp :=
  if t < 0 then .err (.outOfRange 0)
  else
    let secs := t / nsPerSec
    if 9223372036854775807 < secs then .err (.outOfRange 0)
    else UnixTimestamp.tryFrom secs

/-! ### chrono: day number to date -/

/-- Leap year rule used by chrono's `YearFlags`. -/
def isLeap (y : Nat) : Bool := (y % 4 = 0 && y % 100 ≠ 0) || y % 400 = 0

/-- chrono `YEAR_DELTAS[y]` (0 ≤ y ≤ 400): leap days before year `y` of a 400-year cycle. -/
def yearDelta (y : Nat) : Nat := (y + 3) / 4 - (y + 99) / 100 + (y + 399) / 400

/-- chrono `cycle_to_yo`: day of the 400-year cycle to (year of cycle, zero-based day of year). -/
def cycleToYo (cycle : Nat) : Nat × Nat :=
  let y := cycle / 365
  let o := cycle % 365
  if o < yearDelta y then (y - 1, o + 365 - yearDelta (y - 1)) else (y, o - yearDelta y)

/-- Month lengths (chrono's `OL_TO_MDL`/`MDL_TO_OL` tables encode the same). -/
def monthLengths (leap : Bool) : List Nat :=
  [31, if leap then 29 else 28, 31, 30, 31, 30, 31, 31, 30, 31, 30, 31]

/-- Zero-based day of year to (month, day): walk through the month lengths. -/
def ordinalToMd : List Nat → Nat → Nat → Nat × Nat
  | [], m, o => (m, o + 1)
  | len :: rest, m, o => if o < len then (m, o + 1) else ordinalToMd rest (m + 1) (o - len)

/-- Day number relative to 0000-01-01 to (year, month, day). chrono's
`NaiveDate::from_num_days_from_ce_opt` (`div_euclid`/`rem_euclid` by 146097). -/
def dayToYmd (day : Nat) : Nat × Nat × Nat :=
  let (yc, o) := cycleToYo (day % 146097)
  let y := day / 146097 * 400 + yc
  let (m, d) := ordinalToMd (monthLengths (isLeap y)) 1 o
  (y, m, d)

/-- Broken-down UTC time. -/
structure Civil where
  year : Nat
  month : Nat
  day : Nat
  hour : Nat
  minute : Nat
  second : Nat
  deriving DecidableEq, Repr

/-- `chrono::DateTime::from_timestamp(self.0, 0)` followed by field access. 719528 is the number of days
from 0000-01-01 to 1970-01-01. Total because the timestamp is in 0000..=9999 (src/private/utils/
unix_timestamp.rs:80-81), so the `expect`s in lines 45, 54, 60 cannot fire. -/
def UnixTimestamp.civil (t : UnixTimestamp) : Civil :=
  let days := (t.val / 86400 + 719528).toNat
  let s := (t.val % 86400).toNat
  let (y, m, d) := dayToYmd days
  { year := y, month := m, day := d, hour := s / 3600, minute := s / 60 % 60, second := s % 60 }

/-- `UnixTimestamp::to_date`: src/private/utils/unix_timestamp.rs:43-50 -/
def UnixTimestamp.toDate (t : UnixTimestamp) : Nat :=
  t.civil.year * 10000 + t.civil.month * 100 + t.civil.day

/-- chrono `%Y` for years 0..=9999. -/
def fmtYear (y : Nat) : Str := padZero 4 (natDec y)
/-- chrono `%m`, `%d`, `%H`, `%M`, `%S`. -/
def fmt2 (n : Nat) : Str := padZero 2 (natDec n)

/-- `to_iso8601_basic_format_date_time` (`%Y%m%dT%H%M%SZ`): src/private/utils/unix_timestamp.rs:52-56 -/
def UnixTimestamp.toIso8601 (t : UnixTimestamp) : Str :=
  let c := t.civil
  fmtYear c.year ++ fmt2 c.month ++ fmt2 c.day ++ s% "T" ++ fmt2 c.hour ++ fmt2 c.minute
    ++ fmt2 c.second ++ s% "Z"

/-- `to_rfc3339` (`%Y-%m-%dT%H:%M:%SZ`): src/private/utils/unix_timestamp.rs:58-62 -/
def UnixTimestamp.toRfc3339 (t : UnixTimestamp) : Str :=
  let c := t.civil
  fmtYear c.year ++ s% "-" ++ fmt2 c.month ++ s% "-" ++ fmt2 c.day ++ s% "T" ++ fmt2 c.hour ++ s% ":"
    ++ fmt2 c.minute ++ s% ":" ++ fmt2 c.second ++ s% "Z"

/-- `Date(u32)`, `Date::from_unix_timestamp_obj`: src/private/date.rs:9-16 -/
structure Date where
  val : Nat
  deriving DecidableEq, Repr
def Date.fromUnixTimestamp (t : UnixTimestamp) : Date := ⟨t.toDate⟩
/-- `Display for Date` (`{:08}`): src/private/date.rs:45-49 -/
def Date.toStr (d : Date) : Str := padZero 8 (natDec d.val)

/-- `ActiveDatetime`: src/private/active_datetime.rs:7-20 -/
structure ActiveDatetime where
  ts : UnixTimestamp
def ActiveDatetime.toStr (a : ActiveDatetime) : Str := a.ts.toIso8601

/-- `Expiration(i64)` of a signed URL: src/private/expiration.rs:1-8 -/
structure Expiration where
  secs : Int
  deriving DecidableEq, Repr
inductive ExpirationError where
  | outOfRange (n : Int)
  deriving DecidableEq, Repr
/-- `TryFrom<i64> for Expiration`: src/private/expiration.rs:10-20 -/
def Expiration.tryFrom (v : Int) : Res ExpirationError Expiration :=
  if 0 ≤ v ∧ v ≤ 604800 then .ok ⟨v⟩ else .err (.outOfRange v)
/-- `Display for Expiration`: src/private/expiration.rs:22-26. The value is in 0..=604800. -/
def Expiration.toStr (e : Expiration) : Str := natDec e.secs.toNat

/-- `policy_document::Expiration`: src/private/policy_document/expiration.rs:15-28 -/
structure PolicyExpiration where
  ts : UnixTimestamp
  deriving DecidableEq, Repr
def PolicyExpiration.toStr (e : PolicyExpiration) : Str := e.ts.toRfc3339

end CSS
