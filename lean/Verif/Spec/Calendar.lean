import Verif.Model.Text
/-
Specification of dates: the proleptic Gregorian calendar by *counting days*, independent of the
arithmetic used by the model.
-/
namespace CSS.Spec

/-- Gregorian leap year rule. -/
def LeapYear (y : Nat) : Prop := 4 ∣ y ∧ (¬ 100 ∣ y ∨ 400 ∣ y)
instance (y : Nat) : Decidable (LeapYear y) := by unfold LeapYear; infer_instance

def daysInYear (y : Nat) : Nat := if LeapYear y then 366 else 365

/-- Thirty days hath September ... -/
def daysInMonth (y m : Nat) : Nat :=
  match m with
  | 2 => if LeapYear y then 29 else 28
  | 4 => 30
  | 6 => 30
  | 9 => 30
  | 11 => 30
  | _ => 31

/-- Days from 0000-01-01 to the first day of year `y`. -/
def daysBeforeYear : Nat → Nat
  | 0 => 0
  | y + 1 => daysBeforeYear y + daysInYear y

/-- Days of year `y` before the first day of month `m` (months are numbered from 1). -/
def daysBeforeMonth (y : Nat) : Nat → Nat
  | 0 => 0
  | 1 => 0
  | m + 1 => daysBeforeMonth y m + daysInMonth y m

/-- A calendar date and time of day (UTC). -/
structure DateTime where
  year : Nat
  month : Nat
  day : Nat
  hour : Nat
  minute : Nat
  second : Nat
  deriving DecidableEq, Repr

/-- An existing date in the years 0000-9999, and a time of day without leap seconds. -/
structure DateTime.Valid (c : DateTime) : Prop where
  year : c.year ≤ 9999
  month : 1 ≤ c.month ∧ c.month ≤ 12
  day : 1 ≤ c.day ∧ c.day ≤ daysInMonth c.year c.month
  hour : c.hour < 24
  minute : c.minute < 60
  second : c.second < 60

/-- Days from 0000-01-01. -/
def dayNumber (y m d : Nat) : Nat := daysBeforeYear y + daysBeforeMonth y m + (d - 1)

/-- Seconds since 1970-01-01T00:00:00Z. -/
def DateTime.unix (c : DateTime) : Int :=
  ((dayNumber c.year c.month c.day : Int) - (dayNumber 1970 1 1 : Int)) * 86400
    + (c.hour * 3600 + c.minute * 60 + c.second : Nat)

/-- Two and four decimal digits. -/
def d2 (n : Nat) : Str := [digit (n / 10 % 10), digit (n % 10)]
def d4 (n : Nat) : Str := [digit (n / 1000 % 10), digit (n / 100 % 10), digit (n / 10 % 10), digit (n % 10)]

/-- `YYYYMMDD` -/
def DateTime.yyyymmdd (c : DateTime) : Str := d4 c.year ++ d2 c.month ++ d2 c.day
/-- `YYYYMMDDTHHMMSSZ` -/
def DateTime.basic (c : DateTime) : Str :=
  c.yyyymmdd ++ ['T'] ++ d2 c.hour ++ d2 c.minute ++ d2 c.second ++ ['Z']
/-- `YYYY-MM-DDTHH:MM:SSZ` -/
def DateTime.rfc3339 (c : DateTime) : Str :=
  d4 c.year ++ ['-'] ++ d2 c.month ++ ['-'] ++ d2 c.day ++ ['T'] ++ d2 c.hour ++ [':'] ++ d2 c.minute
    ++ [':'] ++ d2 c.second ++ ['Z']

/-- The text `s` is a basic-format timestamp that denotes `t` seconds since the epoch. -/
def BasicDenotes (s : Str) (t : Int) : Prop := ∃ c : DateTime, c.Valid ∧ s = c.basic ∧ c.unix = t
/-- The text `s` is an RFC 3339 timestamp that denotes `t` seconds since the epoch. -/
def Rfc3339Denotes (s : Str) (t : Int) : Prop := ∃ c : DateTime, c.Valid ∧ s = c.rfc3339 ∧ c.unix = t

end CSS.Spec
