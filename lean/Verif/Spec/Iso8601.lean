import Verif.Spec.Rfc3339
/-
The texts that are read as basic-format ISO 8601 date-times, and the instants they denote. The reader takes more than the
rendering `YYYYMMDDTHHMMSSZ`.
-/
namespace CSS.Spec

/-- The Unicode characters with the property White_Space. -/
def whiteSpace : List Nat :=
  [9, 10, 11, 12, 13, 32, 0x85, 0xA0, 0x1680, 0x2000, 0x2001, 0x2002, 0x2003, 0x2004, 0x2005, 0x2006, 0x2007, 0x2008, 0x2009,
    0x200A, 0x2028, 0x2029, 0x202F, 0x205F, 0x3000]

def Blank (w : Str) : Prop := ∀ c ∈ w, c.toNat ∈ whiteSpace

/-- `rest` does not go on with a digit. -/
def NoDigitNext (rest : Str) : Prop := ∀ c ∈ rest.head?, c ∉ s% "0123456789"

/-- `f` is a number of at most `max` digits after white space, and it means `n`. It ends before `rest`: with `max` digits, or
because `rest` does not go on with a digit. -/
def Field (max : Nat) (f : Str) (n : Nat) (rest : Str) : Prop :=
  ∃ w ds, f = w ++ ds ∧ Blank w ∧ Digits ds ∧ ds.length ≤ max ∧ decVal ds = n ∧
    (ds.length = max ∨ NoDigitNext rest)

/-- The same for the year: at most four digits, or a sign and any number of digits. -/
def YearField (f : Str) (y : Int) (rest : Str) : Prop :=
  (∃ n : Nat, Field 4 f n rest ∧ y = n) ∨
  ∃ w sign ds, f = w ++ sign :: ds ∧ Blank w ∧ Digits ds ∧ NoDigitNext rest ∧
    ((sign = '+' ∧ y = decVal ds) ∨ (sign = '-' ∧ y = -(decVal ds : Int)))

/-- The text `s` is read as the instant `t` of the years 0000–9999: year, month and day, `T`, hour, minute and second, `Z`. The
second may be `60`, a leap second, which is counted as the second before it. -/
def BasicReadsAs (s : Str) (t : Int) : Prop :=
  ∃ (c : DateTime) (se : Nat) (fy fm fd fh fi fs : Str),
    c.Valid ∧ (se = c.second ∨ (se = 60 ∧ c.second = 59)) ∧
    s = fy ++ (fm ++ (fd ++ 'T' :: (fh ++ (fi ++ (fs ++ ['Z']))))) ∧
    YearField fy c.year (fm ++ (fd ++ 'T' :: (fh ++ (fi ++ (fs ++ ['Z']))))) ∧
    Field 2 fm c.month (fd ++ 'T' :: (fh ++ (fi ++ (fs ++ ['Z'])))) ∧
    Field 2 fd c.day ('T' :: (fh ++ (fi ++ (fs ++ ['Z'])))) ∧
    Field 2 fh c.hour (fi ++ (fs ++ ['Z'])) ∧
    Field 2 fi c.minute (fs ++ ['Z']) ∧
    Field 2 fs se ['Z'] ∧
    t = c.unix

end CSS.Spec
