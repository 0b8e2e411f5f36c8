import Verif.Spec.Calendar
import Verif.Spec.Json
/-
The texts that are read as RFC 3339 timestamps, and the instants they denote.
-/
namespace CSS.Spec

/-- The UTC offset `z` means `off` seconds east of Greenwich. The minus sign may also be U+2212. -/
def ZoneDenotes (z : Str) (off : Int) : Prop :=
  ((z = ['Z'] ∨ z = ['z']) ∧ off = 0) ∨
  ∃ h m : Nat, h ≤ 23 ∧ m ≤ 59 ∧ ∃ sign, z = sign :: (d2 h ++ [':'] ++ d2 m) ∧
    ((sign = '+' ∧ off = (h * 3600 + m * 60 : Nat)) ∨ ((sign = '-' ∨ sign = '−') ∧ off = -(h * 3600 + m * 60 : Nat)))

/-- An optional fraction of a second. -/
def Fraction (f : Str) : Prop := f = [] ∨ ∃ ds, Digits ds ∧ f = '.' :: ds

/-- The text `s` is a timestamp read as the instant `t` (whole seconds since the epoch): date, separator,
time of day, optional fraction, UTC offset. The second may be `60`, a leap second, which is counted as
the second before it. -/
def ReadsAs (s : Str) (t : Int) : Prop :=
  ∃ (c : DateTime) (se : Nat) (sep : Char) (f z : Str) (off : Int),
    c.Valid ∧ (se = c.second ∨ (se = 60 ∧ c.second = 59)) ∧ sep ∈ s% "Tt " ∧ Fraction f ∧ ZoneDenotes z off ∧
    s = d4 c.year ++ ['-'] ++ d2 c.month ++ ['-'] ++ d2 c.day ++ [sep] ++ d2 c.hour ++ [':'] ++ d2 c.minute
      ++ [':'] ++ d2 se ++ f ++ z ∧
    t = c.unix - off

end CSS.Spec
