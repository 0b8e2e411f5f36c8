import Verif.Model.Json
import Verif.Spec.Codec
/-
The JSON grammar (RFC 8259), as a relation between values and texts. `JsonText j s` says that the text
`s` is a JSON document with value `j`. Only the data type `Json` is shared with the model.
-/
namespace CSS.Spec

/-- JSON whitespace. -/
def Ws (s : Str) : Prop := ∀ c ∈ s, c ∈ s% " \t\n\r"

/-- The value of four hexadecimal digits. -/
def hexQuad (a b c d : Char) : Option Nat := do
  let a ← hexVal? a
  let b ← hexVal? b
  let c ← hexVal? c
  let d ← hexVal? d
  some (((a * 16 + b) * 16 + c) * 16 + d)

/-- The two-character escapes. -/
def escapes : List (Char × Char) :=
  [('"', '"'), ('\\', '\\'), ('/', '/'), ('b', Char.ofNat 8), ('f', Char.ofNat 12), ('n', '\n'),
   ('r', '\r'), ('t', '\t')]

/-- `JStr t v`: between quotes, the text `t` stands for the string `v`. -/
inductive JStr : Str → Str → Prop
  | nil : JStr [] []
  | char {c : Char} {t v : Str} : c ≠ '"' → c ≠ '\\' → 32 ≤ c.toNat → JStr t v → JStr (c :: t) (c :: v)
  | esc {e c : Char} {t v : Str} : (e, c) ∈ escapes → JStr t v → JStr ('\\' :: e :: t) (c :: v)
  | unicode {a b c d : Char} {n : Nat} {t v : Str} : hexQuad a b c d = some n →
      ¬ (0xD800 ≤ n ∧ n ≤ 0xDFFF) → JStr t v → JStr ('\\' :: 'u' :: a :: b :: c :: d :: t) (Char.ofNat n :: v)
  | pair {a b c d a' b' c' d' : Char} {h l : Nat} {t v : Str} : hexQuad a b c d = some h →
      hexQuad a' b' c' d' = some l → 0xD800 ≤ h → h ≤ 0xDBFF → 0xDC00 ≤ l → l ≤ 0xDFFF → JStr t v →
      JStr ('\\' :: 'u' :: a :: b :: c :: d :: '\\' :: 'u' :: a' :: b' :: c' :: d' :: t)
        (Char.ofNat (0x10000 + (h - 0xD800) * 0x400 + (l - 0xDC00)) :: v)

/-- A quoted string. -/
def JQuoted (s v : Str) : Prop := ∃ t, JStr t v ∧ s = '"' :: t ++ ['"']

/-- One or more decimal digits. -/
def Digits (s : Str) : Prop := s ≠ [] ∧ ∀ c ∈ s, c ∈ s% "0123456789"

/-- A number literal: optional minus, integer part without leading zero, optional fraction, optional
exponent. -/
def JNum (s : Str) : Prop :=
  ∃ sg ip fr ex, s = sg ++ ip ++ fr ++ ex ∧ (sg = [] ∨ sg = ['-']) ∧
    (Digits ip ∧ (ip.head? = some '0' → ip = ['0'])) ∧
    (fr = [] ∨ ∃ ds, Digits ds ∧ fr = '.' :: ds) ∧
    (ex = [] ∨ ∃ e sg' ds, (e = 'e' ∨ e = 'E') ∧ (sg' = [] ∨ sg' = ['+'] ∨ sg' = ['-']) ∧ Digits ds ∧
      ex = e :: (sg' ++ ds))

mutual
/-- `JVal j s`: the text `s` (without surrounding whitespace) is the value `j`. -/
def JVal : Json → Str → Prop
  | .null, s => s = s% "null"
  | .bool true, s => s = s% "true"
  | .bool false, s => s = s% "false"
  | .num l, s => s = l ∧ JNum l
  | .str v, s => JQuoted s v
  | .arr [], s => ∃ w, Ws w ∧ s = '[' :: (w ++ [']'])
  | .arr (x :: xs), s => ∃ w t w' r, Ws w ∧ JVal x t ∧ Ws w' ∧ JElems xs r ∧
      s = '[' :: (w ++ t ++ w' ++ r ++ [']'])
  | .obj [], s => ∃ w, Ws w ∧ s = '{' :: (w ++ ['}'])
  | .obj ((k, x) :: ms), s => ∃ w q w1 w2 t w' r, Ws w ∧ JQuoted q k ∧ Ws w1 ∧ Ws w2 ∧ JVal x t ∧ Ws w' ∧
      JMembers ms r ∧ s = '{' :: (w ++ q ++ w1 ++ [':'] ++ w2 ++ t ++ w' ++ r ++ ['}'])
/-- Further elements of an array, each after a comma. -/
def JElems : List Json → Str → Prop
  | [], s => s = []
  | x :: xs, s => ∃ w t w' r, Ws w ∧ JVal x t ∧ Ws w' ∧ JElems xs r ∧ s = ',' :: (w ++ t ++ w' ++ r)
/-- Further members of an object, each after a comma. -/
def JMembers : List (Str × Json) → Str → Prop
  | [], s => s = []
  | (k, x) :: ms, s => ∃ w q w1 w2 t w' r, Ws w ∧ JQuoted q k ∧ Ws w1 ∧ Ws w2 ∧ JVal x t ∧ Ws w' ∧
      JMembers ms r ∧ s = ',' :: (w ++ q ++ w1 ++ [':'] ++ w2 ++ t ++ w' ++ r)
end

/-- The text `s` is a JSON document with value `j`. -/
def JsonText (j : Json) (s : Str) : Prop := ∃ w t w', Ws w ∧ JVal j t ∧ Ws w' ∧ s = w ++ t ++ w'

mutual
/-- Nesting depth of arrays and objects. -/
def depth : Json → Nat
  | .arr xs => depthElems xs + 1
  | .obj ms => depthMembers ms + 1
  | _ => 0
def depthElems : List Json → Nat
  | [] => 0
  | x :: xs => max (depth x) (depthElems xs)
def depthMembers : List (Str × Json) → Nat
  | [] => 0
  | (_, x) :: ms => max (depth x) (depthMembers ms)
end

mutual
/-- Every number literal satisfies `p`. -/
def AllNums (p : Str → Prop) : Json → Prop
  | .num l => p l
  | .arr xs => AllNumsElems p xs
  | .obj ms => AllNumsMembers p ms
  | _ => True
def AllNumsElems (p : Str → Prop) : List Json → Prop
  | [] => True
  | x :: xs => AllNums p x ∧ AllNumsElems p xs
def AllNumsMembers (p : Str → Prop) : List (Str × Json) → Prop
  | [] => True
  | (_, x) :: ms => AllNums p x ∧ AllNumsMembers p ms
end

/-- An integer literal that fits `u64` (or `i64` if negative). -/
def InRangeInt (l : Str) : Prop :=
  (∃ ds, l = '-' :: ds ∧ Digits ds ∧ decVal ds ≤ 9223372036854775808) ∨
  (Digits l ∧ decVal l ≤ 18446744073709551615)

/-- What serde_json requires of a number literal. -/
def NumAccepted (numOk : Str → Bool) (l : Str) : Prop := InRangeInt l ∨ numOk l = true

/-- `x` is the value of member `k` of the object `j` (the last one, if the key is repeated). -/
def HasMember (j : Json) (k : Str) (x : Json) : Prop :=
  ∃ ms pre post, j = .obj ms ∧ ms = pre ++ (k, x) :: post ∧ ∀ m ∈ post, m.1 ≠ k

end CSS.Spec
