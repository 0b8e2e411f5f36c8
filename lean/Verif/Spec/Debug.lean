import Verif.Spec.Codec
/-
How a Rust string literal is read, and what a `Debug` text of a list of fields looks like.
-/
namespace CSS.Spec

/-- The number that hexadecimal digits denote. -/
def hexNumber (digits : Str) : Nat := digits.foldl (fun n d => 16 * n + (hexVal? d).getD 0) 0

/-- `text` stands for the character `c` within a string literal of Rust. -/
inductive LiteralChar : Str → Char → Prop
  | plain (c : Char) : c ≠ '"' → c ≠ '\\' → LiteralChar [c] c
  | nul : LiteralChar (s% "\\0") '\x00'
  | tab : LiteralChar (s% "\\t") '\t'
  | cr : LiteralChar (s% "\\r") '\r'
  | nl : LiteralChar (s% "\\n") '\n'
  | quote : LiteralChar (s% "\\\"") '"'
  | backslash : LiteralChar (s% "\\\\") '\\'
  | unicode (digits : Str) (c : Char) : digits ≠ [] → digits.length ≤ 6 → (∀ d ∈ digits, hexVal? d ≠ none) →
      hexNumber digits = c.toNat → LiteralChar (s% "\\u{" ++ digits ++ s% "}") c

/-- `text` stands for `value` between the quotes of a string literal of Rust. -/
inductive LiteralChars : Str → Str → Prop
  | nil : LiteralChars [] []
  | cons (t : Str) (c : Char) (text value : Str) : LiteralChar t c → LiteralChars text value →
      LiteralChars (t ++ text) (c :: value)

/-- `text` is a string literal of Rust for `value`. -/
def Literal (text value : Str) : Prop := ∃ body, text = s% "\"" ++ body ++ s% "\"" ∧ LiteralChars body value

/-- `text` is a Rust expression for the pair of strings `f`. -/
def PairLiteral (text : Str) (f : Str × Str) : Prop :=
  ∃ name value, text = s% "(" ++ name ++ s% ", " ++ value ++ s% ")" ∧ Literal name f.1 ∧ Literal value f.2

/-- `text` is a Rust expression for the list of fields, without the brackets. -/
inductive PairsLiteral : Str → List (Str × Str) → Prop
  | none : PairsLiteral [] []
  | one (text : Str) (f : Str × Str) : PairLiteral text f → PairsLiteral text [f]
  | more (text : Str) (f : Str × Str) (rest : Str) (g : Str × Str) (fs : List (Str × Str)) : PairLiteral text f →
      PairsLiteral rest (g :: fs) → PairsLiteral (text ++ s% ", " ++ rest) (f :: g :: fs)

/-- Every character is from the space to `~` or a character beyond ASCII that `printable` allows: in particular no line
breaks and no terminal control sequences of ASCII. -/
def Visible (printable : Char → Bool) (text : Str) : Prop :=
  ∀ c ∈ text, (32 ≤ c.toNat ∧ c.toNat ≤ 126) ∨ (127 < c.toNat ∧ printable c = true)

end CSS.Spec
