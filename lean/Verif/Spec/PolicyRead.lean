import Verif.Model.HtmlForm
import Verif.Spec.Documents
import Verif.Spec.Rfc3339
/-
Which JSON documents are policy documents, in terms of RFC 8259 values (`Spec.JsonText`).
-/
namespace CSS.Spec

/-- The form field called `name`. Its name is what is printed; `x-goog-meta-` alone is not a name. A
condition cannot name `Content-Length`. -/
def Names (name : Str) (f : Field) : Prop :=
  name = f.toStr ∧ name ≠ s% "x-goog-meta-" ∧ name ≠ s% "Content-Length"

/-- The JSON value `j` is the condition `c`. An exact match may also be written as an object. -/
def CondOf (j : Json) : Condition → Prop
  | .exactMatching f v => ∃ name, Names name f ∧
      (j = .arr [.str (s% "eq"), .str ('$' :: name), .str v] ∨ j = .obj [(name, .str v)])
  | .startsWith f v => ∃ name, Names name f ∧ j = .arr [.str (s% "starts-with"), .str ('$' :: name), .str v]
  | .contentLengthRange a b => ∃ x y, UnsignedLit x a ∧ UnsignedLit y b ∧
      j = .arr [.str (s% "content-length-range"), .num x, .num y]

/-- The JSON array `j` holds the conditions `cs`, in order. -/
def CondsOf (j : Json) (cs : List Condition) : Prop :=
  ∃ xs, j = .arr xs ∧ xs.length = cs.length ∧ ∀ p ∈ xs.zip cs, CondOf p.1 p.2

/-- The JSON string `j` is the instant `e`, in the years 0000 to 9999. -/
def ExpirationOf (j : Json) (e : PolicyExpiration) : Prop :=
  ∃ v, j = .str v ∧ ReadsAs v e.ts.val ∧ -62167219200 ≤ e.ts.val ∧ e.ts.val ≤ 253402300799

/-- The JSON value `j` is the policy document `d`: an object with the two members, each once (others are
ignored), or an array of the two values. -/
def PolicyOf (j : Json) (d : PolicyDocument) : Prop :=
  ∃ jc je, CondsOf jc d.conditions ∧ ExpirationOf je d.expiration ∧
    ((∃ ms, j = .obj ms ∧ OnlyMember ms (s% "conditions") jc ∧ OnlyMember ms (s% "expiration") je) ∨
     j = .arr [jc, je])

/-- The text has no `\u` escape. -/
def NoUnicodeEscape (s : Str) : Prop := ¬ (s% "\\u") <:+: s

/-- A condition that names `Content-Length`. -/
def NamesLength : Condition → Prop
  | .exactMatching f _ | .startsWith f _ => f = .contentLength
  | .contentLengthRange _ _ => False

/-- What the Rust types guarantee of every policy document: metadata names are not empty (the only
constructor of a field refuses them), lengths are `u64`, the expiration lies in the years 0000 to 9999. -/
structure WellFormed (d : PolicyDocument) : Prop where
  exact : ∀ f v, .exactMatching f v ∈ d.conditions → f ≠ .xGoogMeta []
  starts : ∀ f v, .startsWith f v ∈ d.conditions → f ≠ .xGoogMeta []
  length : ∀ a b, .contentLengthRange a b ∈ d.conditions → a ≤ 18446744073709551615 ∧ b ≤ 18446744073709551615
  expiration : -62167219200 ≤ d.expiration.ts.val ∧ d.expiration.ts.val ≤ 253402300799

end CSS.Spec
