import Verif.Spec.Json
/-
What the two JSON documents read from Google's servers must look like: the answer of the metadata server's token
endpoint and the answer of `signBlob`. First for RFC 8259 values (`Spec.JsonText`), then for texts: members that nobody
reads may hold texts that are not quite JSON (a lone surrogate escape).
-/
namespace CSS.Spec

/-- The object with members `ms` has the key `k` exactly once, with value `x`. -/
def OnlyMember {α : Type} (ms : List (Str × α)) (k : Str) (x : α) : Prop :=
  (ms.filter fun m => m.1 = k).map (·.2) = [x]

/-- A number literal without sign, fraction and exponent, at most 2⁶⁴ - 1, of value `n`. -/
def UnsignedLit (lit : Str) (n : Nat) : Prop := Digits lit ∧ decVal lit = n ∧ n ≤ 18446744073709551615

/-- A token document: an object with the three members (others are ignored), or an array of the three
values. `life` is the number of seconds the token lives. -/
def TokenDoc (j : Json) (token : Str) (life : Nat) (type : Str) : Prop :=
  ∃ lit, UnsignedLit lit life ∧
    ((∃ ms, j = .obj ms ∧ OnlyMember ms (s% "access_token") (.str token) ∧
        OnlyMember ms (s% "expires_in") (.num lit) ∧ OnlyMember ms (s% "token_type") (.str type)) ∨
     j = .arr [.str token, .num lit, .str type])

/-- A `signBlob` answer: an object with the two members (others are ignored), or an array of the two
values. -/
def SignBlobDoc (j : Json) (blob : Str) : Prop :=
  ∃ keyId,
    (∃ ms, j = .obj ms ∧ OnlyMember ms (s% "keyId") (.str keyId) ∧ OnlyMember ms (s% "signedBlob") (.str blob)) ∨
    j = .arr [.str keyId, .str blob]

/-- The inside of a quoted string whose `\u` escapes have four hexadecimal digits, but need not make sense. -/
inductive LooseStr : Str → Prop
  | nil : LooseStr []
  | char {c : Char} {t : Str} : c ≠ '"' → c ≠ '\\' → 32 ≤ c.toNat → LooseStr t → LooseStr (c :: t)
  | esc {e c : Char} {t : Str} : (e, c) ∈ escapes → LooseStr t → LooseStr ('\\' :: e :: t)
  | unicode {a b c d : Char} {n : Nat} {t : Str} : hexQuad a b c d = some n → LooseStr t →
      LooseStr ('\\' :: 'u' :: a :: b :: c :: d :: t)

mutual
/-- The text of a value that is skipped: as in JSON, with loose strings. -/
inductive Skipped : Str → Prop
  | null : Skipped (s% "null")
  | true : Skipped (s% "true")
  | false : Skipped (s% "false")
  | num {l : Str} : JNum l → Skipped l
  | str {b : Str} : LooseStr b → Skipped ('"' :: b ++ ['"'])
  | emptyArr {w : Str} : Ws w → Skipped ('[' :: (w ++ [']']))
  | arr {w t w' r : Str} : Ws w → Skipped t → Ws w' → SkippedElems r → Skipped ('[' :: (w ++ t ++ w' ++ r ++ [']']))
  | emptyObj {w : Str} : Ws w → Skipped ('{' :: (w ++ ['}']))
  | obj {w b w1 w2 t w' r : Str} : Ws w → LooseStr b → Ws w1 → Ws w2 → Skipped t → Ws w' → SkippedMembers r →
      Skipped ('{' :: (w ++ ('"' :: b ++ ['"']) ++ w1 ++ [':'] ++ w2 ++ t ++ w' ++ r ++ ['}']))
/-- Further elements of a skipped array. -/
inductive SkippedElems : Str → Prop
  | nil : SkippedElems []
  | cons {w t w' r : Str} : Ws w → Skipped t → Ws w' → SkippedElems r → SkippedElems (',' :: (w ++ t ++ w' ++ r))
/-- Further members of a skipped object. -/
inductive SkippedMembers : Str → Prop
  | nil : SkippedMembers []
  | cons {w b w1 w2 t w' r : Str} : Ws w → LooseStr b → Ws w1 → Ws w2 → Skipped t → Ws w' → SkippedMembers r →
      SkippedMembers (',' :: (w ++ ('"' :: b ++ ['"']) ++ w1 ++ [':'] ++ w2 ++ t ++ w' ++ r))
end

/-- `MemberTexts ms s`: the text `s` between the braces of an object lists the keys and the texts of the values `ms`. -/
inductive MemberTexts : List (Str × Str) → Str → Prop
  | one {w q k w1 w2 t w' : Str} : Ws w → JQuoted q k → Ws w1 → Ws w2 → Ws w' →
      MemberTexts [(k, t)] (w ++ q ++ w1 ++ [':'] ++ w2 ++ t ++ w')
  | cons {w q k w1 w2 t w' r : Str} {ms : List (Str × Str)} : Ws w → JQuoted q k → Ws w1 → Ws w2 → Ws w' →
      MemberTexts ms r → MemberTexts ((k, t) :: ms) (w ++ q ++ w1 ++ [':'] ++ w2 ++ t ++ w' ++ ',' :: r)

/-- The text `s` is an object with the keys and the texts of the values `ms`. -/
def ObjectText (ms : List (Str × Str)) (s : Str) : Prop :=
  ∃ w body w', Ws w ∧ MemberTexts ms body ∧ Ws w' ∧ s = w ++ '{' :: body ++ '}' :: w'

/-- The text of a token document: an object in which the three members occur once, a quoted string, a number and a
quoted string, and all other members can be skipped; or an array of the three. -/
def TokenText (s token : Str) (life : Nat) (type : Str) : Prop :=
  ∃ q lit q', JQuoted q token ∧ (JNum lit ∧ UnsignedLit lit life) ∧ JQuoted q' type ∧
    ((∃ ms, ObjectText ms s ∧ OnlyMember ms (s% "access_token") q ∧ OnlyMember ms (s% "expires_in") lit ∧
        OnlyMember ms (s% "token_type") q' ∧
        ∀ m ∈ ms, m.1 ∉ [s% "access_token", s% "expires_in", s% "token_type"] → Skipped m.2) ∨
     ∃ w w1 w2 w3 w4 w5 w6 w7, Ws w ∧ Ws w1 ∧ Ws w2 ∧ Ws w3 ∧ Ws w4 ∧ Ws w5 ∧ Ws w6 ∧ Ws w7 ∧
       s = w ++ '[' :: w1 ++ q ++ w2 ++ ',' :: w3 ++ lit ++ w4 ++ ',' :: w5 ++ q' ++ w6 ++ ']' :: w7)

/-- The text of a `signBlob` answer. -/
def SignBlobText (s blob : Str) : Prop :=
  ∃ keyId q q', JQuoted q keyId ∧ JQuoted q' blob ∧
    ((∃ ms, ObjectText ms s ∧ OnlyMember ms (s% "keyId") q ∧ OnlyMember ms (s% "signedBlob") q' ∧
        ∀ m ∈ ms, m.1 ∉ [s% "keyId", s% "signedBlob"] → Skipped m.2) ∨
     ∃ w w1 w2 w3 w4 w5, Ws w ∧ Ws w1 ∧ Ws w2 ∧ Ws w3 ∧ Ws w4 ∧ Ws w5 ∧
       s = w ++ '[' :: w1 ++ q ++ w2 ++ ',' :: w3 ++ q' ++ w4 ++ ']' :: w5)

end CSS.Spec
