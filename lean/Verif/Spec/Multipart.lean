import Verif.Spec.PostServer
/-
How a server reads the body of a posted form: RFC 2046, section 5.1.1, and RFC 7578.
-/
namespace CSS.Spec

/-- A field, or a file with its name and type. -/
inductive Part where
  | field (name : Str) (content : Bytes)
  | file (name filename type : Str) (content : Bytes)

/-- A part as it is written in the body: its headers, an empty line, the content. Names end at the quotation mark. (Other
headers are not written by browsers, and are not read here.) -/
inductive PartText : Part → Bytes → Prop where
  | field (name : Str) (content : Bytes) : (∀ c ∈ name, c ∉ s% "\"\r\n") →
      PartText (.field name content) (utf8 (s% "Content-Disposition: form-data; name=\"" ++ name ++ s% "\"\r\n\r\n") ++ content)
  | file (name filename type : Str) (content : Bytes) : (∀ c ∈ name, c ∉ s% "\"\r\n") → (∀ c ∈ filename, c ∉ s% "\"\r\n") →
      (∀ c ∈ type, c ∉ s% "\r\n") →
      PartText (.file name filename type content)
        (utf8 (s% "Content-Disposition: form-data; name=\"" ++ name ++ s% "\"; filename=\"" ++ filename ++ s% "\"\r\nContent-Type: " ++
          type ++ s% "\r\n\r\n") ++ content)

/-- What separates the parts: a line end, two hyphens and the boundary. (The first one is at the begin of the body.) -/
def delimiter (boundary : Str) : Bytes := utf8 (s% "\r\n--" ++ boundary)

/-- The body consists of these parts: a delimiter and a line end before each of them, and a delimiter and two hyphens at the end. No part
contains a delimiter. -/
def BodyParts (boundary : Str) (body : Bytes) (parts : List Part) : Prop :=
  ∃ (texts : List Bytes) (rest : Bytes),
    utf8 (s% "\r\n") ++ body =
      (texts.flatMap fun text => delimiter boundary ++ utf8 (s% "\r\n") ++ text) ++ delimiter boundary ++ utf8 (s% "--") ++ rest ∧
    (∀ text ∈ texts, ¬ delimiter boundary <:+: utf8 (s% "\r\n") ++ text) ∧
    texts.length = parts.length ∧ ∀ x ∈ parts.zip texts, PartText x.1 x.2

/-- The server reads this form from the body: the fields, then the file, called `file`. -/
def BodyForm (boundary : Str) (body : Bytes) (fields : List (Str × Str)) (filename : Str) (content : Bytes) : Prop :=
  ∃ type, BodyParts boundary body ((fields.map fun f => .field f.1 (utf8 f.2)) ++ [.file (s% "file") filename type content])

/-- The second text is the first one with every line end (a carriage return, a line feed, or both in this order) written as a carriage
return and a line feed. -/
inductive LineEnds : Str → Str → Prop where
  | nil : LineEnds [] []
  | both {s t : Str} : LineEnds s t → LineEnds ('\r' :: '\n' :: s) ('\r' :: '\n' :: t)
  | carriageReturn {s t : Str} : s.head? ≠ some '\n' → LineEnds s t → LineEnds ('\r' :: s) ('\r' :: '\n' :: t)
  | lineFeed {s t : Str} : LineEnds s t → LineEnds ('\n' :: s) ('\r' :: '\n' :: t)
  | other {s t : Str} (c : Char) : c ≠ '\r' → c ≠ '\n' → LineEnds s t → LineEnds (c :: s) (c :: t)

/-- A character of a name as browsers write it. -/
def quoted : Char → Str
  | '\n' => s% "%0A"
  | '\r' => s% "%0D"
  | '"' => s% "%22"
  | c => [c]

/-- Browsers send the field `f` as `g`. -/
def SentAs (f g : Str × Str) : Prop := (∃ name, LineEnds f.1 name ∧ g.1 = name.flatMap quoted) ∧ LineEnds f.2 g.2

/-- Line ends only in pairs of carriage return and line feed. -/
def PairedNewlines (s : Str) : Prop :=
  ∀ before after, (s = before ++ '\r' :: after → ∃ r, after = '\n' :: r) ∧ (s = before ++ '\n' :: after → ∃ b, before = b ++ ['\r'])

/-- Browsers send such a field as it is: its name has no quotation mark and no line end, its value only paired line ends. -/
def PlainField (f : Str × Str) : Prop := (∀ c ∈ f.1, c ∉ s% "\"\r\n") ∧ PairedNewlines f.2

/-- The boundary is fit for the form: a text of letters, digits and hyphens that is in no value and not in the file. -/
def FreshBoundary (boundary : Str) (fields : List (Str × Str)) (content : Bytes) : Prop :=
  (∀ c ∈ boundary, c.isAlphanum = true ∨ c = '-') ∧ (∀ f ∈ fields, ¬ boundary <:+: f.2) ∧ ¬ utf8 boundary <:+: content

end CSS.Spec
