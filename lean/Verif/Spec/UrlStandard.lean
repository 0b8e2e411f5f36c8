import Verif.Spec.Codec
/-
The URL Standard's reading of an `https://host/` URL, and form-encoded parameters, written from the standard
(https://url.spec.whatwg.org, sections 1.3, 4.4, 5.2) and independent of the model's parser. Two points differ between
versions of the `url` crate and are parameters: whether `^` is escaped in paths, and whether a segment that looks like
a drive letter survives `..`.
-/
namespace CSS.Spec

/-- `%XX`, with upper-case digits, for every byte. -/
def percentBytes (bs : Bytes) : Str :=
  bs.flatMap fun b => '%' :: [(s% "0123456789ABCDEF").getD (b.toNat / 16) '0', (s% "0123456789ABCDEF").getD (b.toNat % 16) '0']

/-- Escape control characters, non-ASCII characters and the characters of `set`. -/
def escape (set : Str) (s : Str) : Str :=
  s.flatMap fun c => if c.toNat < 32 ∨ 127 ≤ c.toNat ∨ c ∈ set then percentBytes (utf8Char c) else [c]

/-- Drop trailing control characters and spaces. -/
def trimEnd : Str → Str
  | [] => []
  | c :: r =>
    match trimEnd r with
    | [] => if c.toNat ≤ 32 then [] else [c]
    | t => c :: t

/-- What the parser looks at: trailing control characters and spaces, and all tabs and line breaks, are dropped. -/
def urlInput (s : Str) : Str := (trimEnd s).filter fun c => c ∉ s% "\t\n\r"

/-- Write every `%2e` as a dot. -/
def undot : Str → Str
  | [] => []
  | c :: r =>
    match c, r with
    | '%', '2' :: 'e' :: r' => '.' :: undot r'
    | '%', '2' :: 'E' :: r' => '.' :: undot r'
    | c, r => c :: undot r

/-- A segment that looks like a Windows drive letter. -/
def LooksLikeDrive (s : Str) : Prop :=
  ∃ c ∈ s% "ABCDEFGHIJKLMNOPQRSTUVWXYZabcdefghijklmnopqrstuvwxyz", s = [c, ':'] ∨ s = [c, '|']
instance (s : Str) : Decidable (LooksLikeDrive s) := by unfold LooksLikeDrive; infer_instance

/-- Remove the last segment. -/
def parent (keepDrive : Bool) (segs : List Str) : List Str :=
  match segs.getLast? with
  | some s => if keepDrive = true ∧ LooksLikeDrive s then segs else segs.dropLast
  | none => []

/-- One segment after another: `..` removes the last one, `.` does nothing. -/
def walk (keepDrive : Bool) (segs : List Str) : List Str :=
  segs.foldl (fun done s => if undot s = s% ".." then parent keepDrive done
    else if undot s = s% "." then done else done ++ [s]) []

/-- Remove dot segments. A path that ends in a dot segment ends in a slash. -/
def removeDots (keepDrive : Bool) (segs : List Str) : List Str :=
  walk keepDrive segs ++ (if ∃ s ∈ segs.getLast?, undot s = s% "." ∨ undot s = s% ".." then [[]] else [])

/-- The characters escaped in a path, a query and a fragment. -/
def pathEscapes (caret : Bool) : Str := s% " \"#<>?`{}" ++ (if caret then s% "^" else [])
def queryEscapes : Str := s% " \"#<>'"
def fragmentEscapes : Str := s% " \"<>`"

/-- The path of `https://host/` followed by `s`: segments end at slashes and backslashes. -/
def standardPath (caret keepDrive : Bool) (s : Str) : Str :=
  (removeDots keepDrive ((splitOn '/' (s.map fun c => if c = '\\' then '/' else c)).map (escape (pathEscapes caret)))).flatMap
    fun seg => '/' :: seg

/-- The characters that form encoding keeps. -/
def formKeeps : Str := s% "*-._0123456789ABCDEFGHIJKLMNOPQRSTUVWXYZabcdefghijklmnopqrstuvwxyz"

/-- `application/x-www-form-urlencoded`: a space is `+`, other characters are escaped. -/
def formText (s : Str) : Str :=
  s.flatMap fun c => if c ∈ formKeeps then [c] else if c = ' ' then ['+'] else percentBytes (utf8Char c)

/-- `name=value`, form-encoded. -/
def formPair (p : Str × Str) : Str := formText p.1 ++ s% "=" ++ formText p.2

/-- The bytes begin (or are) the UTF-8 encoding of some character. -/
def Begins (p : Bytes) : Prop := ∃ c, p <+: utf8Char c

/-- The text that bytes are read as when invalid UTF-8 is replaced: where no character can be read, the longest part
that begins one, or else a single byte, is read as U+FFFD. -/
inductive Lossy : Bytes → Str → Prop
  | nil : Lossy [] []
  | char (c : Char) {r : Bytes} {t : Str} : Lossy r t → Lossy (utf8Char c ++ r) (c :: t)
  | bad (p r : Bytes) {t : Str} : p ≠ [] → (∀ c, ¬ utf8Char c <+: p ++ r) → (p.length = 1 ∨ Begins p) →
      (∀ q, q <+: p ++ r → Begins q → q.length ≤ p.length) → Lossy r t → Lossy (p ++ r) ('\uFFFD' :: t)

/-- A form-encoded text: `+` is a space, then percent-decoding, invalid UTF-8 replaced. -/
def FormReads (s t : Str) : Prop := Lossy (percentDecode (s.map fun c => if c = '+' then ' ' else c)) t

/-- The parameters of a form-encoded query, one per item. -/
inductive FormParams : List Str → List (Str × Str) → Prop
  | nil : FormParams [] []
  | cons {item name value : Str} {items : List Str} {ps : List (Str × Str)} :
      FormReads (cutAt '=' item).1 name → FormReads (cutAt '=' item).2 value → FormParams items ps →
      FormParams (item :: items) ((name, value) :: ps)

/-- The items of a query: the non-empty texts between `&`s. -/
def queryItems (q : Str) : List Str := (splitOn '&' q).filter fun item => item ≠ []

/-- Path, query and fragment of a URL as the standard reads the text `s` after `https://host/`. -/
structure StandardUrl where
  path : Str
  query : Str
  fragment : Option Str

def standardUrl (caret keepDrive : Bool) (s : Str) : StandardUrl :=
  let s := urlInput s
  let main := (cutAt '#' s).1
  { path := standardPath caret keepDrive (cutAt '?' main).1
    query := escape queryEscapes (cutAt '?' main).2
    fragment := if '#' ∈ s then some (escape fragmentEscapes (cutAt '#' s).2) else none }

/-- The escapes of the canonical request: these characters, and no others, are escaped. -/
def canonicalText (s : Str) : Str :=
  s.flatMap fun c => if c ∈ s% "!\"#$&'()*+,:;=?@[]" then percentBytes (utf8Char c) else [c]

/-- Append parameters to a query. -/
def withParams (query : Str) (ps : List (Str × Str)) : Str :=
  join (s% "&") ((if query = [] then [] else [query]) ++ ps.map formPair)

end CSS.Spec
