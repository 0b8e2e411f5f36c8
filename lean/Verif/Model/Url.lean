import Verif.Model.Codec
import Verif.Model.Outcome
/-
The fragment of the crates `url` 2.5.7 (WHATWG URL parser) and `http` 1.3.1 (`Uri`, `HeaderName`,
`HeaderValue`, `HeaderMap`) that the crate uses.

Every URL string the crate parses is `https://storage.googleapis.com` followed by a text that starts
with `/` (src/signed_url.rs:81-87, src/private/signed_url.rs:93), so scheme and host are constant:
functions below work on the text *after* the host.
-/
namespace CSS

/-- `https://storage.googleapis.com` (src/signed_url.rs:84, src/private/signed_url.rs:60) -/
def hostname : Str := s% "https://storage.googleapis.com"

/-- `url::Url` for the fixed scheme and host. `path` always starts with `/`. -/
structure Url where
  path : Str
  query : Option Str
  fragment : Option Str
  deriving DecidableEq, Repr

/-- Rust `trim_end_matches(c <= ' ')`: the URL parser drops trailing C0 controls and spaces. -/
def trimEndC0 (s : Str) : Str := (s.reverse.dropWhile (fun c => c.toNat ≤ 32)).reverse

/-- The URL parser skips tab, LF and CR everywhere. -/
def isTabNl (c : Char) : Bool := c.toNat = 9 || c.toNat = 10 || c.toNat = 13

/-- `percent_encoding::CONTROLS` plus all non-ASCII bytes (always encoded). -/
def encControls (n : Nat) : Bool := n < 32 || 127 ≤ n

/-- `PATH` percent-encode set of url 2.5 (`^` depends on the crate's patch version: `encodeCaret`). -/
def pathEncSet (caret : Bool) (n : Nat) : Bool :=
  encControls n || n = 32 || n = 34 || n = 60 || n = 62 || n = 96 || n = 35 || n = 63 || n = 123
    || n = 125 || (caret && n = 94)
/-- `SPECIAL_QUERY` percent-encode set. -/
def queryEncSet (n : Nat) : Bool :=
  encControls n || n = 32 || n = 34 || n = 35 || n = 60 || n = 62 || n = 39
/-- `FRAGMENT` percent-encode set. -/
def fragmentEncSet (n : Nat) : Bool :=
  encControls n || n = 32 || n = 34 || n = 60 || n = 62 || n = 96

/-- `percent_encoding::utf8_percent_encode(s, set)`. -/
def utf8PercentEncode (set : Nat → Bool) (s : Str) : Str :=
  (utf8 s).flatMap fun b => if set b.toNat then pctByte b else [Char.ofNat b.toNat]

/-- Split a path at `/` and `\` (special URLs). The result is non-empty. -/
def splitSlash : Str → List Str
  | [] => [[]]
  | c :: r =>
    if c = '/' ∨ c = '\\' then [] :: splitSlash r
    else match splitSlash r with
      | [] => [[c]]
      | h :: t => (c :: h) :: t

/-- Double-dot segment: `..` with each dot possibly written `%2e`. -/
def isDoubleDot (seg : Str) : Bool :=
  let s := asciiLower seg
  s = s% ".." || s = s% ".%2e" || s = s% "%2e." || s = s% "%2e%2e"
/-- Single-dot segment. -/
def isSingleDot (seg : Str) : Bool :=
  let s := asciiLower seg
  s = s% "." || s = s% "%2e"

/-- A segment that looks like a Windows drive letter (`C:` or `C|`). -/
def isDriveLetter (seg : Str) : Bool :=
  match seg with
  | [a, b] =>
    ((65 ≤ a.toNat && a.toNat ≤ 90) || (97 ≤ a.toNat && a.toNat ≤ 122)) && (b = ':' || b = '|')
  | _ => false

/-- `shorten_path`: drop the last complete segment (the list is newest first). With `keepDrive` the
url crate refuses to drop a segment that looks like a drive letter (`last_slash_can_be_removed`). -/
def popSegment (keepDrive : Bool) : List Str → List Str
  | [] => []
  | s :: r => if keepDrive && isDriveLetter s then s :: r else r

/-- Serialize `/` followed by the complete segments (given newest first), each followed by `/`. -/
def renderDirs (stack : List Str) : Str := ['/'] ++ stack.reverse.flatMap (fun s => s ++ ['/'])

/-- The relative path state of `Parser::parse_path` (url 2.5): `stack` = complete segments so far,
newest first; the argument list = remaining raw segments, the last one not followed by a slash. -/
def pathLoop (caret keepDrive : Bool) (stack : List Str) : List Str → Str
  | [] => renderDirs stack
  | [last] =>
    let e := utf8PercentEncode (pathEncSet caret) last
    if isDoubleDot e then renderDirs (popSegment keepDrive stack)
    else if isSingleDot e then renderDirs stack
    else renderDirs stack ++ e
  | seg :: more =>
    let e := utf8PercentEncode (pathEncSet caret) seg
    if isDoubleDot e then pathLoop caret keepDrive (popSegment keepDrive stack) more
    else if isSingleDot e then pathLoop caret keepDrive stack more
    else pathLoop caret keepDrive (e :: stack) more

/-- `parse_path_start`/`parse_path` on the text after the host, which starts with `/`. -/
def parsePath (caret keepDrive : Bool) (p : Str) : Str :=
  pathLoop caret keepDrive [] (splitSlash (p.drop 1))

/-- Split off the fragment at the first `#`. -/
def Url.splitParts (s : Str) : Str × Option Str × Option Str :=
  let (beforeHash, frag) := splitFirst '#' s
  let (path, query) := splitFirst '?' beforeHash
  (path, query, frag)

/-- `url::Url::parse(hostname ++ rest)`, `rest` starting with `/`. Never fails for such inputs (the
4 GiB length limit is not modelled). -/
def Url.parse (env : Env) (rest : Str) : Url :=
  let s := (trimEndC0 rest).filter (fun c => !isTabNl c)
  let (path, query, frag) := Url.splitParts s
  { path := parsePath env.encodeCaret env.keepDriveLetter path
    query := query.map (utf8PercentEncode queryEncSet)
    fragment := frag.map (utf8PercentEncode fragmentEncSet) }

/-- `Url::to_string()`, the text after the host. -/
def Url.toRest (u : Url) : Str :=
  u.path ++ (match u.query with | none => [] | some q => '?' :: q)
    ++ (match u.fragment with | none => [] | some f => '#' :: f)

/-- `url.query_pairs_mut().extend_pairs(..)`: the query becomes present, pairs are appended. -/
def Url.extendQuery (u : Url) (ps : List (Str × Str)) : Url :=
  { u with query := some (extendPairs (u.query.getD []) ps) }

/-! ### http::Uri -/

/-- `http::Uri` with the fixed scheme and authority. -/
structure Uri where
  path : Str
  query : Option Str
  deriving DecidableEq, Repr

/-- Characters http's `PathAndQuery` accepts in a path (bytes ≥ 0x7F are accepted). -/
def uriPathOk (c : Char) : Bool :=
  let n := c.toNat
  n = 0x21 || (0x24 ≤ n && n ≤ 0x3B) || n = 0x3D || (0x40 ≤ n && n ≤ 0x5F) || (0x61 ≤ n && n ≤ 0x7A)
    || n = 0x7C || 0x7E ≤ n || n = 0x22 || n = 0x7B || n = 0x7D
/-- Characters http's `PathAndQuery` accepts in a query. -/
def uriQueryOk (c : Char) : Bool :=
  let n := c.toNat
  n = 0x21 || (0x24 ≤ n && n ≤ 0x3B) || n = 0x3D || 0x3F ≤ n

/-- `http::Uri::try_from(hostname ++ rest)`: too long (more than 65534 bytes) or a forbidden character
is an error; the fragment is dropped. -/
def Uri.parse (rest : Str) : Option Uri :=
  if 65534 < (utf8 (hostname ++ rest)).length then none
  else
    let (path, query, _) := Url.splitParts rest
    if path.all uriPathOk && (query.getD []).all uriQueryOk then some { path := path, query := query }
    else none

/-- `Uri::to_string()`, the text after the host. -/
def Uri.toRest (u : Uri) : Str :=
  u.path ++ (match u.query with | none => [] | some q => '?' :: q)

/-! ### headers -/

/-- RFC 7230 token characters (http's `HEADER_CHARS` table). -/
def isTokenChar (c : Char) : Bool :=
  let n := c.toNat
  n = 33 || (35 ≤ n && n ≤ 39) || n = 42 || n = 43 || n = 45 || n = 46 || (48 ≤ n && n ≤ 57)
    || (65 ≤ n && n ≤ 90) || (94 ≤ n && n ≤ 122) || n = 124 || n = 126

/-- `HeaderName::from_bytes`: a non-empty token of at most 65535 bytes, lower-cased. -/
def headerName (k : Str) : Option Str :=
  if k ≠ [] ∧ k.all isTokenChar ∧ k.length ≤ 65535 then some (asciiLower k) else none

/-- `HeaderValue::from_str`: bytes ≥ 32 except 127, or tab. -/
def headerValueOk (v : Str) : Bool :=
  (utf8 v).all fun b => (32 ≤ b.toNat && b.toNat ≠ 127) || b.toNat = 9

/-- `HeaderValue::to_str`: succeeds iff all bytes are visible ASCII, space or tab. -/
def headerToStrOk (v : Str) : Bool :=
  (utf8 v).all fun b => (32 ≤ b.toNat && b.toNat < 127) || b.toNat = 9

/-- `http::HeaderMap`: names in order of first insertion, values in order of insertion. The limit of
2^15 slots is in Model/SignedUrl (`extendHeaders`). -/
abbrev HeaderMap := List (Str × List Str)

/-- `HeaderMap::append`. -/
def HeaderMap.append (m : HeaderMap) (k v : Str) : HeaderMap :=
  match m with
  | [] => [(k, [v])]
  | (k', vs) :: r => if k' = k then (k', vs ++ [v]) :: r else (k', vs) :: HeaderMap.append r k v

/-- `HeaderMap::extend` with `(HeaderName, HeaderValue)` items: `append` each. -/
def HeaderMap.extend (m : HeaderMap) (hs : List (Str × Str)) : HeaderMap :=
  hs.foldl (fun m h => m.append h.1 h.2) m

/-- Iteration over `&HeaderMap`: each value with its name. -/
def HeaderMap.entries (m : HeaderMap) : List (Str × Str) :=
  m.flatMap fun e => e.2.map fun v => (e.1, v)

end CSS
