import Verif.Model.Codec
import Verif.Model.Iso8601
import Verif.Model.Outcome
/-
`pem::parse(private_key.as_bytes())` and `.contents()`: src/private/signing_key_inner.rs:66-68, with the part of the crate pem
3.0.6 behind it (its `parser` module, `Pem::new_from_captures` and `HeaderMap::parse`). The crate works on bytes; all the
markers it looks for are ASCII, so on the bytes of a `String` it cuts between characters, and here it works on characters
(its error for data that is no UTF-8 cannot occur). Its errors are not told apart, because
src/private/signing_key_inner.rs:67 does not. The tag and the headers are checked and then dropped, as the code uses
`contents()` only.
-/
namespace CSS

/-- pem `parser::read_until`, the loop: `found` characters of the marker have just been read, `before` is all that has been read
(backwards). After a mismatch it starts again behind the character that did not match. Simplified: the loop of the crate also
ends when the rest of the input is shorter than the rest of the marker, where the result is the same. -/
def pemScan (marker : Str) : Nat → Str → Str → Option (Str × Str)
  | _, _, [] => none
  | found, before, c :: rest =>
    let found' := if marker[found]? = some c then found + 1 else 0
    if found' = marker.length then some (((c :: before).drop found').reverse, rest)
    else pemScan marker found' (c :: before) rest

/-- pem `parser::read_until`: what is before the marker and what is behind it. -/
def pemReadUntil (marker input : Str) : Option (Str × Str) := pemScan marker 0 [] input

/-- pem `parser::skip_whitespace`. -/
def pemSkip (input : Str) : Str := input.dropWhile fun c => c = ' ' || c = '\n' || c = '\r' || c = '\t'

/-- pem `parser::extract_headers_and_data`. -/
def pemHeadersAndData (body : Str) : Str × Str :=
  match pemReadUntil (s% "\n\n") body with
  | some r => r
  | none =>
    match pemReadUntil (s% "\r\n\r\n") body with
    | some r => r
    | none => ([], body)

/-- `str::split('\n')` -/
def splitLines : Str → List Str
  | [] => [[]]
  | c :: rest =>
    if c = '\n' then [] :: splitLines rest
    else match splitLines rest with
      | [] => [[c]]
      | line :: lines => (c :: line) :: lines

/-- `str::lines`: what follows the last line end is a line only if it is not empty. Simplified: a carriage return at the end of a
line is kept; neither `trim_end` nor the search for a colon is affected. -/
def strLines (s : Str) : List Str :=
  let ls := splitLines s
  if ls.getLast? = some [] then ls.dropLast else ls

/-- `str::trim_end` -/
def trimEnd (s : Str) : Str := (s.reverse.dropWhile isWhiteSpace).reverse

/-- `pem::parse(..)` and `.contents()`: src/private/signing_key_inner.rs:66-68 -/
def pemRead (text : Str) : Option Bytes := do
  let (_, afterBegin) ← pemReadUntil (s% "-----BEGIN ") text
  let (tag, afterTag) ← pemReadUntil (s% "-----") afterBegin
  let (body, afterBody) ← pemReadUntil (s% "-----END ") (pemSkip afterTag)
  let (tagEnd, _) ← pemReadUntil (s% "-----") afterBody
  if tag = [] then none
  else if tagEnd = [] then none
  else if tag ≠ tagEnd then none
  else do
    let contents ← b64Decode ((strLines (pemHeadersAndData body).2).map trimEnd).flatten
    if (strLines (pemHeadersAndData body).1).all fun line => line.contains ':' then some contents else none

/-- The environment reads private keys as the crate pem does. -/
def Env.ReadsPem (env : Env) : Prop := ∀ text, env.pemParse text = pemRead text

end CSS
