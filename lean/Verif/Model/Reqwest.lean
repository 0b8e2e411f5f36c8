import Verif.Model.Url
import Verif.Model.HtmlForm
import Verif.Spec.Server
/-
What a Rust program sends when it posts a returned form with `reqwest`, as the crate's integration test does
(tests/lib.rs:46-61), and when it uses a returned URL. From `multipart.rs` and `async_impl/client.rs` of reqwest 0.12, whose forms use
the encoding `PercentEncoding::PathSegment` unless told otherwise.
-/
namespace CSS.Reqwest

/-- `PATH_SEGMENT_ENCODE_SET` of reqwest: what is encoded in names. -/
def nameEncSet (n : Nat) : Bool :=
  encControls n || n = 32 || n = 34 || n = 35 || n = 37 || n = 47 || n = 60 || n = 62 || n = 63 || n = 96 || n = 123 || n = 125

/-- How a name is written (`PercentEncoding::encode_headers`): as it is, if nothing had to be encoded, and otherwise in the notation
of RFC 5987. The crate percent-encoding also returns a borrowed text (which reqwest takes for an unchanged one) for an encoded text of a
single byte. -/
def nameParameter (name : Str) : Str :=
  let encoded := utf8PercentEncode nameEncSet name
  if (∀ b ∈ utf8 name, nameEncSet b.toNat = false) ∨ (utf8 name).length ≤ 1 then s% "name=\"" ++ encoded ++ s% "\""
  else s% "name*=utf-8''" ++ encoded

/-- A part without a file name and type. -/
def part (name : Str) (content : Bytes) : Bytes :=
  utf8 (s% "Content-Disposition: form-data; " ++ nameParameter name ++ s% "\r\n\r\n") ++ content

/-- The body of the request: tests/lib.rs:48-59, `form.text(name, value)` for each field and
`form.part("file", Part::bytes(content))`. The boundary is chosen by reqwest at random. -/
def postBody (boundary : Str) (fields : List (Str × Str)) (content : Bytes) : Bytes :=
  (((fields.map fun f => part f.1 (utf8 f.2)) ++ [part (s% "file") content]).flatMap fun part =>
    utf8 (s% "--" ++ boundary ++ s% "\r\n") ++ part ++ utf8 (s% "\r\n")) ++ utf8 (s% "--" ++ boundary ++ s% "--\r\n")

/-- The URL of the request for a URL text: reqwest parses it with the `url` crate (`IntoUrl`) and sends it without the fragment. Simplified:
only for URLs of the host of the crate, others are not modelled. -/
def target (env : Env) (url : Str) : Option Str :=
  match stripPrefix hostname url with
  | some ('/' :: rest) =>
    let u := Url.parse env ('/' :: rest)
    some (hostname ++ { u with fragment := none }.toRest)
  | _ => none

/-- `reqwest::get(url)` at `time`: tests/lib.rs:76,135,171,206,238,289,344. The only header of reqwest's own is `accept`; hyper adds
`host`. -/
def get (env : Env) (url : Str) (time : Int) : Option Spec.Incoming :=
  (target env url).map fun url =>
    ⟨s% "GET", url, [(s% "accept", s% "*/*"), (s% "host", s% "storage.googleapis.com")], time⟩

/-- `client.post(url).multipart(form).send()` at `time`: tests/lib.rs:119,273,328. -/
def post (env : Env) (url boundary : Str) (body : Bytes) (time : Int) : Option Spec.Incoming :=
  (target env url).map fun url =>
    ⟨s% "POST", url, [(s% "content-type", s% "multipart/form-data; boundary=" ++ boundary), (s% "content-length", natDec body.length),
      (s% "accept", s% "*/*"), (s% "host", s% "storage.googleapis.com")], time⟩

end CSS.Reqwest
