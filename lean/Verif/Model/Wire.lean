import Verif.Model.HtmlForm
/-
What `reqwest` makes of the URLs of src/private/bound_token.rs: it parses the text with the `url` crate and sends path and query
to the host. Redirects and proxies are not modelled (they are part of the network oracle).
-/
namespace CSS

/-- An HTTP request line: the host that the request goes to, path and query. -/
structure Target where
  host : Str
  path : Str
  query : Option Str
  deriving DecidableEq, Repr

/-- The hosts of src/private/bound_token.rs:71, 190-192, with their schemes. -/
def knownHosts : List (Str × Str) :=
  [(s% "https://", s% "iamcredentials.googleapis.com"), (s% "http://", s% "metadata.google.internal")]

/-- `client.request(method, url)` parses `url`, `execute` sends path and query without the fragment:
src/private/bound_token.rs:95-108, 129-141, 190-213. Simplified: only for the two hosts above (the parsing of other hosts, which
GCE_METADATA_HOST may name, is not modelled), if the text goes on with a slash after the host. -/
def Request.target (env : Env) (r : Request) : Option Target :=
  knownHosts.findSome? fun h =>
    match stripPrefix (h.1 ++ h.2) r.url with
    | some ('/' :: rest) =>
      let u := Url.parse env ('/' :: rest)
      some ⟨h.2, u.path, u.query⟩
    | _ => none

end CSS
