import Verif.Spec.Url
/-
Which request the parts of a string to sign describe.
-/
namespace CSS.Spec

/-- `p` are the parts of a string to sign for the request that `o` asks for, valid from `t`: algorithm, second, region and
method are those of `o`, and so are the headers: all names in lower case, each once, in order, with all their values. (Path
and query are those of the URL, see C17, C56 and C57.) -/
structure PartsFor (o : UrlOptions) (t : Time) (p : SignedParts) : Prop where
  algorithm : p.algorithm = s% "GOOG4-RSA-SHA256"
  date : BasicDenotes p.date (t / 1000000000)
  region : p.region = o.region.getD (s% "auto")
  method : p.method = o.httpMethod
  pathLine : percentDecode p.pathLine = percentDecode p.path
  order : (p.headers.map (·.1)).Pairwise LexLt
  names : ∀ name, name ∈ p.headers.map (·.1) ↔ ∃ x ∈ requestHeaders o, asciiLower x.1 = name
  values : ∀ line ∈ p.headers, line.2 = headerValues (requestHeaders o) line.1

end CSS.Spec
