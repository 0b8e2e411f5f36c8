import Verif.Spec.Form
import Verif.Spec.Calendar
import Verif.Spec.Url
import Verif.Spec.Rsa
/-
How Cloud Storage checks a posted form, written from its documentation (pages "POST Object", "Policy documents" and
"Signatures"): the policy must be signed, not expired, and all its conditions met; every field must be covered by a
condition. Field names are compared as they are written.
-/
namespace CSS.Spec

/-- A form as the server gets it, posted to `bucket` at `time` (in seconds): the fields before the file, and the size of
the file. -/
structure Posted where
  bucket : Str
  fields : List (Str × Str)
  size : Nat
  time : Int

/-- What is given for `name`: the values of the fields of this name; the bucket is given by the URL as well. -/
def Posted.given (r : Posted) (name : Str) : List Str :=
  (if name = s% "bucket" then [r.bucket] else []) ++ fieldValues r.fields name

/-- The fields that need no condition. -/
def Ignored (name : Str) : Prop := name = s% "policy" ∨ name = s% "x-goog-signature" ∨ s% "x-ignore-" <+: name

/-- The condition is met: `["eq", "$name", v]` and `{"name": v}` if the field is given and is `v`;
`["starts-with", "$name", v]` if it is given and starts with `v`; `["content-length-range", a, b]` if the size of the file
is in this range. -/
def Posted.Meets (r : Posted) (c : Json) : Prop :=
  (∃ name v, (c = .arr [.str (s% "eq"), .str ('$' :: name), .str v] ∨ c = .obj [(name, .str v)]) ∧
    r.given name ≠ [] ∧ ∀ x ∈ r.given name, x = v) ∨
  (∃ name v, c = .arr [.str (s% "starts-with"), .str ('$' :: name), .str v] ∧
    r.given name ≠ [] ∧ ∀ x ∈ r.given name, v <+: x) ∨
  (∃ x y a b, c = .arr [.str (s% "content-length-range"), .num x, .num y] ∧ Decimal x a ∧ Decimal y b ∧
    a ≤ r.size ∧ r.size ≤ b)

/-- The condition is about the field `name`. The range of the size is about `Content-Length`. -/
def Covers (c : Json) (name : Str) : Prop :=
  (∃ v, c = .arr [.str (s% "eq"), .str ('$' :: name), .str v] ∨ c = .obj [(name, .str v)] ∨
    c = .arr [.str (s% "starts-with"), .str ('$' :: name), .str v]) ∨
  (name = s% "Content-Length" ∧ ∃ x y, c = .arr [.str (s% "content-length-range"), .num x, .num y])

/-- The server accepts the form: there is one policy, a JSON document with conditions and an expiration that is still to
come; all conditions are met, all fields covered; the algorithm, date, credential and signature are given once each; the
credential is for `account`, whose public key is `(n, e)`; the date has come; the signature of the policy verifies. -/
def AcceptsPost (account : Str) (n e : Nat) (r : Posted) : Prop :=
  ∃ policy document conditions expiration deadline date start region hex signature,
    fieldValues r.fields (s% "policy") = [policy] ∧ CarriesJson policy document ∧
    HasMember document (s% "conditions") (.arr conditions) ∧
    HasMember document (s% "expiration") (.str expiration) ∧ Rfc3339Denotes expiration deadline ∧ r.time < deadline ∧
    (∀ c ∈ conditions, r.Meets c) ∧
    (∀ f ∈ r.fields, ¬ Ignored f.1 → ∃ c ∈ conditions, Covers c f.1) ∧
    fieldValues r.fields (s% "x-goog-algorithm") = [s% "GOOG4-RSA-SHA256"] ∧
    fieldValues r.fields (s% "x-goog-date") = [date] ∧ BasicDenotes date start ∧ start ≤ r.time ∧
    fieldValues r.fields (s% "x-goog-credential") =
      [account ++ s% "/" ++ date.take 8 ++ s% "/" ++ region ++ s% "/storage/goog4_request"] ∧
    fieldValues r.fields (s% "x-goog-signature") = [hex] ∧ hexDecode hex = some signature ∧
    Rsa.Verifies n e (utf8 policy) signature

end CSS.Spec
