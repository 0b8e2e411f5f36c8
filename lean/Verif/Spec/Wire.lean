import Verif.Model.Wire
import Verif.Spec.Concurrent
/-
Which account an HTTP request to the IAM Service Account Credentials API asks to sign (documentation of
`projects.serviceAccounts.signBlob`).
-/
namespace CSS.Spec

/-- The request asks for a signature of this account: there is no query, and the path is the method's, where one segment,
percent-decoded, is the account (UTF-8). -/
def AsksAccount (t : Target) (account : Str) : Prop :=
  t.host = s% "iamcredentials.googleapis.com" ∧ t.query = none ∧
  ∃ segment, t.path = s% "/v1/projects/-/serviceAccounts/" ++ segment ++ s% ":signBlob" ∧ '/' ∉ segment ∧
    percentDecode segment = utf8 account

/-- The account can be written in a URL as it is: nothing in it has a meaning for a URL parser. -/
def PlainAccount (account : Str) : Prop := (∀ c ∈ account, c ∉ s% "/?#\\\t\n\r") ∧ ¬ HasEscape account

end CSS.Spec
