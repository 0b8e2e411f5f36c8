import Verif.Spec.Multipart
import Verif.Spec.Storage
/-
What a server reads from a form whose file is sent without a name, and what it does with one that is posted to a signed URL.
-/
namespace CSS.Spec

/-- The server reads this form from the body: the fields, then the content of the file, as a field called `file`. -/
def BareForm (boundary : Str) (body : Bytes) (fields : List (Str × Str)) (content : Bytes) : Prop :=
  BodyParts boundary body ((fields.map fun f => .field f.1 (utf8 f.2)) ++ [.field (s% "file") content])

/-- The name consists of visible ASCII characters, none of which are marks that have to be escaped in a path. -/
def VisibleName (name : Str) : Prop := ∀ c ∈ name, 33 ≤ c.toNat ∧ c.toNat ≤ 126 ∧ c ∉ s% "\"#%/<>?`{}"

/-- The server gets a request with a signed URL, as in `Handles`; and if this is a simple POST of a form with the URL of an
object, whose `key` is the name of this object, then it stores the file. (What it does with another `key` is not documented.) -/
structure HandlesUpload (account : Str) (n e : Nat) (r : Incoming) (body : Bytes) (s s' : Store) : Prop
    extends Handles account n e (.request r body) s s' where
  upload : Accepts account n e r → r.method = s% "POST" → r.Simple →
    ∀ boundary key content bucket, headerValues r.headers (s% "content-type") = [s% "multipart/form-data; boundary=" ++ boundary] →
      BareForm boundary body [(s% "key", key)] content → NamesObject r.url bucket (utf8 key) → s' bucket (utf8 key) = some content

end CSS.Spec
