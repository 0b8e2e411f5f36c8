import Verif.Spec.ImageSite
import Verif.Spec.KeyOwner
import Verif.Model.ImageUploaderShared
/-
What the example server hands out when its calls of the crate run concurrently, in terms of the history of these calls.
-/
namespace CSS.Spec.ImageUploader
open CSS.ImageUploader

/-- In this history, a call has returned `url`, a signed URL to get the object `id`; the server had read its clock as `now`, the
call then read it as `start`, and the URL is good for a minute from `now` on. -/
def UrlFrom (trace : List CSS.Event) (cfg : Config) (id url : Str) (now start : Time) : Prop :=
  ∃ hist, ValidFrom none hist start ∧ ReturnedAfter trace
    (.url { bucketName := cfg.bucketName, objectName := id, region := none, expires := now + 60000000000, httpMethod := s% "GET",
            accessibleAt := none, signingKey := cfg.signingKey, useSignBlob := cfg.useSignBlob, headers := [],
            queryParameters := [] }) (.url (.ok url)) hist

/-- In this history, a call has returned the fields of a signed form to upload the object `id` with this length and type; the
server had read its clock as `now`, the call then read it as `start`, and the form is good for a minute from `now` on. -/
def FormFrom (trace : List CSS.Event) (cfg : Config) (id : Str) (contentLength : Nat) (contentType : Str) (fields : List (Str × Str))
    (now start : Time) : Prop :=
  ∃ hist, ValidFrom none hist start ∧ ReturnedAfter trace
    (.form [.bucket cfg.bucketName, .contentLength contentLength, .contentType contentType, .key id,
      .policyDocumentSigningOptions
        { accessibleAt := none, expiration := now + 60000000000, region := none, signingKey := cfg.signingKey,
          useSignBlob := cfg.useSignBlob }]) (.form (.ok fields)) hist

end CSS.Spec.ImageUploader
