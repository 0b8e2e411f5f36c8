import Verif.Props.ErrorDebug
/-
Concrete cases for C107.
-/
namespace CSS
open Spec

/-- The texts that std and `http` have. -/
def Conformance.debugTexts : DebugTexts where
  boundToken _ := s% "reqwest::Error { kind: Request }"
  key _ := s% "MalformedFraming"
  file _ := s% "Os { code: 2, kind: NotFound, message: \"No such file or directory\" }"
  http _ := s% "InvalidHeaderName"
  toStr := s% "ToStrError { _priv: () }"
  printable c := c = 'é'

theorem Conformance.debugTexts_visible : VisibleTexts Conformance.debugTexts where
  boundToken _ := visible_plain (by simp only [Conformance.debugTexts]; decide +kernel)
  key _ := visible_plain (by simp only [Conformance.debugTexts]; decide +kernel)
  file _ := visible_plain (by simp only [Conformance.debugTexts]; decide +kernel)
  http _ := visible_plain (by simp only [Conformance.debugTexts]; decide +kernel)
  toStr := visible_plain (by decide +kernel)

/-- C107: what a log shows of failed calls. -/
example :
    BuildUrlError.debug Conformance.debugTexts
      (.signedUrl (.signing (.boundTokenSigning (.signBlobRequestStatus 403 (s% "{\n \"error\": \"é\\\x1b\"}"))))) =
      s% "Error(SignedUrl(Signing(BoundTokenSigning(SignBlobRequestStatus(403, \"{\\n \\\"error\\\": \\\"é\\\\\\u{1b}\\\"}\")))))" ∧
    BuildUrlError.debug Conformance.debugTexts (.expiration (.outOfRange 604801)) = s% "Error(Expiration(OutOfRange(604801)))" ∧
    BuildUrlError.debug Conformance.debugTexts .now = s% "Error(Now)" ∧
    FormError.debug Conformance.debugTexts (.xGoogCredentialInvalid (.invalidCombination .s3 .goog4Request)) =
      s% "Error(XGoogCredentialInvalid(InvalidCombinationOfServiceAndRequestType(S3, Goog4Request)))" ∧
    SigningKeyError.debug Conformance.debugTexts .serviceAccountFileRead =
      s% "Error(ServiceAccountFileRead(Os { code: 2, kind: NotFound, message: \"No such file or directory\" }))" := by
  decide +kernel

/-- C107: forms with no field, one field and two fields. -/
example :
    debugForm (fun _ => false) [] = s% "HtmlFormData([])" ∧
    debugForm (fun _ => false) [(s% "key", s% "a\"b")] = s% "HtmlFormData([(\"key\", \"a\\\"b\")])" ∧
    debugForm (fun c => c = 'é') [(s% "key", s% "é\u200b"), (s% "bucket", s% "\t'")] =
      s% "HtmlFormData([(\"key\", \"é\\u{200b}\"), (\"bucket\", \"\\t'\")])" := by
  decide +kernel

/-- C107 is about failures that occur: a file that cannot be read. -/
example : SigningKey.serviceAccountFromPath Conformance.env .readError = .err .serviceAccountFileRead ∧
    SigningKey.serviceAccountFromPath Conformance.env .openError = .err .serviceAccountFileOpen ∧
    SigningKeyError.debug Conformance.debugTexts .serviceAccountFileRead ≠
      SigningKeyError.debug Conformance.debugTexts .serviceAccountFileOpen := by
  decide +kernel

/-- C107: the texts of other crates are needed to be visible. -/
example : ¬ Visible (fun _ => true) (BuildUrlError.debug { Conformance.debugTexts with http := fun _ => s% "\n" } .httpRequest) := by
  intro h
  exact absurd (h '\n' (by decide +kernel)) (by decide)

end CSS
