import Verif.Props.ServerExamples
import Verif.Props.PostServerExamples
import Verif.Props.StorageExamples
import Verif.Props.ImageUploaderExamples
import Verif.Props.SigningRequests
import Verif.Props.ErrorText
import Verif.Props.Failures
import Verif.Cases.Concurrent
/-
More theorems applied to concrete cases: C65, C66, C68-C72, C74-C76, C80, C87.
-/
namespace CSS.Cases
open Spec Conformance

/-- C65_window: the request of `Reference.accepted` came in time. -/
example : ∃ url w' n e time, buildSignedUrl Reference.env Reference.options world = (.ok url, w') ∧
    Accepts (s% "test@example.com") n e (theRequest Reference.options url time) ∧
    time * 1000000000 < Reference.options.expires := by
  obtain ⟨url, w', key, n, e, p, time, h, _, _, _, ha, _⟩ := Reference.accepted
  exact ⟨url, w', n, e, time, h, ha, (C65_window Reference.env Reference.options world w' url _ n e _ h rfl ha).2.2⟩

/-- C68_same_signature, C68_unforgeable, with the form itself. -/
example : ∃ fs w', ∃ o : SigningOptions, ∃ n e, (Builder.ofCalls Reference.testCalls).build Reference.env world = (.ok fs, w') ∧
    AcceptsPost (s% "test@example.com") n e ⟨s% "example-bucket", fs, 1024, 1640995200⟩ ∧
    Submits Reference.testCalls (validFrom Reference.env o.accessibleAt world) o.expiration fs ⟨s% "example-bucket", fs, 1024, 1640995200⟩ := by
  obtain ⟨fs, w', o, key, n, e, ho, h, _, _, hacc⟩ := Reference.form_accepted
  have ha := (hacc 1024 1640995200).2 ⟨by decide, by decide, rfl⟩
  exact ⟨fs, w', o, n, e, h, ha, C68_unforgeable Reference.env Reference.testCalls o world w' fs n e ho h _ _ ha rfl⟩

/-- C70_create, C70_update, C70_events and C69_listing: the history of `ImageUploader.history`. -/
example : ∃ s id, ImageUploader.Run (.alone Reference.env ImageUploader.config) ImageUploader.config
      [.created 1 ImageUploader.uuidB, .created 0 ImageUploader.uuidA, .updated 3 ImageUploader.uuidA, .listed 2, .updated 4 ImageUploader.uuidB] s ∧
    s.tasks[3]? = some (.update id, .replied .noContent) := by
  obtain ⟨s, fs, fs', url, h, _⟩ := ImageUploader.history
  exact ⟨s, _, h, (C70_events _ _ _ s h).2.1 3 ImageUploader.uuidA (by simp)⟩

/-- C70_registered and C71_listed: the same history. Its listing shows a URL for a registered image, and a registration got a
form. -/
example : ∃ s fs url, ImageUploader.Run (.alone Reference.env ImageUploader.config) ImageUploader.config
      [.created 1 ImageUploader.uuidB, .created 0 ImageUploader.uuidA, .updated 3 ImageUploader.uuidA, .listed 2, .updated 4 ImageUploader.uuidB] s ∧
    s.tasks[0]? = some (.create 1024 (s% "image/png"), .replied (.form fs (s% "POST") (s% "https://storage.googleapis.com/my-bucket"))) ∧
    s.tasks[2]? = some (.list, .replied (.urls [url])) ∧
    Spec.ImageUploader.IsBucketName ImageUploader.config.bucketName ∧
    ∃ id path, id ∈ [ImageUploader.uuidA, ImageUploader.uuidB] ∧ urlPath (s% "https://storage.googleapis.com") url = some path ∧
      percentDecode path = utf8 (s% "/my-bucket/" ++ id) := by
  obtain ⟨s, fs, url, n, e, h, h0, h2, _⟩ := ImageUploader.history_accepted
  have hb : Spec.ImageUploader.IsBucketName ImageUploader.config.bucketName := by decide
  obtain ⟨j, id, _, _, _, hm, _, _, ⟨path, hp, hd⟩, _⟩ := C71_listed _ _ _ s h 2 _ _ h2 url (by simp) hb
  refine ⟨s, fs, url, h, h0, h2, hb, id, path, ?_, hp, ?_⟩
  · rcases (by simpa using hm : (j = 1 ∧ id = _) ∨ (j = 0 ∧ id = _)) with ⟨_, h⟩ | ⟨_, h⟩ <;> simp [h]
  · rw [hd]; rfl

/-- C74_url_messages_distinct, C74_form_messages_distinct, C74_key_messages_distinct. -/
example (src src' : SourceTexts) : BuildUrlError.httpRequest.text src ≠ BuildUrlError.invalidHeaderName.text src' :=
  fun h => absurd (C74_url_messages_distinct src src' _ _ h) (by decide)
example (src src' : SourceTexts) : FormError.keyNotFound.text src ≠ FormError.bucketNotFound.text src' :=
  fun h => absurd (C74_form_messages_distinct src src' _ _ (by intro c h; cases h) h) (by decide)

/-- C75_message_is_no_policy. -/
example : ∃ url w' p, buildSignedUrl env urlOptions world = (.ok url, w') ∧ IsSigned env w'.log testKey url p ∧
    ∀ j, ¬ CarriesJson p.stringToSign j := by
  obtain ⟨url, w', h⟩ := urlOptions_ok
  obtain ⟨p, h1, h2⟩ := C75_message_is_no_policy env urlOptions world w' url h
  exact ⟨url, w', p, h, h1, h2⟩

/-- C80_would_return: the request of call 1 in `history`, answered with another signature. -/
example : ∃ s pre r s' result, Sys.Reach btEnv baseOf s ∧ Sys.Reach btEnv baseOf s' ∧
    s'.trace = pre ++ [.did 1 (.sent r), .did 1 (.status (some 201)), .did 1 (.body (some (s% "{\"keyId\":\"k\",\"signedBlob\":\"AQ==\"}"))),
      .returned 1 result] := by
  obtain ⟨s, hr, _, ⟨pre, r, post, ht, hm⟩, _⟩ := history
  obtain ⟨s', result, hr', ht', _⟩ := C80_would_return hr ht hm (answer := s% "{\"keyId\":\"k\",\"signedBlob\":\"AQ==\"}") (blob := s% "AQ==")
    (signature := [1]) ((C55_blob_text _ _).1 (by decide +kernel)) (by decide +kernel) (status := 201) (by decide) (by decide)
  exact ⟨s, pre, r, s', result, hr, hr', ht'⟩

/-- C87_url_replay. -/
example : ∃ s pre url post env' w w', Sys.Reach btEnv baseOf s ∧ s.trace = pre ++ .returned 0 (.url (.ok url)) :: post ∧
    buildSignedUrl env' btUrlOptions w = (.ok url, w') := by
  obtain ⟨s, hr, _, _, ⟨pre, url, post, ht, hst⟩, _⟩ := history
  obtain ⟨env', w, w', _, _, h⟩ := C87_url_replay hr ht hst
  exact ⟨s, pre, url, post, env', w, w', hr, ht, h⟩

end CSS.Cases
