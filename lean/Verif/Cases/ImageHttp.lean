import Verif.Props.ImageHttpSite
import Verif.Props.ImageSiteExamples
/-
Concrete cases for C94.
-/
namespace CSS
open Spec ImageUploader Spec.ImageUploader

/-- Only `application/json` itself is JSON. -/
def plainMime : MimeTypes := ⟨fun ct => decide (ct = s% "application/json"), by decide⟩

def jsonType : Option Str := some (s% "application/json")

/-- C94_routed: white space, another order, an unknown member and text after the object do not matter. -/
example : WebFor plainMime ⟨s% "POST", s% "/images", jsonType,
    s% " { \"content_type\" : \"image\\/png\", \"x\":[{}], \"content_length\":7 } rest"⟩ (.create 7 (s% "image/png")) :=
  (C94_routed _ _ _).1 (by decide +kernel)

/-- C94_routed: an array will do. -/
example : WebFor plainMime ⟨s% "POST", s% "/images", jsonType, s% "[7,\"image/png\"]"⟩ (.create 7 (s% "image/png")) :=
  (C94_routed _ _ _).1 (by decide +kernel)

/-- C94_routed: the id is percent-decoded. -/
example : WebFor plainMime ⟨s% "PATCH", s% "/images/%61%2Fb", none, []⟩ (.update (s% "a/b")) :=
  (C94_routed _ _ _).1 (by decide +kernel)

/-- C94_routed: a listing. -/
example : WebFor plainMime ⟨s% "GET", s% "/images", none, []⟩ .list := (C94_routed _ _ _).1 (by decide +kernel)

/-- C94_page -/
example : route plainMime ⟨s% "GET", s% "/", none, []⟩ = .page := (C94_page _ _).2 ⟨rfl, .inl rfl⟩

/-- C94_refused: a path with too many segments, an unknown method, an id that is not UTF-8, a body that does not say that it is
JSON, a size that is too large, a member twice, and a size below zero. -/
example : RefusedFor plainMime ⟨s% "PATCH", s% "/images/a/b", none, []⟩ .notFound ∧
    RefusedFor plainMime ⟨s% "PATCH", s% "/images/", none, []⟩ .notFound ∧
    RefusedFor plainMime ⟨s% "DELETE", s% "/images/a", none, []⟩ .methodNotAllowed ∧
    RefusedFor plainMime ⟨s% "PATCH", s% "/images/%ff", none, []⟩ .badPath ∧
    RefusedFor plainMime ⟨s% "POST", s% "/images", some (s% "text/plain"), s% "[7,\"image/png\"]"⟩ .unsupportedMediaType ∧
    RefusedFor plainMime ⟨s% "POST", s% "/images", none, s% "[7,\"image/png\"]"⟩ .unsupportedMediaType ∧
    RefusedFor plainMime ⟨s% "POST", s% "/images", jsonType, s% "[18446744073709551616,\"image/png\"]"⟩ .badBody ∧
    RefusedFor plainMime ⟨s% "POST", s% "/images", jsonType,
      s% "{\"content_length\":7,\"content_type\":\"a\",\"content_length\":7}"⟩ .badBody ∧
    RefusedFor plainMime ⟨s% "POST", s% "/images", jsonType, s% "[-1,\"image/png\"]"⟩ .badBody := by
  simp only [← C94_refused]
  decide +kernel

/-- C94_refused: a body of one byte more than 2 MiB. -/
example (body : Str) (h : (utf8 body).length = 2097153) :
    route plainMime ⟨s% "POST", s% "/images", jsonType, body⟩ = .refused .payloadTooLarge :=
  (C94_refused _ _ _).2 ⟨rfl, rfl, ⟨_, rfl, by decide⟩, by show 2097152 < (utf8 body).length; omega⟩

/-- C94_sent: the hypotheses are met. -/
example : ∃ q, Upload.chosen.webRequest cat = some q ∧ q.body = s% "{\"content_length\":4,\"content_type\":\"image/png\"}" ∧
    route plainMime q = .api (.create 4 (s% "image/png")) :=
  ⟨_, rfl, by decide +kernel, C94_sent _ cat .chosen _ _ rfl rfl (by intro id h; cases h) (by decide) (by decide)⟩

/-- C94_sent: the hypotheses are met for a report. -/
example : ∃ q, (Upload.uploaded uuidA).webRequest cat = some q ∧ q.path = s% "/images/" ++ uuidA ∧
    route plainMime q = .api (.update uuidA) :=
  ⟨_, rfl, rfl, C94_sent _ cat (.uploaded uuidA) _ _ rfl rfl (by intro id h; cases h; decide) (by decide) (by decide)⟩

/-- C94_untyped: the hypotheses are met. -/
example : route plainMime ⟨s% "POST", s% "/images", jsonType, s% "{\"content_length\":1}"⟩ = .refused .badBody :=
  C94_untyped _ ⟨s% "x", [], [0]⟩ .chosen _ rfl rfl (by decide)

/-- C94_received: an answer with a quotation mark. -/
example : (Upload.registering 0).receives
    ⟨200, s% "{\"form_data\":[[\"key\",\"a\\\"b\"]],\"method\":\"POST\",\"url\":\"https://x/\"}"⟩ =
      .uploading [(s% "key", s% "a\"b")] (s% "POST") (s% "https://x/") :=
  C94_received (.registering 0) (.form [(s% "key", s% "a\"b")] (s% "POST") (s% "https://x/")) _ (by
    have : (formJson [(s% "key", s% "a\"b")] (s% "POST") (s% "https://x/")).render =
      s% "{\"form_data\":[[\"key\",\"a\\\"b\"]],\"method\":\"POST\",\"url\":\"https://x/\"}" := by decide +kernel
    simp only [Reply.web, this])

/-- C94_site: the file of the example of C81 is uploaded and shown over HTTP. -/
example : ∃ n e s url, Site.WebRun plainMime (.alone Reference.env config) config (s% "test@example.com") n e
    [.created 0 uuidA, .updated 1 uuidA, .listed 2] s ∧ s.uploads[0]? = some (cat, .shown [url]) := by
  obtain ⟨n, e, key, s, url, _, _, hrun, hu, _, hf, hr⟩ := cat_shown
  refine ⟨n, e, s, url, (C94_site _ _ _ _ _ _ _ s (by decide)).2 ⟨hrun, fun p hp => ?_, fun p hp => ?_⟩, hu⟩
  · have := List.mem_map_of_mem (f := (·.1)) hp
    rw [hf, List.mem_singleton] at this
    rw [this]
    exact ⟨by decide, by decide⟩
  · have := List.mem_map_of_mem (f := (·.1)) hp
    rw [hr] at this
    simp only [List.mem_cons, List.not_mem_nil, or_false] at this
    rcases this with h | h | h <;> rw [h]
    · exact ⟨_, C94_sent _ cat .chosen _ _ rfl rfl (by intro id h; cases h) (by decide) (by decide)⟩
    · exact ⟨_, C94_sent _ cat (.uploaded uuidA) _ _ rfl rfl (by intro id h; cases h; decide) (by decide) (by decide)⟩
    · exact ⟨_, C94_sent _ cat .reported _ _ rfl rfl (by intro id h; cases h) (by decide) (by decide)⟩

end CSS
