import Verif.Model.ImageUploader
/-
What a user of the example server relies on, in terms of what happened under its mutex.
-/
namespace CSS.Spec.ImageUploader
open CSS.ImageUploader

/-- The ids of the registered images, in this order. -/
def createdIds (events : List Event) : List Str :=
  events.filterMap fun e => match e with
    | .created _ id => some id
    | _ => none

/-- The image was registered and its upload reported after that. -/
def UploadedIn (events : List Event) (id : Str) : Prop :=
  ∃ before between after i j, events = before ++ .created i id :: (between ++ .updated j id :: after)

/-- The events of one request. -/
def eventsOf (events : List Event) (i : Nat) : List Event :=
  events.filter fun e => match e with
    | .created j _ => j = i
    | .updated j _ => j = i
    | .listed j => j = i

/-- `url` is a signed URL to get the object `id`, signed when the clock was read as `now` and then as `start`, good for a
minute from `now` on. -/
def UrlFor (env : Env) (cfg : Config) (id url : Str) (now start : Time) : Prop :=
  ∃ w w' : World, now = env.now w.ticks ∧ start = env.now (w.ticks + 1) ∧
    buildSignedUrl env
      { bucketName := cfg.bucketName, objectName := id, region := none, expires := now + 60000000000, httpMethod := s% "GET",
        accessibleAt := none, signingKey := cfg.signingKey, useSignBlob := cfg.useSignBlob, headers := [],
        queryParameters := [] } { w with ticks := w.ticks + 1 } = (.ok url, w')

/-- `fields` is a signed form to upload the object `id` with this length and type, signed when the clock was read as `now`
and then as `start`, good for a minute from `now` on. -/
def FormFor (env : Env) (cfg : Config) (id : Str) (contentLength : Nat) (contentType : Str) (fields : List (Str × Str))
    (now start : Time) : Prop :=
  ∃ w w' : World, now = env.now w.ticks ∧ start = env.now (w.ticks + 1) ∧
    (Builder.ofCalls [.bucket cfg.bucketName, .contentLength contentLength, .contentType contentType, .key id,
      .policyDocumentSigningOptions
        { accessibleAt := none, expiration := now + 60000000000, region := none, signingKey := cfg.signingKey,
          useSignBlob := cfg.useSignBlob }]).build env { w with ticks := w.ticks + 1 } =
      (.ok fields, w')

end CSS.Spec.ImageUploader
