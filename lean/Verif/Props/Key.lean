import Verif.Lemmas.JsonValue
import Verif.Conformance
/-
C49: `SigningKey::service_account_from_str` / `service_account_from_path`.
-/
namespace CSS
open Spec

/-- The text is a JSON document with value `j` within serde_json's limits: nesting depth at most 127,
and every number literal is a 64-bit integer or accepted as a finite float (`env.numOk`). -/
def Spec.ReadableJson (env : Env) (s : Str) (j : Json) : Prop :=
  JsonText j s ∧ depth j ≤ 127 ∧ AllNums (NumAccepted env.numOk) j

theorem objGet_some (ms : List (Str × Json)) (k : Str) (x : Json) :
    objGet ms k = some x ↔ HasMember (.obj ms) k x := by
  unfold objGet HasMember
  rw [Option.map_eq_some_iff]
  constructor
  · rintro ⟨⟨k', x'⟩, h, rfl⟩
    rw [List.find?_eq_some_iff_append] at h
    obtain ⟨hk, as, bs, e, ha⟩ := h
    simp only [decide_eq_true_eq] at hk
    subst hk
    refine ⟨ms, bs.reverse, as.reverse, rfl, ?_, ?_⟩
    · have := congrArg List.reverse e; simpa using this
    · intro m hm; have := ha m (by simpa using hm); simpa using this
  · rintro ⟨ms', pre, post, e, rfl, hp⟩
    cases e
    refine ⟨(k, x), ?_, rfl⟩
    rw [List.find?_eq_some_iff_append]
    refine ⟨by simp, post.reverse, pre.reverse, by simp, ?_⟩
    intro m hm; simpa using hp m (by simpa using hm)

theorem objGet_none (ms : List (Str × Json)) (k : Str) :
    objGet ms k = none ↔ ¬ ∃ x, HasMember (.obj ms) k x := by
  constructor
  · rintro h ⟨x, hx⟩; rw [(objGet_some ms k x).2 hx] at h; cases h
  · intro h
    cases hh : objGet ms k with
    | none => rfl
    | some x => exact absurd ⟨x, (objGet_some ms k x).1 hh⟩ h

theorem hasMember_obj {j : Json} {k : Str} {x : Json} (h : HasMember j k x) : ∃ ms, j = .obj ms := by
  obtain ⟨ms, _, _, rfl, _⟩ := h; exact ⟨ms, rfl⟩

/-- C49. Success: exactly when the text is a JSON object whose (last) `client_email` and `private_key`
members are strings; the key consists of exactly the two decoded strings. -/
theorem C49_service_account_ok (env : Env) (s : Str) (k : SigningKey) :
    SigningKey.serviceAccountFromStr env s = .ok k ↔
      ∃ j email pem, ReadableJson env s j ∧ HasMember j (s% "client_email") (.str email) ∧
        HasMember j (s% "private_key") (.str pem) ∧ k = .serviceAccount email pem := by
  unfold SigningKey.serviceAccountFromStr
  constructor
  · intro h
    cases hp : parseJson env.numOk s with
    | none => simp [hp] at h
    | some j =>
      rw [hp] at h
      simp only [Res.ofOption_some, Res.bind_ok] at h
      cases j with
      | obj ms =>
        simp only [Json.asObject, Res.ofOption_some, Res.bind_ok] at h
        cases he : objGet ms (s% "client_email") with
        | none => simp [he] at h
        | some ce =>
          cases ce with
          | str email =>
            cases hk : objGet ms (s% "private_key") with
            | none => simp [he, hk, Json.asStr] at h
            | some pk =>
              cases pk with
              | str pem =>
                simp [he, hk, Json.asStr] at h
                exact ⟨_, email, pem, (parseJson_iff _ _ _).1 hp, (objGet_some _ _ _).1 he, (objGet_some _ _ _).1 hk, h.symm⟩
              | _ => simp [he, hk, Json.asStr] at h
          | _ => simp [he, Json.asStr] at h
      | _ => simp [Json.asObject] at h
  · rintro ⟨j, email, pem, hr, he, hk, rfl⟩
    obtain ⟨ms, rfl⟩ := hasMember_obj he
    rw [(parseJson_iff _ _ _).2 hr]
    simp [Json.asObject, Json.asStr, (objGet_some _ _ _).2 he, (objGet_some _ _ _).2 hk]

/-- C49. It never panics. -/
theorem C49_service_account_no_panic (env : Env) (s : Str) (p : PanicSite) :
    SigningKey.serviceAccountFromStr env s ≠ .panic p := by
  unfold SigningKey.serviceAccountFromStr
  cases parseJson env.numOk s with
  | none => simp
  | some j =>
    cases j with
    | obj ms =>
      simp only [Json.asObject, Res.ofOption_some, Res.bind_ok]
      cases objGet ms (s% "client_email") with
      | none => simp
      | some ce =>
        cases ce with
        | str email =>
          cases objGet ms (s% "private_key") with
          | none => simp [Json.asStr]
          | some pk => cases pk <;> simp [Json.asStr]
        | _ => simp [Json.asStr]
    | _ => simp [Json.asObject]

/-- C49. The error is the documented one for the first violated condition, in this order: readable JSON,
object at the root, `client_email` present, it is a string, `private_key` present, it is a string. -/
theorem C49_service_account_errors (env : Env) (s : Str) :
    (SigningKey.serviceAccountFromStr env s = .err .serviceAccountJsonDeserialize ↔
      ¬ ∃ j, ReadableJson env s j) ∧
    (SigningKey.serviceAccountFromStr env s = .err .serviceAccountJsonRootIsNotObject ↔
      ∃ j, ReadableJson env s j ∧ ∀ ms, j ≠ .obj ms) ∧
    (SigningKey.serviceAccountFromStr env s = .err .serviceAccountJsonClientEmailIsNotFound ↔
      ∃ ms, ReadableJson env s (.obj ms) ∧ ¬ ∃ x, HasMember (.obj ms) (s% "client_email") x) ∧
    (SigningKey.serviceAccountFromStr env s = .err .serviceAccountJsonClientEmailIsNotString ↔
      ∃ ms x, ReadableJson env s (.obj ms) ∧ HasMember (.obj ms) (s% "client_email") x ∧ ∀ e, x ≠ .str e) ∧
    (SigningKey.serviceAccountFromStr env s = .err .serviceAccountJsonPrivateKeyIsNotFound ↔
      ∃ ms e, ReadableJson env s (.obj ms) ∧ HasMember (.obj ms) (s% "client_email") (.str e) ∧
        ¬ ∃ x, HasMember (.obj ms) (s% "private_key") x) ∧
    (SigningKey.serviceAccountFromStr env s = .err .serviceAccountJsonPrivateKeyIsNotString ↔
      ∃ ms e x, ReadableJson env s (.obj ms) ∧ HasMember (.obj ms) (s% "client_email") (.str e) ∧
        HasMember (.obj ms) (s% "private_key") x ∧ ∀ p, x ≠ .str p) := by
  have hread : ∀ j, ReadableJson env s j ↔ parseJson env.numOk s = some j := fun j => (parseJson_iff _ _ _).symm
  simp only [hread, ← objGet_some]
  unfold SigningKey.serviceAccountFromStr
  cases parseJson env.numOk s with
  | none => simp
  | some j =>
    cases j with
    | obj ms =>
      simp only [Json.asObject, Res.ofOption_some, Res.bind_ok]
      cases he : objGet ms (s% "client_email") with
      | none => simp [he]
      | some ce =>
        cases ce with
        | str email =>
          cases hk : objGet ms (s% "private_key") with
          | none => simp [Json.asStr, he, hk]
          | some pk => cases pk <;> simp [Json.asStr, he, hk]
        | _ => simp [Json.asStr, he]
    | _ => simp [Json.asObject]

/-- C49. Reading from a file adds only the two I/O errors. -/
theorem C49_service_account_from_path (env : Env) (f : FileResult) (k : SigningKey) :
    SigningKey.serviceAccountFromPath env f = .ok k ↔
      ∃ s, f = .text s ∧ SigningKey.serviceAccountFromStr env s = .ok k := by
  unfold SigningKey.serviceAccountFromPath
  cases f <;> simp

/-- A concrete document: escapes are decoded and the last duplicate wins. -/
example : SigningKey.serviceAccountFromStr Conformance.env
    (s% " {\"client_email\":\"x\",\"n\":[1,-2.5e3,{}],\"private_key\":\"a\\n\\u00e9\\ud83d\\ude00\",\"client_email\":\"e@x\"} ")
    = .ok (.serviceAccount (s% "e@x") ([Char.ofNat 97, Char.ofNat 10, Char.ofNat 0xe9, Char.ofNat 0x1F600])) := by decide +kernel

end CSS
