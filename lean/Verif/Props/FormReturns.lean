import Verif.Lemmas.FormCalls
import Verif.Props.FormErrors
import Verif.Props.FormFields
import Verif.Conformance
/-
C63: exactly when `build` returns a form, which one, and what happens in the world.
-/
set_option linter.unusedSimpArgs false
namespace CSS
open Spec

theorem keySigns_not_hmac {env : Env} {w w' : World} {key : SigningKey} {u : Bool} {m sig : Bytes}
    (h : KeySigns env w key u m sig w') : isHmac key = false := by
  cases h <;> rfl

theorem basic_unique {s s' : Str} {t : Int} (h : BasicDenotes s t) (h' : BasicDenotes s' t) : s = s' := by
  obtain ⟨c, hc, rfl, hs⟩ := h
  obtain ⟨c', hc', rfl, hs'⟩ := h'
  rcases stamp_cases c c' hc hc' with ⟨h, _, _⟩ | ⟨h, _, _⟩ | h
  · rw [hs, hs'] at h; exact absurd h (Int.lt_irrefl _)
  · rw [hs, hs'] at h; exact absurd h (Int.lt_irrefl _)
  · rw [h]

theorem rfc3339_unique {s s' : Str} {t : Int} (h : Rfc3339Denotes s t) (h' : Rfc3339Denotes s' t) : s = s' := by
  obtain ⟨c, hc, rfl, hs⟩ := h
  obtain ⟨c', hc', rfl, hs'⟩ := h'
  rcases stamp_cases c c' hc hc' with ⟨h, _, _⟩ | ⟨h, _, _⟩ | h
  · rw [hs, hs'] at h; exact absurd h (Int.lt_irrefl _)
  · rw [hs, hs'] at h; exact absurd h (Int.lt_irrefl _)
  · rw [h]

theorem rfc3339_denotes (t : Time) (ht : 0 ≤ t ∧ t < endOf9999) :
    Rfc3339Denotes (UnixTimestamp.toRfc3339 ⟨t / nsPerSec⟩) (t / 1000000000) := by
  have hf : UnixTimestamp.fromSystemTime t = .ok ⟨t / nsPerSec⟩ :=
    fromSystemTime_ok.2 ⟨ht.1, by have := ht.2; unfold endOf9999 at this; unfold nsPerSec; omega, rfl⟩
  have hr := fromSystemTime_inRange hf
  have hc := civil_spec ⟨t / nsPerSec⟩ hr
  exact ⟨_, hc.1, toRfc3339_eq _ hr, hc.2⟩

/-- The policy that is signed pins the fields of the form. -/
theorem policy_of_fields (cs : List Call) (o : SigningOptions) (email bucket key : Str) (t : Time) (p : PolicyFields)
    (hb : lastValue cs (s% "bucket") = some bucket) (he : 0 ≤ o.expiration ∧ o.expiration < endOf9999)
    (digest : Bytes) (ha : p.algorithm = s% "GOOG4-RSA-SHA256")
    (hc : p.credential = (policyFields (Builder.ofCalls cs) bucket key o email t digest).credential)
    (hd : p.date = (policyFields (Builder.ofCalls cs) bucket key o email t digest).date) :
    (policyFields (Builder.ofCalls cs) bucket key o email t digest).policy =
      b64Encode (utf8 (policyText ((fieldList (Builder.ofCalls cs) key (some p)).filter fun f => ¬ exempt f.1)
        (UnixTimestamp.toRfc3339 ⟨o.expiration / nsPerSec⟩))) := by
  have hs := ofCalls_spec cs
  have hpins := pins_fieldList (Builder.ofCalls cs) bucket key p (hs.bucket.trans hb) ha
  rw [hc, hd] at hpins
  rw [← render_policy _ _ ?_ (rfc3339_quoted (rfc3339_denotes _ he))]
  · unfold pins at hpins
    rw [hpins]
    rfl
  · intro hn
    have : (s% "x-goog-date", p.date) ∈ ([] : List (Str × Str)) := by
      rw [← hn, List.mem_filter]
      refine ⟨?_, decide_eq_true (show ¬ exempt (s% "x-goog-date") by decide)⟩
      unfold fieldList singles optField
      simp
    cases this

theorem policyFields_eq (b : Builder) (bucket key : Str) (o : SigningOptions) (email : Str) (t : Time)
    (ht : 0 ≤ t ∧ t < endOf9999) (digest : Bytes) :
    policyFields b bucket key o email t digest =
      ⟨(policyFields b bucket key o email t []).policy, s% "GOOG4-RSA-SHA256",
        email ++ s% "/" ++ (UnixTimestamp.toIso8601 ⟨t / nsPerSec⟩).take 8 ++ s% "/" ++
        o.region.getD (s% "auto") ++ s% "/storage/goog4_request",
        UnixTimestamp.toIso8601 ⟨t / nsPerSec⟩, hexEncode digest⟩ := by
  have hcred := scope_eq t ht (o.region.getD (s% "auto"))
  unfold policyFields
  simp only
  rw [hcred]
  simp only [List.append_assoc]

theorem signed_returns (env : Env) (cs : List Call) (o : SigningOptions) (w w' : World) (fs : List (Str × Str))
    (ho : (cs.filterMap callOptions).getLast? = some o)
    (h : (Builder.ofCalls cs).build env w = (.ok fs, w')) : ReturnsSigned env cs o w fs w' := by
  rw [build_signed_eq env cs o w ho] at h
  cases hr : formRejection cs o (validFrom env o.accessibleAt w) with
  | some e => rw [hr] at h; simp at h
  | none =>
  rw [hr] at h
  simp only at h
  cases ha : o.signingKey.authorizer env (clocked o.accessibleAt w) with
  | mk r w2 =>
  rw [ha] at h
  cases r with
  | err e => simp at h
  | panic e => simp at h
  | ok email =>
  simp only at h
  split at h
  · simp at h
  · rename_i hm
    split at h
    · simp at h
    · simp at h
    · rename_i digest w3 hsg
      simp only [Prod.mk.injEq, Res.ok.injEq] at h
      obtain ⟨rfl, rfl⟩ := h
      have hks := keySigns_iff.1 hsg
      obtain ⟨a1, a2, a3, a4, a5⟩ := (formRejection_none_iff (keySigns_not_hmac hks)).1 hr
      have ht : 0 ≤ validFrom env o.accessibleAt w ∧ validFrom env o.accessibleAt w < endOf9999 := ⟨a1, by omega⟩
      have he : 0 ≤ o.expiration ∧ o.expiration < endOf9999 := ⟨by omega, a3⟩
      obtain ⟨bucket, hb⟩ := Option.ne_none_iff_exists'.1 a4
      obtain ⟨key, hk⟩ := Option.ne_none_iff_exists'.1 a5
      rw [hb, hk] at hks ⊢
      simp only [Option.getD_some] at hks ⊢
      obtain ⟨c, hc, hiso, hsec⟩ := iso_chars _ ht
      have hpol := fun p => policy_of_fields cs o email bucket key (validFrom env o.accessibleAt w) p hb he digest
      rw [policyFields_eq _ bucket key o email _ ht digest] at hpol ⊢
      simp only at hpol
      generalize (policyFields (Builder.ofCalls cs) bucket key o email (validFrom env o.accessibleAt w) []).policy = policy at *
      have hp := hpol ⟨policy, s% "GOOG4-RSA-SHA256",
        email ++ s% "/" ++ (UnixTimestamp.toIso8601 ⟨validFrom env o.accessibleAt w / nsPerSec⟩).take 8 ++ s% "/" ++
        o.region.getD (s% "auto") ++ s% "/storage/goog4_request",
        UnixTimestamp.toIso8601 ⟨validFrom env o.accessibleAt w / nsPerSec⟩, hexEncode digest⟩ rfl rfl rfl
      refine ⟨_, email, _, _, policy, hexEncode digest, w2, digest, rfl, a1, a2, a3, (by rw [hb]; simp), (by rw [hk]; simp),
        fun m h1 h2 => hm ⟨m, h1, h2⟩, ?_, ⟨c, hc, hiso, hsec⟩, rfc3339_denotes _ he, fieldList_signed cs key hk _, ?_, hks,
        hexDecode_hexEncode _⟩
      · rw [afterStart_eq]; exact identifies_iff.1 ha
      · exact (congrArg base64Decode hp).trans (base64Decode_b64Encode _)

theorem returns_signed (env : Env) (cs : List Call) (o : SigningOptions) (w w' : World) (fs : List (Str × Str))
    (ho : (cs.filterMap callOptions).getLast? = some o)
    (h : ReturnsSigned env cs o w fs w') : (Builder.ofCalls cs).build env w = (.ok fs, w') := by
  rw [build_signed_eq env cs o w ho]
  obtain ⟨t, email, date, expiration, policy, hex, w1, sig, rfl, a1, a2, a3, a4, a5, hm, hid, hd, hx, hfs, hp, hsg, hh⟩ := h
  have ht : 0 ≤ validFrom env o.accessibleAt w ∧ validFrom env o.accessibleAt w < endOf9999 := by
    unfold validFrom; exact ⟨a1, by omega⟩
  have he : 0 ≤ o.expiration ∧ o.expiration < endOf9999 := ⟨by omega, a3⟩
  obtain ⟨bucket, hb⟩ := Option.ne_none_iff_exists'.1 a4
  obtain ⟨key, hk⟩ := Option.ne_none_iff_exists'.1 a5
  have hh' := hexDecode_some hh
  obtain ⟨c, hc, hiso, hsec⟩ := iso_chars _ ht
  have hd' := basic_unique hd ⟨c, hc, hiso, hsec⟩
  have hx' := rfc3339_unique hx (rfc3339_denotes _ he)
  rw [hh', hd'] at hfs
  rw [hx'] at hp
  have hr : formRejection cs o (validFrom env o.accessibleAt w) = none :=
    (formRejection_none_iff (keySigns_not_hmac hsg)).2 ⟨a1, a2, a3, a4, a5⟩
  rw [hr]
  simp only
  rw [afterStart_eq] at hid
  rw [identifies_iff.2 hid]
  simp only
  rw [if_neg (by rintro ⟨m, h1, h2⟩; exact hm m h1 h2), hb, hk]
  simp only [Option.getD_some]
  have hpol := base64Decode_some hp
  have hpol' := fun p => policy_of_fields cs o email bucket key (validFrom env o.accessibleAt w) p hb he sig
  rw [policyFields_eq _ bucket key o email _ ht sig] at hpol'
  simp only at hpol'
  have hfl := fieldList_signed cs key hk ⟨policy, s% "GOOG4-RSA-SHA256",
    email ++ s% "/" ++ (UnixTimestamp.toIso8601 ⟨validFrom env o.accessibleAt w / nsPerSec⟩).take 8 ++ s% "/" ++
    o.region.getD (s% "auto") ++ s% "/storage/goog4_request",
    UnixTimestamp.toIso8601 ⟨validFrom env o.accessibleAt w / nsPerSec⟩, hexEncode sig⟩
  simp only at hfl
  rw [← hfl] at hfs
  rw [hfs] at hpol ⊢
  rw [← hpol' ⟨policy, s% "GOOG4-RSA-SHA256",
        email ++ s% "/" ++ (UnixTimestamp.toIso8601 ⟨validFrom env o.accessibleAt w / nsPerSec⟩).take 8 ++ s% "/" ++
        o.region.getD (s% "auto") ++ s% "/storage/goog4_request",
        UnixTimestamp.toIso8601 ⟨validFrom env o.accessibleAt w / nsPerSec⟩, hexEncode sig⟩ rfl rfl rfl] at hpol
  rw [← hpol, keySigns_iff.2 hsg]
  simp only
  rw [policyFields_eq _ bucket key o email _ ht sig, ← hpol]

/-- C63. `build` returns the fields `fs` and leaves the world `w'` if and only if the specification says so. -/
theorem C63_returns_form_iff (env : Env) (cs : List Call) (w w' : World) (fs : List (Str × Str)) :
    (Builder.ofCalls cs).build env w = (.ok fs, w') ↔ ReturnsForm env cs w fs w' := by
  unfold ReturnsForm
  split
  · rename_i ho
    have hn : ∀ c ∈ cs, callOptions c = none := by
      have := List.getLast?_eq_none_iff.1 ho
      exact List.filterMap_eq_nil_iff.1 this
    rw [C01_unsigned_form env cs w hn]
    by_cases h1 : lastValue cs (s% "key") = none
    · simp [h1]
    · by_cases h2 : ∃ m ∈ cs.filterMap callMeta, m.1 = []
      · rw [if_neg h1, if_pos h2]
        simp only [Prod.mk.injEq, reduceCtorEq, false_and, false_iff]
        rintro ⟨_, h, _⟩
        obtain ⟨m, hm, he⟩ := h2
        exact h m hm he
      · rw [if_neg h1, if_neg h2]
        simp only [Prod.mk.injEq, Res.ok.injEq]
        exact ⟨by rintro ⟨rfl, rfl⟩; exact ⟨h1, fun m hm he => h2 ⟨m, hm, he⟩, rfl, rfl⟩,
          by rintro ⟨_, _, rfl, rfl⟩; exact ⟨rfl, rfl⟩⟩
  · rename_i o ho
    exact ⟨signed_returns env cs o w w' fs ho, returns_signed env cs o w w' fs ho⟩

/-- Both kinds of keys return forms, and so does a builder without signing options. -/
example : (∃ fs w', ReturnsForm Conformance.env Conformance.testCalls Conformance.world fs w') ∧
    (∃ fs w', ReturnsForm Conformance.btEnv Conformance.btCalls Conformance.world fs w' ∧ w'.log.length = 3) ∧
    ReturnsForm Conformance.env [.key (s% "a"), .key (s% "b")] Conformance.world [(s% "key", s% "b")] Conformance.world := by
  refine ⟨?_, ?_, ?_⟩
  · obtain ⟨fs, w', h⟩ := Conformance.succeeds_iff (by decide +kernel :
      Conformance.succeeds ((Builder.ofCalls Conformance.testCalls).build Conformance.env Conformance.world) = true)
    exact ⟨fs, w', (C63_returns_form_iff ..).1 h⟩
  · obtain ⟨fs, w', h⟩ := Conformance.succeeds_iff (by decide +kernel :
      Conformance.succeeds ((Builder.ofCalls Conformance.btCalls).build Conformance.btEnv Conformance.world) = true)
    refine ⟨fs, w', (C63_returns_form_iff ..).1 h, ?_⟩
    have : ((Builder.ofCalls Conformance.btCalls).build Conformance.btEnv Conformance.world).2.log.length = 3 := by
      decide +kernel
    rw [h] at this
    exact this
  · exact ⟨by decide, by decide, by decide, rfl⟩

/-- C63. The specification determines form and world. -/
theorem C63_returns_form_unique (env : Env) (cs : List Call) (w w₁ w₂ : World) (fs₁ fs₂ : List (Str × Str))
    (h₁ : ReturnsForm env cs w fs₁ w₁) (h₂ : ReturnsForm env cs w fs₂ w₂) : fs₁ = fs₂ ∧ w₁ = w₂ := by
  have e := (C63_returns_form_iff ..).2 h₁
  rw [(C63_returns_form_iff ..).2 h₂] at e
  cases e
  exact ⟨rfl, rfl⟩

/-- Non-vacuity: see the example above; the specification is met there. -/
example : ∃ fs w', ReturnsForm Conformance.env Conformance.testCalls Conformance.world fs w' ∧ 8 < fs.length := by
  obtain ⟨fs, w', h, hf⟩ := Conformance.yields_iff
    (r := (Builder.ofCalls Conformance.testCalls).build Conformance.env Conformance.world)
    (f := fun fs => 8 < fs.length) (by decide +kernel)
  exact ⟨fs, w', (C63_returns_form_iff ..).1 h, of_decide_eq_true hf⟩

end CSS
