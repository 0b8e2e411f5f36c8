import Verif.Spec.PostServer
import Verif.Lemmas.Rsa
import Verif.Lemmas.UrlQuery
import Verif.Props.FormReturns
import Verif.Props.FormPolicy
import Verif.Props.Server
/-
C67: when a server that checks forms as the documentation of Cloud Storage says accepts the returned form.
C68: with the same signature it accepts nothing but this form.
`cs` is the sequence of builder calls, `o` the signing options set last, `fs` the returned fields. A case with a real key is
in Props/ServerExamples.lean.
-/
set_option linter.unusedSimpArgs false
namespace CSS
open Spec

/-- The posted form says what the returned form `fs` says: every field that is not ignored is one of its fields and has the
same value, and all its fields are there; the bucket is the given one and the file has the given length (if one is given;
the text of the field Content-Length itself does not count); the time is in the window of the options. -/
structure Spec.Submits (cs : List Call) (start expiration : Time) (fs : List (Str × Str)) (r : Posted) : Prop where
  known : ∀ f ∈ r.fields, ¬ Ignored f.1 → ∃ g ∈ fs, g.1 = f.1
  same : ∀ f ∈ r.fields, ∀ g ∈ fs, f.1 = g.1 → ¬ exempt f.1 → f.1 ≠ s% "Content-Length" → f.2 = g.2
  complete : ∀ g ∈ fs, ¬ exempt g.1 → g.1 ≠ s% "Content-Length" → g.1 ≠ s% "bucket" → g ∈ r.fields
  bucket : lastValue cs (s% "bucket") = some r.bucket
  size : ∀ text, lastValue cs (s% "Content-Length") = some text → Decimal text r.size
  notBefore : start / 1000000000 ≤ r.time
  notAfter : r.time < expiration / 1000000000

theorem mem_fieldValues {fs : List (Str × Str)} {n v : Str} : v ∈ fieldValues fs n ↔ (n, v) ∈ fs := by
  unfold fieldValues
  rw [List.mem_map]
  constructor
  · rintro ⟨f, hf, rfl⟩
    obtain ⟨h1, h2⟩ := List.mem_filter.1 hf
    rw [decide_eq_true_eq] at h2
    rw [← h2]
    exact h1
  · exact fun h => ⟨(n, v), List.mem_filter.2 ⟨h, by simp⟩, rfl⟩

theorem mem_signedForm {cs : List Call} {computed : List (Str × Str)} {n v : Str} :
    (n, v) ∈ signedForm cs computed ↔
      (n ∈ signedOrder ∧ (computed.lookup n).or (lastValue cs n) = some v) ∨
      (s% "x-goog-meta-" ++ n.drop 12 = n ∧ (n.drop 12, v) ∈ cs.filterMap callMeta) := by
  unfold signedForm
  rw [List.mem_append, List.mem_filterMap, List.mem_map]
  constructor
  · rintro (⟨x, hx, he⟩ | ⟨m, hm, he⟩)
    · rw [Option.map_eq_some_iff] at he
      obtain ⟨y, hy, he⟩ := he
      rw [Prod.mk.injEq] at he
      obtain ⟨rfl, rfl⟩ := he
      exact .inl ⟨hx, hy⟩
    · rw [Prod.mk.injEq] at he
      obtain ⟨rfl, rfl⟩ := he
      exact .inr ⟨rfl, hm⟩
  · rintro (⟨hn, hv⟩ | ⟨hn, hv⟩)
    · exact .inl ⟨n, hn, by rw [hv]; rfl⟩
    · exact .inr ⟨_, hv, by rw [Prod.mk.injEq]; exact ⟨hn, rfl⟩⟩

theorem meta_not_signed (n : Str) : s% "x-goog-meta-" ++ n ∉ signedOrder := by
  intro h
  have key : ∀ t ∈ signedOrder, stripPrefix (s% "x-goog-meta-") t = none := by decide +kernel
  have := key _ h
  rw [stripPrefix_append] at this; cases this

/-- Only metadata may have several values. -/
theorem signedForm_unique {cs : List Call} {computed : List (Str × Str)} {f g : Str × Str}
    (hm : ∀ m ∈ cs.filterMap callMeta, ∀ m' ∈ cs.filterMap callMeta, m.1 = m'.1 → m.2 = m'.2)
    (hf : f ∈ signedForm cs computed) (hg : g ∈ signedForm cs computed) (h : f.1 = g.1) : f.2 = g.2 := by
  obtain ⟨n, v⟩ := f
  obtain ⟨n', v'⟩ := g
  simp only at h
  subst h
  rcases mem_signedForm.1 hf with ⟨h1, h2⟩ | ⟨h1, h2⟩
  · rcases mem_signedForm.1 hg with ⟨h3, h4⟩ | ⟨h3, h4⟩
    · rw [h2] at h4
      exact Option.some.inj h4
    · rw [← h3] at h1
      exact absurd h1 (meta_not_signed _)
  · rcases mem_signedForm.1 hg with ⟨h3, h4⟩ | ⟨h3, h4⟩
    · rw [← h1] at h3
      exact absurd h3 (meta_not_signed _)
    · exact hm (n.drop 12, v) h2 (n.drop 12, v') h4 rfl

theorem policyJson_has (cs : List Json) (e : Str) :
    HasMember (policyJson cs e) (s% "conditions") (.arr cs) ∧ HasMember (policyJson cs e) (s% "expiration") (.str e) := by
  refine ⟨⟨_, [], [(s% "expiration", .str e)], rfl, rfl, ?_⟩, ⟨_, [(s% "conditions", .arr cs)], [], rfl, rfl, by simp⟩⟩
  intro m hm
  rw [List.mem_singleton] at hm
  subst hm
  simp only
  decide

theorem policyJson_expiration {cs : List Json} {e : Str} {x : Json}
    (h : HasMember (policyJson cs e) (s% "expiration") x) : x = .str e := by
  obtain ⟨ms, pre, post, he, hm, hp⟩ := h
  unfold policyJson at he
  cases he
  cases pre with
  | nil => simp only [List.nil_append, List.cons.injEq, Prod.mk.injEq] at hm; exact absurd hm.1.1 (by decide)
  | cons a pre =>
    cases pre with
    | nil => simp only [List.cons_append, List.nil_append, List.cons.injEq, Prod.mk.injEq] at hm; exact hm.2.1.2.symm
    | cons b pre => simp at hm

/-- What is known of a returned form. -/
theorem form_facts (env : Env) (cs : List Call) (o : SigningOptions) (w w' : World) (fs : List (Str × Str))
    (ho : (cs.filterMap callOptions).getLast? = some o) (h : (Builder.ofCalls cs).build env w = (.ok fs, w')) :
    ∃ email policy date expiration hex signature computed, fs = signedForm cs computed ∧
      (∀ n, n ≠ s% "policy" → n ≠ s% "x-goog-algorithm" → n ≠ s% "x-goog-credential" → n ≠ s% "x-goog-date" →
        n ≠ s% "x-goog-signature" → computed.lookup n = none) ∧
      lastValue cs (s% "bucket") ≠ none ∧
      Authorizes env w w'.log o.signingKey email ∧
      fieldValues fs (s% "policy") = [policy] ∧
      (∀ j, CarriesJson policy j ↔ j = policyJson ((fs.filter fun f => ¬ exempt f.1).map pinning) expiration) ∧
      Rfc3339Denotes expiration (o.expiration / 1000000000) ∧
      fieldValues fs (s% "x-goog-algorithm") = [s% "GOOG4-RSA-SHA256"] ∧
      fieldValues fs (s% "x-goog-date") = [date] ∧
      BasicDenotes date (validFrom env o.accessibleAt w / 1000000000) ∧
      fieldValues fs (s% "x-goog-credential") =
        [email ++ s% "/" ++ date.take 8 ++ s% "/" ++ o.region.getD (s% "auto") ++ s% "/storage/goog4_request"] ∧
      fieldValues fs (s% "x-goog-signature") = [hex] ∧ hexDecode hex = some signature ∧
      Signs env w'.log o.signingKey (utf8 policy) signature := by
  obtain ⟨policy, expiration, hpol, hj⟩ := C05_policy_document env cs o w w' fs ho h
  obtain ⟨email, date, hdate, hauth, hcred, _⟩ := C09_form_credential env cs o w w' fs ho h
  obtain ⟨date', t, _, hdate', hbasic, ht1, ht2, _⟩ := C08_form_date env cs o w w' fs ho h
  obtain ⟨text, t', htext, hrfc, hx1, hx2⟩ := C07_policy_expiration env cs o w w' fs ho h policy _
    (by rw [hpol]; exact List.mem_singleton.2 rfl) ((hj _).2 rfl)
  have htx : text = expiration := by
    have := policyJson_expiration htext
    exact Json.str.inj this
  subst htx
  rw [hdate] at hdate'
  have hdd := (List.cons.inj hdate').1
  subst hdd
  have et : t = validFrom env o.accessibleAt w / 1000000000 := by omega
  have et' : t' = o.expiration / 1000000000 := by omega
  subst et et'
  have hsr := signed_returns env cs o w w' fs ho h
  obtain ⟨_, _, _, _, _, _, _, _, _, _, _, _, hb, _, _, _, _, _, hfs, _, hks, _⟩ := hsr
  have halg : fieldValues fs (s% "x-goog-algorithm") = [s% "GOOG4-RSA-SHA256"] := by
    obtain ⟨pf, key, ⟨hpo⟩, hk, rfl⟩ := build_ok_signed ((ofCalls_spec cs).options.trans ho) h
    rw [values_algorithm, hpo.halg]
  have hsign : ∃ hex signature, fieldValues fs (s% "x-goog-signature") = [hex] ∧ hexDecode hex = some signature ∧
      Signs env w'.log o.signingKey (utf8 policy) signature := by
    have hnh := keySigns_not_hmac hks
    cases hk : o.signingKey with
    | serviceAccount email pem =>
      obtain ⟨p, sg, der, bytes, h1, h2, h3, h4, h5, h6⟩ := C06_form_signature_service_account env cs o email pem w w' fs ho hk h
      rw [hpol] at h1
      have := (List.cons.inj h1).1
      subst this
      exact ⟨sg, bytes, h2, h3, der, h4, h5, h6⟩
    | boundToken bt =>
      obtain ⟨p, sg, bytes, r, body, payload, text, blob, h1, h2, h3, h4⟩ := C06_form_signature_bound_token env cs o bt w w' fs ho hk h
      rw [hpol] at h1
      have := (List.cons.inj h1).1
      subst this
      exact ⟨sg, bytes, h2, h3, r, body, payload, text, blob, h4⟩
    | hmac a b => rw [hk] at hnh; cases hnh
  obtain ⟨hex, signature, hs1, hs2, hs3⟩ := hsign
  refine ⟨email, policy, date, text, hex, signature, _, hfs, ?_, hb, hauth, hpol, hj, hrfc, halg, hdate, hbasic, hcred, hs1, hs2, hs3⟩
  intro n h1 h2 h3 h4 h5
  rw [List.lookup_eq_none_iff]
  intro p hp
  simp only [List.mem_cons, List.not_mem_nil, or_false] at hp
  rcases hp with rfl | rfl | rfl | rfl | rfl <;> simp [h1, h2, h3, h4, h5]

theorem meets_eq {r : Posted} {n v : Str} (h : r.Meets (eqCond n v)) : r.given n ≠ [] ∧ ∀ x ∈ r.given n, x = v := by
  unfold eqCond at h
  rcases h with ⟨n', v', hc | hc, h1, h2⟩ | ⟨n', v', hc, _⟩ | ⟨x, y, a, b, hc, _⟩
  · simp only [Json.arr.injEq, List.cons.injEq, Json.str.injEq, and_true, true_and] at hc
    obtain ⟨hn, hv⟩ := hc
    rw [hn, hv]
    exact ⟨h1, h2⟩
  · cases hc
  · simp only [Json.arr.injEq, List.cons.injEq, Json.str.injEq] at hc
    exact absurd hc.1 (by decide)
  · simp at hc

theorem meets_length {r : Posted} {v : Str} (h : r.Meets (lengthCond v)) : Decimal v r.size := by
  unfold lengthCond at h
  rcases h with ⟨n', v', hc | hc, h1, h2⟩ | ⟨n', v', hc, _⟩ | ⟨x, y, a, b, hc, ha, hb, h1, h2⟩
  · simp at hc
  · cases hc
  · simp at hc
  · simp only [Json.arr.injEq, List.cons.injEq, Json.num.injEq, and_true, true_and] at hc
    obtain ⟨rfl, rfl⟩ := hc
    have := ha.2.2.symm.trans hb.2.2
    have : a = r.size := by omega
    rw [← this]
    exact ha

theorem covers_pinning {f : Str × Str} {n : Str} (h : Covers (pinning f) n) : f.1 = n := by
  unfold pinning at h
  split at h
  · rename_i hf
    unfold lengthCond at h
    rcases h with ⟨v, hc | hc | hc⟩ | ⟨hn, _⟩
    · simp at hc
    · cases hc
    · simp at hc
    · rw [hf, hn]
  · unfold eqCond at h
    rcases h with ⟨v, hc | hc | hc⟩ | ⟨_, x, y, hc⟩
    · simp only [Json.arr.injEq, List.cons.injEq, Json.str.injEq, and_true, true_and] at hc
      exact hc.1
    · cases hc
    · simp only [Json.arr.injEq, List.cons.injEq, Json.str.injEq, and_true, true_and] at hc
      exact hc.2.1
    · simp at hc

theorem pinning_covers (f : Str × Str) : Covers (pinning f) f.1 := by
  unfold pinning
  split
  · rename_i h; exact .inr ⟨h, _, _, rfl⟩
  · exact .inl ⟨_, .inl rfl⟩

/-- The core of C67 and C68: the policy decides. -/
theorem submits_of_policy {cs : List Call} {start expiration : Time} {computed : List (Str × Str)} {r : Posted}
    {date date' text text' : Str} {conds : List Json} {t t' : Int}
    (hcomp : ∀ n, n ≠ s% "policy" → n ≠ s% "x-goog-algorithm" → n ≠ s% "x-goog-credential" → n ≠ s% "x-goog-date" →
        n ≠ s% "x-goog-signature" → computed.lookup n = none)
    (hbucket : lastValue cs (s% "bucket") ≠ none)
    (hdate : fieldValues (signedForm cs computed) (s% "x-goog-date") = [date])
    (hbasic : BasicDenotes date (start / 1000000000)) (hrfc : Rfc3339Denotes text (expiration / 1000000000))
    (hc : HasMember (policyJson (((signedForm cs computed).filter fun f => ¬ exempt f.1).map pinning) text)
      (s% "conditions") (.arr conds))
    (hx : HasMember (policyJson (((signedForm cs computed).filter fun f => ¬ exempt f.1).map pinning) text)
      (s% "expiration") (.str text'))
    (hrfc' : Rfc3339Denotes text' t) (htime : r.time < t) (hmeets : ∀ c ∈ conds, r.Meets c)
    (hcov : ∀ f ∈ r.fields, ¬ Ignored f.1 → ∃ c ∈ conds, Covers c f.1)
    (hdate' : fieldValues r.fields (s% "x-goog-date") = [date']) (hbasic' : BasicDenotes date' t') (hstart : t' ≤ r.time) :
    Submits cs start expiration (signedForm cs computed) r := by
  have hcs := policyJson_conditions hc
  have htx := Json.str.inj (policyJson_expiration hx)
  subst htx
  have ht := rfc3339Denotes_unique hrfc hrfc'
  have hpin : ∀ g ∈ signedForm cs computed, ¬ exempt g.1 → pinning g ∈ conds := by
    intro g hg he
    rw [hcs]
    exact List.mem_map_of_mem (List.mem_filter.2 ⟨hg, by simpa using he⟩)
  have hgiven : ∀ g ∈ signedForm cs computed, ¬ exempt g.1 → g.1 ≠ s% "Content-Length" →
      r.given g.1 ≠ [] ∧ ∀ x ∈ r.given g.1, x = g.2 := by
    intro g hg he hl
    have := hmeets _ (hpin g hg he)
    unfold pinning at this
    rw [if_neg hl] at this
    exact meets_eq this
  have hcomplete : ∀ g ∈ signedForm cs computed, ¬ exempt g.1 → g.1 ≠ s% "Content-Length" → g.1 ≠ s% "bucket" → g ∈ r.fields := by
    intro g hg he hl hb
    obtain ⟨h1, h2⟩ := hgiven g hg he hl
    unfold Posted.given at h1 h2
    rw [if_neg hb, List.nil_append] at h1 h2
    obtain ⟨v, hv⟩ := List.exists_mem_of_ne_nil _ h1
    have := h2 v hv
    subst this
    exact mem_fieldValues.1 hv
  refine ⟨?_, ?_, hcomplete, ?_, ?_, ?_, ?_⟩
  · intro f hf hi
    obtain ⟨c, hc', hcov'⟩ := hcov f hf hi
    rw [hcs, List.mem_map] at hc'
    obtain ⟨g, hg, rfl⟩ := hc'
    exact ⟨g, (List.mem_filter.1 hg).1, covers_pinning hcov'⟩
  · intro f hf g hg he hx hl
    obtain ⟨_, h2⟩ := hgiven g hg (he ▸ hx) (he ▸ hl)
    refine h2 f.2 ?_
    unfold Posted.given
    exact List.mem_append_right _ (mem_fieldValues.2 (he ▸ hf))
  · obtain ⟨b, hb⟩ := Option.ne_none_iff_exists'.1 hbucket
    have hg : (s% "bucket", b) ∈ signedForm cs computed := by
      refine mem_signedForm.2 (.inl ⟨by decide, ?_⟩)
      rw [hcomp _ (by decide) (by decide) (by decide) (by decide) (by decide), hb]
      rfl
    obtain ⟨_, h2⟩ := hgiven _ hg (by show ¬ exempt (s% "bucket"); decide) (by show (s% "bucket") ≠ s% "Content-Length"; decide)
    rw [hb, h2 r.bucket (by unfold Posted.given; rw [if_pos rfl]; exact List.mem_append_left _ (List.mem_singleton.2 rfl))]
  · intro v hv
    have hg : (s% "Content-Length", v) ∈ signedForm cs computed := by
      refine mem_signedForm.2 (.inl ⟨by decide, ?_⟩)
      rw [hcomp _ (by decide) (by decide) (by decide) (by decide) (by decide), hv]
      rfl
    have := hmeets _ (hpin _ hg (by show ¬ exempt (s% "Content-Length"); decide))
    unfold pinning at this
    rw [if_pos rfl] at this
    exact meets_length this
  · have hm : (s% "x-goog-date", date) ∈ r.fields :=
      hcomplete _ (mem_fieldValues.1 (by rw [hdate]; exact List.mem_singleton.2 rfl))
        (by show ¬ exempt (s% "x-goog-date"); decide) (by show (s% "x-goog-date") ≠ s% "Content-Length"; decide)
        (by show (s% "x-goog-date") ≠ s% "bucket"; decide)
    have := mem_fieldValues.2 hm
    rw [hdate'] at this
    have := List.mem_singleton.1 this
    rw [this] at hbasic
    rw [basicDenotes_unique hbasic hbasic']
    exact hstart
  · omega

/-- C67. A server that checks forms as documented accepts the returned form, posted to the bucket in it, with a file, at some
time, if and only if the time is in the window of the options, the file has the length given by the options, if any, and no
metadata name was given two values. What is signed must verify under the public key. -/
theorem C67_accepted_iff (env : Env) (cs : List Call) (o : SigningOptions) (w w' : World) (fs : List (Str × Str)) (n e : Nat)
    (ho : (cs.filterMap callOptions).getLast? = some o) (h : (Builder.ofCalls cs).build env w = (.ok fs, w'))
    (hsig : ∀ m s, Signs env w'.log o.signingKey m s → Rsa.Verifies n e m s) :
    ∃ account, Authorizes env w w'.log o.signingKey account ∧
      ∀ r : Posted, r.fields = fs → lastValue cs (s% "bucket") = some r.bucket →
        (AcceptsPost account n e r ↔
          validFrom env o.accessibleAt w / 1000000000 ≤ r.time ∧ r.time < o.expiration / 1000000000 ∧
          (∀ text, lastValue cs (s% "Content-Length") = some text → Decimal text r.size) ∧
          ∀ m ∈ cs.filterMap callMeta, ∀ m' ∈ cs.filterMap callMeta, m.1 = m'.1 → m.2 = m'.2) := by
  obtain ⟨email, policy, date, text, hex, sg, computed, rfl, hcomp, hb, hauth, hpol, hj, hrfc, halg, hdate, hbasic, hcred, hs1,
    hs2, hs3⟩ := form_facts env cs o w w' fs ho h
  refine ⟨email, hauth, ?_⟩
  intro r hr hbk
  constructor
  · rintro ⟨policy', j, conds, text', t, date', t', region, hex', sg', a1, a2, a3, a4, a5, a6, a7, a8, a9, a10, a11, a12, _⟩
    rw [hr, hpol] at a1
    have := (List.cons.inj a1).1
    subst this
    have hjj := (hj j).1 a2
    subst hjj
    have hsub := submits_of_policy hcomp hb hdate hbasic hrfc a3 a4 a5 a6 a7 a8 a10 a11 a12
    refine ⟨hsub.notBefore, hsub.notAfter, hsub.size, ?_⟩
    intro m hm m' hm' he
    have key : ∀ m ∈ cs.filterMap callMeta, (s% "x-goog-meta-" ++ m.1, m.2) ∈ signedForm cs computed := by
      intro m hm
      exact mem_signedForm.2 (.inr ⟨rfl, hm⟩)
    have hne : ∀ x ∈ signedOrder, s% "x-goog-meta-" ++ m.1 ≠ x := fun x hx e => meta_not_signed m.1 (e ▸ hx)
    refine hsub.same (s% "x-goog-meta-" ++ m.1, m.2) (hr ▸ key m hm) (s% "x-goog-meta-" ++ m'.1, m'.2) (key m' hm')
      (by simp only [he]) ?_ ?_
    · rintro (e | e)
      · exact hne (s% "policy") (by decide) e
      · exact hne (s% "x-goog-signature") (by decide) e
    · exact hne (s% "Content-Length") (by decide)
  · rintro ⟨h1, h2, h3, h4⟩
    refine ⟨policy, _, _, text, _, date, _, _, hex, sg, hr ▸ hpol, (hj _).2 rfl, (policyJson_has _ _).1, (policyJson_has _ _).2,
      hrfc, h2, ?_, ?_, hr ▸ halg, hr ▸ hdate, hbasic, h1, hr ▸ hcred, hr ▸ hs1, hs2, hsig _ _ hs3⟩
    · intro c hc
      obtain ⟨f, hf, rfl⟩ := List.mem_map.1 hc
      obtain ⟨hf, _⟩ := List.mem_filter.1 hf
      unfold pinning
      split
      · rename_i hl
        obtain ⟨name, v⟩ := f
        simp only at hl
        subst hl
        have hd : Decimal v r.size := by
          refine h3 v ?_
          rcases mem_signedForm.1 hf with ⟨_, hv⟩ | ⟨hx, _⟩
          · rw [hcomp _ (by decide) (by decide) (by decide) (by decide) (by decide)] at hv
            exact hv
          · exact absurd hx (by decide)
        exact .inr (.inr ⟨v, v, r.size, r.size, rfl, hd, hd, Nat.le_refl _, Nat.le_refl _⟩)
      · refine .inl ⟨f.1, f.2, .inl rfl, ?_, ?_⟩
        · have : f.2 ∈ r.given f.1 := List.mem_append_right _ (mem_fieldValues.2 (hr ▸ hf))
          exact List.ne_nil_of_mem this
        · intro x hx
          rcases List.mem_append.1 hx with hx | hx
          · split at hx
            · rename_i hfb
              rw [List.mem_singleton] at hx
              subst hx
              obtain ⟨name, v⟩ := f
              simp only at hfb
              subst hfb
              rcases mem_signedForm.1 hf with ⟨_, hv⟩ | ⟨hx, _⟩
              · rw [hcomp _ (by decide) (by decide) (by decide) (by decide) (by decide), Option.none_or, hbk] at hv
                exact Option.some.inj hv
              · exact absurd hx (by decide)
            · cases hx
          · exact signedForm_unique h4 (f := (f.1, x)) (hr ▸ mem_fieldValues.1 hx) hf rfl
    · intro f hf hi
      rw [hr] at hf
      refine ⟨pinning f, List.mem_map_of_mem (List.mem_filter.2 ⟨hf, ?_⟩), pinning_covers f⟩
      rw [decide_eq_true_eq]
      rintro (hx | hx)
      · exact hi (.inl hx)
      · exact hi (.inr (.inl hx))

/-- C67 for a service account key: the RSA implementation must be right, and the public key be the one in the key. -/
theorem C67_service_account (env : Env) (cs : List Call) (o : SigningOptions) (w w' : World) (fs : List (Str × Str))
    (email pem : Str) (key : Bytes) (n e : Nat) (r : Posted)
    (ho : (cs.filterMap callOptions).getLast? = some o) (h : (Builder.ofCalls cs).build env w = (.ok fs, w'))
    (hk : o.signingKey = .serviceAccount email pem) (hring : Rsa.Correct env) (hpem : env.pemParse pem = some key)
    (hpub : Rsa.PublicKeyIn key n e) (hr : r.fields = fs) (hbucket : lastValue cs (s% "bucket") = some r.bucket) :
    AcceptsPost email n e r ↔
      validFrom env o.accessibleAt w / 1000000000 ≤ r.time ∧ r.time < o.expiration / 1000000000 ∧
      (∀ text, lastValue cs (s% "Content-Length") = some text → Decimal text r.size) ∧
      ∀ m ∈ cs.filterMap callMeta, ∀ m' ∈ cs.filterMap callMeta, m.1 = m'.1 → m.2 = m'.2 := by
  obtain ⟨account, hauth, hacc⟩ := C67_accepted_iff env cs o w w' fs n e ho h (by
    rw [hk]
    rintro m s ⟨der, hd, hf, hs⟩
    rw [hpem] at hd
    cases hd
    obtain ⟨n', e', hp', hv⟩ := hring key m s hf hs
    obtain ⟨rfl, rfl⟩ := publicKeyIn_unique hpub hp'
    exact hv)
  rw [hk] at hauth
  have he : account = email := hauth
  subst he
  exact hacc r hr hbucket

/-- C68. Whatever form a server accepts that carries the signature of the returned form (and whose policy does not collide
with the signed one) is the returned form. -/
theorem C68_same_signature (env : Env) (cs : List Call) (o : SigningOptions) (w w' : World) (fs : List (Str × Str)) (n e : Nat)
    (ho : (cs.filterMap callOptions).getLast? = some o) (h : (Builder.ofCalls cs).build env w = (.ok fs, w'))
    (hsig : ∀ m s, Signs env w'.log o.signingKey m s → Rsa.Verifies n e m s)
    (account : Str) (r : Posted) (hacc : AcceptsPost account n e r)
    (hsame : fieldValues r.fields (s% "x-goog-signature") = fieldValues fs (s% "x-goog-signature"))
    (hcol : ∀ p ∈ fieldValues r.fields (s% "policy"), ∀ p' ∈ fieldValues fs (s% "policy"), NoCollision p p') :
    fieldValues r.fields (s% "policy") = fieldValues fs (s% "policy") ∧
      Submits cs (validFrom env o.accessibleAt w) o.expiration fs r := by
  obtain ⟨email, policy, date, text, hex, sg, computed, rfl, hcomp, hb, hauth, hpol, hj, hrfc, halg, hdate, hbasic, hcred, hs1,
    hs2, hs3⟩ := form_facts env cs o w w' fs ho h
  obtain ⟨policy', j, conds, text', t, date', t', region, hex', sg', a1, a2, a3, a4, a5, a6, a7, a8, a9, a10, a11, a12, a13, a14,
    a15, a16⟩ := hacc
  rw [a14, hs1] at hsame
  have := (List.cons.inj hsame).1
  subst this
  rw [hs2] at a15
  have := Option.some.inj a15
  subst this
  have hd := verifies_digest a16 (hsig _ _ hs3)
  have hpp := hcol policy' (by rw [a1]; exact List.mem_singleton.2 rfl) policy (by rw [hpol]; exact List.mem_singleton.2 rfl) hd
  subst hpp
  have hjj := (hj j).1 a2
  subst hjj
  exact ⟨a1.trans hpol.symm, submits_of_policy hcomp hb hdate hbasic hrfc a3 a4 a5 a6 a7 a8 a10 a11 a12⟩

/-- C68, if signatures cannot be forged: a server that accepts a form, whose policy is the one the key's owner has signed,
has got the returned form. -/
theorem C68_unforgeable (env : Env) (cs : List Call) (o : SigningOptions) (w w' : World) (fs : List (Str × Str)) (n e : Nat)
    (ho : (cs.filterMap callOptions).getLast? = some o) (h : (Builder.ofCalls cs).build env w = (.ok fs, w'))
    (account : Str) (r : Posted) (hacc : AcceptsPost account n e r)
    (hsame : fieldValues r.fields (s% "policy") = fieldValues fs (s% "policy")) :
    Submits cs (validFrom env o.accessibleAt w) o.expiration fs r := by
  obtain ⟨email, policy, date, text, hex, sg, computed, rfl, hcomp, hb, hauth, hpol, hj, hrfc, halg, hdate, hbasic, hcred, hs1,
    hs2, hs3⟩ := form_facts env cs o w w' fs ho h
  obtain ⟨policy', j, conds, text', t, date', t', region, hex', sg', a1, a2, a3, a4, a5, a6, a7, a8, a9, a10, a11, a12, _⟩ := hacc
  rw [a1, hpol] at hsame
  have := (List.cons.inj hsame).1
  subst this
  have hjj := (hj j).1 a2
  subst hjj
  exact submits_of_policy hcomp hb hdate hbasic hrfc a3 a4 a5 a6 a7 a8 a10 a11 a12

/-- C67, why the metadata matters: if two calls gave one metadata name different values, the form is returned all the same,
but no server accepts it, whenever, wherever and with whatever file it is posted. -/
theorem C67_conflict_rejected (env : Env) (cs : List Call) (o : SigningOptions) (w w' : World) (fs : List (Str × Str))
    (n e : Nat) (account : Str) (r : Posted)
    (ho : (cs.filterMap callOptions).getLast? = some o) (h : (Builder.ofCalls cs).build env w = (.ok fs, w'))
    (hr : r.fields = fs) (name v v' : Str) (h1 : .xGoogMeta name v ∈ cs) (h2 : .xGoogMeta name v' ∈ cs) (hne : v ≠ v') :
    ¬ AcceptsPost account n e r := by
  intro hacc
  have hsub := C68_unforgeable env cs o w w' fs n e ho h account r hacc (by rw [hr])
  obtain ⟨_, _, _, _, _, _, _, rfl, _⟩ := form_facts env cs o w w' fs ho h
  have key : ∀ v, .xGoogMeta name v ∈ cs → (s% "x-goog-meta-" ++ name, v) ∈ r.fields := by
    intro v hv
    rw [hr]
    exact mem_signedForm.2 (.inr ⟨rfl, List.mem_filterMap.2 ⟨_, hv, rfl⟩⟩)
  have hno : ∀ x ∈ signedOrder, s% "x-goog-meta-" ++ name ≠ x := fun x hx e => meta_not_signed name (e ▸ hx)
  refine hne (hsub.same _ (key v h1) (s% "x-goog-meta-" ++ name, v') (hr ▸ key v' h2) rfl ?_ (hno (s% "Content-Length") (by decide)))
  rintro (e | e)
  · exact hno (s% "policy") (by decide) e
  · exact hno (s% "x-goog-signature") (by decide) e

end CSS
