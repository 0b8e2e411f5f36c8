import Verif.Lemmas.ImageHttp
import Verif.Lemmas.Escape
/-
C94: the example server and its page understand each other over HTTP.
-/
namespace CSS
open Spec ImageUploader

/-- Some text is the id. -/
private theorem strict_iff {bs : Bytes} {id : Str} : (utf8 (utf8Lossy bs) = bs ∧ utf8Lossy bs = id) ↔ bs = utf8 id := by
  constructor
  · rintro ⟨h, rfl⟩; exact h.symm
  · rintro rfl; rw [utf8Lossy_utf8]; exact ⟨rfl, rfl⟩

private theorem prefix_drop {path : Str} : (s% "/images/").isPrefixOf path = true ↔ path = s% "/images/" ++ path.drop 8 := by
  rw [List.isPrefixOf_iff_prefix]
  constructor
  · rintro ⟨r, rfl⟩; rfl
  · intro h; rw [h]; exact List.prefix_append _ _

private theorem drop_segment (seg : Str) : (s% "/images/" ++ seg).drop 8 = seg := rfl

private theorem segment_ne_images (seg : Str) : s% "/images/" ++ seg ≠ s% "/images" := by
  intro h
  have := congrArg List.length h
  simp at this

private theorem segment_ne_root (seg : Str) : s% "/images/" ++ seg ≠ s% "/" := by
  intro h
  have := congrArg List.length h
  simp at this

private theorem extractId_iff {seg : Str} {r : Req} :
    extractId seg = .api r ↔ ∃ id, r = .update id ∧ percentDecode seg = utf8 id := by
  unfold extractId
  simp only [pctDecode_text]
  constructor
  · intro h
    split at h
    · rename_i hb
      cases h
      exact ⟨_, rfl, hb.symm⟩
    · cases h
  · rintro ⟨id, rfl, h⟩
    rw [h, utf8Lossy_utf8, if_pos rfl]

/-- What reaches a handler. -/
private theorem extractCreate_iff {mime : MimeTypes} {q : WebRequest} {r : Req} :
    extractCreate mime q = .api r ↔ (∃ ct, q.contentType = some ct ∧ mime.isJson ct = true) ∧
      (utf8 q.body).length ≤ 2097152 ∧ ∃ n t, r = .create n t ∧ readCreateBody q.body = some (n, t) := by
  unfold extractCreate
  cases hc : q.contentType with
  | none => simp
  | some ct =>
    cases hj : mime.isJson ct with
    | false => simp [hj]
    | true =>
      by_cases hl : 2097152 < (utf8 q.body).length
      · have : ¬ (utf8 q.body).length ≤ 2097152 := by omega
        simp [hl, hj, this]
      · have hl' : (utf8 q.body).length ≤ 2097152 := by omega
        cases hb : readCreateBody q.body with
        | none => simp [hl, hj]
        | some p =>
          obtain ⟨n, t⟩ := p
          simp only [hj, Bool.true_eq_false, if_false, hl, Routed.api.injEq, Option.some.injEq, Prod.mk.injEq]
          constructor
          · rintro rfl; exact ⟨⟨_, rfl, hj⟩, hl', _, _, rfl, rfl, rfl⟩
          · rintro ⟨_, _, n', t', rfl, rfl, rfl⟩; rfl

private theorem route_root {mime : MimeTypes} {q : WebRequest} (h : q.path = s% "/") :
    route mime q = if q.method = s% "GET" ∨ q.method = s% "HEAD" then .page else .refused .methodNotAllowed := by
  unfold route; rw [if_pos h]

private theorem route_images {mime : MimeTypes} {q : WebRequest} (h : q.path = s% "/images") :
    route mime q = if q.method = s% "GET" ∨ q.method = s% "HEAD" then .api .list
      else if q.method = s% "POST" then extractCreate mime q else .refused .methodNotAllowed := by
  unfold route; rw [if_neg (by rw [h]; decide), if_pos h]

private theorem route_segment {mime : MimeTypes} {q : WebRequest} {seg : Str} (h : q.path = s% "/images/" ++ seg)
    (h0 : seg ≠ []) (h1 : '/' ∉ seg) :
    route mime q = if q.method = s% "PATCH" then extractId seg else .refused .methodNotAllowed := by
  unfold route
  rw [if_neg (by rw [h]; exact segment_ne_root seg), if_neg (by rw [h]; exact segment_ne_images seg), h, drop_segment,
    if_pos ⟨prefix_drop.2 rfl, h0, h1⟩]

/-- The four kinds of paths. -/
private theorem path_cases (path : Str) : path = s% "/" ∨ path = s% "/images" ∨
    (∃ seg, path = s% "/images/" ++ seg ∧ seg ≠ [] ∧ '/' ∉ seg) ∨
    (path ≠ s% "/" ∧ path ≠ s% "/images" ∧ ∀ seg, path = s% "/images/" ++ seg → seg ≠ [] → '/' ∈ seg) := by
  by_cases h1 : path = s% "/"
  · exact .inl h1
  by_cases h2 : path = s% "/images"
  · exact .inr (.inl h2)
  by_cases h3 : ∃ seg, path = s% "/images/" ++ seg ∧ seg ≠ [] ∧ '/' ∉ seg
  · exact .inr (.inr (.inl h3))
  · exact .inr (.inr (.inr ⟨h1, h2, fun seg e h0 => Classical.byContradiction fun h => h3 ⟨seg, e, h0, h⟩⟩))

private theorem route_other {mime : MimeTypes} {q : WebRequest} (h1 : q.path ≠ s% "/") (h2 : q.path ≠ s% "/images")
    (h3 : ∀ seg, q.path = s% "/images/" ++ seg → seg ≠ [] → '/' ∈ seg) : route mime q = .refused .notFound := by
  unfold route
  rw [if_neg h1, if_neg h2, if_neg]
  rintro ⟨hp, h0, hs⟩
  exact hs (h3 _ (prefix_drop.1 hp) h0)

private theorem segment_inj {a b : Str} (h : s% "/images/" ++ a = s% "/images/" ++ b) : a = b := List.append_cancel_left h

private theorem get_ne_post {m : Str} (h : m = s% "GET" ∨ m = s% "HEAD") : m ≠ s% "POST" := by
  rintro rfl; revert h; decide

/-- The handlers are reached by exactly the requests that ask for them. -/
theorem C94_routed (mime : MimeTypes) (q : WebRequest) (r : Req) : route mime q = .api r ↔ WebFor mime q r := by
  rcases path_cases q.path with h | h | ⟨seg, h, h0, h1⟩ | ⟨h1, h2, h3⟩
  · rw [route_root h]
    have hno : ¬ WebFor mime q r := by
      cases r with
      | create n t => rintro ⟨_, e, _⟩; rw [h] at e; revert e; decide
      | list => rintro ⟨_, e⟩; rw [h] at e; revert e; decide
      | update id =>
        rintro ⟨_, seg, e, _⟩
        rw [h] at e
        exact segment_ne_root seg e.symm
    simp only [hno, iff_false]
    split <;> simp
  · rw [route_images h]
    cases r with
    | create n t =>
      simp only [WebFor, h, true_and, ← readCreateBody_iff]
      split
      · rename_i hm
        simp [get_ne_post hm]
      · split
        · rename_i hm
          rw [extractCreate_iff]
          simp only [hm, true_and, Req.create.injEq]
          refine and_congr_right fun _ => and_congr_right fun _ => ⟨?_, fun hb => ⟨n, t, ⟨rfl, rfl⟩, hb⟩⟩
          rintro ⟨n', t', ⟨rfl, rfl⟩, hb⟩; exact hb
        · rename_i hm; simp [hm]
    | list =>
      simp only [WebFor, h, and_true]
      split
      · rename_i hm; simp [hm]
      · rename_i hm
        split
        · rw [extractCreate_iff]; simp [hm]
        · simp [hm]
    | update id =>
      have hno : ¬ WebFor mime q (.update id) := by
        rintro ⟨_, seg, e, _⟩
        rw [h] at e
        exact segment_ne_images seg e.symm
      simp only [hno, iff_false]
      split
      · simp
      · split
        · rw [extractCreate_iff]; simp
        · simp
  · rw [route_segment h h0 h1]
    cases r with
    | create n t =>
      have hno : ¬ WebFor mime q (.create n t) := by
        rintro ⟨_, e, _⟩; rw [h] at e; exact segment_ne_images seg e
      simp only [hno, iff_false]
      split
      · rw [extractId_iff]; simp
      · simp
    | list =>
      have hno : ¬ WebFor mime q .list := by
        rintro ⟨_, e⟩; rw [h] at e; exact segment_ne_images seg e
      simp only [hno, iff_false]
      split
      · rw [extractId_iff]; simp
      · simp
    | update id =>
      simp only [WebFor, ImagePath]
      split
      · rename_i hm
        rw [extractId_iff]
        simp only [hm, true_and, Req.update.injEq]
        constructor
        · rintro ⟨id', rfl, hd⟩; exact ⟨seg, h, h0, h1, hd⟩
        · rintro ⟨seg', e, _, _, hd⟩
          rw [h] at e
          cases segment_inj e
          exact ⟨id, rfl, hd⟩
      · rename_i hm; simp [hm]
  · rw [route_other h1 h2 h3]
    have hno : ¬ WebFor mime q r := by
      cases r with
      | create n t => rintro ⟨_, e, _⟩; exact h2 e
      | list => rintro ⟨_, e⟩; exact h2 e
      | update id => rintro ⟨_, seg, e, h0, hs, _⟩; exact hs (h3 seg e h0)
    simp [hno]

private theorem extractId_other {seg : Str} {x : Routed} (h : extractId seg = x) :
    (∃ id, x = .api (.update id)) ∨ (x = .refused .badPath ∧ ∀ id, percentDecode seg ≠ utf8 id) := by
  unfold extractId at h
  simp only [pctDecode_text] at h
  split at h
  · exact .inl ⟨_, h.symm⟩
  · rename_i hb
    refine .inr ⟨h.symm, fun id e => hb ?_⟩
    rw [e, utf8Lossy_utf8]

private theorem extractCreate_other {mime : MimeTypes} {q : WebRequest} {x : Routed} (h : extractCreate mime q = x) :
    (∃ n t, x = .api (.create n t)) ∨
    (x = .refused .unsupportedMediaType ∧ ∀ ct, q.contentType = some ct → mime.isJson ct = false) ∨
    ((∃ ct, q.contentType = some ct ∧ mime.isJson ct = true) ∧
      ((x = .refused .payloadTooLarge ∧ 2097152 < (utf8 q.body).length) ∨
       (x = .refused .badBody ∧ (utf8 q.body).length ≤ 2097152 ∧ readCreateBody q.body = none))) := by
  unfold extractCreate at h
  split at h
  · rename_i hc
    exact .inr (.inl ⟨h.symm, fun ct e => by rw [hc] at e; cases e⟩)
  · rename_i ct hc
    split at h
    · rename_i hj
      exact .inr (.inl ⟨h.symm, fun ct' e => by rw [hc] at e; cases e; exact hj⟩)
    · rename_i hj
      have hj : mime.isJson ct = true := by simpa using hj
      split at h
      · rename_i hl
        exact .inr (.inr ⟨⟨ct, hc, hj⟩, .inl ⟨h.symm, hl⟩⟩)
      · rename_i hl
        split at h
        · rename_i hb
          exact .inr (.inr ⟨⟨ct, hc, hj⟩, .inr ⟨h.symm, by omega, hb⟩⟩)
        · exact .inl ⟨_, _, h.symm⟩

private theorem offers_root {m : Str} : Offers (s% "/") m ↔ m = s% "GET" ∨ m = s% "HEAD" := by
  constructor
  · rintro (⟨_, h⟩ | ⟨e, _⟩ | ⟨seg, e, _⟩)
    · exact h
    · exact absurd e (by decide)
    · exact absurd e.symm (segment_ne_root seg)
  · exact fun h => .inl ⟨rfl, h⟩

private theorem offers_images {m : Str} : Offers (s% "/images") m ↔ m = s% "GET" ∨ m = s% "HEAD" ∨ m = s% "POST" := by
  constructor
  · rintro (⟨e, h⟩ | ⟨_, h⟩ | ⟨seg, e, _⟩)
    · exact absurd e (by decide)
    · exact h
    · exact absurd e.symm (segment_ne_images seg)
  · exact fun h => .inr (.inl ⟨rfl, h⟩)

private theorem offers_segment {m seg : Str} (h0 : seg ≠ []) (h1 : '/' ∉ seg) :
    Offers (s% "/images/" ++ seg) m ↔ m = s% "PATCH" := by
  constructor
  · rintro (⟨e, _⟩ | ⟨e, _⟩ | ⟨_, _, _, _, h⟩)
    · exact absurd e (segment_ne_root seg)
    · exact absurd e (segment_ne_images seg)
    · exact h
  · exact fun h => .inr (.inr ⟨seg, rfl, h0, h1, h⟩)

/-- What a result of the routes says about the request. -/
private def Meaning (mime : MimeTypes) (q : WebRequest) : Routed → Prop
  | .page => q.path = s% "/" ∧ (q.method = s% "GET" ∨ q.method = s% "HEAD")
  | .api r => WebFor mime q r
  | .refused f => RefusedFor mime q f

private theorem meaning_route (mime : MimeTypes) (q : WebRequest) : Meaning mime q (route mime q) := by
  cases hr : route mime q with
  | api r => exact (C94_routed mime q r).1 hr
  | page =>
    rcases path_cases q.path with h | h | ⟨seg, h, h0, h1⟩ | ⟨h1, h2, h3⟩
    · rw [route_root h] at hr
      split at hr
      · rename_i hm; exact ⟨h, hm⟩
      · cases hr
    · rw [route_images h] at hr
      split at hr
      · cases hr
      · split at hr
        · obtain ⟨n, t, e⟩ | ⟨e, _⟩ | ⟨_, ⟨e, _⟩ | ⟨e, _⟩⟩ := extractCreate_other hr <;> cases e
        · cases hr
    · rw [route_segment h h0 h1] at hr
      split at hr
      · obtain ⟨id, e⟩ | ⟨e, _⟩ := extractId_other hr <;> cases e
      · cases hr
    · rw [route_other h1 h2 h3] at hr
      cases hr
  | refused f =>
    rcases path_cases q.path with h | h | ⟨seg, h, h0, h1⟩ | ⟨h1, h2, h3⟩
    · rw [route_root h] at hr
      split at hr
      · cases hr
      · rename_i hm
        cases hr
        refine ⟨⟨s% "GET", ?_⟩, ?_⟩
        · rw [h, offers_root]; exact .inl rfl
        · rw [h, offers_root]; exact hm
    · rw [route_images h] at hr
      split at hr
      · cases hr
      · rename_i hm
        split at hr
        · rename_i hp
          obtain ⟨n, t, e⟩ | ⟨e, hc⟩ | ⟨hc, ⟨e, hl⟩ | ⟨e, hl, hb⟩⟩ := extractCreate_other hr <;> cases e
          · exact ⟨hp, h, hc⟩
          · exact ⟨hp, h, hc, hl⟩
          · refine ⟨hp, h, hc, hl, fun text rest n t e ht => ?_⟩
            have := readCreateBody_iff.2 ⟨text, rest, e, ht⟩
            rw [hb] at this
            cases this
        · rename_i hp
          cases hr
          refine ⟨⟨s% "GET", ?_⟩, ?_⟩
          · rw [h, offers_images]; exact .inl rfl
          · rw [h, offers_images]
            exact fun hx => hx.elim (fun a => hm (.inl a)) fun hx => hx.elim (fun a => hm (.inr a)) hp
    · rw [route_segment h h0 h1] at hr
      split at hr
      · rename_i hm
        obtain ⟨id, e⟩ | ⟨e, hd⟩ := extractId_other hr <;> cases e
        exact ⟨hm, seg, h, h0, h1, hd⟩
      · rename_i hm
        cases hr
        refine ⟨⟨s% "PATCH", ?_⟩, ?_⟩
        · rw [h, offers_segment h0 h1]
        · rw [h, offers_segment h0 h1]; exact hm
    · rw [route_other h1 h2 h3] at hr
      cases hr
      rintro m (⟨e, _⟩ | ⟨e, _⟩ | ⟨seg, e, h0, hs, _⟩)
      · exact h1 e
      · exact h2 e
      · exact hs (h3 seg e h0)

/-- The page is what is at the root. -/
theorem C94_page (mime : MimeTypes) (q : WebRequest) :
    route mime q = .page ↔ q.path = s% "/" ∧ (q.method = s% "GET" ∨ q.method = s% "HEAD") := by
  constructor
  · intro h
    have := meaning_route mime q
    rw [h] at this
    exact this
  · rintro ⟨h, hm⟩
    rw [route_root h, if_pos hm]

/-- A request is refused for exactly the reasons of the specification. -/
theorem C94_refused (mime : MimeTypes) (q : WebRequest) (f : Refusal) : route mime q = .refused f ↔ RefusedFor mime q f := by
  constructor
  · intro h
    have := meaning_route mime q
    rw [h] at this
    exact this
  · intro hf
    cases f with
    | notFound =>
      rcases path_cases q.path with h | h | ⟨seg, h, h0, h1⟩ | ⟨h1, h2, h3⟩
      · exact absurd (by rw [h, offers_root]; exact .inl rfl) (hf (s% "GET"))
      · exact absurd (by rw [h, offers_images]; exact .inl rfl) (hf (s% "GET"))
      · exact absurd (by rw [h, offers_segment h0 h1]) (hf (s% "PATCH"))
      · exact route_other h1 h2 h3
    | methodNotAllowed =>
      obtain ⟨⟨m, hm⟩, hn⟩ := hf
      rcases path_cases q.path with h | h | ⟨seg, h, h0, h1⟩ | ⟨h1, h2, h3⟩
      · rw [h, offers_root] at hn
        rw [route_root h, if_neg hn]
      · rw [h, offers_images] at hn
        rw [route_images h, if_neg fun a => hn (a.imp id .inl), if_neg fun a => hn (.inr (.inr a))]
      · rw [h, offers_segment h0 h1] at hn
        rw [route_segment h h0 h1, if_neg hn]
      · obtain ⟨e, _⟩ | ⟨e, _⟩ | ⟨seg, e, h0, hs, _⟩ := hm
        · exact absurd e h1
        · exact absurd e h2
        · exact absurd (h3 seg e h0) hs
    | badPath =>
      obtain ⟨hm, seg, h, h0, h1, hd⟩ := hf
      rw [route_segment h h0 h1, if_pos hm]
      unfold extractId
      simp only [pctDecode_text]
      rw [if_neg fun e => hd _ e.symm]
    | unsupportedMediaType =>
      obtain ⟨hm, h, hc⟩ := hf
      rw [route_images h, if_neg (fun a => get_ne_post a hm), if_pos hm]
      unfold extractCreate
      cases e : q.contentType with
      | none => rfl
      | some ct => simp only [hc ct e, if_true]
    | payloadTooLarge =>
      obtain ⟨hm, h, ⟨ct, hc, hj⟩, hl⟩ := hf
      rw [route_images h, if_neg (fun a => get_ne_post a hm), if_pos hm]
      unfold extractCreate
      simp only [hc, hj, Bool.true_eq_false, if_false, hl, if_true]
    | badBody =>
      obtain ⟨hm, h, ⟨ct, hc, hj⟩, hl, hb⟩ := hf
      rw [route_images h, if_neg (fun a => get_ne_post a hm), if_pos hm]
      unfold extractCreate
      have hl' : ¬ 2097152 < (utf8 q.body).length := by omega
      simp only [hc, hj, Bool.true_eq_false, if_false, hl']
      cases e : readCreateBody q.body with
      | none => rfl
      | some p =>
        obtain ⟨n, t⟩ := p
        obtain ⟨text, rest, e, ht⟩ := readCreateBody_iff.1 e
        exact absurd ht (hb text rest n t e)

/-! ### what the page sends -/

private theorem create_render {size : Nat} {type : Str} (h : type ≠ []) :
    (createJson size type).render = '{' :: ([] ++ jsonStr (s% "content_length") ++ [] ++ [':'] ++ [] ++ natDec size ++ [] ++
      ',' :: ([] ++ jsonStr (s% "content_type") ++ [] ++ [':'] ++ [] ++ jsonStr type ++ [])) ++ '}' :: [] := by
  unfold createJson
  rw [if_neg h]
  simp only [Json.render, Json.renderMembers]
  simp

private theorem create_text {size : Nat} {type : Str} (h : type ≠ []) (hs : size < 2 ^ 53) :
    CreateText (createJson size type).render size type := by
  refine ⟨natDec size, jsonStr type, ⟨natDec_JNum size, natDec_Digits size, decVal_natDec size, by omega⟩,
    jsonStr_quoted type, .inl ⟨[(s% "content_length", natDec size), (s% "content_type", jsonStr type)], ?_, ?_, ?_, ?_⟩⟩
  · exact ⟨[], _, [], Ws.nil, .cons Ws.nil (jsonStr_quoted _) Ws.nil Ws.nil Ws.nil
      (.one Ws.nil (jsonStr_quoted _) Ws.nil Ws.nil Ws.nil), Ws.nil, create_render h⟩
  · rfl
  · rfl
  · intro m hm hn
    simp only [List.mem_cons, List.not_mem_nil, or_false] at hm
    rcases hm with rfl | rfl <;> exact absurd (by simp) hn

private theorem create_untyped (size : Nat) (hs : size < 2 ^ 53) : readCreateBody (createJson size []).render = none := by
  have hr : FieldReads createFields [] [(s% "content_length", natDec size)] [(s% "content_length", .n size)] :=
    .read (kind := .u64) (v := .n size) (by decide) rfl ⟨natDec_JNum size, natDec_Digits size, decVal_natDec size, by omega⟩ .nil
  obtain ⟨w1, q, hw1, e, hrec⟩ := reads_structMembers (.one Ws.nil (jsonStr_quoted _) Ws.nil Ws.nil Ws.nil) hr []
  have hren : (createJson size []).render = '{' :: (w1 ++ ('"' :: (q ++ '}' :: []))) := by
    have : (createJson size []).render = '{' :: ([] ++ jsonStr (s% "content_length") ++ [] ++ [':'] ++ [] ++ natDec size ++ []) ++
        ['}'] := by
      simp [createJson, Json.render, Json.renderMembers]
    rw [this, e]; simp
  have hrs : readStruct createFields (createJson size []).render = none := by
    unfold readStruct
    have h1 : skipWs ('{' :: (w1 ++ ('"' :: (q ++ '}' :: [])))) = '{' :: (w1 ++ ('"' :: (q ++ '}' :: []))) :=
      skipWs_append (w := []) Ws.nil (noWs_of_head (by decide))
    rw [hren, h1]
    simp only
    rw [skipWs_append hw1 (noWs_of_head (by decide))]
    simp only
    rw [hrec _ (by simp)]
    rfl
  unfold readCreateBody
  rw [← createFields, hrs]

private theorem utf8Char_length (c : Char) : (utf8Char c).length ≤ 4 := by
  unfold utf8Char
  simp only
  split
  · simp
  · split
    · simp
    · split <;> simp

private theorem utf8_escape (c : Char) : (utf8 (jsonEscapeChar c)).length ≤ 6 := by
  by_cases h : c.toNat < 128
  · exact forall_ascii (P := fun c => (utf8 (jsonEscapeChar c)).length ≤ 6) (by decide +kernel) c h
  · have e : jsonEscapeChar c = [c] := by
      unfold jsonEscapeChar
      simp only
      repeat rw [if_neg (by omega)]
    rw [e, utf8_cons, utf8_nil, List.append_nil]
    have := utf8Char_length c
    omega

private theorem utf8_jsonStr (s : Str) : (utf8 (jsonStr s)).length ≤ 6 * s.length + 2 := by
  have key : (utf8 (s.flatMap jsonEscapeChar)).length ≤ 6 * s.length := by
    induction s with
    | nil => simp [utf8_nil]
    | cons c s ih =>
      rw [List.flatMap_cons, utf8_append, List.length_append, List.length_cons]
      have := utf8_escape c
      omega
  unfold jsonStr
  rw [utf8_append, utf8_append, List.length_append, List.length_append]
  have h : (utf8 ['"']).length = 1 := by decide
  omega

private theorem natDec_utf8 {n : Nat} (h : n < 2 ^ 53) : (utf8 (natDec n)).length ≤ 16 := by
  rw [utf8_length_ascii]
  · exact natDec_length_lt 16 (by omega) (by omega)
  · intro c hc
    have := (natDec_Digits n).2 c hc
    revert this
    exact (by decide : ∀ c ∈ s% "0123456789", c.toNat < 128) c

private theorem create_length {size : Nat} {type : Str} (hs : size < 2 ^ 53) (ht : type.length ≤ 300000) :
    (utf8 (createJson size type).render).length ≤ 2097152 := by
  have h1 := natDec_utf8 hs
  have h2 := utf8_jsonStr type
  have c1 : (utf8 ['{']).length = 1 := by decide
  have c2 : (utf8 ['}']).length = 1 := by decide
  have c3 : (utf8 [':']).length = 1 := by decide
  have c4 : (utf8 [',']).length = 1 := by decide
  have c5 : (utf8 (jsonStr (s% "content_length"))).length = 16 := by decide +kernel
  have c6 : (utf8 (jsonStr (s% "content_type"))).length = 14 := by decide +kernel
  unfold createJson
  split
  · simp only [Json.render, Json.renderMembers, utf8_append, List.length_append, utf8_nil, List.length_nil]
    omega
  · simp only [Json.render, Json.renderMembers, utf8_append, List.length_append, utf8_nil, List.length_nil]
    omega

private theorem uuid_segment {id : Str} (h : IsUuid id) : id ≠ [] ∧ '/' ∉ id ∧ percentDecode id = utf8 id := by
  refine ⟨?_, ?_, percentDecode_no_escape ?_⟩
  · rintro rfl
    exact absurd h.1 (by decide)
  · intro hm
    exact absurd (h.2 _ hm) (by decide)
  · rintro ⟨a, x, y, b, rfl, _⟩
    exact absurd (h.2 '%' (by simp)) (by decide)

/-- What the page sends is what it asks for. -/
theorem C94_sent (mime : MimeTypes) (file : ChosenFile) (u : Upload) (q : WebRequest) (r : Req)
    (hq : u.webRequest file = some q) (hr : u.request file = some r) (hid : ∀ id, u = .uploaded id → IsUuid id)
    (hsize : file.content.length < 2 ^ 53) (htype : file.type.length ≤ 300000) : route mime q = .api r := by
  rw [C94_routed]
  cases u with
  | chosen =>
    simp only [Upload.webRequest, Option.some.injEq] at hq
    subst hq
    simp only [Upload.request] at hr
    split at hr
    · cases hr
    · rename_i ht
      cases hr
      exact ⟨rfl, rfl, ⟨_, rfl, mime.json⟩, create_length hsize htype, _, [], (List.append_nil _).symm, create_text ht hsize⟩
  | uploaded id =>
    simp only [Upload.webRequest, Option.some.injEq] at hq
    subst hq
    simp only [Upload.request, Option.some.injEq] at hr
    subst hr
    obtain ⟨h0, h1, h2⟩ := uuid_segment (hid id rfl)
    exact ⟨rfl, id, rfl, h0, h1, h2⟩
  | reported =>
    simp only [Upload.webRequest, Option.some.injEq] at hq
    subst hq
    simp only [Upload.request, Option.some.injEq] at hr
    subst hr
    exact ⟨.inl rfl, rfl⟩
  | _ => cases hq

/-- A file without a type is refused. -/
theorem C94_untyped (mime : MimeTypes) (file : ChosenFile) (u : Upload) (q : WebRequest)
    (hq : u.webRequest file = some q) (hr : u.request file = none) (hsize : file.content.length < 2 ^ 53) :
    route mime q = .refused .badBody := by
  rw [C94_refused]
  cases u with
  | chosen =>
    simp only [Upload.webRequest, Option.some.injEq] at hq
    subst hq
    simp only [Upload.request] at hr
    split at hr
    · rename_i ht
      refine ⟨rfl, rfl, ⟨_, rfl, mime.json⟩, create_length hsize (by rw [ht]; decide), fun text rest n t e hc => ?_⟩
      have := readCreateBody_iff.2 ⟨text, rest, e, hc⟩
      rw [ht, create_untyped _ hsize] at this
      cases this
    · cases hr
  | uploaded id => cases hr
  | reported => cases hr
  | _ => cases hq

/-! ### what the page reads -/

/-- The bodies of the answers are JSON texts of exactly what the handlers return. -/
theorem C94_bodies (fields : List (Str × Str)) (method url : Str) (urls : List Str) :
    (∃ body, (Reply.form fields method url).web = some ⟨200, body⟩ ∧ ∀ j, JsonText j body ↔
      j = .obj [(s% "form_data", .arr (fields.map fun f => .arr [.str f.1, .str f.2])), (s% "method", .str method),
        (s% "url", .str url)]) ∧
    (∃ body, (Reply.urls urls).web = some ⟨200, body⟩ ∧ ∀ j, JsonText j body ↔ j = .arr (urls.map .str)) ∧
    Reply.noContent.web = some ⟨204, []⟩ ∧ Reply.internalServerError.web = some ⟨500, []⟩ ∧ Reply.aborted.web = none := by
  refine ⟨⟨_, rfl, fun j => ⟨fun h => jsonText_unique h (render_text _ (formJson_nums fields method url)), ?_⟩⟩,
    ⟨_, rfl, fun j => ⟨fun h => jsonText_unique h (render_text _ (urlsJson_nums urls)), ?_⟩⟩, rfl, rfl, rfl⟩
  · rintro rfl; exact render_text _ (formJson_nums fields method url)
  · rintro rfl; exact render_text _ (urlsJson_nums urls)

/-- The page goes on with exactly what the handler has answered. -/
theorem C94_received (u : Upload) (reply : Reply) (resp : WebResponse) (h : reply.web = some resp) :
    u.receives resp = u.answered reply := by
  have hf : ∀ fields method url, jsonParse (formJson fields method url).render = some (formJson fields method url) :=
    fun _ _ _ => jsonParse_iff.2 (render_text _ (formJson_nums _ _ _))
  have hu : ∀ urls, jsonParse (urlsJson urls).render = some (urlsJson urls) :=
    fun _ => jsonParse_iff.2 (render_text _ (urlsJson_nums _))
  cases reply with
  | form fields method url =>
    simp only [Reply.web, Option.some.injEq] at h
    subst h
    cases u <;> simp [Upload.receives, Upload.answered, hf, readForm_formJson]
    simp [formJson]
  | urls urls =>
    simp only [Reply.web, Option.some.injEq] at h
    subst h
    have hu := hu urls
    unfold urlsJson at hu
    cases u <;> simp [Upload.receives, Upload.answered, hu, urlsJson, readForm, readStrings_map]
  | noContent =>
    simp only [Reply.web, Option.some.injEq] at h
    subst h
    cases u <;> simp [Upload.receives, Upload.answered]
  | internalServerError =>
    simp only [Reply.web, Option.some.injEq] at h
    subst h
    cases u <;> simp [Upload.receives, Upload.answered]
  | aborted => cases h

end CSS
