import Verif.Lemmas.Pem
import Verif.Props.Key
import Verif.Props.Server
import Verif.Props.FormPolicy
import Verif.Props.UrlReturns
import Verif.Props.ServerExamples
/-
C95: private keys as text. What the crate takes for the key, whatever the line lengths and line ends; the rest is refused.
-/
namespace CSS
open Spec

/-- C95. A text in the form of RFC 7468 is read as exactly the key in it: the lines may have any lengths, Unix or Windows ends and
blanks at the end, and there may be other text before and behind. -/
theorem C95_read (key : Bytes) (text : Str) (h : PemText key text) : pemRead text = some key := by
  obtain ⟨before, label, gap, lines, after, rfl, hb, hbn, hl, hln, hg, hf, hk⟩ := h
  have hc := fun (c : Char) => b64_chars (c := c) hk
  have hbody : ∀ c ∈ (lines.map PemLine.text).flatten, c ≠ '-' := by
    intro c hm
    simp only [List.mem_flatten, List.mem_map] at hm
    obtain ⟨_, ⟨l, hm, rfl⟩, hcl⟩ := hm
    rw [line_text, List.mem_append, List.mem_append, List.mem_append] at hcl
    rcases hcl with (h | h | h) | h
    · exact (b64_plain (hc c (by simp only [List.mem_flatten, List.mem_map]; exact ⟨_, ⟨l, hm, rfl⟩, h⟩))).2.2.2.1
    · rcases (hf l hm).2 c h with rfl | rfl <;> decide
    · split at h
      · simp at h; subst h; decide
      · simp at h
    · simp at h; subst h; decide
  have hlast : (lines.map PemLine.text).flatten = [] ∨ ∃ c, (lines.map PemLine.text).flatten.getLast? = some c ∧ c ∉ s% "-----END " := by
    cases hr : lines.reverse with
    | nil => left; rw [List.reverse_eq_nil_iff.1 hr]; rfl
    | cons l ls =>
      right
      refine ⟨'\n', ?_, by decide⟩
      rw [← List.reverse_reverse lines, hr, List.reverse_cons, List.map_append, List.flatten_append, List.map_singleton,
        List.flatten_singleton, line_text]
      simp [List.getLast?_append]
  have hskip : ∀ r : Str, pemSkip (gap ++ ((lines.map PemLine.text).flatten ++ (s% "-----END " ++ r))) =
      (lines.map PemLine.text).flatten ++ (s% "-----END " ++ r) := by
    intro r
    unfold pemSkip
    rw [List.dropWhile_append_of_pos]
    · cases hh : (lines.map PemLine.text).flatten with
      | nil => rfl
      | cons c t =>
        have := b64_plain (head_lines hf (fun c => hc c) (c := c) (by rw [hh]; rfl))
        rw [List.cons_append, List.dropWhile_cons, if_neg]
        simp [this]
    · intro c hm
      rcases hg c hm with rfl | rfl | rfl | rfl <;> rfl
  have hnb := noBlank_lines hf (fun c => hc c)
  have hlab : ∀ r : Str, pemReadUntil (s% "-----") (label ++ (s% "-----" ++ r)) = some (label, r) := fun r =>
    pemReadUntil_marker (by decide) (by
      right
      refine ⟨label.getLast hl, List.getLast?_eq_some_getLast hl, ?_⟩
      have hne : label.getLast hl ≠ '-' := fun h => hln (h ▸ List.getLast_mem hl)
      simp [hne]) (not_infix_of_head (c := '-') (by decide) hln)
  unfold pemRead
  rw [show before ++ s% "-----BEGIN " ++ label ++ s% "-----" ++ gap ++ (lines.map PemLine.text).flatten ++
      s% "-----END " ++ label ++ s% "-----" ++ after =
      before ++ (s% "-----BEGIN " ++ (label ++ (s% "-----" ++ (gap ++ ((lines.map PemLine.text).flatten ++
        (s% "-----END " ++ (label ++ (s% "-----" ++ after)))))))) by simp only [List.append_assoc],
    pemReadUntil_marker (by decide) (hb.imp id fun h => ⟨'\n', h, by decide⟩) hbn]
  simp only [Option.bind_eq_bind, Option.bind_some]
  rw [hlab]
  simp only [Option.bind_some]
  rw [hskip, pemReadUntil_marker (by decide) hlast (not_infix_of_head (c := '-') (by decide) fun h => hbody _ h rfl)]
  simp only [Option.bind_some]
  rw [hlab]
  simp only [Option.bind_some]
  have hhd : pemHeadersAndData (lines.map PemLine.text).flatten = ([], (lines.map PemLine.text).flatten) := by
    unfold pemHeadersAndData
    rw [pemReadUntil_none (by decide) (noBlank_nn hnb)]
    simp only
    rw [pemReadUntil_none (by decide) (noBlank_crlf hnb)]
  rw [if_neg hl, if_neg hl, if_neg (by simp), hhd]
  simp only
  rw [strLines_trim, splitLines_eq, lines_read hf (fun c => hc c), b64Decode_eq, hk]
  rfl

/-- C95. Nothing else is taken for a key: what is read is the base64 between `-----BEGIN label-----` and `-----END label-----`. -/
theorem C95_only (key : Bytes) (text : Str) (h : pemRead text = some key) : PemShows key text := by
  unfold pemRead at h
  simp only [Option.bind_eq_bind] at h
  cases h1 : pemReadUntil (s% "-----BEGIN ") text with
  | none => rw [h1] at h; simp at h
  | some r1 =>
    obtain ⟨before, afterBegin⟩ := r1
    rw [h1] at h
    simp only [Option.bind_some] at h
    cases h2 : pemReadUntil (s% "-----") afterBegin with
    | none => rw [h2] at h; simp at h
    | some r2 =>
      obtain ⟨tag, afterTag⟩ := r2
      rw [h2] at h
      simp only [Option.bind_some] at h
      cases h3 : pemReadUntil (s% "-----END ") (pemSkip afterTag) with
      | none => rw [h3] at h; simp at h
      | some r3 =>
        obtain ⟨body, afterBody⟩ := r3
        rw [h3] at h
        simp only [Option.bind_some] at h
        cases h4 : pemReadUntil (s% "-----") afterBody with
        | none => rw [h4] at h; simp at h
        | some r4 =>
          obtain ⟨tagEnd, after⟩ := r4
          rw [h4] at h
          simp only [Option.bind_some] at h
          split at h
          · cases h
          · rename_i htag
            split at h
            · cases h
            · split at h
              · cases h
              · rename_i heq
                have heq : tag = tagEnd := Decidable.not_not.1 heq
                subst heq
                cases h5 : b64Decode ((strLines (pemHeadersAndData body).2).map trimEnd).flatten with
                | none => rw [h5] at h; simp at h
                | some contents =>
                  rw [h5] at h
                  simp only [Option.bind_some] at h
                  split at h
                  · rename_i hcol
                    cases h
                    rw [List.all_eq_true] at hcol
                    have e1 := pemReadUntil_sound (by decide) h1
                    have e2 := pemReadUntil_sound (by decide) h2
                    have e3 := pemReadUntil_sound (by decide) h3
                    have e4 := pemReadUntil_sound (by decide) h4
                    have hgap : afterTag = (afterTag.takeWhile fun c => c = ' ' || c = '\n' || c = '\r' || c = '\t') ++ pemSkip afterTag :=
                      List.takeWhile_append_dropWhile.symm
                    have hsp : ∀ c ∈ (afterTag.takeWhile fun c => c = ' ' || c = '\n' || c = '\r' || c = '\t'), IsSpace c := by
                      intro c hc
                      have := List.all_eq_true.1 List.all_takeWhile c hc
                      simp only [Bool.or_eq_true, decide_eq_true_eq] at this
                      rcases this with ((rfl | rfl) | rfl) | rfl <;> decide
                    have hlines : ∀ line ∈ splitOn '\n' (pemHeadersAndData body).1, line ≠ [] → ':' ∈ line := by
                      intro line hm hne
                      have := hcol line (mem_strLines hm hne)
                      simpa using this
                    have hbody : ∃ head, body = head ++ (pemHeadersAndData body).2 ∧
                        (head = [] ∨ ∃ header : Str, (head = header ++ s% "\n\n" ∨ head = header ++ s% "\r\n\r\n") ∧
                          ∀ line ∈ splitOn '\n' header, line ≠ [] → ':' ∈ line) := by
                      revert hlines
                      clear h5 hcol
                      unfold pemHeadersAndData
                      cases g1 : pemReadUntil (s% "\n\n") body with
                      | some r =>
                        intro hlines
                        exact ⟨r.1 ++ s% "\n\n", pemReadUntil_sound (by decide) g1, .inr ⟨r.1, .inl rfl, hlines⟩⟩
                      | none =>
                        simp only
                        cases g2 : pemReadUntil (s% "\r\n\r\n") body with
                        | some r =>
                          intro hlines
                          exact ⟨r.1 ++ s% "\r\n\r\n", pemReadUntil_sound (by decide) g2, .inr ⟨r.1, .inr rfl, hlines⟩⟩
                        | none => intro _; exact ⟨[], rfl, .inl rfl⟩
                    obtain ⟨head, hb, hhead⟩ := hbody
                    refine ⟨before, tag, _, head, (pemHeadersAndData body).2, after, ?_, htag, hsp, hhead, data_filter h5⟩
                    rw [e1, e2]
                    conv => lhs; rw [hgap, e3, e4]
                    conv => lhs; rw [hb]
                    simp only [List.append_assoc]
                  · cases h

theorem wrap_lines (width : Nat) (windows : Bool) (hw : 0 < width) : ∀ (fuel : Nat) (s : Str), s.length ≤ fuel →
    ∃ lines : List PemLine, wrap width windows fuel s = (lines.map PemLine.text).flatten ∧ (∀ l ∈ lines, l.Fine) ∧
      (lines.map PemLine.data).flatten = s
  | 0, s, h => by
    obtain rfl : s = [] := List.length_eq_zero_iff.1 (by omega)
    exact ⟨[], rfl, by simp, rfl⟩
  | fuel + 1, s, h => by
    rw [wrap]
    split
    · rename_i hs
      subst hs
      exact ⟨[], rfl, by simp, rfl⟩
    · rename_i hs
      have hpos : 0 < s.length := List.length_pos_iff.2 hs
      obtain ⟨lines, h1, h2, h3⟩ := wrap_lines width windows hw fuel (s.drop width) (by rw [List.length_drop]; omega)
      refine ⟨⟨s.take width, [], windows⟩ :: lines, ?_, ?_, ?_⟩
      · rw [h1]; simp [PemLine.text]
      · intro l hl
        rcases List.mem_cons.1 hl with rfl | hl
        · refine ⟨?_, by simp⟩
          intro he
          have he : s.take width = [] := he
          have : (s.take width).length = 0 := by rw [he]; rfl
          rw [List.length_take] at this
          omega
        · exact h2 l hl
      · simp only [List.map_cons, List.flatten_cons, h3, List.take_append_drop]

/-- The usual way to write a key is such a text. -/
theorem pemWritten_text (key : Bytes) (base64 : Str) (width : Nat) (windows : Bool) (hk : base64Decode base64 = some key)
    (hw : 0 < width) : PemText key (pemWritten width windows base64) := by
  obtain ⟨lines, h1, h2, h3⟩ := wrap_lines width windows hw base64.length base64 (Nat.le_refl _)
  refine ⟨[], s% "PRIVATE KEY", if windows then s% "\r\n" else s% "\n", lines, if windows then s% "\r\n" else s% "\n", ?_, .inl rfl,
    by decide, by decide, by decide, ?_, h2, by rw [h3]; exact hk⟩
  · unfold pemWritten
    rw [h1]
    cases windows <;> simp
  · cases windows <;> decide

/-- C95. So a key written in the usual way is read back, for every key, every line width and either kind of line end. -/
theorem C95_written (key : Bytes) (base64 : Str) (width : Nat) (windows : Bool) (hk : base64Decode base64 = some key) (hw : 0 < width) :
    pemRead (pemWritten width windows base64) = some key :=
  C95_read _ _ (pemWritten_text key base64 width windows hk hw)

/-- C95. A URL is returned for a key in such a text exactly if the options are in order and the RSA implementation takes exactly
the bytes of that key and signs with them. -/
theorem C95_url (env : Env) (o : UrlOptions) (w : World) (email pem : Str) (key : Bytes) (t : Time) (henv : env.ReadsPem)
    (hpem : PemText key pem) (ht : t = o.accessibleAt.getD (env.now w.ticks)) (hk : o.signingKey = .serviceAccount email pem)
    (hu : o.useSignBlob = false) :
    (∃ url, (buildSignedUrl env o w).1 = .ok url) ↔
      ValidUrl env o t ∧ ¬ TooLong env o t email ∧ (∀ h ∈ o.headers, PlainValue h.2) ∧ env.rsaFromPkcs8 key = true ∧
      ∃ p signature, UrlParts env o t email p ∧ env.rsaSign key (utf8 p.stringToSign) = some signature := by
  rw [C62_service_account env o w email pem t ht hk hu, henv pem, C95_read key pem hpem]
  constructor
  · rintro ⟨h1, h2, h3, p, der, signature, h4, h5, h6, h7⟩
    cases h5
    exact ⟨h1, h2, h3, h6, p, signature, h4, h7⟩
  · rintro ⟨h1, h2, h3, h6, p, signature, h4, h7⟩
    exact ⟨h1, h2, h3, p, key, signature, h4, rfl, h6, h7⟩

/-- C95. From the key file to the server: the file is JSON with an e-mail and a key in such a text. Then it gives a signing key, and
the storage server, which knows the public key of that key, accepts the URLs that are built with it, in their time. -/
theorem C95_accepted (env : Env) (file : Str) (j : Json) (email pem : Str) (key : Bytes) (n e : Nat) (henv : env.ReadsPem)
    (hring : Rsa.Correct env) (hj : ReadableJson env file j) (he : HasMember j (s% "client_email") (.str email))
    (hp : HasMember j (s% "private_key") (.str pem)) (hpem : PemText key pem) (hpub : Rsa.PublicKeyIn key n e) (hemail : '%' ∉ email) :
    ∃ signingKey, SigningKey.serviceAccountFromStr env file = .ok signingKey ∧
      ∀ o w w' url time, o.signingKey = signingKey → Regular o → buildSignedUrl env o w = (.ok url, w') →
        validFrom env o.accessibleAt w / 1000000000 ≤ time →
        time < validFrom env o.accessibleAt w / 1000000000 + (o.expires - validFrom env o.accessibleAt w) / 1000000000 →
        Accepts email n e (theRequest o url time) :=
  ⟨.serviceAccount email pem, (C49_service_account_ok env file _).2 ⟨j, email, pem, hj, he, hp, rfl⟩,
    fun o w w' url time hk hr h h1 h2 => C65_service_account env o w w' url email pem key n e time h hk hr hring
      (by rw [henv pem]; exact C95_read key pem hpem) hpub hemail h1 h2⟩

/-- C95. With a text that shows no key, nothing is signed: no URL is returned. -/
theorem C95_no_url (env : Env) (o : UrlOptions) (w w' : World) (url email pem : Str) (henv : env.ReadsPem)
    (hk : o.signingKey = .serviceAccount email pem) (hno : ∀ key, ¬ PemShows key pem) : buildSignedUrl env o w ≠ (.ok url, w') := by
  intro h
  obtain ⟨_, _, _, _, _, hs, _⟩ := signed_ok h
  obtain ⟨_, _, _, _, _, hsg⟩ := hs
  rw [hk] at hsg
  obtain ⟨der, h1, _⟩ := hsg
  rw [henv pem] at h1
  exact hno der (C95_only der pem h1)

/-- C95. … and no form. -/
theorem C95_no_form (env : Env) (cs : List Call) (o : SigningOptions) (email pem : Str) (w w' : World) (fs : List (Str × Str))
    (henv : env.ReadsPem) (ho : (cs.filterMap callOptions).getLast? = some o) (hk : o.signingKey = .serviceAccount email pem)
    (hno : ∀ key, ¬ PemShows key pem) : (Builder.ofCalls cs).build env w ≠ (.ok fs, w') := by
  intro h
  obtain ⟨_, _, der, _, _, _, _, h1, _⟩ := C06_form_signature_service_account env cs o email pem w w' fs ho hk h
  rw [henv pem] at h1
  exact hno der (C95_only der pem h1)

/-- C95. How the key is written makes no difference to what is returned: only the key does. -/
theorem C95_same_url (env : Env) (o : UrlOptions) (email pem pem' : Str) (key : Bytes) (henv : env.ReadsPem) (h : PemText key pem)
    (h' : PemText key pem') :
    buildSignedUrl env { o with signingKey := .serviceAccount email pem } =
      buildSignedUrl env { o with signingKey := .serviceAccount email pem' } := by
  have hs : ∀ m, rsaSignPem env pem m = rsaSignPem env pem' m := by
    intro m
    unfold rsaSignPem
    rw [henv pem, henv pem', C95_read key pem h, C95_read key pem' h']
  have hkey : SigningKey.sign env (.serviceAccount email pem) = SigningKey.sign env (.serviceAccount email pem') := by
    funext u m
    unfold SigningKey.sign
    simp only [hs]
  unfold buildSignedUrl SignedUrl.new
  simp only [hkey]
  rfl

end CSS
