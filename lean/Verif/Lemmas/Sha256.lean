import Verif.Model.Sha256
import Verif.Spec.Sha256
/- The model's SHA-256 is the one of FIPS 180-4. -/
namespace CSS
open Spec.Sha256

theorem rotr_eq (n : Nat) (hn : n < 32) (x : Word) : (x.rotateRight n).toNat = Sha256.rotr n x.toNat := by
  rw [BitVec.toNat_rotateRight, Nat.mod_eq_of_lt hn]
  rfl

/-- A model state and the words it stands for. -/
def Same (s : Sha256.State) (v : Words8) : Prop :=
  s = ⟨v.a.toNat, v.b.toNat, v.c.toNat, v.d.toNat, v.e.toNat, v.f.toNat, v.g.toNat, v.h.toNat⟩

theorem not_toNat (x : Word) : (~~~x).toNat = 4294967295 - x.toNat := by
  rw [BitVec.toNat_not]

theorem round_eq {s : Sha256.State} {v : Words8} (h : Same s v) (k w : Word) :
    Same (Sha256.round s k.toNat w.toNat)
      (let T1 := v.h + Sigma1 v.e + Ch v.e v.f v.g + k + w
       let T2 := Sigma0 v.a + Maj v.a v.b v.c
       ⟨T1 + T2, v.a, v.b, v.c, v.d + T1, v.e, v.f, v.g⟩) := by
  unfold Same at h ⊢
  subst h
  unfold Sha256.round
  simp only [Sigma0, Sigma1, Ch, Maj, BitVec.toNat_add, BitVec.toNat_xor, BitVec.toNat_and, not_toNat,
    rotr_eq _ (by decide : 2 < 32), rotr_eq _ (by decide : 13 < 32), rotr_eq _ (by decide : 22 < 32),
    rotr_eq _ (by decide : 6 < 32), rotr_eq _ (by decide : 11 < 32), rotr_eq _ (by decide : 25 < 32)]
  congr 1 <;> omega

theorem schedule_step (M : Nat → Word) (t : Nat) :
    (W M (t + 16)).toNat = ((W M t).toNat +
      (Sha256.rotr 7 (W M (t + 1)).toNat ^^^ Sha256.rotr 18 (W M (t + 1)).toNat ^^^ ((W M (t + 1)).toNat >>> 3)) +
      (W M (t + 9)).toNat +
      (Sha256.rotr 17 (W M (t + 14)).toNat ^^^ Sha256.rotr 19 (W M (t + 14)).toNat ^^^ ((W M (t + 14)).toNat >>> 10))) %
        4294967296 := by
  rw [W, if_neg (by omega), show t + 16 - 2 = t + 14 by omega, show t + 16 - 7 = t + 9 by omega,
    show t + 16 - 15 = t + 1 by omega, show t + 16 - 16 = t by omega]
  simp only [sigma0, sigma1, BitVec.toNat_add, BitVec.toNat_xor, BitVec.toNat_ushiftRight,
    rotr_eq _ (by decide : 7 < 32), rotr_eq _ (by decide : 18 < 32),
    rotr_eq _ (by decide : 17 < 32), rotr_eq _ (by decide : 19 < 32)]
  omega

/-- The next 16 words of the schedule. -/
def window (M : Nat → Word) (t : Nat) : List Nat := (List.range 16).map fun i => (W M (t + i)).toNat

theorem window_step (M : Nat → Word) (t : Nat) :
    (window M t).tail ++ [(W M (t + 16)).toNat] = window M (t + 1) := by
  simp [window, List.range, List.range.loop, Nat.add_assoc]

theorem constants_eq : Sha256.roundConstants = K.map BitVec.toNat := by decide

attribute [local irreducible] working hashValue

theorem rounds_eq (H : Words8) (M : Nat → Word) (n : Nat) : ∀ (t : Nat) (s : Sha256.State), t + n = 64 →
    Same s (working H M t) →
    Same (Sha256.rounds (Sha256.roundConstants.drop t) (window M t) s) (working H M 64) := by
  induction n with
  | zero =>
    intro t s ht h
    obtain rfl : t = 64 := by omega
    exact h
  | succ n ih =>
    intro t s ht h
    have hlt : t < K.length := by
      have : K.length = 64 := by decide
      omega
    have hd : Sha256.roundConstants.drop t = (K.getD t 0).toNat :: Sha256.roundConstants.drop (t + 1) := by
      rw [constants_eq, List.drop_eq_getElem_cons (by rw [List.length_map]; exact hlt), List.getElem_map]
      rw [List.getD_eq_getElem?_getD, List.getElem?_eq_getElem hlt]
      rfl
    rw [hd, Sha256.rounds]
    have e0 : (window M t).getD 0 0 = (W M t).toNat := rfl
    have e1 : (window M t).getD 1 0 = (W M (t + 1)).toNat := rfl
    have e9 : (window M t).getD 9 0 = (W M (t + 9)).toNat := rfl
    have e14 : (window M t).getD 14 0 = (W M (t + 14)).toNat := rfl
    simp only [e0, e1, e9, e14]
    rw [← schedule_step, window_step]
    refine ih (t + 1) _ (by omega) ?_
    rw [working]
    exact round_eq h _ _

theorem add_eq {s r : Sha256.State} {H v : Words8} (h : Same s H) (hr : Same r v) : Same (s.add r) (v.add H) := by
  unfold Same at *
  subst h hr
  simp only [Sha256.State.add, Words8.add, BitVec.toNat_add]
  congr 1 <;> omega

theorem working_zero (H : Words8) (M : Nat → Word) : working H M 0 = H := by rw [working]

theorem compress_eq {s : Sha256.State} {H : Words8} (h : Same s H) (M : Nat → Word) :
    Same (Sha256.compress s ((List.range 16).map fun i => (M i).toNat)) (next H M) := by
  have hw : ((List.range 16).map fun i => (M i).toNat) = window M 0 := by
    unfold window
    refine List.map_congr_left fun i hi => ?_
    rw [Nat.zero_add, W, if_pos (List.mem_range.1 hi)]
  have hr := rounds_eq H M 64 0 s rfl ((working_zero H M).symm ▸ h)
  rw [List.drop_zero] at hr
  rw [Sha256.compress, next, hw]
  exact add_eq h hr

/-! ### blocks and words -/

theorem words_getD (p : Bytes) : ∀ i, 4 * i + 4 ≤ p.length → (Sha256.words p)[i]? = some (word p i).toNat := by
  fun_induction Sha256.words p with
  | case1 a b c d rest ih =>
    intro i hi
    cases i with
    | zero =>
      simp only [List.getElem?_cons_zero, word, bigEndian, Nat.mul_zero, List.drop_zero, List.take_succ_cons, List.take_zero,
        List.foldl_cons, List.foldl_nil, BitVec.toNat_ofNat]
      have := a.toNat_lt; have := b.toNat_lt; have := c.toNat_lt; have := d.toNat_lt
      congr 1
      omega
    | succ i =>
      simp only [List.length_cons] at hi
      rw [List.getElem?_cons_succ, ih i (by omega)]
      rfl
  | case2 p hp =>
    intro i hi
    exfalso
    match p, hp, hi with
    | [], _, hi => simp at hi
    | [_], _, hi => simp at hi
    | [_, _], _, hi => simp at hi
    | [_, _, _], _, hi => simp at hi
    | a :: b :: c :: d :: r, hp, _ => exact hp a b c d r rfl

theorem words_length (p : Bytes) : (Sha256.words p).length = p.length / 4 := by
  fun_induction Sha256.words p with
  | case1 a b c d rest ih => simp only [List.length_cons, ih]; omega
  | case2 p hp =>
    match p, hp with
    | [], _ => rfl
    | [_], _ => simp
    | [_, _], _ => simp
    | [_, _, _], _ => simp
    | a :: b :: c :: d :: r, hp => exact absurd rfl (hp a b c d r)

theorem blocks_eq (p : Bytes) (n : Nat) : ∀ (k : Nat) (s : Sha256.State), 64 * (k + n) ≤ p.length →
    Same s (hashValue (word p) k) →
    Same ((Sha256.chunks n ((Sha256.words p).drop (16 * k))).foldl Sha256.compress s) (hashValue (word p) (k + n)) := by
  induction n with
  | zero => intro k s _ h; exact h
  | succ n ih =>
    intro k s hk h
    have ht : ((Sha256.words p).drop (16 * k)).take 16 = (List.range 16).map fun i => (word p (16 * k + i)).toNat := by
      refine List.ext_getElem? fun i => ?_
      rw [List.getElem?_take, List.getElem?_map]
      by_cases hi : i < 16
      · rw [if_pos hi, List.getElem?_drop, words_getD p _ (by omega), List.getElem?_range hi]
        rfl
      · rw [if_neg hi, List.getElem?_eq_none (by simp; omega)]
        rfl
    rw [Sha256.chunks, List.foldl_cons, ht, List.drop_drop, show 16 * k + 16 = 16 * (k + 1) by omega, show k + (n + 1) = k + 1 + n by omega]
    refine ih (k + 1) _ (by omega) ?_
    rw [hashValue]
    exact compress_eq h _

/-! ### padding and output -/

theorem bytesBE_length (k n : Nat) : (Sha256.bytesBE k n).length = k := by
  induction k with
  | zero => rfl
  | succ k ih => simp [Sha256.bytesBE, ih]

theorem foldl_be (bs : Bytes) : ∀ x, bs.foldl (fun n b => n * 256 + b.toNat) x = x * 256 ^ bs.length + bigEndian bs := by
  induction bs with
  | nil => intro x; simp [bigEndian]
  | cons b bs ih =>
    intro x
    unfold bigEndian
    rw [List.foldl_cons, List.foldl_cons, ih, ih (0 * 256 + b.toNat), List.length_cons, Nat.pow_succ, Nat.zero_mul, Nat.zero_add,
      Nat.add_mul, Nat.add_assoc, Nat.mul_assoc, Nat.mul_comm 256]

theorem bigEndian_cons (b : UInt8) (bs : Bytes) : bigEndian (b :: bs) = b.toNat * 256 ^ bs.length + bigEndian bs := by
  rw [show bigEndian (b :: bs) = bs.foldl (fun n b => n * 256 + b.toNat) (0 * 256 + b.toNat) from rfl, foldl_be]
  simp

theorem bigEndian_bytesBE (k n : Nat) : bigEndian (Sha256.bytesBE k n) = n % 256 ^ k := by
  induction k with
  | zero => simp [Sha256.bytesBE, bigEndian, Nat.mod_one]
  | succ k ih =>
    rw [Sha256.bytesBE, bigEndian_cons, ih, bytesBE_length, UInt8.toNat_ofNat', Nat.shiftRight_eq_div_pow,
      show (2 : Nat) ^ (8 * k) = 256 ^ k by rw [Nat.pow_mul], Nat.pow_succ 256, Nat.mod_mul, Nat.mul_comm,
      show 2 ^ 8 = 256 by decide]
    omega

theorem bigEndian_lt (bs : Bytes) : bigEndian bs < 256 ^ bs.length := by
  induction bs with
  | nil => decide
  | cons b bs ih =>
    rw [bigEndian_cons, List.length_cons, Nat.pow_succ, Nat.mul_comm _ 256]
    have := b.toNat_lt
    have : b.toNat * 256 ^ bs.length ≤ 255 * 256 ^ bs.length := Nat.mul_le_mul_right _ (by omega)
    omega

theorem pad_padded (m : Bytes) : Padded m (Sha256.pad m) := by
  refine ⟨(119 - m.length % 64) % 64, Sha256.bytesBE 8 (8 * m.length), by omega, ?_, bytesBE_length _ _, ?_, ?_⟩
  · unfold Sha256.pad; simp
  · rw [bigEndian_bytesBE]
  · unfold Sha256.pad
    simp only [List.length_append, List.length_cons, List.length_replicate, bytesBE_length]
    omega

theorem bigEndian_inj : ∀ (a b : Bytes), a.length = b.length → bigEndian a = bigEndian b → a = b := by
  intro a
  induction a with
  | nil => intro b h _; cases b with
    | nil => rfl
    | cons => simp at h
  | cons x xs ih =>
    intro b h he
    cases b with
    | nil => simp at h
    | cons y ys =>
      have hlen : xs.length = ys.length := by simpa using h
      rw [bigEndian_cons, bigEndian_cons, hlen] at he
      have b1 := bigEndian_lt xs
      have b2 := bigEndian_lt ys
      rw [hlen] at b1
      have hxy : x.toNat = y.toNat := by
        have e1 := congrArg (· / 256 ^ ys.length) he
        simp only [Nat.add_comm _ (bigEndian _), Nat.add_mul_div_right _ _ (Nat.pow_pos (by decide : 0 < 256)),
          Nat.div_eq_of_lt b1, Nat.div_eq_of_lt b2, Nat.zero_add] at e1
        exact e1
      obtain rfl : x = y := UInt8.toNat_inj.1 hxy
      rw [ih ys hlen (by omega)]

/-- Two paddings of a message are equal. -/
theorem padded_unique {m p q : Bytes} (hp : Padded m p) (hq : Padded m q) : p = q := by
  obtain ⟨k, l, hk, rfl, hl, hn, hm⟩ := hp
  obtain ⟨k', l', hk', rfl, hl', hn', hm'⟩ := hq
  simp only [List.length_append, List.length_cons, List.length_nil, List.length_replicate, hl, hl'] at hm hm'
  obtain rfl : k = k' := by omega
  have : l = l' := bigEndian_inj l l' (by rw [hl, hl']) (by rw [hn, hn'])
  rw [this]

theorem pad_eq (m : Bytes) : Spec.Sha256.pad m = Sha256.pad m := by
  unfold Spec.Sha256.pad Sha256.pad
  simp only [List.append_assoc, Sha256.bytesBE, List.map_cons, List.map_nil, Nat.shiftRight_eq_div_pow]
  rfl

/-- The padded message is the only one. -/
theorem padded_iff (m p : Bytes) : Padded m p ↔ p = Spec.Sha256.pad m := by
  rw [pad_eq]
  exact ⟨fun h => padded_unique h (pad_padded m), fun h => h ▸ pad_padded m⟩

theorem wordBytes_eq (x : Word) : wordBytes x = Sha256.bytesBE 4 x.toNat := by
  simp [wordBytes, Sha256.bytesBE]

/-- The model computes the SHA-256 digest. -/
theorem digest_eq (m : Bytes) : Sha256.digest m = Spec.Sha256.digest m := by
  obtain ⟨k, len, _, hpe, hlen, _, hmod⟩ := pad_padded m
  have hb := blocks_eq (Sha256.pad m) ((Sha256.words (Sha256.pad m)).length / 16) 0 Sha256.initial
    (by rw [words_length]; omega) (by rw [hashValue]; rfl)
  rw [Nat.zero_add, Nat.mul_zero, List.drop_zero] at hb
  unfold Sha256.digest Spec.Sha256.digest
  simp only [pad_eq]
  have hlen : (Sha256.words (Sha256.pad m)).length / 16 = (Sha256.pad m).length / 64 := by
    rw [words_length]; omega
  rw [hlen] at hb ⊢
  unfold Same at hb
  simp only [hb]
  generalize hashValue (word (Sha256.pad m)) ((Sha256.pad m).length / 64) = H
  simp only [List.flatMap_cons, List.flatMap_nil, wordBytes_eq]

theorem digest_length (m : Bytes) : (Sha256.digest m).length = 32 := by
  unfold Sha256.digest
  simp [bytesBE_length]

theorem sha256Hex_eq (m : Bytes) : sha256Hex m = hexDigest m := by
  unfold sha256Hex hexDigest hexEncode
  rw [digest_eq]
  have h : ∀ n : Fin 16, hexLower n.val = (s% "0123456789abcdef").getD n.val ' ' := by decide
  congr 1
  funext b
  have := b.toNat_lt
  rw [h ⟨b.toNat / 16, by omega⟩, h ⟨b.toNat % 16, by omega⟩]

theorem hexDigest_length (m : Bytes) : (hexDigest m).length = 64 := by
  rw [← sha256Hex_eq, sha256Hex]
  have h : ∀ bs, (hexEncode bs).length = 2 * bs.length := by
    intro bs
    induction bs with
    | nil => rfl
    | cons b bs ih =>
      rw [hexEncode, List.flatMap_cons, List.length_append, ← hexEncode, ih, List.length_cons]
      simp only [List.length_cons, List.length_nil]; omega
  rw [h, digest_length]

end CSS
