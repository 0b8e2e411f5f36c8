import Verif.Spec.Rsa
import Verif.Lemmas.Sha256
namespace CSS
open Spec Spec.Sha256 Spec.Rsa

theorem bigEndian_append (a b : Bytes) : bigEndian (a ++ b) = bigEndian a * 256 ^ b.length + bigEndian b := by
  unfold bigEndian
  rw [List.foldl_append, foldl_be]
  rfl

theorem bigEndian_bytesOf (n : Nat) : bigEndian (bytesOf n) = n := by
  induction n using bytesOf.induct with
  | case1 => rw [bytesOf]; rfl
  | case2 n hn ih =>
    rw [bytesOf, if_neg hn, bigEndian_append, ih]
    simp only [List.length_cons, List.length_nil, bigEndian, List.foldl_cons, List.foldl_nil, UInt8.toNat_ofNat']
    omega

theorem bytesOf_inj {a b : Nat} (h : bytesOf a = bytesOf b) : a = b := by
  rw [← bigEndian_bytesOf a, h, bigEndian_bytesOf]

/-- Lengths below 256¹²⁶ can be read back. -/
theorem derLength_inj {a b : Nat} {x y : Bytes} (ha : (bytesOf a).length < 128) (hb : (bytesOf b).length < 128)
    (h : derLength a ++ x = derLength b ++ y) : a = b ∧ x = y := by
  unfold derLength at h
  by_cases h1 : a < 128 <;> by_cases h2 : b < 128
  · rw [if_pos h1, if_pos h2] at h
    simp only [List.cons_append, List.nil_append, List.cons.injEq] at h
    have := congrArg UInt8.toNat h.1
    simp only [UInt8.toNat_ofNat'] at this
    exact ⟨by omega, h.2⟩
  · rw [if_pos h1, if_neg h2] at h
    simp only [List.cons_append, List.nil_append, List.cons.injEq] at h
    have := congrArg UInt8.toNat h.1
    simp only [UInt8.toNat_ofNat'] at this
    omega
  · rw [if_neg h1, if_pos h2] at h
    simp only [List.cons_append, List.nil_append, List.cons.injEq] at h
    have := congrArg UInt8.toNat h.1
    simp only [UInt8.toNat_ofNat'] at this
    omega
  · rw [if_neg h1, if_neg h2] at h
    simp only [List.cons_append, List.cons.injEq] at h
    have := congrArg UInt8.toNat h.1
    simp only [UInt8.toNat_ofNat'] at this
    obtain ⟨h3, h4⟩ := List.append_inj h.2 (by omega)
    exact ⟨bytesOf_inj h3, h4⟩

theorem bytesOf_length (k : Nat) : ∀ n, n < 256 ^ k → (bytesOf n).length ≤ k := by
  induction k with
  | zero => intro n hn; obtain rfl : n = 0 := by simpa using hn
            rw [bytesOf]; simp
  | succ k ih =>
    intro n hn
    rw [bytesOf]
    split
    · simp
    · rw [List.length_append, List.length_singleton]
      have := ih (n / 256) (by rw [Nat.pow_succ] at hn; omega)
      omega

theorem der_inj {t : UInt8} {u v x y : Bytes} (hu : u.length < 2 ^ 32) (hv : v.length < 2 ^ 32)
    (h : der t u ++ x = der t v ++ y) : u = v ∧ x = y := by
  unfold der at h
  simp only [List.cons_append, List.append_assoc, List.cons.injEq, true_and] at h
  have bu := bytesOf_length 4 u.length hu
  have bv := bytesOf_length 4 v.length hv
  obtain ⟨h1, h2⟩ := derLength_inj (by omega) (by omega) h
  exact List.append_inj h2 h1

theorem der_inj' {t : UInt8} {u v : Bytes} (h : der t u = der t v) (hu : u.length < 2 ^ 32) (hv : v.length < 2 ^ 32) :
    u = v := (der_inj (x := []) (y := []) hu hv (by simpa using h)).1

theorem length_der (t : UInt8) (v : Bytes) : v.length < (der t v).length := by
  simp only [der, List.length_cons, List.length_append]; omega

/-- The content of an INTEGER. -/
def intValue (n : Nat) : Bytes :=
  match bytesOf n with
  | [] => [0]
  | b :: r => if b.toNat < 128 then b :: r else 0 :: b :: r

theorem bigEndian_intValue (n : Nat) : bigEndian (intValue n) = n := by
  have h := bigEndian_bytesOf n
  unfold intValue
  revert h
  cases bytesOf n with
  | nil => exact id
  | cons b r =>
    intro h
    dsimp only
    split
    · exact h
    · rw [bigEndian_cons, h]; simp

theorem derInt_inj {a b : Nat} {x y : Bytes} (hl : (derInt a ++ x).length < 2 ^ 32)
    (h : derInt a ++ x = derInt b ++ y) : a = b ∧ x = y := by
  have hl' : (derInt b ++ y).length < 2 ^ 32 := h ▸ hl
  have la := length_der 0x02 (intValue a)
  have lb := length_der 0x02 (intValue b)
  rw [List.length_append] at hl hl'
  obtain ⟨h1, h2⟩ := der_inj (t := 0x02) (u := intValue a) (v := intValue b)
    (Nat.lt_of_lt_of_le la (by change (derInt a).length ≤ _; omega))
    (Nat.lt_of_lt_of_le lb (by change (derInt b).length ≤ _; omega)) h
  refine ⟨?_, h2⟩
  rw [← bigEndian_intValue a, h1, bigEndian_intValue]

/-- A private key has one public key. -/
theorem publicKeyIn_unique {key : Bytes} {n e n' e' : Nat} (h : PublicKeyIn key n e) (h' : PublicKeyIn key n' e') :
    n = n' ∧ e = e' := by
  obtain ⟨hl, s, hk⟩ := h
  obtain ⟨_, s', hk'⟩ := h'
  have key_eq := hk.symm.trans hk'
  have hl1 := hl
  have hl2 := hl
  rw [hk] at hl1
  rw [hk'] at hl2
  have l1 := length_der 0x30 (derInt 0 ++ rsaEncryption ++ der 0x04 (der 0x30 (derInt 0 ++ derInt n ++ derInt e ++ s)))
  have l2 := length_der 0x30 (derInt 0 ++ rsaEncryption ++ der 0x04 (der 0x30 (derInt 0 ++ derInt n' ++ derInt e' ++ s')))
  have e1 := der_inj' key_eq (Nat.lt_trans l1 hl1) (Nat.lt_trans l2 hl2)
  have e2 := List.append_cancel_left e1
  have m1 := length_der 0x04 (der 0x30 (derInt 0 ++ derInt n ++ derInt e ++ s))
  have m2 := length_der 0x04 (der 0x30 (derInt 0 ++ derInt n' ++ derInt e' ++ s'))
  have m3 := length_der 0x30 (derInt 0 ++ derInt n ++ derInt e ++ s)
  have m4 := length_der 0x30 (derInt 0 ++ derInt n' ++ derInt e' ++ s')
  rw [List.length_append] at l1 l2
  have e3 := der_inj' e2 (by omega) (by omega)
  have e4 := der_inj' e3 (by omega) (by omega)
  have hs : (derInt 0 ++ derInt n ++ derInt e ++ s).length < 2 ^ 32 := by omega
  simp only [List.append_assoc] at e4 hs
  have e5 := List.append_cancel_left e4
  rw [List.length_append] at hs
  obtain ⟨rfl, e6⟩ := derInt_inj (by omega) e5
  rw [List.length_append] at hs
  obtain ⟨rfl, _⟩ := derInt_inj (by omega) e6
  exact ⟨rfl, rfl⟩

theorem spec_digest_length (m : Bytes) : (Spec.Sha256.digest m).length = 32 := by rw [← digest_eq, digest_length]

/-- A signature belongs to one digest: if it verifies for two messages, they have the same SHA-256 digest. -/
theorem verifies_digest {n e : Nat} {m m' s : Bytes} (h : Verifies n e m s) (h' : Verifies n e m' s) :
    Spec.Sha256.digest m = Spec.Sha256.digest m' := by
  obtain ⟨_, _, hk, _, hv⟩ := h
  obtain ⟨_, _, _, _, hv'⟩ := h'
  have he := hv.symm.trans hv'
  have hb := bigEndian_inj _ _ (by simp [encoded, spec_digest_length]) he
  unfold encoded at hb
  exact List.append_cancel_left hb

end CSS
