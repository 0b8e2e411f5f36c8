import Verif.Lemmas.Json
import Verif.Lemmas.Codec
/- The model's base64 decoder is the RFC 4648 decoder. -/
set_option linter.unusedSimpArgs false
namespace CSS
open Spec

theorem b64Alphabet_ascii : ∀ c ∈ b64Alphabet, c.toNat < 128 := by decide +kernel

theorem b64Val_eq (c : Char) : b64Val c = b64Alphabet.idxOf? c := by
  by_cases h : c.toNat < 128
  · exact forall_ascii (P := fun c => b64Val c = b64Alphabet.idxOf? c) (by decide +kernel) c h
  · have h1 : b64Val c = none := by
      unfold b64Val
      simp only
      rw [if_neg (by omega), if_neg (by omega), if_neg (by omega), if_neg (by omega), if_neg (by omega)]
    have h2 : b64Alphabet.idxOf? c = none := by
      rw [List.idxOf?_eq_none_iff]
      intro hc
      exact h (b64Alphabet_ascii c hc)
    rw [h1, h2]

theorem b64Val_lt {c : Char} {n : Nat} (h : b64Val c = some n) : n < 64 := by
  unfold b64Val at h
  simp only at h
  split at h
  · cases h; omega
  · split at h
    · cases h; omega
    · split at h
      · cases h; omega
      · split at h
        · cases h; omega
        · split at h
          · cases h; omega
          · cases h

theorem b64Val_pad : b64Val '=' = none := by decide

theorem base64Decode_long (a b c d e : Char) (r : Str) :
    base64Decode (a :: b :: c :: d :: e :: r) = (do
      let x ← b64Alphabet.idxOf? a
      let y ← b64Alphabet.idxOf? b
      let z ← b64Alphabet.idxOf? c
      let w ← b64Alphabet.idxOf? d
      let rest ← base64Decode (e :: r)
      let n := ((x * 64 + y) * 64 + z) * 64 + w
      some (UInt8.ofNat (n / 65536) :: UInt8.ofNat (n / 256 % 256) :: UInt8.ofNat (n % 256) :: rest)) := by
  rw [base64Decode]
  · intro _ _ h; cases h
  · intro _ h; cases h

theorem group_bytes {x y z w : Nat} (_ : x < 64) (_ : y < 64) (hz : z < 64) (hw : w < 64) :
    let n := ((x * 64 + y) * 64 + z) * 64 + w
    n / 65536 = x * 4 + y / 16 ∧ n / 256 % 256 = y % 16 * 16 + z / 4 ∧ n % 256 = z % 4 * 64 + w := by
  intro n; refine ⟨?_, ?_, ?_⟩ <;> simp only [n] <;> omega

theorem b64Decode_eq : ∀ s : Str, b64Decode s = base64Decode s
  | [] => rfl
  | [_] => by rw [b64Decode, base64Decode] <;> simp
  | [_, _] => by rw [b64Decode, base64Decode] <;> simp
  | [_, _, _] => by rw [b64Decode, base64Decode] <;> simp
  | [a, b, c, d] => by
    by_cases hc : c = '='
    · by_cases hd : d = '='
      · subst hc hd
        simp only [b64Decode, base64Decode, ← b64Val_eq]
        cases ha : b64Val a with
        | none => rfl
        | some x =>
          cases hb : b64Val b with
          | none => rfl
          | some y =>
            have := b64Val_lt ha
            have := b64Val_lt hb
            simp only [Option.bind_eq_bind, Option.bind_some]
            have e : (x * 64 + y) % 16 = y % 16 := by omega
            have e2 : (x * 64 + y) / 16 = x * 4 + y / 16 := by omega
            rw [e, e2]
            simp
      · subst hc
        have h1 : b64Decode [a, b, '=', d] = none := by
          simp only [b64Decode]
          cases b64Val a with
          | none => rfl
          | some x => cases b64Val b <;> simp [hd, b64Val_pad]
        have h2 : base64Decode [a, b, '=', d] = none := by
          rw [base64Decode]
          · simp only [← b64Val_eq]
            cases b64Val a with
            | none => rfl
            | some x => cases b64Val b <;> simp [b64Val_pad]
          · intro _ h; exact absurd h hd
          · intro h; exact absurd h hd
        rw [h1, h2]
    · by_cases hd : d = '='
      · subst hd
        rw [base64Decode]
        · simp only [b64Decode, ← b64Val_eq]
          cases ha : b64Val a with
          | none => rfl
          | some x =>
            cases hb : b64Val b with
            | none => rfl
            | some y =>
              cases hz : b64Val c with
              | none => simp [hc, hz]
              | some z =>
                have := b64Val_lt ha
                have := b64Val_lt hb
                have := b64Val_lt hz
                have e : ((x * 64 + y) * 64 + z) % 4 = z % 4 := by omega
                have e2 : ((x * 64 + y) * 64 + z) / 1024 = x * 4 + y / 16 := by omega
                have e3 : ((x * 64 + y) * 64 + z) / 4 % 256 = y % 16 * 16 + z / 4 := by omega
                simp only [Option.bind_eq_bind, Option.bind_some, e, e2, e3, hc, false_and, if_false, if_true]
        · exact hc
      · rw [base64Decode]
        · simp only [b64Decode, ← b64Val_eq]
          cases ha : b64Val a with
          | none => rfl
          | some x =>
            cases hb : b64Val b with
            | none => rfl
            | some y =>
              cases hz : b64Val c with
              | none => simp [hc, hz]
              | some z =>
                cases hw : b64Val d with
                | none => simp [hc, hd, hw]
                | some w =>
                  obtain ⟨e1, e2, e3⟩ := group_bytes (b64Val_lt ha) (b64Val_lt hb) (b64Val_lt hz) (b64Val_lt hw)
                  simp only [Option.bind_eq_bind, Option.bind_some, e1, e2, e3, hc, hd, false_and, if_false, base64Decode]
        · intro h; exact absurd h hc
        · intro h; exact absurd h hd
  | a :: b :: c :: d :: e :: r => by
    rw [base64Decode_long, b64Decode, b64Decode_eq (e :: r)]
    · simp only [← b64Val_eq]
      cases ha : b64Val a with
      | none => rfl
      | some x =>
        cases hb : b64Val b with
        | none => rfl
        | some y =>
          cases hz : b64Val c with
          | none => rfl
          | some z =>
            cases hw : b64Val d with
            | none => rfl
            | some w =>
              obtain ⟨e1, e2, e3⟩ := group_bytes (b64Val_lt ha) (b64Val_lt hb) (b64Val_lt hz) (b64Val_lt hw)
              simp only [Option.bind_eq_bind, Option.bind_some, e1, e2, e3]
    · intro h; cases h

end CSS
