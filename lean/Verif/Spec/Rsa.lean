import Verif.Spec.Sha256
import Verif.Model.Outcome
/-
RSASSA-PKCS1-v1_5 with SHA-256 as the verifier of a signature checks it (RFC 8017, sections 8.2.2 and 9.2), and where a
PKCS #8 private key (RFC 5208, in DER) has its public key.
-/
namespace CSS.Spec.Rsa
open Sha256

/-- The DER prefix of a SHA-256 `DigestInfo`. -/
def digestInfoPrefix : Bytes :=
  [0x30, 0x31, 0x30, 0x0d, 0x06, 0x09, 0x60, 0x86, 0x48, 0x01, 0x65, 0x03, 0x04, 0x02, 0x01, 0x05, 0x00, 0x04, 0x20]

/-- EMSA-PKCS1-v1_5: `00 01 FF … FF 00 DigestInfo`, `k` bytes. -/
def encoded (k : Nat) (m : Bytes) : Bytes :=
  [0x00, 0x01] ++ List.replicate (k - 54) 0xff ++ [0x00] ++ digestInfoPrefix ++ digest m

/-- `s` is a valid signature of `m` under the public key with the modulus `n` and the exponent `e`. -/
def Verifies (n e : Nat) (m s : Bytes) : Prop :=
  256 ^ (s.length - 1) ≤ n ∧ n < 256 ^ s.length ∧ 62 ≤ s.length ∧
    bigEndian s < n ∧ bigEndian s ^ e % n = bigEndian (encoded s.length m)

/-- The bytes of a number, big-endian, without leading zeros. -/
def bytesOf (n : Nat) : Bytes := if n = 0 then [] else bytesOf (n / 256) ++ [UInt8.ofNat n]
termination_by n

/-- The length octets of DER. -/
def derLength (n : Nat) : Bytes :=
  if n < 128 then [UInt8.ofNat n] else UInt8.ofNat (128 + (bytesOf n).length) :: bytesOf n

/-- Tag, length, value. -/
def der (tag : UInt8) (value : Bytes) : Bytes := tag :: derLength value.length ++ value

/-- A non-negative INTEGER. -/
def derInt (n : Nat) : Bytes :=
  der 0x02 (match bytesOf n with
    | [] => [0]
    | b :: r => if b.toNat < 128 then b :: r else 0 :: b :: r)

/-- The algorithm identifier rsaEncryption. -/
def rsaEncryption : Bytes :=
  der 0x30 [0x06, 0x09, 0x2a, 0x86, 0x48, 0x86, 0xf7, 0x0d, 0x01, 0x01, 0x01, 0x05, 0x00]

/-- `key` is a PKCS #8 private key whose public key is `(n, e)`; `secret` is the rest of the RSAPrivateKey. -/
def PublicKeyIn (key : Bytes) (n e : Nat) : Prop :=
  key.length < 2 ^ 32 ∧ ∃ secret, key = der 0x30 (derInt 0 ++ rsaEncryption ++
    der 0x04 (der 0x30 (derInt 0 ++ derInt n ++ derInt e ++ secret)))

/-- The RSA implementation is right: what it returns as a signature is one, under the public key in the private key. -/
def Correct (env : Env) : Prop :=
  ∀ key m s, env.rsaFromPkcs8 key = true → env.rsaSign key m = some s → ∃ n e, PublicKeyIn key n e ∧ Verifies n e m s

end CSS.Spec.Rsa
