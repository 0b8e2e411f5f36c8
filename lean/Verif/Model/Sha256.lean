import Verif.Model.Codec
/-
`sha256::digest` (crate sha256 1.6, a wrapper of sha2), called in src/private/string_to_sign.rs:16: the SHA-256 digest of
the UTF-8 bytes of a string, in lower-case hex. Words are natural numbers below 2³². `Lemmas/Sha256` proves that it is
the function of FIPS 180-4 (`Spec/Sha256`).
-/
namespace CSS
namespace Sha256

/-- Rotation of a 32-bit word (sha2, called from src/private/string_to_sign.rs:16). -/
def rotr (n x : Nat) : Nat := (x >>> n) ||| ((x <<< (32 - n)) % 4294967296)

/-- The round constants (sha2, called from src/private/string_to_sign.rs:16). -/
def roundConstants : List Nat := [
  0x428a2f98, 0x71374491, 0xb5c0fbcf, 0xe9b5dba5, 0x3956c25b, 0x59f111f1, 0x923f82a4, 0xab1c5ed5,
  0xd807aa98, 0x12835b01, 0x243185be, 0x550c7dc3, 0x72be5d74, 0x80deb1fe, 0x9bdc06a7, 0xc19bf174,
  0xe49b69c1, 0xefbe4786, 0x0fc19dc6, 0x240ca1cc, 0x2de92c6f, 0x4a7484aa, 0x5cb0a9dc, 0x76f988da,
  0x983e5152, 0xa831c66d, 0xb00327c8, 0xbf597fc7, 0xc6e00bf3, 0xd5a79147, 0x06ca6351, 0x14292967,
  0x27b70a85, 0x2e1b2138, 0x4d2c6dfc, 0x53380d13, 0x650a7354, 0x766a0abb, 0x81c2c92e, 0x92722c85,
  0xa2bfe8a1, 0xa81a664b, 0xc24b8b70, 0xc76c51a3, 0xd192e819, 0xd6990624, 0xf40e3585, 0x106aa070,
  0x19a4c116, 0x1e376c08, 0x2748774c, 0x34b0bcb5, 0x391c0cb3, 0x4ed8aa4a, 0x5b9cca4f, 0x682e6ff3,
  0x748f82ee, 0x78a5636f, 0x84c87814, 0x8cc70208, 0x90befffa, 0xa4506ceb, 0xbef9a3f7, 0xc67178f2]

/-- The state of the hash (sha2, called from src/private/string_to_sign.rs:16). -/
structure State where
  a : Nat
  b : Nat
  c : Nat
  d : Nat
  e : Nat
  f : Nat
  g : Nat
  h : Nat

/-- The initial state (sha2, called from src/private/string_to_sign.rs:16). -/
def initial : State :=
  ⟨0x6a09e667, 0xbb67ae85, 0x3c6ef372, 0xa54ff53a, 0x510e527f, 0x9b05688c, 0x1f83d9ab, 0x5be0cd19⟩

/-- One round with the constant `k` and the message word `w` (sha2, called from src/private/string_to_sign.rs:16). -/
def round (s : State) (k w : Nat) : State :=
  let s1 := rotr 6 s.e ^^^ rotr 11 s.e ^^^ rotr 25 s.e
  let ch := (s.e &&& s.f) ^^^ ((4294967295 - s.e) &&& s.g)
  let t1 := (s.h + s1 + ch + k + w) % 4294967296
  let s0 := rotr 2 s.a ^^^ rotr 13 s.a ^^^ rotr 22 s.a
  let maj := (s.a &&& s.b) ^^^ (s.a &&& s.c) ^^^ (s.b &&& s.c)
  ⟨(t1 + s0 + maj) % 4294967296, s.a, s.b, s.c, (s.d + t1) % 4294967296, s.e, s.f, s.g⟩

/-- The rounds of a block, with the next 16 words of the message schedule `w` (sha2, called from
src/private/string_to_sign.rs:16). -/
def rounds : List Nat → List Nat → State → State
  | [], _, s => s
  | k :: ks, w, s =>
    let w0 := w.getD 0 0
    let w1 := w.getD 1 0
    let w9 := w.getD 9 0
    let w14 := w.getD 14 0
    let s0 := rotr 7 w1 ^^^ rotr 18 w1 ^^^ (w1 >>> 3)
    let s1 := rotr 17 w14 ^^^ rotr 19 w14 ^^^ (w14 >>> 10)
    rounds ks (w.tail ++ [(w0 + s0 + w9 + s1) % 4294967296]) (round s k w0)

/-- Addition of two states (sha2, called from src/private/string_to_sign.rs:16). -/
def State.add (s r : State) : State :=
  ⟨(s.a + r.a) % 4294967296, (s.b + r.b) % 4294967296, (s.c + r.c) % 4294967296, (s.d + r.d) % 4294967296,
   (s.e + r.e) % 4294967296, (s.f + r.f) % 4294967296, (s.g + r.g) % 4294967296, (s.h + r.h) % 4294967296⟩

/-- One block (sha2, called from src/private/string_to_sign.rs:16). -/
def compress (s : State) (block : List Nat) : State := s.add (rounds roundConstants block s)

/-- The bytes as big-endian words (sha2, called from src/private/string_to_sign.rs:16). -/
def words : Bytes → List Nat
  | a :: b :: c :: d :: rest => (a.toNat * 16777216 + b.toNat * 65536 + c.toNat * 256 + d.toNat) :: words rest
  | _ => []

/-- The last `k` bytes of a number, big-endian (sha2, called from src/private/string_to_sign.rs:16). -/
def bytesBE : Nat → Nat → Bytes
  | 0, _ => []
  | k + 1, n => UInt8.ofNat (n >>> (8 * k)) :: bytesBE k n

/-- Padding (sha2, called from src/private/string_to_sign.rs:16). -/
def pad (m : Bytes) : Bytes :=
  m ++ 0x80 :: List.replicate ((119 - m.length % 64) % 64) 0 ++ bytesBE 8 (8 * m.length)

/-- The first `n` blocks of 16 words (sha2, called from src/private/string_to_sign.rs:16). -/
def chunks : Nat → List Nat → List (List Nat)
  | 0, _ => []
  | n + 1, ws => ws.take 16 :: chunks n (ws.drop 16)

/-- The digest (sha2, called from src/private/string_to_sign.rs:16). -/
def digest (m : Bytes) : Bytes :=
  let ws := words (pad m)
  let s := (chunks (ws.length / 16) ws).foldl compress initial
  [s.a, s.b, s.c, s.d, s.e, s.f, s.g, s.h].flatMap (bytesBE 4)

end Sha256

/-- `sha256::digest`, called in src/private/string_to_sign.rs:16. -/
def sha256Hex (m : Bytes) : Str := hexEncode (Sha256.digest m)

end CSS
