import Verif.Model.Text
/-
SHA-256 as FIPS 180-4 defines it (sections 4.1.2, 4.2.2, 5.1.1, 5.3.3 and 6.2.2), on 32-bit words.
-/
namespace CSS.Spec.Sha256

abbrev Word := BitVec 32

def Ch (x y z : Word) : Word := (x &&& y) ^^^ (~~~x &&& z)
def Maj (x y z : Word) : Word := (x &&& y) ^^^ (x &&& z) ^^^ (y &&& z)
def Sigma0 (x : Word) : Word := x.rotateRight 2 ^^^ x.rotateRight 13 ^^^ x.rotateRight 22
def Sigma1 (x : Word) : Word := x.rotateRight 6 ^^^ x.rotateRight 11 ^^^ x.rotateRight 25
def sigma0 (x : Word) : Word := x.rotateRight 7 ^^^ x.rotateRight 18 ^^^ x >>> 3
def sigma1 (x : Word) : Word := x.rotateRight 17 ^^^ x.rotateRight 19 ^^^ x >>> 10

/-- The 64 constants: the first 32 bits of the fractional parts of the cube roots of the first 64 primes. -/
def K : List Word := [
  0x428a2f98, 0x71374491, 0xb5c0fbcf, 0xe9b5dba5, 0x3956c25b, 0x59f111f1, 0x923f82a4, 0xab1c5ed5,
  0xd807aa98, 0x12835b01, 0x243185be, 0x550c7dc3, 0x72be5d74, 0x80deb1fe, 0x9bdc06a7, 0xc19bf174,
  0xe49b69c1, 0xefbe4786, 0x0fc19dc6, 0x240ca1cc, 0x2de92c6f, 0x4a7484aa, 0x5cb0a9dc, 0x76f988da,
  0x983e5152, 0xa831c66d, 0xb00327c8, 0xbf597fc7, 0xc6e00bf3, 0xd5a79147, 0x06ca6351, 0x14292967,
  0x27b70a85, 0x2e1b2138, 0x4d2c6dfc, 0x53380d13, 0x650a7354, 0x766a0abb, 0x81c2c92e, 0x92722c85,
  0xa2bfe8a1, 0xa81a664b, 0xc24b8b70, 0xc76c51a3, 0xd192e819, 0xd6990624, 0xf40e3585, 0x106aa070,
  0x19a4c116, 0x1e376c08, 0x2748774c, 0x34b0bcb5, 0x391c0cb3, 0x4ed8aa4a, 0x5b9cca4f, 0x682e6ff3,
  0x748f82ee, 0x78a5636f, 0x84c87814, 0x8cc70208, 0x90befffa, 0xa4506ceb, 0xbef9a3f7, 0xc67178f2]

/-- Eight words: a hash value, or the working variables. -/
structure Words8 where
  a : Word
  b : Word
  c : Word
  d : Word
  e : Word
  f : Word
  g : Word
  h : Word

/-- The initial hash value: the first 32 bits of the fractional parts of the square roots of the first eight primes. -/
def H0 : Words8 :=
  ⟨0x6a09e667, 0xbb67ae85, 0x3c6ef372, 0xa54ff53a, 0x510e527f, 0x9b05688c, 0x1f83d9ab, 0x5be0cd19⟩

/-- The message schedule `W t` of the block with the words `M 0`, …, `M 15`. -/
def W (M : Nat → Word) (t : Nat) : Word :=
  if t < 16 then M t
  else sigma1 (W M (t - 2)) + W M (t - 7) + sigma0 (W M (t - 15)) + W M (t - 16)

/-- The working variables after `t` steps. -/
def working (H : Words8) (M : Nat → Word) : Nat → Words8
  | 0 => H
  | t + 1 =>
    let v := working H M t
    let T1 := v.h + Sigma1 v.e + Ch v.e v.f v.g + K.getD t 0 + W M t
    let T2 := Sigma0 v.a + Maj v.a v.b v.c
    ⟨T1 + T2, v.a, v.b, v.c, v.d + T1, v.e, v.f, v.g⟩

/-- Word-wise addition. -/
def Words8.add (v H : Words8) : Words8 :=
  ⟨v.a + H.a, v.b + H.b, v.c + H.c, v.d + H.d, v.e + H.e, v.f + H.f, v.g + H.g, v.h + H.h⟩

/-- The hash value after one more block. -/
def next (H : Words8) (M : Nat → Word) : Words8 := (working H M 64).add H

/-- The hash value after `n` blocks of the padded message, whose words are `M`. -/
def hashValue (M : Nat → Word) : Nat → Words8
  | 0 => H0
  | n + 1 => next (hashValue M n) fun t => M (16 * n + t)

/-- The big-endian number in these bytes. -/
def bigEndian (bs : Bytes) : Nat := bs.foldl (fun n b => n * 256 + b.toNat) 0

/-- `p` is the padded message: a one bit, as few zero bits as possible, and the length in bits as a 64-bit number, so that
the whole is a multiple of 512 bits. -/
def Padded (m p : Bytes) : Prop :=
  ∃ k len, k < 64 ∧ p = m ++ [0x80] ++ List.replicate k 0 ++ len ∧ len.length = 8 ∧
    bigEndian len = 8 * m.length % 2 ^ 64 ∧ p.length % 64 = 0

/-- Word number `i` of these bytes, big-endian. -/
def word (p : Bytes) (i : Nat) : Word := BitVec.ofNat 32 (bigEndian ((p.drop (4 * i)).take 4))

/-- The bytes of a word, big-endian. -/
def wordBytes (x : Word) : Bytes :=
  [x >>> 24, x >>> 16, x >>> 8, x].map fun y => UInt8.ofNat y.toNat

/-- The padded message (`Padded m p ↔ p = pad m`, `Lemmas/Sha256`). -/
def pad (m : Bytes) : Bytes :=
  m ++ [0x80] ++ List.replicate ((119 - m.length % 64) % 64) 0 ++
    [56, 48, 40, 32, 24, 16, 8, 0].map fun i => UInt8.ofNat (8 * m.length / 2 ^ i)

/-- The SHA-256 digest of `m`. -/
def digest (m : Bytes) : Bytes :=
  let H := hashValue (word (pad m)) ((pad m).length / 64)
  [H.a, H.b, H.c, H.d, H.e, H.f, H.g, H.h].flatMap wordBytes

/-- The digest in lower-case hex. -/
def hexDigest (m : Bytes) : Str :=
  (digest m).flatMap fun b =>
    [(s% "0123456789abcdef").getD (b.toNat / 16) ' ', (s% "0123456789abcdef").getD (b.toNat % 16) ' ']

end CSS.Spec.Sha256
