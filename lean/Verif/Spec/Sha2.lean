import Verif.Spec.Bytes

/-!
# Specification: SHA-256, SHA-512, SHA-384, SHA-512/256 (FIPS 180-4)

The constants are written out as in the standard; `Verif.Props.Constants` proves that they are the
fractional parts of roots of primes the standard says they are.
-/

namespace Chf.Spec

/-- FIPS 180-4 (4.2), (4.8). -/
def Ch {w} (x y z : BitVec w) : BitVec w := (x &&& y) ^^^ (~~~x &&& z)
/-- FIPS 180-4 (4.3), (4.9). -/
def Maj {w} (x y z : BitVec w) : BitVec w := (x &&& y) ^^^ (x &&& z) ^^^ (y &&& z)

/-- What distinguishes the 32-bit from the 64-bit SHA-2 functions: Σ0, Σ1, σ0, σ1 and the
constants. -/
structure Sha2 (w : Nat) where
  S0 : BitVec w → BitVec w
  S1 : BitVec w → BitVec w
  s0 : BitVec w → BitVec w
  s1 : BitVec w → BitVec w
  K : List (BitVec w)

namespace Sha2
variable {w : Nat} (S : Sha2 w)

/-- The message schedule, FIPS 180-4 6.2.2 step 1: the first `16 + k` words `W_0, W_1, ..` from the
sixteen message words `M`, with
`W_t = σ1(W_{t-2}) + W_{t-7} + σ0(W_{t-15}) + W_{t-16}` for `t = 16 + k`. -/
def schedule (M : List (BitVec w)) : Nat → List (BitVec w)
  | 0 => M
  | k + 1 =>
      let W := schedule M k
      W ++ [S.s1 (W.getD (k + 14) 0) + W.getD (k + 9) 0 + S.s0 (W.getD (k + 1) 0) + W.getD k 0]

/-- FIPS 180-4 6.2.2 step 3: one round on `a, b, c, d, e, f, g, h`. -/
def round (k wt : BitVec w) (v : Arr8 (BitVec w)) : Arr8 (BitVec w) :=
  let T1 := v.x7 + S.S1 v.x4 + Ch v.x4 v.x5 v.x6 + k + wt
  let T2 := S.S0 v.x0 + Maj v.x0 v.x1 v.x2
  ⟨T1 + T2, v.x0, v.x1, v.x2, v.x3 + T1, v.x4, v.x5, v.x6⟩

/-- The working variables after rounds `0 .. n-1`, given the schedule `W`. -/
def roundsN (W : List (BitVec w)) (n : Nat) (v : Arr8 (BitVec w)) : Arr8 (BitVec w) :=
  (List.range n).foldl (fun v t => S.round (S.K.getD t 0) (W.getD t 0) v) v

/-- FIPS 180-4 6.2.2 step 4: word-wise addition. -/
def add (h v : Arr8 (BitVec w)) : Arr8 (BitVec w) :=
  ⟨h.x0 + v.x0, h.x1 + v.x1, h.x2 + v.x2, h.x3 + v.x3,
   h.x4 + v.x4, h.x5 + v.x5, h.x6 + v.x6, h.x7 + v.x7⟩

/-- FIPS 180-4 6.2.2 / 6.4.2: the next hash value from the current one and a message block. -/
def compress (h : Arr8 (BitVec w)) (block : List Byte) : Arr8 (BitVec w) :=
  let n := S.K.length
  let W := S.schedule (beWords w block) (n - 16)
  add h (S.roundsN W n h)

end Sha2

/-- The bytes of a hash value: its words in order, each most significant byte first. -/
def serialize8 {w} (h : Arr8 (BitVec w)) : List Byte :=
  h.toList.flatMap fun x => beBytes (w / 8) x.toNat

/-- SHA-256's functions (4.4)-(4.7) and constants (4.2.2). -/
def sha256Fns : Sha2 32 where
  S0 x := x.rotateRight 2 ^^^ x.rotateRight 13 ^^^ x.rotateRight 22
  S1 x := x.rotateRight 6 ^^^ x.rotateRight 11 ^^^ x.rotateRight 25
  s0 x := x.rotateRight 7 ^^^ x.rotateRight 18 ^^^ (x >>> 3)
  s1 x := x.rotateRight 17 ^^^ x.rotateRight 19 ^^^ (x >>> 10)
  K := [
    0x428a2f98, 0x71374491, 0xb5c0fbcf, 0xe9b5dba5, 0x3956c25b, 0x59f111f1, 0x923f82a4, 0xab1c5ed5,
    0xd807aa98, 0x12835b01, 0x243185be, 0x550c7dc3, 0x72be5d74, 0x80deb1fe, 0x9bdc06a7, 0xc19bf174,
    0xe49b69c1, 0xefbe4786, 0x0fc19dc6, 0x240ca1cc, 0x2de92c6f, 0x4a7484aa, 0x5cb0a9dc, 0x76f988da,
    0x983e5152, 0xa831c66d, 0xb00327c8, 0xbf597fc7, 0xc6e00bf3, 0xd5a79147, 0x06ca6351, 0x14292967,
    0x27b70a85, 0x2e1b2138, 0x4d2c6dfc, 0x53380d13, 0x650a7354, 0x766a0abb, 0x81c2c92e, 0x92722c85,
    0xa2bfe8a1, 0xa81a664b, 0xc24b8b70, 0xc76c51a3, 0xd192e819, 0xd6990624, 0xf40e3585, 0x106aa070,
    0x19a4c116, 0x1e376c08, 0x2748774c, 0x34b0bcb5, 0x391c0cb3, 0x4ed8aa4a, 0x5b9cca4f, 0x682e6ff3,
    0x748f82ee, 0x78a5636f, 0x84c87814, 0x8cc70208, 0x90befffa, 0xa4506ceb, 0xbef9a3f7, 0xc67178f2]

/-- SHA-512's functions (4.10)-(4.13) and constants (4.2.3). -/
def sha512Fns : Sha2 64 where
  S0 x := x.rotateRight 28 ^^^ x.rotateRight 34 ^^^ x.rotateRight 39
  S1 x := x.rotateRight 14 ^^^ x.rotateRight 18 ^^^ x.rotateRight 41
  s0 x := x.rotateRight 1 ^^^ x.rotateRight 8 ^^^ (x >>> 7)
  s1 x := x.rotateRight 19 ^^^ x.rotateRight 61 ^^^ (x >>> 6)
  K := [
    0x428a2f98d728ae22, 0x7137449123ef65cd, 0xb5c0fbcfec4d3b2f, 0xe9b5dba58189dbbc,
    0x3956c25bf348b538, 0x59f111f1b605d019, 0x923f82a4af194f9b, 0xab1c5ed5da6d8118,
    0xd807aa98a3030242, 0x12835b0145706fbe, 0x243185be4ee4b28c, 0x550c7dc3d5ffb4e2,
    0x72be5d74f27b896f, 0x80deb1fe3b1696b1, 0x9bdc06a725c71235, 0xc19bf174cf692694,
    0xe49b69c19ef14ad2, 0xefbe4786384f25e3, 0x0fc19dc68b8cd5b5, 0x240ca1cc77ac9c65,
    0x2de92c6f592b0275, 0x4a7484aa6ea6e483, 0x5cb0a9dcbd41fbd4, 0x76f988da831153b5,
    0x983e5152ee66dfab, 0xa831c66d2db43210, 0xb00327c898fb213f, 0xbf597fc7beef0ee4,
    0xc6e00bf33da88fc2, 0xd5a79147930aa725, 0x06ca6351e003826f, 0x142929670a0e6e70,
    0x27b70a8546d22ffc, 0x2e1b21385c26c926, 0x4d2c6dfc5ac42aed, 0x53380d139d95b3df,
    0x650a73548baf63de, 0x766a0abb3c77b2a8, 0x81c2c92e47edaee6, 0x92722c851482353b,
    0xa2bfe8a14cf10364, 0xa81a664bbc423001, 0xc24b8b70d0f89791, 0xc76c51a30654be30,
    0xd192e819d6ef5218, 0xd69906245565a910, 0xf40e35855771202a, 0x106aa07032bbd1b8,
    0x19a4c116b8d2d0c8, 0x1e376c085141ab53, 0x2748774cdf8eeb99, 0x34b0bcb5e19b48a8,
    0x391c0cb3c5c95a63, 0x4ed8aa4ae3418acb, 0x5b9cca4f7763e373, 0x682e6ff3d6b2b8a3,
    0x748f82ee5defb2fc, 0x78a5636f43172f60, 0x84c87814a1f0ab72, 0x8cc702081a6439ec,
    0x90befffa23631e28, 0xa4506cebde82bde9, 0xbef9a3f7b2c67915, 0xc67178f2e372532b,
    0xca273eceea26619c, 0xd186b8c721c0c207, 0xeada7dd6cde0eb1e, 0xf57d4f7fee6ed178,
    0x06f067aa72176fba, 0x0a637dc5a2c898a6, 0x113f9804bef90dae, 0x1b710b35131c471b,
    0x28db77f523047d84, 0x32caab7b40c72493, 0x3c9ebe0a15c9bebc, 0x431d67c49c100d4c,
    0x4cc5d4becb3e42b6, 0x597f299cfc657e2a, 0x5fcb6fab3ad6faec, 0x6c44198c4a475817]

/-- SHA-256 initial hash value (5.3.3). -/
def iv256 : Arr8 (BitVec 32) :=
  ⟨0x6a09e667, 0xbb67ae85, 0x3c6ef372, 0xa54ff53a, 0x510e527f, 0x9b05688c, 0x1f83d9ab, 0x5be0cd19⟩

/-- SHA-512 initial hash value (5.3.5). -/
def iv512 : Arr8 (BitVec 64) :=
  ⟨0x6a09e667f3bcc908, 0xbb67ae8584caa73b, 0x3c6ef372fe94f82b, 0xa54ff53a5f1d36f1,
   0x510e527fade682d1, 0x9b05688c2b3e6c1f, 0x1f83d9abfb41bd6b, 0x5be0cd19137e2179⟩

/-- SHA-384 initial hash value (5.3.4). -/
def iv384 : Arr8 (BitVec 64) :=
  ⟨0xcbbb9d5dc1059ed8, 0x629a292a367cd507, 0x9159015a3070dd17, 0x152fecd8f70e5939,
   0x67332667ffc00b31, 0x8eb44a8768581511, 0xdb0c2e0d64f98fa7, 0x47b5481dbefa4fa4⟩

/-- SHA-256's compression function. -/
def compress256 : Arr8 (BitVec 32) → List Byte → Arr8 (BitVec 32) := sha256Fns.compress
/-- SHA-512's compression function. -/
def compress512 : Arr8 (BitVec 64) → List Byte → Arr8 (BitVec 64) := sha512Fns.compress

/-- SHA-256 of a message of less than 2^64 bits: 64-byte blocks, 8-byte length field. -/
def sha256 (m : List Byte) : List Byte :=
  serialize8 (chain 64 compress256 iv256 (pad 64 8 beBytes m))

/-- SHA-512 computation from a given initial hash value: 128-byte blocks, 16-byte length field. -/
def sha512From (iv : Arr8 (BitVec 64)) (m : List Byte) : List Byte :=
  serialize8 (chain 128 compress512 iv (pad 128 16 beBytes m))

/-- SHA-512. -/
def sha512 (m : List Byte) : List Byte := sha512From iv512 m

/-- SHA-384: the leftmost 384 bits. -/
def sha384 (m : List Byte) : List Byte := (sha512From iv384 m).take 48

/-- The SHA-512/t IV generation function of 5.3.6 for `t = 256`: SHA-512 of the ASCII string
"SHA-512/256" from the initial value of SHA-512 with every word XORed with `a5a5a5a5a5a5a5a5`. -/
def iv512_256 : Arr8 (BitVec 64) :=
  let x (v : BitVec 64) := v ^^^ 0xa5a5a5a5a5a5a5a5
  let h : Arr8 (BitVec 64) :=
    ⟨x iv512.x0, x iv512.x1, x iv512.x2, x iv512.x3, x iv512.x4, x iv512.x5, x iv512.x6, x iv512.x7⟩
  let name : List Byte := [0x53, 0x48, 0x41, 0x2d, 0x35, 0x31, 0x32, 0x2f, 0x32, 0x35, 0x36]
  chain 128 compress512 h (pad 128 16 beBytes name)

/-- SHA-512/256: the leftmost 256 bits. -/
def sha512_256 (m : List Byte) : List Byte := (sha512From iv512_256 m).take 32

/-- The midstate of SHA-256 after the two tag digests of BIP-340. -/
def tagMidstate (tag : List Byte) : List Byte :=
  serialize8 (chain 64 compress256 iv256 (sha256 tag ++ sha256 tag))

end Chf.Spec
