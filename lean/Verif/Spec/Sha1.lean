import Verif.Spec.Bytes

/-!
# Specification: SHA-1 (FIPS 180-4)
-/

namespace Chf.Spec

/-- FIPS 180-4 (4.1): the function `f_t`. -/
def sha1F (t : Nat) (x y z : BitVec 32) : BitVec 32 :=
  if t < 20 then (x &&& y) ^^^ (~~~x &&& z)
  else if t < 40 then x ^^^ y ^^^ z
  else if t < 60 then (x &&& y) ^^^ (x &&& z) ^^^ (y &&& z)
  else x ^^^ y ^^^ z

/-- FIPS 180-4 (4.14): the constant `K_t`. -/
def sha1K (t : Nat) : BitVec 32 :=
  if t < 20 then 0x5a827999 else if t < 40 then 0x6ed9eba1 else if t < 60 then 0x8f1bbcdc
  else 0xca62c1d6

/-- The message schedule, FIPS 180-4 6.1.2 step 1: the first `16 + k` words, with
`W_t = ROTL1(W_{t-3} ⊕ W_{t-8} ⊕ W_{t-14} ⊕ W_{t-16})` for `t = 16 + k`. -/
def sha1Schedule (M : List (BitVec 32)) : Nat → List (BitVec 32)
  | 0 => M
  | k + 1 =>
      let W := sha1Schedule M k
      W ++ [(W.getD (k + 13) 0 ^^^ W.getD (k + 8) 0 ^^^ W.getD (k + 2) 0 ^^^ W.getD k 0).rotateLeft 1]

/-- FIPS 180-4 6.1.2 step 3 on `a, b, c, d, e`. -/
def sha1Round (W : List (BitVec 32)) (t : Nat) (v : Arr5 (BitVec 32)) : Arr5 (BitVec 32) :=
  let T := v.x0.rotateLeft 5 + sha1F t v.x1 v.x2 v.x3 + v.x4 + sha1K t + W.getD t 0
  ⟨T, v.x0, v.x1.rotateLeft 30, v.x2, v.x3⟩

/-- FIPS 180-4 6.1.2: the next hash value. -/
def compress1 (h : Arr5 (BitVec 32)) (block : List Byte) : Arr5 (BitVec 32) :=
  let W := sha1Schedule (beWords 32 block) 64
  let v := (List.range 80).foldl (fun v t => sha1Round W t v) h
  ⟨h.x0 + v.x0, h.x1 + v.x1, h.x2 + v.x2, h.x3 + v.x3, h.x4 + v.x4⟩

/-- SHA-1 initial hash value (5.3.1). -/
def iv1 : Arr5 (BitVec 32) := ⟨0x67452301, 0xefcdab89, 0x98badcfe, 0x10325476, 0xc3d2e1f0⟩

/-- The bytes of a hash value, words most significant byte first. -/
def serialize5 (h : Arr5 (BitVec 32)) : List Byte := h.toList.flatMap fun x => beBytes 4 x.toNat

/-- SHA-1 of a message of less than 2^64 bits. -/
def sha1 (m : List Byte) : List Byte :=
  serialize5 (chain 64 compress1 iv1 (pad 64 8 beBytes m))

end Chf.Spec
