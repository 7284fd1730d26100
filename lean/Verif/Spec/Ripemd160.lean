import Verif.Spec.Bytes

/-!
# Specification: RIPEMD-160

From H. Dobbertin, A. Bosselaers, B. Preneel, "RIPEMD-160: A Strengthened Version of RIPEMD",
given in the paper's compact form: the word orders are generated by the permutations ρ and π and the
rotation amounts by a table indexed by round and message word, shared by both lines.
-/

namespace Chf.Spec

/-- The permutation ρ of the sixteen message words. -/
def rmdRho (i : Nat) : Nat := [7, 4, 13, 1, 10, 6, 15, 3, 12, 0, 9, 5, 2, 14, 11, 8].getD i 0

/-- The permutation π(i) = 9i + 5 mod 16. -/
def rmdPi (i : Nat) : Nat := (9 * i + 5) % 16

/-- ρ applied `n` times. -/
def rmdRhoN : Nat → Nat → Nat
  | 0, i => i
  | n + 1, i => rmdRho (rmdRhoN n i)

/-- Message word used in step `j` of the left line (orders id, ρ, ρ², ρ³, ρ⁴). -/
def rmdR (j : Nat) : Nat := rmdRhoN (j / 16) (j % 16)

/-- Message word used in step `j` of the right line (orders π, ρπ, ρ²π, ρ³π, ρ⁴π). -/
def rmdR' (j : Nat) : Nat := rmdRhoN (j / 16) (rmdPi (j % 16))

/-- Rotation amount in round `r` (0 to 4) for message word `x`. -/
def rmdShift (r x : Nat) : Nat :=
  ([[11, 14, 15, 12, 5, 8, 7, 9, 11, 13, 14, 15, 6, 7, 9, 8],
    [12, 13, 11, 15, 6, 9, 9, 7, 12, 15, 11, 13, 7, 8, 7, 7],
    [13, 15, 14, 11, 7, 7, 6, 8, 13, 14, 13, 12, 5, 5, 6, 9],
    [14, 11, 12, 14, 8, 6, 5, 5, 15, 12, 15, 14, 9, 9, 8, 6],
    [15, 12, 13, 13, 9, 5, 8, 6, 14, 11, 12, 11, 8, 6, 5, 5]].getD r []).getD x 0

/-- The nonlinear functions, `r` from 0 to 4. -/
def rmdF (r : Nat) (x y z : BitVec 32) : BitVec 32 :=
  match r with
  | 0 => x ^^^ y ^^^ z
  | 1 => (x &&& y) ||| (~~~x &&& z)
  | 2 => (x ||| ~~~y) ^^^ z
  | 3 => (x &&& z) ||| (y &&& ~~~z)
  | _ => x ^^^ (y ||| ~~~z)

/-- Added constants of the left line. -/
def rmdK (r : Nat) : BitVec 32 := [0x00000000, 0x5a827999, 0x6ed9eba1, 0x8f1bbcdc, 0xa953fd4e].getD r 0
/-- Added constants of the right line. -/
def rmdK' (r : Nat) : BitVec 32 := [0x50a28be6, 0x5c4dd124, 0x6d703ef3, 0x7a6d76e9, 0x00000000].getD r 0

/-- One step on `A, B, C, D, E`:
`T := rol_s(A + f(B,C,D) + X + K) + E; A := E; E := D; D := rol_10(C); C := B; B := T`. -/
def rmdStep (f : BitVec 32 → BitVec 32 → BitVec 32 → BitVec 32) (x k : BitVec 32) (s : Nat)
    (v : Arr5 (BitVec 32)) : Arr5 (BitVec 32) :=
  ⟨v.x4, (v.x0 + f v.x1 v.x2 v.x3 + x + k).rotateLeft s + v.x4, v.x1, v.x2.rotateLeft 10, v.x3⟩

/-- Left line, step `j` of 80. -/
def rmdLeft (X : List (BitVec 32)) (v : Arr5 (BitVec 32)) (j : Nat) : Arr5 (BitVec 32) :=
  rmdStep (rmdF (j / 16)) (X.getD (rmdR j) 0) (rmdK (j / 16)) (rmdShift (j / 16) (rmdR j)) v

/-- Right line, step `j` of 80: the nonlinear functions in reverse order. -/
def rmdRight (X : List (BitVec 32)) (v : Arr5 (BitVec 32)) (j : Nat) : Arr5 (BitVec 32) :=
  rmdStep (rmdF (4 - j / 16)) (X.getD (rmdR' j) 0) (rmdK' (j / 16)) (rmdShift (j / 16) (rmdR' j)) v

/-- The compression function. -/
def compressRmd (h : Arr5 (BitVec 32)) (block : List Byte) : Arr5 (BitVec 32) :=
  let X := leWords 32 block
  let l := (List.range 80).foldl (rmdLeft X) h
  let r := (List.range 80).foldl (rmdRight X) h
  ⟨h.x1 + l.x2 + r.x3, h.x2 + l.x3 + r.x4, h.x3 + l.x4 + r.x0, h.x4 + l.x0 + r.x1,
   h.x0 + l.x1 + r.x2⟩

/-- Initial value. -/
def ivRmd : Arr5 (BitVec 32) := ⟨0x67452301, 0xefcdab89, 0x98badcfe, 0x10325476, 0xc3d2e1f0⟩

/-- The bytes of a hash value, words least significant byte first. -/
def serializeRmd (h : Arr5 (BitVec 32)) : List Byte := h.toList.flatMap fun x => leBytes 4 x.toNat

/-- RIPEMD-160: MD4-style padding, length least significant byte first. -/
def ripemd160 (m : List Byte) : List Byte :=
  serializeRmd (chain 64 compressRmd ivRmd (pad 64 8 leBytes m))

end Chf.Spec
