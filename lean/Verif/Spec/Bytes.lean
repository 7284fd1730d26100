import Verif.Rust

/-!
# Specification: bytes, words, blocks, padding

Nothing here refers to the model.  From `Verif.Rust` only the container types (`Byte`, `Arr8`,
`Arr5`) are used.
-/

namespace Chf.Spec

/-- The number written by the bytes, most significant first. -/
def beNat (bs : List Byte) : Nat := bs.foldl (fun acc b => acc * 256 + b.toNat) 0

/-- The number written by the bytes, least significant first. -/
def leNat (bs : List Byte) : Nat := beNat bs.reverse

/-- `x` in `n` bytes, least significant first. -/
def leBytes (n x : Nat) : List Byte := (List.range n).map fun i => BitVec.ofNat 8 (x / 256 ^ i)

/-- `x` in `n` bytes, most significant first. -/
def beBytes (n x : Nat) : List Byte := (leBytes n x).reverse

/-- The complete consecutive blocks of `B` bytes of `m`; trailing bytes that do not fill a block are
left out. -/
def blocks (B : Nat) (m : List Byte) : List (List Byte) :=
  (List.range (m.length / B)).map fun i => (m.drop (B * i)).take B

/-- The calls made when a list of blocks is folded with `f`: the value and the block each time. -/
def steps {H : Type} (f : H → List Byte → H) : H → List (List Byte) → List (H × List Byte)
  | _, [] => []
  | h, b :: bs => (h, b) :: steps f (f h b) bs

/-- The bytes of `m` after its last complete block. -/
def remainder (B : Nat) (m : List Byte) : List Byte := m.drop (m.length / B * B)

/-- The `w`-bit big-endian words of a block of bytes. -/
def beWords (w : Nat) (block : List Byte) : List (BitVec w) :=
  (blocks (w / 8) block).map fun bs => BitVec.ofNat w (beNat bs)

/-- The `w`-bit little-endian words of a block of bytes. -/
def leWords (w : Nat) (block : List Byte) : List (BitVec w) :=
  (blocks (w / 8) block).map fun bs => BitVec.ofNat w (leNat bs)

/-- Merkle-Damgård iteration of `compress` from `h` over the complete `B`-byte blocks of `m`. -/
def chain {H : Type} (B : Nat) (compress : H → List Byte → H) (h : H) (m : List Byte) : H :=
  (blocks B m).foldl compress h

/-- Number of zero bytes in the padding of an `n`-byte message: the smallest `k` such that message,
one marker byte, `k` zeroes and `L` length bytes fill complete blocks (`padZeros_smallest` in
`Verif.Proofs.BlockEngine`). -/
def padZeros (B L n : Nat) : Nat := (B - (n + 1 + L) % B) % B

/-- FIPS 180-4 section 5.1 on bytes: the message, a 1 bit and seven 0 bits, zero bytes, and the
length in bits written in `L` bytes by `enc`. -/
def pad (B L : Nat) (enc : Nat → Nat → List Byte) (m : List Byte) : List Byte :=
  m ++ [0x80] ++ List.replicate (padZeros B L m.length) 0 ++ enc L (8 * m.length)

end Chf.Spec
