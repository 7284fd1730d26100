import Verif.Model.Engine

/-!
# `sha256.rs`: the x86 SHA-extension block function

`/repo/src/sha256.rs` 461-718.  The intrinsics of `core::arch::x86_64` are not part of the
repository; they are modelled from Intel's published pseudo-code (Intrinsics Guide).  `__m128i` is a
`BitVec 128`, lane `i` of a value being bits `32*i .. 32*i+31`.
-/

namespace Chf.Sha256.Simd

/-- `__m128i`. -/
abbrev M128 := BitVec 128

/-- 32-bit lane `i` (bits `32*i+31 : 32*i`). -/
def lane (x : M128) (i : Nat) : BitVec 32 := x.extractLsb' (32 * i) 32
/-- Byte `i` (bits `8*i+7 : 8*i`). -/
def byteOf (x : M128) (i : Nat) : Byte := x.extractLsb' (8 * i) 8
/-- 16-bit word `i`. -/
def wordOf (x : M128) (i : Nat) : BitVec 16 := x.extractLsb' (16 * i) 16
/-- Value with the given lanes, most significant first. -/
def ofLanes (l3 l2 l1 l0 : BitVec 32) : M128 := l3 ++ l2 ++ l1 ++ l0
/-- Value with the given 16-bit words, least significant first. -/
def ofWords : List (BitVec 16) → M128
  | [] => 0
  | x :: xs => (ofWords xs <<< 16) ||| x.setWidth 128
/-- Value with the given bytes, least significant first. -/
def ofBytes : List Byte → M128
  | [] => 0
  | x :: xs => (ofBytes xs <<< 8) ||| x.setWidth 128

/-! ### Intel's SHA-256 helper functions (Intel SDM, SHA256RNDS2 and SHA256MSG1/2) -/

def iCh (e f g : BitVec 32) : BitVec 32 := (e &&& f) ^^^ (~~~e &&& g)
def iMaj (a b c : BitVec 32) : BitVec 32 := (a &&& b) ^^^ (a &&& c) ^^^ (b &&& c)
def iSigma0 (a : BitVec 32) : BitVec 32 := a.rotateRight 2 ^^^ a.rotateRight 13 ^^^ a.rotateRight 22
def iSigma1 (e : BitVec 32) : BitVec 32 := e.rotateRight 6 ^^^ e.rotateRight 11 ^^^ e.rotateRight 25
def isigma0 (w : BitVec 32) : BitVec 32 := w.rotateRight 7 ^^^ w.rotateRight 18 ^^^ (w >>> 3)
def isigma1 (w : BitVec 32) : BitVec 32 := w.rotateRight 17 ^^^ w.rotateRight 19 ^^^ (w >>> 10)

/-! ### Intrinsics -/

/-- `_mm_set_epi64x(e1, e0)`. -/
def mm_set_epi64x (e1 e0 : BitVec 64) : M128 := e1 ++ e0

/-- `_mm_add_epi32(a, b)`: lane-wise wrapping addition. -/
def mm_add_epi32 (a b : M128) : M128 :=
  ofLanes (lane a 3 + lane b 3) (lane a 2 + lane b 2) (lane a 1 + lane b 1) (lane a 0 + lane b 0)

/-- `_mm_shuffle_epi32(a, imm)`: result lane `i` is lane `imm[2*i+1 : 2*i]` of `a`. -/
def mm_shuffle_epi32 (a : M128) (imm : Nat) : M128 :=
  ofLanes (lane a (imm / 64 % 4)) (lane a (imm / 16 % 4)) (lane a (imm / 4 % 4)) (lane a (imm % 4))

/-- `_mm_alignr_epi8(a, b, imm)`: the 32-byte value `a:b` shifted right by `imm` bytes, low half. -/
def mm_alignr_epi8 (a b : M128) (imm : Nat) : M128 :=
  ((a ++ b : BitVec 256) >>> (8 * imm)).setWidth 128

/-- `_mm_blend_epi16(a, b, imm)`: 16-bit word `i` comes from `b` if bit `i` of `imm` is set. -/
def mm_blend_epi16 (a b : M128) (imm : Nat) : M128 :=
  ofWords ((List.range 8).map fun i => if imm / 2 ^ i % 2 = 1 then wordOf b i else wordOf a i)

/-- `_mm_shuffle_epi8(a, b)`: byte `i` is 0 if the top bit of `b`'s byte `i` is set, otherwise byte
`b[i] & 15` of `a`. -/
def mm_shuffle_epi8 (a b : M128) : M128 :=
  ofBytes ((List.range 16).map fun i =>
    if (byteOf b i).msb then 0 else byteOf a ((byteOf b i).toNat % 16))

/-- One round of the SHA256RNDS2 pseudo-code on `(A, B, C, D, E, F, G, H)`. -/
def rnds2Step (w : BitVec 32) (s : Arr8 (BitVec 32)) : Arr8 (BitVec 32) :=
  ⟨iCh s.x4 s.x5 s.x6 + iSigma1 s.x4 + w + s.x7 + iMaj s.x0 s.x1 s.x2 + iSigma0 s.x0,
   s.x0, s.x1, s.x2,
   iCh s.x4 s.x5 s.x6 + iSigma1 s.x4 + w + s.x7 + s.x3,
   s.x4, s.x5, s.x6⟩

/-- `_mm_sha256rnds2_epu32(a, b, k)`: `a` holds C,D,G,H and `b` holds A,B,E,F (most significant lane
first); two rounds with `k`'s two low lanes; the result holds A,B,E,F. -/
def mm_sha256rnds2_epu32 (a b k : M128) : M128 :=
  let s0 : Arr8 (BitVec 32) :=
    ⟨lane b 3, lane b 2, lane a 3, lane a 2, lane b 1, lane b 0, lane a 1, lane a 0⟩
  let s1 := rnds2Step (lane k 0) s0
  let s2 := rnds2Step (lane k 1) s1
  ofLanes s2.x0 s2.x1 s2.x4 s2.x5

/-- `_mm_sha256msg1_epu32(a, b)`. -/
def mm_sha256msg1_epu32 (a b : M128) : M128 :=
  ofLanes (lane a 3 + isigma0 (lane b 0)) (lane a 2 + isigma0 (lane a 3))
    (lane a 1 + isigma0 (lane a 2)) (lane a 0 + isigma0 (lane a 1))

/-- `_mm_sha256msg2_epu32(a, b)`. -/
def mm_sha256msg2_epu32 (a b : M128) : M128 :=
  let w16 := lane a 0 + isigma1 (lane b 2)
  let w17 := lane a 1 + isigma1 (lane b 3)
  let w18 := lane a 2 + isigma1 w16
  let w19 := lane a 3 + isigma1 w17
  ofLanes w19 w18 w17 w16

/-- `_mm_loadu_si128(self.h.as_ptr().add(n))` on a little-endian target: the four words of the array
from `n` on. It is a raw pointer read: a word outside the array is undefined behaviour. -/
def loadH (h : Arr8 (BitVec 32)) (n : Nat) : Res M128 :=
  match h.toList.drop n with
  | a :: b :: c :: d :: _ => .ok (ofLanes d c b a)
  | _ => .error .ub

/-- `_mm_loadu_si128(self.buffer.as_ptr().add(n))`: the sixteen bytes of the buffer from `n` on, by a
raw pointer read. -/
def loadBytes (buffer : List Byte) (n : Nat) : Res M128 :=
  if n + 16 ≤ buffer.length then .ok (ofBytes ((buffer.drop n).take 16)) else .error .ub

/-- `_mm_storeu_si128(self.h.as_mut_ptr().add(n), x)` on a little-endian target: overwrites the four
words of the array from `n` on, by a raw pointer write. -/
def storeH (h : Arr8 (BitVec 32)) (n : Nat) (x : M128) : Res (Arr8 (BitVec 32)) :=
  if n + 4 ≤ h.toList.length then
    Arr8.ofList (h.toList.take n ++ [lane x 0, lane x 1, lane x 2, lane x 3] ++ h.toList.drop (n + 4))
  else .error .ub

/-! ### The block function -/

/-- The local variables, `sha256.rs` 474-477. -/
structure Xmm where
  state0 : M128
  state1 : M128
  msg : M128
  tmp : M128
  msg0 : M128
  msg1 : M128
  msg2 : M128
  msg3 : M128

/-- `MASK`, `sha256.rs` 481-482. -/
def mask : M128 := mm_set_epi64x 0x0c0d0e0f08090a0b#64 0x0405060700010203#64

/-- Load and rearrange the state, `sha256.rs` 489-495. -/
def loadState (h : Arr8 (BitVec 32)) (s : Xmm) : Res Xmm := do
  let s := { s with tmp := ← loadH h 0 }
  let s := { s with state1 := ← loadH h 4 }
  let s := { s with tmp := mm_shuffle_epi32 s.tmp 0xB1 }
  let s := { s with state1 := mm_shuffle_epi32 s.state1 0x1B }
  let s := { s with state0 := mm_alignr_epi8 s.tmp s.state1 8 }
  let s := { s with state1 := mm_blend_epi16 s.state1 s.tmp 0xF0 }
  pure s

/-- Rounds 0-3, `sha256.rs` 504-512. -/
def rounds0_3 (buffer : List Byte) (s : Xmm) : Res Xmm := do
  let s := { s with msg := ← loadBytes buffer 0 }
  let s := { s with msg0 := mm_shuffle_epi8 s.msg mask }
  let s := { s with msg := mm_add_epi32 s.msg0 (mm_set_epi64x 0xE9B5DBA5B5C0FBCF#64 0x71374491428A2F98#64) }
  let s := { s with state1 := mm_sha256rnds2_epu32 s.state1 s.state0 s.msg }
  let s := { s with msg := mm_shuffle_epi32 s.msg 0x0E }
  let s := { s with state0 := mm_sha256rnds2_epu32 s.state0 s.state1 s.msg }
  pure s

/-- Rounds 4-7, `sha256.rs` 515-524. -/
def rounds4_7 (buffer : List Byte) (s : Xmm) : Res Xmm := do
  let s := { s with msg1 := ← loadBytes buffer 16 }
  let s := { s with msg1 := mm_shuffle_epi8 s.msg1 mask }
  let s := { s with msg := mm_add_epi32 s.msg1 (mm_set_epi64x 0xAB1C5ED5923F82A4#64 0x59F111F13956C25B#64) }
  let s := { s with state1 := mm_sha256rnds2_epu32 s.state1 s.state0 s.msg }
  let s := { s with msg := mm_shuffle_epi32 s.msg 0x0E }
  let s := { s with state0 := mm_sha256rnds2_epu32 s.state0 s.state1 s.msg }
  let s := { s with msg0 := mm_sha256msg1_epu32 s.msg0 s.msg1 }
  pure s

/-- Rounds 8-11, `sha256.rs` 527-536. -/
def rounds8_11 (buffer : List Byte) (s : Xmm) : Res Xmm := do
  let s := { s with msg2 := ← loadBytes buffer 32 }
  let s := { s with msg2 := mm_shuffle_epi8 s.msg2 mask }
  let s := { s with msg := mm_add_epi32 s.msg2 (mm_set_epi64x 0x550C7DC3243185BE#64 0x12835B01D807AA98#64) }
  let s := { s with state1 := mm_sha256rnds2_epu32 s.state1 s.state0 s.msg }
  let s := { s with msg := mm_shuffle_epi32 s.msg 0x0E }
  let s := { s with state0 := mm_sha256rnds2_epu32 s.state0 s.state1 s.msg }
  let s := { s with msg1 := mm_sha256msg1_epu32 s.msg1 s.msg2 }
  pure s

/-- Rounds 12-15, `sha256.rs` 539-551. -/
def rounds12_15 (buffer : List Byte) (s : Xmm) : Res Xmm := do
  let s := { s with msg3 := ← loadBytes buffer 48 }
  let s := { s with msg3 := mm_shuffle_epi8 s.msg3 mask }
  let s := { s with msg := mm_add_epi32 s.msg3 (mm_set_epi64x 0xC19BF1749BDC06A7#64 0x80DEB1FE72BE5D74#64) }
  let s := { s with state1 := mm_sha256rnds2_epu32 s.state1 s.state0 s.msg }
  let s := { s with tmp := mm_alignr_epi8 s.msg3 s.msg2 4 }
  let s := { s with msg0 := mm_add_epi32 s.msg0 s.tmp }
  let s := { s with msg0 := mm_sha256msg2_epu32 s.msg0 s.msg3 }
  let s := { s with msg := mm_shuffle_epi32 s.msg 0x0E }
  let s := { s with state0 := mm_sha256rnds2_epu32 s.state0 s.state1 s.msg }
  let s := { s with msg2 := mm_sha256msg1_epu32 s.msg2 s.msg3 }
  pure s

/-- Rounds 16-19, `sha256.rs` 554-564. -/
def rounds16_19 (s : Xmm) : Xmm :=
  let s := { s with msg := mm_add_epi32 s.msg0 (mm_set_epi64x 0x240CA1CC0FC19DC6#64 0xEFBE4786E49B69C1#64) }
  let s := { s with state1 := mm_sha256rnds2_epu32 s.state1 s.state0 s.msg }
  let s := { s with tmp := mm_alignr_epi8 s.msg0 s.msg3 4 }
  let s := { s with msg1 := mm_add_epi32 s.msg1 s.tmp }
  let s := { s with msg1 := mm_sha256msg2_epu32 s.msg1 s.msg0 }
  let s := { s with msg := mm_shuffle_epi32 s.msg 0x0E }
  let s := { s with state0 := mm_sha256rnds2_epu32 s.state0 s.state1 s.msg }
  let s := { s with msg3 := mm_sha256msg1_epu32 s.msg3 s.msg0 }
  s

/-- Rounds 20-23, `sha256.rs` 567-577. -/
def rounds20_23 (s : Xmm) : Xmm :=
  let s := { s with msg := mm_add_epi32 s.msg1 (mm_set_epi64x 0x76F988DA5CB0A9DC#64 0x4A7484AA2DE92C6F#64) }
  let s := { s with state1 := mm_sha256rnds2_epu32 s.state1 s.state0 s.msg }
  let s := { s with tmp := mm_alignr_epi8 s.msg1 s.msg0 4 }
  let s := { s with msg2 := mm_add_epi32 s.msg2 s.tmp }
  let s := { s with msg2 := mm_sha256msg2_epu32 s.msg2 s.msg1 }
  let s := { s with msg := mm_shuffle_epi32 s.msg 0x0E }
  let s := { s with state0 := mm_sha256rnds2_epu32 s.state0 s.state1 s.msg }
  let s := { s with msg0 := mm_sha256msg1_epu32 s.msg0 s.msg1 }
  s

/-- Rounds 24-27, `sha256.rs` 580-590. -/
def rounds24_27 (s : Xmm) : Xmm :=
  let s := { s with msg := mm_add_epi32 s.msg2 (mm_set_epi64x 0xBF597FC7B00327C8#64 0xA831C66D983E5152#64) }
  let s := { s with state1 := mm_sha256rnds2_epu32 s.state1 s.state0 s.msg }
  let s := { s with tmp := mm_alignr_epi8 s.msg2 s.msg1 4 }
  let s := { s with msg3 := mm_add_epi32 s.msg3 s.tmp }
  let s := { s with msg3 := mm_sha256msg2_epu32 s.msg3 s.msg2 }
  let s := { s with msg := mm_shuffle_epi32 s.msg 0x0E }
  let s := { s with state0 := mm_sha256rnds2_epu32 s.state0 s.state1 s.msg }
  let s := { s with msg1 := mm_sha256msg1_epu32 s.msg1 s.msg2 }
  s

/-- Rounds 28-31, `sha256.rs` 593-603. -/
def rounds28_31 (s : Xmm) : Xmm :=
  let s := { s with msg := mm_add_epi32 s.msg3 (mm_set_epi64x 0x1429296706CA6351#64 0xD5A79147C6E00BF3#64) }
  let s := { s with state1 := mm_sha256rnds2_epu32 s.state1 s.state0 s.msg }
  let s := { s with tmp := mm_alignr_epi8 s.msg3 s.msg2 4 }
  let s := { s with msg0 := mm_add_epi32 s.msg0 s.tmp }
  let s := { s with msg0 := mm_sha256msg2_epu32 s.msg0 s.msg3 }
  let s := { s with msg := mm_shuffle_epi32 s.msg 0x0E }
  let s := { s with state0 := mm_sha256rnds2_epu32 s.state0 s.state1 s.msg }
  let s := { s with msg2 := mm_sha256msg1_epu32 s.msg2 s.msg3 }
  s

/-- Rounds 32-35, `sha256.rs` 606-616. -/
def rounds32_35 (s : Xmm) : Xmm :=
  let s := { s with msg := mm_add_epi32 s.msg0 (mm_set_epi64x 0x53380D134D2C6DFC#64 0x2E1B213827B70A85#64) }
  let s := { s with state1 := mm_sha256rnds2_epu32 s.state1 s.state0 s.msg }
  let s := { s with tmp := mm_alignr_epi8 s.msg0 s.msg3 4 }
  let s := { s with msg1 := mm_add_epi32 s.msg1 s.tmp }
  let s := { s with msg1 := mm_sha256msg2_epu32 s.msg1 s.msg0 }
  let s := { s with msg := mm_shuffle_epi32 s.msg 0x0E }
  let s := { s with state0 := mm_sha256rnds2_epu32 s.state0 s.state1 s.msg }
  let s := { s with msg3 := mm_sha256msg1_epu32 s.msg3 s.msg0 }
  s

/-- Rounds 36-39, `sha256.rs` 619-629. -/
def rounds36_39 (s : Xmm) : Xmm :=
  let s := { s with msg := mm_add_epi32 s.msg1 (mm_set_epi64x 0x92722C8581C2C92E#64 0x766A0ABB650A7354#64) }
  let s := { s with state1 := mm_sha256rnds2_epu32 s.state1 s.state0 s.msg }
  let s := { s with tmp := mm_alignr_epi8 s.msg1 s.msg0 4 }
  let s := { s with msg2 := mm_add_epi32 s.msg2 s.tmp }
  let s := { s with msg2 := mm_sha256msg2_epu32 s.msg2 s.msg1 }
  let s := { s with msg := mm_shuffle_epi32 s.msg 0x0E }
  let s := { s with state0 := mm_sha256rnds2_epu32 s.state0 s.state1 s.msg }
  let s := { s with msg0 := mm_sha256msg1_epu32 s.msg0 s.msg1 }
  s

/-- Rounds 40-43, `sha256.rs` 632-642. -/
def rounds40_43 (s : Xmm) : Xmm :=
  let s := { s with msg := mm_add_epi32 s.msg2 (mm_set_epi64x 0xC76C51A3C24B8B70#64 0xA81A664BA2BFE8A1#64) }
  let s := { s with state1 := mm_sha256rnds2_epu32 s.state1 s.state0 s.msg }
  let s := { s with tmp := mm_alignr_epi8 s.msg2 s.msg1 4 }
  let s := { s with msg3 := mm_add_epi32 s.msg3 s.tmp }
  let s := { s with msg3 := mm_sha256msg2_epu32 s.msg3 s.msg2 }
  let s := { s with msg := mm_shuffle_epi32 s.msg 0x0E }
  let s := { s with state0 := mm_sha256rnds2_epu32 s.state0 s.state1 s.msg }
  let s := { s with msg1 := mm_sha256msg1_epu32 s.msg1 s.msg2 }
  s

/-- Rounds 44-47, `sha256.rs` 645-655. -/
def rounds44_47 (s : Xmm) : Xmm :=
  let s := { s with msg := mm_add_epi32 s.msg3 (mm_set_epi64x 0x106AA070F40E3585#64 0xD6990624D192E819#64) }
  let s := { s with state1 := mm_sha256rnds2_epu32 s.state1 s.state0 s.msg }
  let s := { s with tmp := mm_alignr_epi8 s.msg3 s.msg2 4 }
  let s := { s with msg0 := mm_add_epi32 s.msg0 s.tmp }
  let s := { s with msg0 := mm_sha256msg2_epu32 s.msg0 s.msg3 }
  let s := { s with msg := mm_shuffle_epi32 s.msg 0x0E }
  let s := { s with state0 := mm_sha256rnds2_epu32 s.state0 s.state1 s.msg }
  let s := { s with msg2 := mm_sha256msg1_epu32 s.msg2 s.msg3 }
  s

/-- Rounds 48-51, `sha256.rs` 658-668. -/
def rounds48_51 (s : Xmm) : Xmm :=
  let s := { s with msg := mm_add_epi32 s.msg0 (mm_set_epi64x 0x34B0BCB52748774C#64 0x1E376C0819A4C116#64) }
  let s := { s with state1 := mm_sha256rnds2_epu32 s.state1 s.state0 s.msg }
  let s := { s with tmp := mm_alignr_epi8 s.msg0 s.msg3 4 }
  let s := { s with msg1 := mm_add_epi32 s.msg1 s.tmp }
  let s := { s with msg1 := mm_sha256msg2_epu32 s.msg1 s.msg0 }
  let s := { s with msg := mm_shuffle_epi32 s.msg 0x0E }
  let s := { s with state0 := mm_sha256rnds2_epu32 s.state0 s.state1 s.msg }
  let s := { s with msg3 := mm_sha256msg1_epu32 s.msg3 s.msg0 }
  s

/-- Rounds 52-55, `sha256.rs` 671-680. -/
def rounds52_55 (s : Xmm) : Xmm :=
  let s := { s with msg := mm_add_epi32 s.msg1 (mm_set_epi64x 0x682E6FF35B9CCA4F#64 0x4ED8AA4A391C0CB3#64) }
  let s := { s with state1 := mm_sha256rnds2_epu32 s.state1 s.state0 s.msg }
  let s := { s with tmp := mm_alignr_epi8 s.msg1 s.msg0 4 }
  let s := { s with msg2 := mm_add_epi32 s.msg2 s.tmp }
  let s := { s with msg2 := mm_sha256msg2_epu32 s.msg2 s.msg1 }
  let s := { s with msg := mm_shuffle_epi32 s.msg 0x0E }
  let s := { s with state0 := mm_sha256rnds2_epu32 s.state0 s.state1 s.msg }
  s

/-- Rounds 56-59, `sha256.rs` 683-692. -/
def rounds56_59 (s : Xmm) : Xmm :=
  let s := { s with msg := mm_add_epi32 s.msg2 (mm_set_epi64x 0x8CC7020884C87814#64 0x78A5636F748F82EE#64) }
  let s := { s with state1 := mm_sha256rnds2_epu32 s.state1 s.state0 s.msg }
  let s := { s with tmp := mm_alignr_epi8 s.msg2 s.msg1 4 }
  let s := { s with msg3 := mm_add_epi32 s.msg3 s.tmp }
  let s := { s with msg3 := mm_sha256msg2_epu32 s.msg3 s.msg2 }
  let s := { s with msg := mm_shuffle_epi32 s.msg 0x0E }
  let s := { s with state0 := mm_sha256rnds2_epu32 s.state0 s.state1 s.msg }
  s

/-- Rounds 60-63, `sha256.rs` 695-701. -/
def rounds60_63 (s : Xmm) : Xmm :=
  let s := { s with msg := mm_add_epi32 s.msg3 (mm_set_epi64x 0xC67178F2BEF9A3F7#64 0xA4506CEB90BEFFFA#64) }
  let s := { s with state1 := mm_sha256rnds2_epu32 s.state1 s.state0 s.msg }
  let s := { s with msg := mm_shuffle_epi32 s.msg 0x0E }
  let s := { s with state0 := mm_sha256rnds2_epu32 s.state0 s.state1 s.msg }
  s

/-- Combine state, `sha256.rs` 704-705. -/
def combine (abefSave cdghSave : M128) (s : Xmm) : Xmm :=
  let s := { s with state0 := mm_add_epi32 s.state0 abefSave }
  let s := { s with state1 := mm_add_epi32 s.state1 cdghSave }
  s

/-- Rearrange the state for storing, `sha256.rs` 708-711. -/
def unpackState (s : Xmm) : Xmm :=
  let s := { s with tmp := mm_shuffle_epi32 s.state0 0x1B }
  let s := { s with state1 := mm_shuffle_epi32 s.state1 0xB1 }
  let s := { s with state0 := mm_blend_epi16 s.tmp s.state1 0xF0 }
  let s := { s with state1 := mm_alignr_epi8 s.state1 s.tmp 8 }
  s

/-- Save the state, `sha256.rs` 716-717. -/
def storeState (h : Arr8 (BitVec 32)) (s : Xmm) : Res (Arr8 (BitVec 32)) := do
  let h ← storeH h 0 s.state0
  storeH h 4 s.state1

/-- `process_block_simd_x86_intrinsics`, `sha256.rs` 463-718.  The variables are declared without a
value (474-477); the compiler rejects reads before the first assignment, so the initial zeroes here
are never read. -/
def processBlock (buffer : List Byte) (h : Arr8 (BitVec 32)) : Res (Arr8 (BitVec 32)) := do
  let s : Xmm := ⟨0, 0, 0, 0, 0, 0, 0, 0⟩
  let s ← loadState h s
  let abefSave := s.state0
  let cdghSave := s.state1
  let s ← rounds0_3 buffer s
  let s ← rounds4_7 buffer s
  let s ← rounds8_11 buffer s
  let s ← rounds12_15 buffer s
  let s := rounds16_19 s
  let s := rounds20_23 s
  let s := rounds24_27 s
  let s := rounds28_31 s
  let s := rounds32_35 s
  let s := rounds36_39 s
  let s := rounds40_43 s
  let s := rounds44_47 s
  let s := rounds48_51 s
  let s := rounds52_55 s
  let s := rounds56_59 s
  let s := rounds60_63 s
  let s := combine abefSave cdghSave s
  let s := unpackState s
  storeState h s

end Chf.Sha256.Simd
