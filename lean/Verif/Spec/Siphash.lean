import Verif.Spec.Bytes

/-!
# Specification: SipHash-2-4

From J.-P. Aumasson, D. J. Bernstein, "SipHash: a fast short-input PRF".
-/

namespace Chf.Spec

/-- The four state words. -/
structure Sip where
  v0 : BitVec 64
  v1 : BitVec 64
  v2 : BitVec 64
  v3 : BitVec 64
  deriving DecidableEq, Repr

/-- Figure 2.1 of the paper, read top to bottom. -/
def sipRound (s : Sip) : Sip :=
  let v0 := s.v0 + s.v1
  let v2 := s.v2 + s.v3
  let v1 := s.v1.rotateLeft 13 ^^^ v0
  let v3 := s.v3.rotateLeft 16 ^^^ v2
  let v0 := v0.rotateLeft 32
  let v2 := v2 + v1
  let v0 := v0 + v3
  let v1 := v1.rotateLeft 17 ^^^ v2
  let v3 := v3.rotateLeft 21 ^^^ v0
  let v2 := v2.rotateLeft 32
  ⟨v0, v1, v2, v3⟩

/-- The 32 ASCII bytes "somepseudorandomlygeneratedbytes". -/
def sipAscii : List Byte :=
  [0x73, 0x6f, 0x6d, 0x65, 0x70, 0x73, 0x65, 0x75, 0x64, 0x6f, 0x72, 0x61, 0x6e, 0x64, 0x6f, 0x6d,
   0x6c, 0x79, 0x67, 0x65, 0x6e, 0x65, 0x72, 0x61, 0x74, 0x65, 0x64, 0x62, 0x79, 0x74, 0x65, 0x73]

/-- Initialization from the key halves `k0`, `k1`. -/
def sipInit (k0 k1 : BitVec 64) : Sip :=
  let C := beWords 64 sipAscii
  ⟨k0 ^^^ C.getD 0 0, k1 ^^^ C.getD 1 0, k0 ^^^ C.getD 2 0, k1 ^^^ C.getD 3 0⟩

/-- Absorbing one 64-bit message word with two rounds. -/
def sipAbsorb (s : Sip) (m : BitVec 64) : Sip :=
  let s := sipRound (sipRound { s with v3 := s.v3 ^^^ m })
  { s with v0 := s.v0 ^^^ m }

/-- The padded message: null bytes, then the length mod 256, up to a multiple of 8 bytes. -/
def sipPad (m : List Byte) : List Byte :=
  m ++ List.replicate (7 - m.length % 8) 0 ++ [BitVec.ofNat 8 m.length]

/-- Finalization with four rounds. -/
def sipFinish (s : Sip) : BitVec 64 :=
  let s := sipRound (sipRound (sipRound (sipRound { s with v2 := s.v2 ^^^ 0xff })))
  s.v0 ^^^ s.v1 ^^^ s.v2 ^^^ s.v3

/-- SipHash-2-4 with key halves `k0`, `k1`. -/
def siphash24 (k0 k1 : BitVec 64) (m : List Byte) : BitVec 64 :=
  sipFinish ((leWords 64 (sipPad m)).foldl sipAbsorb (sipInit k0 k1))

end Chf.Spec
