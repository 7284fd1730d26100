import Verif.Model.Engine

/-!
# `sha1.rs`

`/repo/src/sha1.rs` 14-137.
-/

namespace Chf.Sha1

/-- `BLOCK_SIZE`, `sha1.rs` 14. -/
def blockSize : Nat := 64

/-- `for i in 16..80 { w[i] = (w[i-3] ^ w[i-8] ^ w[i-14] ^ w[i-16]).rotate_left(1); }`,
`sha1.rs` 103-105. -/
def expand (w : List (BitVec 32)) : Res (List (BitVec 32)) :=
  ((List.range 64).map (· + 16)).foldlM (init := w) fun w i => do
    let x3 ← index w (i - 3)
    let x8 ← index w (i - 8)
    let x14 ← index w (i - 14)
    let x16 ← index w (i - 16)
    indexSet w i ((x3 ^^^ x8 ^^^ x14 ^^^ x16).rotateLeft 1)

/-- The `match i` computing `(f, k)`, `sha1.rs` 114-120. -/
def fk (i : Nat) (b c d : BitVec 32) : Res (BitVec 32 × BitVec 32) :=
  if i ≤ 19 then .ok ((b &&& c) ||| (~~~b &&& d), 0x5a827999)
  else if 20 ≤ i ∧ i ≤ 39 then .ok (b ^^^ c ^^^ d, 0x6ed9eba1)
  else if 40 ≤ i ∧ i ≤ 59 then .ok ((b &&& c) ||| (b &&& d) ||| (c &&& d), 0x8f1bbcdc)
  else if 60 ≤ i ∧ i ≤ 79 then .ok (b ^^^ c ^^^ d, 0xca62c1d6)
  else .error .unreachable

/-- Body of the main loop, `sha1.rs` 113-129. -/
def step (s : Arr5 (BitVec 32)) (wi : BitVec 32) (i : Nat) : Res (Arr5 (BitVec 32)) := do
  let (f, k) ← fk i s.x1 s.x2 s.x3
  let newA := s.x0.rotateLeft 5 + f + s.x4 + k + wi
  pure ⟨newA, s.x0, s.x1.rotateLeft 30, s.x2, s.x3⟩

/-- `process_block`, `sha1.rs` 96-136. -/
def processBlock (c : Cfg) (buffer : List Byte) (h : Arr5 (BitVec 32)) :
    Res (Arr5 (BitVec 32)) := do
  debugAssert c (buffer.length == blockSize)
  let w ← fillZip fromBe32 (List.replicate 80 0) (chunksExact 4 buffer)
  let w ← expand w
  let s ← w.zipIdx.foldlM (fun s wi => step s wi.1 wi.2) h
  pure ⟨h.x0 + s.x0, h.x1 + s.x1, h.x2 + s.x2, h.x3 + s.x3, h.x4 + s.x4⟩

/-- `Engine`, `sha1.rs` 18-22. -/
abbrev Engine := BlockEngine (Arr5 (BitVec 32))

/-- Initial state, `sha1.rs` 27. -/
def iv : Arr5 (BitVec 32) := ⟨0x67452301, 0xefcdab89, 0x98badcfe, 0x10325476, 0xc3d2e1f0⟩

/-- `Engine::default`, `sha1.rs` 24-32. -/
def Engine.default : Engine := { h := iv, length := 0, buffer := List.replicate 64 0 }

/-- `BLOCK_SIZE` and `process_block` of this engine. -/
def ops (c : Cfg) : BlockOps (Arr5 (BitVec 32)) := { B := blockSize, process := processBlock c }

/-- `midstate`, `sha1.rs` 66-72. -/
def midstate (e : Engine) : Res (List Byte) :=
  storeZip 4 be32 e.h.toList (List.replicate 20 0)

/-- `finalize`, `sha1.rs` 45-62. -/
def finalize (c : Cfg) (e : Engine) : Res (List Byte) := do
  let e ← BlockEngine.finalizeBlocks c (ops c) (blockSize - 8) [] be64 e
  midstate e

/-- `from_midstate`, `sha1.rs` 82-91. -/
def fromMidstate (midstate : List Byte) (length : Nat) : Res Engine := do
  assertR (length % blockSize == 0)
  let ret ← fillZip fromBe32 (List.replicate 5 0) (chunksExact 4 midstate)
  let ret ← Arr5.ofList ret
  pure { buffer := List.replicate 64 0, h := ret, length := length }

/-- `impl HashEngine for sha1::Engine`, `sha1.rs` 34-92. -/
def engine (c : Cfg) : HashEngine where
  State := Engine
  Midstate := List Byte
  blockSize := blockSize
  default := .ok Engine.default
  new := .ok Engine.default
  input := BlockEngine.input c (ops c)
  nBytesHashed e := e.length
  finalize := finalize c
  midstate := midstate
  fromMidstate := fromMidstate

end Chf.Sha1
