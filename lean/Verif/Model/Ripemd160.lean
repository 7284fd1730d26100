import Verif.Model.Engine

/-!
# `ripemd160.rs`

`/repo/src/ripemd160.rs` 14-418.
-/

namespace Chf.Ripemd160

/-- `BLOCK_SIZE`, `ripemd160.rs` 14. -/
def blockSize : Nat := 64

/-- Read an element of `[u32; 5]` at a literal index. -/
def get (s : Arr5 (BitVec 32)) (i : Fin 5) : BitVec 32 :=
  match i with
  | 0 => s.x0 | 1 => s.x1 | 2 => s.x2 | 3 => s.x3 | 4 => s.x4

/-- Assign an element of `[u32; 5]` at a literal index. -/
def set (s : Arr5 (BitVec 32)) (i : Fin 5) (v : BitVec 32) : Arr5 (BitVec 32) :=
  match i with
  | 0 => { s with x0 := v } | 1 => { s with x1 := v } | 2 => { s with x2 := v }
  | 3 => { s with x3 := v } | 4 => { s with x4 := v }

/-- One argument line of `process_block!`: `h_ordering i0, i1, i2, i3, i4; data_index d;
roll_shift s;`. -/
structure RLine where
  i0 : Fin 5
  i1 : Fin 5
  i2 : Fin 5
  i3 : Fin 5
  i4 : Fin 5
  d : Fin 16
  s : Nat
  deriving DecidableEq, Repr

/-- The macro `round!` without feature `small-hash`, `ripemd160.rs` 126-134. -/
def fastRound (bb : Arr5 (BitVec 32)) (l : RLine) (x add round : BitVec 32) : Arr5 (BitVec 32) :=
  let bb := set bb l.i0 (get bb l.i0 + round + x + add)
  let bb := set bb l.i0 ((get bb l.i0).rotateLeft l.s + get bb l.i4)
  set bb l.i2 ((get bb l.i2).rotateLeft 10)

/-- `small_hash::round`, `ripemd160.rs` 106-114. -/
def smallRoundFn (a _b c _d e x : BitVec 32) (bits : Nat) (add round : BitVec 32) :
    BitVec 32 × BitVec 32 :=
  let a := a + round + x + add
  let a := a.rotateLeft bits + e
  let c := c.rotateLeft 10
  (a, c)

/-- The macro `round!` with feature `small-hash`, `ripemd160.rs` 116-123. -/
def smallRound (bb : Arr5 (BitVec 32)) (l : RLine) (x add round : BitVec 32) : Arr5 (BitVec 32) :=
  let u := smallRoundFn (get bb l.i0) (get bb l.i1) (get bb l.i2) (get bb l.i3) (get bb l.i4) x l.s
    add round
  let bb := set bb l.i0 u.1
  set bb l.i2 u.2

/-- The macro `round!` selected by feature `small-hash`. -/
def round (c : Cfg) : Arr5 (BitVec 32) → RLine → BitVec 32 → BitVec 32 → BitVec 32 →
    Arr5 (BitVec 32) :=
  if c.smallHash then smallRound else fastRound

/-- The lines `round1`, `ripemd160.rs` 238-253. -/
def round1 : List RLine := [
  ⟨0, 1, 2, 3, 4, 0, 11⟩, ⟨4, 0, 1, 2, 3, 1, 14⟩, ⟨3, 4, 0, 1, 2, 2, 15⟩, ⟨2, 3, 4, 0, 1, 3, 12⟩,
  ⟨1, 2, 3, 4, 0, 4, 5⟩, ⟨0, 1, 2, 3, 4, 5, 8⟩, ⟨4, 0, 1, 2, 3, 6, 7⟩, ⟨3, 4, 0, 1, 2, 7, 9⟩,
  ⟨2, 3, 4, 0, 1, 8, 11⟩, ⟨1, 2, 3, 4, 0, 9, 13⟩, ⟨0, 1, 2, 3, 4, 10, 14⟩, ⟨4, 0, 1, 2, 3, 11, 15⟩,
  ⟨3, 4, 0, 1, 2, 12, 6⟩, ⟨2, 3, 4, 0, 1, 13, 7⟩, ⟨1, 2, 3, 4, 0, 14, 9⟩, ⟨0, 1, 2, 3, 4, 15, 8⟩]

/-- The lines `round2`, `ripemd160.rs` 256-271. -/
def round2 : List RLine := [
  ⟨4, 0, 1, 2, 3, 7, 7⟩, ⟨3, 4, 0, 1, 2, 4, 6⟩, ⟨2, 3, 4, 0, 1, 13, 8⟩, ⟨1, 2, 3, 4, 0, 1, 13⟩,
  ⟨0, 1, 2, 3, 4, 10, 11⟩, ⟨4, 0, 1, 2, 3, 6, 9⟩, ⟨3, 4, 0, 1, 2, 15, 7⟩, ⟨2, 3, 4, 0, 1, 3, 15⟩,
  ⟨1, 2, 3, 4, 0, 12, 7⟩, ⟨0, 1, 2, 3, 4, 0, 12⟩, ⟨4, 0, 1, 2, 3, 9, 15⟩, ⟨3, 4, 0, 1, 2, 5, 9⟩,
  ⟨2, 3, 4, 0, 1, 2, 11⟩, ⟨1, 2, 3, 4, 0, 14, 7⟩, ⟨0, 1, 2, 3, 4, 11, 13⟩, ⟨4, 0, 1, 2, 3, 8, 12⟩]

/-- The lines `round3`, `ripemd160.rs` 274-289. -/
def round3 : List RLine := [
  ⟨3, 4, 0, 1, 2, 3, 11⟩, ⟨2, 3, 4, 0, 1, 10, 13⟩, ⟨1, 2, 3, 4, 0, 14, 6⟩, ⟨0, 1, 2, 3, 4, 4, 7⟩,
  ⟨4, 0, 1, 2, 3, 9, 14⟩, ⟨3, 4, 0, 1, 2, 15, 9⟩, ⟨2, 3, 4, 0, 1, 8, 13⟩, ⟨1, 2, 3, 4, 0, 1, 15⟩,
  ⟨0, 1, 2, 3, 4, 2, 14⟩, ⟨4, 0, 1, 2, 3, 7, 8⟩, ⟨3, 4, 0, 1, 2, 0, 13⟩, ⟨2, 3, 4, 0, 1, 6, 6⟩,
  ⟨1, 2, 3, 4, 0, 13, 5⟩, ⟨0, 1, 2, 3, 4, 11, 12⟩, ⟨4, 0, 1, 2, 3, 5, 7⟩, ⟨3, 4, 0, 1, 2, 12, 5⟩]

/-- The lines `round4`, `ripemd160.rs` 292-307. -/
def round4 : List RLine := [
  ⟨2, 3, 4, 0, 1, 1, 11⟩, ⟨1, 2, 3, 4, 0, 9, 12⟩, ⟨0, 1, 2, 3, 4, 11, 14⟩, ⟨4, 0, 1, 2, 3, 10, 15⟩,
  ⟨3, 4, 0, 1, 2, 0, 14⟩, ⟨2, 3, 4, 0, 1, 8, 15⟩, ⟨1, 2, 3, 4, 0, 12, 9⟩, ⟨0, 1, 2, 3, 4, 4, 8⟩,
  ⟨4, 0, 1, 2, 3, 13, 9⟩, ⟨3, 4, 0, 1, 2, 3, 14⟩, ⟨2, 3, 4, 0, 1, 7, 5⟩, ⟨1, 2, 3, 4, 0, 15, 6⟩,
  ⟨0, 1, 2, 3, 4, 14, 8⟩, ⟨4, 0, 1, 2, 3, 5, 6⟩, ⟨3, 4, 0, 1, 2, 6, 5⟩, ⟨2, 3, 4, 0, 1, 2, 12⟩]

/-- The lines `round5`, `ripemd160.rs` 310-325. -/
def round5 : List RLine := [
  ⟨1, 2, 3, 4, 0, 4, 9⟩, ⟨0, 1, 2, 3, 4, 0, 15⟩, ⟨4, 0, 1, 2, 3, 5, 5⟩, ⟨3, 4, 0, 1, 2, 9, 11⟩,
  ⟨2, 3, 4, 0, 1, 7, 6⟩, ⟨1, 2, 3, 4, 0, 12, 8⟩, ⟨0, 1, 2, 3, 4, 2, 13⟩, ⟨4, 0, 1, 2, 3, 10, 12⟩,
  ⟨3, 4, 0, 1, 2, 14, 5⟩, ⟨2, 3, 4, 0, 1, 1, 12⟩, ⟨1, 2, 3, 4, 0, 3, 13⟩, ⟨0, 1, 2, 3, 4, 8, 14⟩,
  ⟨4, 0, 1, 2, 3, 11, 11⟩, ⟨3, 4, 0, 1, 2, 6, 8⟩, ⟨2, 3, 4, 0, 1, 15, 5⟩, ⟨1, 2, 3, 4, 0, 13, 6⟩]

/-- The lines `par_round1`, `ripemd160.rs` 328-343. -/
def parRound1 : List RLine := [
  ⟨0, 1, 2, 3, 4, 5, 8⟩, ⟨4, 0, 1, 2, 3, 14, 9⟩, ⟨3, 4, 0, 1, 2, 7, 9⟩, ⟨2, 3, 4, 0, 1, 0, 11⟩,
  ⟨1, 2, 3, 4, 0, 9, 13⟩, ⟨0, 1, 2, 3, 4, 2, 15⟩, ⟨4, 0, 1, 2, 3, 11, 15⟩, ⟨3, 4, 0, 1, 2, 4, 5⟩,
  ⟨2, 3, 4, 0, 1, 13, 7⟩, ⟨1, 2, 3, 4, 0, 6, 7⟩, ⟨0, 1, 2, 3, 4, 15, 8⟩, ⟨4, 0, 1, 2, 3, 8, 11⟩,
  ⟨3, 4, 0, 1, 2, 1, 14⟩, ⟨2, 3, 4, 0, 1, 10, 14⟩, ⟨1, 2, 3, 4, 0, 3, 12⟩, ⟨0, 1, 2, 3, 4, 12, 6⟩]

/-- The lines `par_round2`, `ripemd160.rs` 346-361. -/
def parRound2 : List RLine := [
  ⟨4, 0, 1, 2, 3, 6, 9⟩, ⟨3, 4, 0, 1, 2, 11, 13⟩, ⟨2, 3, 4, 0, 1, 3, 15⟩, ⟨1, 2, 3, 4, 0, 7, 7⟩,
  ⟨0, 1, 2, 3, 4, 0, 12⟩, ⟨4, 0, 1, 2, 3, 13, 8⟩, ⟨3, 4, 0, 1, 2, 5, 9⟩, ⟨2, 3, 4, 0, 1, 10, 11⟩,
  ⟨1, 2, 3, 4, 0, 14, 7⟩, ⟨0, 1, 2, 3, 4, 15, 7⟩, ⟨4, 0, 1, 2, 3, 8, 12⟩, ⟨3, 4, 0, 1, 2, 12, 7⟩,
  ⟨2, 3, 4, 0, 1, 4, 6⟩, ⟨1, 2, 3, 4, 0, 9, 15⟩, ⟨0, 1, 2, 3, 4, 1, 13⟩, ⟨4, 0, 1, 2, 3, 2, 11⟩]

/-- The lines `par_round3`, `ripemd160.rs` 364-379. -/
def parRound3 : List RLine := [
  ⟨3, 4, 0, 1, 2, 15, 9⟩, ⟨2, 3, 4, 0, 1, 5, 7⟩, ⟨1, 2, 3, 4, 0, 1, 15⟩, ⟨0, 1, 2, 3, 4, 3, 11⟩,
  ⟨4, 0, 1, 2, 3, 7, 8⟩, ⟨3, 4, 0, 1, 2, 14, 6⟩, ⟨2, 3, 4, 0, 1, 6, 6⟩, ⟨1, 2, 3, 4, 0, 9, 14⟩,
  ⟨0, 1, 2, 3, 4, 11, 12⟩, ⟨4, 0, 1, 2, 3, 8, 13⟩, ⟨3, 4, 0, 1, 2, 12, 5⟩, ⟨2, 3, 4, 0, 1, 2, 14⟩,
  ⟨1, 2, 3, 4, 0, 10, 13⟩, ⟨0, 1, 2, 3, 4, 0, 13⟩, ⟨4, 0, 1, 2, 3, 4, 7⟩, ⟨3, 4, 0, 1, 2, 13, 5⟩]

/-- The lines `par_round4`, `ripemd160.rs` 382-397. -/
def parRound4 : List RLine := [
  ⟨2, 3, 4, 0, 1, 8, 15⟩, ⟨1, 2, 3, 4, 0, 6, 5⟩, ⟨0, 1, 2, 3, 4, 4, 8⟩, ⟨4, 0, 1, 2, 3, 1, 11⟩,
  ⟨3, 4, 0, 1, 2, 3, 14⟩, ⟨2, 3, 4, 0, 1, 11, 14⟩, ⟨1, 2, 3, 4, 0, 15, 6⟩, ⟨0, 1, 2, 3, 4, 0, 14⟩,
  ⟨4, 0, 1, 2, 3, 5, 6⟩, ⟨3, 4, 0, 1, 2, 12, 9⟩, ⟨2, 3, 4, 0, 1, 2, 12⟩, ⟨1, 2, 3, 4, 0, 13, 9⟩,
  ⟨0, 1, 2, 3, 4, 9, 12⟩, ⟨4, 0, 1, 2, 3, 7, 5⟩, ⟨3, 4, 0, 1, 2, 10, 15⟩, ⟨2, 3, 4, 0, 1, 14, 8⟩]

/-- The lines `par_round5`, `ripemd160.rs` 400-415. -/
def parRound5 : List RLine := [
  ⟨1, 2, 3, 4, 0, 12, 8⟩, ⟨0, 1, 2, 3, 4, 15, 5⟩, ⟨4, 0, 1, 2, 3, 10, 12⟩, ⟨3, 4, 0, 1, 2, 4, 9⟩,
  ⟨2, 3, 4, 0, 1, 1, 12⟩, ⟨1, 2, 3, 4, 0, 5, 5⟩, ⟨0, 1, 2, 3, 4, 8, 14⟩, ⟨4, 0, 1, 2, 3, 7, 6⟩,
  ⟨3, 4, 0, 1, 2, 6, 8⟩, ⟨2, 3, 4, 0, 1, 2, 13⟩, ⟨1, 2, 3, 4, 0, 13, 6⟩, ⟨0, 1, 2, 3, 4, 14, 5⟩,
  ⟨4, 0, 1, 2, 3, 0, 15⟩, ⟨3, 4, 0, 1, 2, 3, 13⟩, ⟨2, 3, 4, 0, 1, 9, 11⟩, ⟨1, 2, 3, 4, 0, 11, 11⟩]

/-- `bb[1] ^ bb[2] ^ bb[3]`, `ripemd160.rs` 165 and 215. -/
def fn1 (b c d : BitVec 32) : BitVec 32 := b ^^^ c ^^^ d
/-- `(bb[1] & bb[2]) | (!bb[1] & bb[3])`, `ripemd160.rs` 170 and 210. -/
def fn2 (b c d : BitVec 32) : BitVec 32 := (b &&& c) ||| (~~~b &&& d)
/-- `(bb[1] | !bb[2]) ^ bb[3]`, `ripemd160.rs` 175 and 205. -/
def fn3 (b c d : BitVec 32) : BitVec 32 := (b ||| ~~~c) ^^^ d
/-- `(bb[1] & bb[3]) | (bb[2] & !bb[3])`, `ripemd160.rs` 180 and 200. -/
def fn4 (b c d : BitVec 32) : BitVec 32 := (b &&& d) ||| (c &&& ~~~d)
/-- `bb[1] ^ (bb[2] | !bb[3])`, `ripemd160.rs` 185 and 195. -/
def fn5 (b c d : BitVec 32) : BitVec 32 := b ^^^ (c ||| ~~~d)

/-- The constant added in round 1, `ripemd160.rs` 164. -/
def add1 : BitVec 32 := 0x00000000
/-- The constant added in round 2, `ripemd160.rs` 169. -/
def add2 : BitVec 32 := 0x5a827999
/-- The constant added in round 3, `ripemd160.rs` 174. -/
def add3 : BitVec 32 := 0x6ed9eba1
/-- The constant added in round 4, `ripemd160.rs` 179. -/
def add4 : BitVec 32 := 0x8f1bbcdc
/-- The constant added in round 5, `ripemd160.rs` 184. -/
def add5 : BitVec 32 := 0xa953fd4e
/-- The constant added in parallel round 1, `ripemd160.rs` 194. -/
def parAdd1 : BitVec 32 := 0x50a28be6
/-- The constant added in parallel round 2, `ripemd160.rs` 199. -/
def parAdd2 : BitVec 32 := 0x5c4dd124
/-- The constant added in parallel round 3, `ripemd160.rs` 204. -/
def parAdd3 : BitVec 32 := 0x6d703ef3
/-- The constant added in parallel round 4, `ripemd160.rs` 209. -/
def parAdd4 : BitVec 32 := 0x7a6d76e9
/-- The constant added in parallel round 5, `ripemd160.rs` 214. -/
def parAdd5 : BitVec 32 := 0x00000000

/-- One repetition `$( round!(..); )*` of the macro, over its lines. -/
def rounds (c : Cfg) (w : Vector (BitVec 32) 16) (add : BitVec 32)
    (f : BitVec 32 → BitVec 32 → BitVec 32 → BitVec 32) (lines : List RLine)
    (bb : Arr5 (BitVec 32)) : Arr5 (BitVec 32) :=
  lines.foldl
    (fun bb l => round c bb l w[l.d] add (f (get bb l.i1) (get bb l.i2) (get bb l.i3))) bb

/-- The body of the macro `process_block!`, `ripemd160.rs` 158-224. -/
def processBlockMacro (c : Cfg) (h : Arr5 (BitVec 32)) (w : Vector (BitVec 32) 16) :
    Arr5 (BitVec 32) :=
  let bb := h
  let bbb := h
  let bb := rounds c w add1 fn1 round1 bb
  let bb := rounds c w add2 fn2 round2 bb
  let bb := rounds c w add3 fn3 round3 bb
  let bb := rounds c w add4 fn4 round4 bb
  let bb := rounds c w add5 fn5 round5 bb
  let bbb := rounds c w parAdd1 fn5 parRound1 bbb
  let bbb := rounds c w parAdd2 fn4 parRound2 bbb
  let bbb := rounds c w parAdd3 fn3 parRound3 bbb
  let bbb := rounds c w parAdd4 fn2 parRound4 bbb
  let bbb := rounds c w parAdd5 fn1 parRound5 bbb
  let bbb := set bbb 3 (get bbb 3 + get h 1 + get bb 2)
  let h := set h 1 (get h 2 + get bb 3 + get bbb 4)
  let h := set h 2 (get h 3 + get bb 4 + get bbb 0)
  let h := set h 3 (get h 4 + get bb 0 + get bbb 1)
  let h := set h 4 (get h 0 + get bb 1 + get bbb 2)
  set h 0 (get bbb 3)

/-- `process_block`, `ripemd160.rs` 228-417. -/
def processBlock (c : Cfg) (buffer : List Byte) (h : Arr5 (BitVec 32)) :
    Res (Arr5 (BitVec 32)) := do
  debugAssert c (buffer.length == blockSize)
  let w ← fillZip fromLe32 (List.replicate 16 0) (chunksExact 4 buffer)
  let w ← arr16 w
  pure (processBlockMacro c h w)

/-- `Engine`, `ripemd160.rs` 18-22. -/
abbrev Engine := BlockEngine (Arr5 (BitVec 32))

/-- Initial state, `ripemd160.rs` 27. -/
def iv : Arr5 (BitVec 32) := ⟨0x67452301, 0xefcdab89, 0x98badcfe, 0x10325476, 0xc3d2e1f0⟩

/-- `Engine::default`, `ripemd160.rs` 24-32. -/
def Engine.default : Engine := { h := iv, length := 0, buffer := List.replicate 64 0 }

/-- `BLOCK_SIZE` and `process_block` of this engine. -/
def ops (c : Cfg) : BlockOps (Arr5 (BitVec 32)) := { B := blockSize, process := processBlock c }

/-- `midstate`, `ripemd160.rs` 74-80: little-endian words. -/
def midstate (e : Engine) : Res (List Byte) :=
  storeZip 4 le32 e.h.toList (List.replicate 20 0)

/-- `finalize`, `ripemd160.rs` 46-63. -/
def finalize (c : Cfg) (e : Engine) : Res (List Byte) := do
  let e ← BlockEngine.finalizeBlocks c (ops c) (blockSize - 8) [] le64 e
  midstate e

/-- `from_midstate`, `ripemd160.rs` 90-99: BIG-endian words. -/
def fromMidstate (midstate : List Byte) (length : Nat) : Res Engine := do
  assertR (length % blockSize == 0)
  let ret ← fillZip fromBe32 (List.replicate 5 0) (chunksExact 4 midstate)
  let ret ← Arr5.ofList ret
  pure { buffer := List.replicate 64 0, h := ret, length := length }

/-- `impl HashEngine for ripemd160::Engine`, `ripemd160.rs` 34-100. -/
def engine (c : Cfg) : HashEngine where
  State := Engine
  Midstate := List Byte
  blockSize := blockSize
  default := .ok Engine.default
  new := .ok Engine.default
  input := BlockEngine.input c (ops c)
  nBytesHashed e := e.length
  finalize := finalize c
  midstate := midstate
  fromMidstate := fromMidstate

end Chf.Ripemd160
