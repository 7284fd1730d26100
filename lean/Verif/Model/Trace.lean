import Verif.Model.Alg

/-!
# The blocks an engine compresses

The engines of the model with `process_block` instrumented to write down the buffers it is called
on.  Nothing else is changed: `input` and `finalize` are those of `Verif.Model.Engine`.
-/

namespace Chf

/-- A `process_block` that also appends its inputs to a list: the chaining value and the buffer. -/
def BlockOps.traced {H : Type} (ops : BlockOps H) : BlockOps (H × List (H × List Byte)) where
  B := ops.B
  process buf h := do
    let h' ← ops.process buf h.1
    pure (h', h.2 ++ [(h.1, buf)])

/-- The parts of one of the engines built on `BlockEngine`: `process_block`, what `finalize` pads
with, the engine of `new()`, and the serialization of the final state. -/
structure BlockHash where
  H : Type
  ops : BlockOps H
  zlen : Nat
  pre : List (List Byte)
  enc : BitVec 64 → List Byte
  start : BlockEngine H
  out : BlockEngine H → Res (List Byte)

/-- `sha256.rs` 31-42, 56-73; `sha1.rs` 24-32, 45-62; `sha512.rs` 24-64, 78-96; `sha384.rs` 18-42;
`sha512_256.rs` 28-53; `ripemd160.rs` 24-32, 46-63. -/
def Alg.blockHash (c : Cfg) : Alg → Option BlockHash
  | .sha1 => some ⟨_, Sha1.ops c, Sha1.blockSize - 8, [], be64, Sha1.Engine.default, Sha1.midstate⟩
  | .sha256 =>
    some ⟨_, Sha256.ops c, Sha256.blockSize - 8, [], be64, Sha256.Engine.default, Sha256.midstate⟩
  | .sha384 => some ⟨_, Sha512.ops c, Sha512.blockSize - 16, [List.replicate 8 0], be64,
      Sha512.Engine.sha384, fun e => do
        let d ← Sha512.midstate e
        let d ← sliceTo d 48
        copyIntoRange (List.replicate 48 0) 0 48 d⟩
  | .sha512 => some ⟨_, Sha512.ops c, Sha512.blockSize - 16, [List.replicate 8 0], be64,
      Sha512.Engine.default, Sha512.midstate⟩
  | .sha512_256 => some ⟨_, Sha512.ops c, Sha512.blockSize - 16, [List.replicate 8 0], be64,
      Sha512.Engine.sha512_256, fun e => do
        let d ← Sha512.midstate e
        let d ← sliceTo d 32
        copyIntoRange (List.replicate 32 0) 0 32 d⟩
  | .ripemd160 => some ⟨_, Ripemd160.ops c, Ripemd160.blockSize - 8, [], le64,
      Ripemd160.Engine.default, Ripemd160.midstate⟩
  | _ => none

/-- `new()` and one `input` per slice: the chaining value and the calls of `process_block` so far. -/
def BlockHash.callsInputs (c : Cfg) (X : BlockHash) (ds : List (List Byte)) :
    Res (X.H × List (X.H × List Byte)) := do
  let e : BlockEngine (X.H × List (X.H × List Byte)) :=
    ⟨X.start.buffer, (X.start.h, []), X.start.length⟩
  let e ← ds.foldlM (BlockEngine.input c X.ops.traced) e
  pure e.h

/-- `new()`, one `input` per slice, and the padding part of `finalize`, with `process_block` writing
down its inputs: the final chaining value and the calls. -/
def BlockHash.calls (c : Cfg) (X : BlockHash) (ds : List (List Byte)) :
    Res (X.H × List (X.H × List Byte)) := do
  let e : BlockEngine (X.H × List (X.H × List Byte)) :=
    ⟨X.start.buffer, (X.start.h, []), X.start.length⟩
  let e ← ds.foldlM (BlockEngine.input c X.ops.traced) e
  let e ← BlockEngine.finalizeBlocks c X.ops.traced X.zlen X.pre X.enc e
  pure e.h

/-- The final chaining value and the blocks of these calls. -/
def BlockHash.trace (c : Cfg) (X : BlockHash) (ds : List (List Byte)) :
    Res (X.H × List (List Byte)) := do
  let r ← X.calls c ds
  pure (r.1, r.2.map Prod.snd)

/-- The chaining value and the blocks of the calls made by `input`. -/
def BlockHash.traceInputs (c : Cfg) (X : BlockHash) (ds : List (List Byte)) :
    Res (X.H × List (List Byte)) := do
  let r ← X.callsInputs c ds
  pure (r.1, r.2.map Prod.snd)

end Chf
