import Verif.Model.Sha256
import Verif.Model.Sha256Simd

/-!
# `sha256.rs`: the `HashEngine` implementation, and `sha256t.rs`

`/repo/src/sha256.rs` 44-114, 445-459; `/repo/src/sha256t.rs` 10-49.
-/

namespace Chf.Sha256

/-- `process_block`, `sha256.rs` 445-459. -/
def processBlock (c : Cfg) (buffer : List Byte) (h : Arr8 (BitVec 32)) : Res (Arr8 (BitVec 32)) :=
  if c.shaNi then Simd.processBlock buffer h else softwareProcessBlock c buffer h

/-- `BLOCK_SIZE` and `process_block` of this engine. -/
def ops (c : Cfg) : BlockOps (Arr8 (BitVec 32)) := { B := blockSize, process := processBlock c }

/-- `finalize`, `sha256.rs` 56-73. -/
def finalize (c : Cfg) (e : Engine) : Res (List Byte) := do
  let e ← BlockEngine.finalizeBlocks c (ops c) (blockSize - 8) [] be64 e
  midstate e

/-- `impl HashEngine for sha256::Engine`, `sha256.rs` 44-114. -/
def engine (c : Cfg) : HashEngine where
  State := Engine
  Midstate := List Byte
  blockSize := blockSize
  default := .ok Engine.default
  new := .ok Engine.default
  input := BlockEngine.input c (ops c)
  nBytesHashed e := e.length
  finalize := finalize c
  midstate := midstate
  fromMidstate := fromMidstate

end Chf.Sha256

namespace Chf.Sha256t

/-- `trait Tag`, `sha256t.rs` 46-49: user code returning a pre-tagged engine. It may panic. -/
structure Tag where
  engine : Res Sha256.Engine

/-- `impl HashEngine for sha256t::Engine<T>`, `sha256t.rs` 14-43. `PhantomData` is dropped. -/
def engine (c : Cfg) (T : Tag) : HashEngine where
  State := Sha256.Engine
  Midstate := List Byte
  blockSize := Sha256.blockSize
  default := T.engine
  new := T.engine
  input := BlockEngine.input c (Sha256.ops c)
  nBytesHashed e := e.length
  finalize := Sha256.finalize c
  midstate := Sha256.midstate
  fromMidstate := Sha256.fromMidstate

/-- `Hash::<T>::engine`, `sha256t.rs` 72. -/
def hashEngine (T : Tag) : Res Sha256.Engine := T.engine

/-- `Hash::<T>::hash`, `sha256t.rs` 65-69. -/
def hash (c : Cfg) (T : Tag) (bytes : List Byte) : Res (List Byte) := do
  let e ← hashEngine T
  let e ← (engine c T).input e bytes
  (engine c T).finalize e

/-- `Hash::<T>::from_engine`, `sha256t.rs` 77-80. -/
def fromEngine (c : Cfg) (T : Tag) (e : Sha256.Engine) : Res (List Byte) := (engine c T).finalize e

end Chf.Sha256t
