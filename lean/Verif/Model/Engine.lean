import Verif.Rust

/-!
# The `HashEngine` trait and the buffered block engine

`/repo/src/lib.rs` 132-198 and `/repo/src/internal_macros.rs` 19-46.
-/

namespace Chf

/-- `trait HashEngine`, `/repo/src/lib.rs` 132-198, for one build configuration.  A digest is its
list of bytes (`AsRef<[u8]>`).  `default` and `new` are separate because an implementation may
override `new` (`/repo/src/sha256t.rs` 24-25). -/
structure HashEngine where
  /-- The engine type. -/
  State : Type
  /-- `type Midstate`. -/
  Midstate : Type
  /-- `const BLOCK_SIZE`. -/
  blockSize : Nat
  /-- `Default::default()`. -/
  default : Res State
  /-- `fn new() -> Self`. -/
  new : Res State
  /-- `fn input(&mut self, data: &[u8])`. -/
  input : State → List Byte → Res State
  /-- `fn n_bytes_hashed(&self) -> usize`. -/
  nBytesHashed : State → Nat
  /-- `fn finalize(self) -> Self::Digest`. -/
  finalize : State → Res (List Byte)
  /-- `fn midstate(&self) -> Self::Midstate`. -/
  midstate : State → Res Midstate
  /-- `fn from_midstate(midstate, length) -> Self`. -/
  fromMidstate : Midstate → Nat → Res State

namespace HashEngine

/-- Successive `input` calls, one per slice. -/
def inputs (E : HashEngine) : E.State → List (List Byte) → Res E.State
  | e, [] => .ok e
  | e, d :: ds => do
      let e ← E.input e d
      E.inputs e ds

/-- Provided method `hash`, `/repo/src/lib.rs` 171-175. -/
def hash (E : HashEngine) (bytes : List Byte) : Res (List Byte) := do
  let engine ← E.new
  let engine ← E.input engine bytes
  E.finalize engine

/-- Provided method `hash_byte_chunks`, `/repo/src/lib.rs` 178-188. -/
def hashByteChunks (E : HashEngine) (slices : List (List Byte)) : Res (List Byte) := do
  let engine ← E.new
  let engine ← E.inputs engine slices
  E.finalize engine

end HashEngine

/-- The engine struct shared by SHA-1, SHA-256, SHA-512 and RIPEMD-160: `sha256.rs` 25-29,
`sha1.rs` 18-22, `sha512.rs` 18-22, `ripemd160.rs` 18-22.  `H` is the type of the field `h`. -/
structure BlockEngine (H : Type) where
  buffer : List Byte
  h : H
  length : Nat

/-- What the buffered engine is parameterised by: `BLOCK_SIZE` and `process_block`, the latter as a
function of the two fields it uses. -/
structure BlockOps (H : Type) where
  B : Nat
  process : List Byte → H → Res H

namespace BlockEngine
variable {H : Type}

/-- `self.process_block()`. -/
def processBlock (ops : BlockOps H) (e : BlockEngine H) : Res (BlockEngine H) := do
  let h ← ops.process e.buffer e.h
  pure { e with h := h }

/-- The `while !inp.is_empty()` loop of `engine_input_impl!`, `internal_macros.rs` 22-34.  The first
argument bounds the number of iterations. -/
def inputLoop (c : Cfg) (ops : BlockOps H) : Nat → BlockEngine H → List Byte → Res (BlockEngine H)
  | _, e, [] => .ok e
  | 0, _, _ :: _ => .error .fuel
  | fuel + 1, e, b :: bs => do
      let inp := b :: bs
      let bufIdx := e.length % ops.B
      let remLen ← subUsize c ops.B bufIdx
      let writeLen := min remLen inp.length
      let endIdx ← addUsize c bufIdx writeLen
      let src ← sliceTo inp writeLen
      let buffer ← copyIntoRange e.buffer bufIdx endIdx src
      let length ← addUsize c e.length writeLen
      let e : BlockEngine H := { e with buffer := buffer, length := length }
      let e ← if length % ops.B = 0 then processBlock ops e else pure e
      let inp ← sliceFrom inp writeLen
      inputLoop c ops fuel e inp

/-- `input`, `internal_macros.rs` 22-35 (not under `cfg(hashes_fuzz)`).  Every iteration consumes at
least one byte, so `inp.len()` iterations are enough. -/
def input (c : Cfg) (ops : BlockOps H) (e : BlockEngine H) (inp : List Byte) :
    Res (BlockEngine H) :=
  inputLoop c ops inp.length e inp

/-- The padding part of `finalize`: `sha256.rs` 58-70, `sha1.rs` 47-59, `ripemd160.rs` 48-60,
`sha512.rs` 80-93.  `zlen` is the length of the array `zeroes` (`BLOCK_SIZE - 8`, or
`BLOCK_SIZE - 16` for SHA-512), `pre` is what is input between the zeroes and the length (nothing,
or `[0; 8]` for SHA-512), `enc` is `to_be_bytes` or `to_le_bytes`. -/
def finalizeBlocks (c : Cfg) (ops : BlockOps H) (zlen : Nat) (pre : List (List Byte))
    (enc : BitVec 64 → List Byte) (e : BlockEngine H) : Res (BlockEngine H) := do
  let dataLen := asU64 e.length
  let zeroes : List Byte := List.replicate zlen 0
  let e ← input c ops e [0x80]
  let e ← if e.length % ops.B > zeroes.length then input c ops e zeroes else pure e
  let padLength ← subUsize c zeroes.length (e.length % ops.B)
  let z ← sliceTo zeroes padLength
  let e ← input c ops e z
  debugAssert c (e.length % ops.B == zeroes.length)
  let e ← pre.foldlM (input c ops) e
  let bits ← mulU64 c 8 dataLen
  let e ← input c ops e (enc bits)
  debugAssert c (e.length % ops.B == 0)
  pure e

end BlockEngine

/-! ## Register machine for the unrolled rounds -/

/-- The local variables `a` .. `h` of the unrolled block functions. -/
inductive Reg where
  | a | b | c | d | e | f | g | h
  deriving DecidableEq, Repr

/-- Read a local variable. -/
def Arr8.get {α} (s : Arr8 α) : Reg → α
  | .a => s.x0 | .b => s.x1 | .c => s.x2 | .d => s.x3
  | .e => s.x4 | .f => s.x5 | .g => s.x6 | .h => s.x7

/-- Assign a local variable. -/
def Arr8.set {α} (s : Arr8 α) (r : Reg) (v : α) : Arr8 α :=
  match r with
  | .a => { s with x0 := v } | .b => { s with x1 := v } | .c => { s with x2 := v }
  | .d => { s with x3 := v } | .e => { s with x4 := v } | .f => { s with x5 := v }
  | .g => { s with x6 := v } | .h => { s with x7 := v }

/-- One source line `round!(a, b, c, d, e, f, g, h, k, w[i])`, or with three more arguments
`w[i1], w[i2], w[i3]`. -/
structure RoundLine (w : Nat) where
  ra : Reg
  rb : Reg
  rc : Reg
  rd : Reg
  re : Reg
  rf : Reg
  rg : Reg
  rh : Reg
  k : BitVec w
  wi : Fin 16
  later : Option (Fin 16 × Fin 16 × Fin 16)
  deriving DecidableEq, Repr

/-- Local variables of an unrolled block function: the registers and the message window `w`. -/
structure RoundState (w : Nat) where
  regs : Arr8 (BitVec w)
  win : Vector (BitVec w) 16

/-- A list with 16 elements as the array `w: [_; 16]`. -/
def arr16 {α} (l : List α) : Res (Vector α 16) :=
  if h : l.length = 16 then .ok ⟨l.toArray, by simpa using h⟩ else .error .unreachable

end Chf
