import Verif.Model.Engine

/-!
# What an observer of branches and addresses sees

The functions of the model once more, with everything an observer of the control flow and of the
memory addresses can see.  An observer sees which way each branch goes and which elements of which
array or slice are read and written, not the values.  Fields and local variables that are not arrays
always lie in the same place and are not noted; every access with an index, an iterator or a pointer
is, also those with a literal index.  A checked operation (indexing, slicing, an assertion, arithmetic
with overflow checks) is a branch on whether it panics; an observer of a build without the check sees
less.

This is about the source: what the compiler makes of it is outside the model.

This file: `/repo/src/internal_macros.rs` 19-46 and the padding part of the `finalize` methods.
-/

namespace Chf

/-- The arrays and slices that are accessed. -/
inductive Obj where
  /-- The field `buffer`. -/
  | buffer
  /-- The field `h`, or the local array `state`. -/
  | h
  /-- The local array `w`. -/
  | w
  /-- The local array `bb` of RIPEMD-160. -/
  | bb
  /-- The local array `bbb` of RIPEMD-160. -/
  | bbb
  /-- The slice given to `input`. -/
  | data
  /-- The array that is returned, or the array `h` of the engine that is returned. -/
  | ret
  /-- The argument of `from_midstate`. -/
  | arg
  /-- The key of an HMAC, or its digest. -/
  | key
  /-- The local array `ipad`. -/
  | ipad
  /-- The local array `opad`. -/
  | opad
  deriving DecidableEq, Repr

/-- What an observer sees. -/
inductive Ev where
  /-- A branch. -/
  | branch (taken : Bool)
  /-- `n` elements are read, the first one at `i`. -/
  | read (o : Obj) (i n : Nat)
  /-- `n` elements are written, the first one at `i`. -/
  | write (o : Obj) (i n : Nat)
  /-- Something happens to the inner engine of an HMAC engine. -/
  | inner (e : Ev)
  /-- Something happens to the outer engine of an HMAC engine. -/
  | outer (e : Ev)
  /-- Something happens to the engine that hashes a long HMAC key. -/
  | keyHash (e : Ev)
  deriving DecidableEq, Repr

/-- A computation that may panic, and what an observer sees of it, also if it panics. -/
structure Obs (α : Type) where
  res : Res α
  seen : List Ev

namespace Obs

instance : Monad Obs where
  pure a := ⟨.ok a, []⟩
  bind x f :=
    match x.res with
    | .ok a => ⟨(f a).res, x.seen ++ (f a).seen⟩
    | .error e => ⟨.error e, x.seen⟩

/-- Something nobody sees.  It is used where the model may fail but Rust has no check: the length of an
array (given by its type) and reads through pointers. -/
def unseen {α : Type} (r : Res α) : Obs α := ⟨r, []⟩

/-- The observer sees these events. -/
def see (es : List Ev) : Obs Unit := ⟨.ok (), es⟩

/-- A branch on `b`. -/
def test (b : Bool) : Obs Bool := ⟨.ok b, [.branch b]⟩

/-- `if b { x } else { y }`. -/
def choose {α : Type} (b : Bool) (x y : Obs α) : Obs α := do
  let _ ← test b
  if b then x else y

/-- An operation that may panic. -/
def check {α : Type} (r : Res α) : Obs α :=
  ⟨r, [.branch (match r with | .ok _ => true | .error _ => false)]⟩

/-- The events of a computation, marked. -/
def mark {α : Type} (f : Ev → Ev) (x : Obs α) : Obs α := ⟨x.res, x.seen.map f⟩

end Obs

open Obs

/-- `for (x, y) in xs.iter_mut().zip(ys) { *x = f(y)?; }` with elements of `ys` that are chunks of `k`
elements of the array `src`, from iteration `i` on. -/
def fillZipO {α β : Type} (dst src : Obj) (k : Nat) (f : β → Res α) : Nat → List α → List β → Obs (List α)
  | i, _ :: xs, y :: ys => do
      see [.branch true, .read src (i * k) k]
      let v ← check (f y)
      see [.write dst i 1]
      let rest ← fillZipO dst src k f (i + 1) xs ys
      pure (v :: rest)
  | _, xs, _ => do
      see [.branch false]
      pure xs

/-- `for (v, chunk) in vals.iter().zip(ret.chunks_exact_mut(k)) { chunk.copy_from_slice(&enc(v)); }`,
from iteration `i` on. -/
def storeZipO {α : Type} (k : Nat) (enc : α → List Byte) : Nat → List α → List Byte → Obs (List Byte)
  | _, [], ret => do
      see [.branch false]
      pure ret
  | i, v :: vs, ret => do
      see [.branch true, .read .h i 1]
      choose (ret.length < k) (pure ret) <| choose ((enc v).length = k)
        (do
          see [.write .ret (i * k) k]
          let rest ← storeZipO k enc (i + 1) vs (ret.drop k)
          pure (enc v ++ rest))
        (unseen (.error .copyLen))

/-- `BLOCK_SIZE` and the observed `process_block`. -/
structure ObsOps (H : Type) where
  B : Nat
  process : List Byte → H → Obs H

namespace BlockEngine
variable {H : Type}

/-- `self.process_block()`. -/
def processBlockO (ops : ObsOps H) (e : BlockEngine H) : Obs (BlockEngine H) := do
  let h ← ops.process e.buffer e.h
  pure { e with h := h }

/-- The loop of `engine_input_impl!`, `internal_macros.rs` 22-34.  An element of the slice is named by
its distance from the end of the slice. -/
def inputLoopO (c : Cfg) (ops : ObsOps H) : Nat → BlockEngine H → List Byte → Obs (BlockEngine H)
  | _, e, [] => do
      see [.branch false]
      pure e
  | 0, _, _ :: _ => unseen (.error .fuel)
  | fuel + 1, e, b :: bs => do
      see [.branch true]
      let inp := b :: bs
      let bufIdx := e.length % ops.B
      let remLen ← check (subUsize c ops.B bufIdx)
      let _ ← test (remLen ≤ inp.length)
      let writeLen := min remLen inp.length
      let endIdx ← check (addUsize c bufIdx writeLen)
      let src ← check (sliceTo inp writeLen)
      let buffer ← check (copyIntoRange e.buffer bufIdx endIdx src)
      see [.read .data inp.length writeLen, .write .buffer bufIdx writeLen]
      let length ← check (addUsize c e.length writeLen)
      let e : BlockEngine H := { e with buffer := buffer, length := length }
      let e ← choose (length % ops.B = 0) (processBlockO ops e) (pure e)
      let inp ← check (sliceFrom inp writeLen)
      inputLoopO c ops fuel e inp

/-- `input`, `internal_macros.rs` 22-35. -/
def inputO (c : Cfg) (ops : ObsOps H) (e : BlockEngine H) (inp : List Byte) : Obs (BlockEngine H) :=
  inputLoopO c ops inp.length e inp

/-- The padding part of `finalize`: `sha256.rs` 58-70, `sha1.rs` 47-59, `ripemd160.rs` 48-60,
`sha512.rs` 80-93. -/
def finalizeBlocksO (c : Cfg) (ops : ObsOps H) (zlen : Nat) (pre : List (List Byte))
    (enc : BitVec 64 → List Byte) (e : BlockEngine H) : Obs (BlockEngine H) := do
  let dataLen := asU64 e.length
  let zeroes : List Byte := List.replicate zlen 0
  let e ← inputO c ops e [0x80]
  let e ← choose (e.length % ops.B > zeroes.length) (inputO c ops e zeroes) (pure e)
  let padLength ← check (subUsize c zeroes.length (e.length % ops.B))
  let z ← check (sliceTo zeroes padLength)
  let e ← inputO c ops e z
  check (debugAssert c (e.length % ops.B == zeroes.length))
  let e ← pre.foldlM (inputO c ops) e
  let bits ← check (mulU64 c 8 dataLen)
  let e ← inputO c ops e (enc bits)
  check (debugAssert c (e.length % ops.B == 0))
  pure e

end BlockEngine

end Chf
