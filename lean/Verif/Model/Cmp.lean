import Verif.Rust

/-!
# `cmp.rs`

`/repo/src/cmp.rs` 17-53, with everything an observer of memory accesses and branches can see.  An
observer sees addresses and branch outcomes, not the bytes read or written.
-/

namespace Chf.Cmp

/-- The memory that `fixed_time_eq` accesses. -/
inductive Place where
  /-- The local `r`, which is accessed with `read_volatile` and `write_volatile`. -/
  | r
  /-- Byte `i` of the first slice. -/
  | lhs (i : Nat)
  /-- Byte `i` of the second slice. -/
  | rhs (i : Nat)
  deriving DecidableEq, Repr

/-- What an observer sees. -/
inductive Event where
  | read (p : Place)
  | write (p : Place)
  | branch (taken : Bool)
  deriving DecidableEq, Repr

/-- What happened so far, and the value of `r`. -/
structure Mem where
  trace : List Event
  r : Byte

/-- Computations that are observed and may panic; the trace survives a panic. -/
def M (α : Type) := Mem → Res α × Mem

namespace M

def pure {α} (x : α) : M α := fun m => (.ok x, m)

def bind {α β} (x : M α) (f : α → M β) : M β := fun m =>
  match x m with
  | (.ok v, m) => f v m
  | (.error e, m) => (.error e, m)

instance : Monad M where
  pure := M.pure
  bind := M.bind

def throw {α} (e : Fault) : M α := fun m => (.error e, m)

end M

/-- Note an event. -/
def emit (e : Event) : M Unit := fun m => (.ok (), { m with trace := m.trace ++ [e] })

/-- A branch on `b`. -/
def branch (b : Bool) : M Bool := do
  emit (.branch b)
  return b

/-- `read_volatile(&r)`. -/
def readR : M Byte := do
  emit (.read .r)
  fun m => (.ok m.r, m)

/-- `write_volatile(&mut r, v)`. -/
def writeR (v : Byte) : M Unit := do
  emit (.write .r)
  fun m => (.ok (), { m with r := v })

/-- `s[i]`: a bounds check and a read. -/
def load (p : Nat → Place) (s : List Byte) (i : Nat) : M Byte := do
  if ← branch (i < s.length) then
    emit (.read (p i))
    return s.getD i 0
  else M.throw .sliceIndex

/-- `&s[..n]`: a bounds check. -/
def takeTo (s : List Byte) (n : Nat) : M (List Byte) := do
  if ← branch (n ≤ s.length) then return s.take n else M.throw .sliceIndex

/-- The loop, `cmp.rs` 24-30, with `n` iterations to go; the branches are the tests `i < count`. -/
def loop (lhs rhs : List Byte) : Nat → Nat → M Unit
  | 0, _ => do
      let _ ← branch false
      return ()
  | n + 1, i => do
      let _ ← branch true
      let rs ← readR
      let x ← load .lhs lhs i
      let y ← load .rhs rhs i
      writeR (rs ||| (x ^^^ y))
      loop lhs rhs n (i + 1)

/-- One of the blocks `cmp.rs` 31-51: `t |= t >> k`. -/
def fold (k : Nat) : M Unit := do
  let t ← readR
  writeR (t ||| (t >>> k))

/-- `fixed_time_eq`, `cmp.rs` 17-53. -/
def fixedTimeEqM (a b : List Byte) : M Bool := do
  if ← branch (a.length == b.length) then
    let count := a.length
    let lhs ← takeTo a count
    let rhs ← takeTo b count
    loop lhs rhs count 0
    fold 4
    fold 2
    fold 1
    let t ← readR
    return (t &&& 1) == 0
  else M.throw .assertion

/-- The result of `fixed_time_eq`.  Line 23 sets `r` to 0. -/
def fixedTimeEq (a b : List Byte) : Res Bool := (fixedTimeEqM a b ⟨[], 0⟩).1

/-- What an observer of `fixed_time_eq` sees. -/
def trace (a b : List Byte) : List Event := (fixedTimeEqM a b ⟨[], 0⟩).2.trace

end Chf.Cmp
