import Verif.Source.Prelude

/-!
# What an observer of the translated text sees

The modules `Verif.Seen.*` are the functions of `Verif.Source.*` once more, written by the same tool
from the same text, with everything an observer of branches and addresses can see.  This file defines
the operations they use: each one computes what the operation of the same name in `Verif/Rust.lean` or
`Verif/Source/Prelude.lean` computes, and notes

* the element or the range of elements of an array or slice that it reads or writes,
* which way each `if`, each operand of `&&` in its condition and each test of a loop goes,
* whether an operation that may panic does (a bounds check, an assertion, an overflow check).

Elements visited by an iterator are noted as the test of the loop: they lie one after the other.  The
array that is accessed need not be named, as the place in the text says which it is and the branches
say which place is reached.  Arithmetic and the bit operations on words are not noted.  The functions
that cannot panic are not written again; the tool rejects those with a branch.

This is about the source: what the compiler makes of it is outside the model.
-/

namespace Chf

namespace Tr

/-- What an observer sees. -/
inductive Ev where
  /-- A branch. -/
  | branch (taken : Bool)
  /-- The element at `i` is read or written. -/
  | at (i : Nat)
  /-- The elements from `i` up to `j` are read, written or made a slice. -/
  | span (i j : Nat)
  /-- A panic. -/
  | panic
  deriving DecidableEq, Repr

end Tr

/-- A computation that may panic, and what an observer sees of it, also if it panics. -/
structure Tr (α : Type) where
  res : Res α
  seen : List Tr.Ev

namespace Tr
variable {α β σ : Type}

/-- What is seen after `x`. -/
def after (x : Res α) (f : α → List Ev) : List Ev :=
  match x with
  | .ok a => f a
  | .error _ => []

/-- `y` for the result of `x`, if `x` does not panic. -/
@[noinline] protected def bind (x : Tr α) (f : α → Tr β) : Tr β :=
  ⟨x.res >>= fun a => (f a).res, x.seen ++ after x.res fun a => (f a).seen⟩

/-- The same with `f` called once, for running it. -/
@[noinline] def bindOnce (x : Tr α) (f : α → Tr β) : Tr β :=
  match x with
  | ⟨.ok a, es⟩ =>
    match f a with
    | ⟨r, fs⟩ => ⟨r, es ++ fs⟩
  | ⟨.error e, es⟩ => ⟨.error e, es⟩

@[csimp] theorem bind_eq_bindOnce : @Tr.bind = @bindOnce := by
  funext α β x f
  obtain ⟨r, es⟩ := x
  cases r with
  | ok a => rfl
  | error e => exact congrArg (Tr.mk (.error e)) (List.append_nil es)

instance : Monad Tr where
  pure a := ⟨pure a, []⟩
  bind := Tr.bind

/-- An operation that accesses `es` and may panic. -/
def op (es : List Ev) (r : Res α) : Tr α :=
  ⟨r, es ++ match r with | .ok _ => [] | .error _ => [.panic]⟩

/-- A branch on `b`. -/
def test (b : Bool) : Tr Bool := ⟨pure b, [.branch b]⟩

/-- `b && ..`: a branch on each operand up to the first one that is false. -/
def all : List Bool → Tr Bool
  | [] => pure true
  | b :: bs => ⟨pure (b && (bs.all id)), .branch b :: if b then (all bs).seen else []⟩

/-! ## Operations -/

def addUsize (c : Cfg) (a b : Nat) : Tr Nat := op [] (Chf.addUsize c a b)
def subUsize (c : Cfg) (a b : Nat) : Tr Nat := op [] (Chf.subUsize c a b)
def mulUsize (c : Cfg) (a b : Nat) : Tr Nat := op [] (Chf.mulUsize c a b)
def remUsize (a b : Nat) : Tr Nat := op [] (Rs.remUsize a b)
def addU {w : Nat} (c : Cfg) (a b : BitVec w) : Tr (BitVec w) := op [] (Rs.addU c a b)
def subU {w : Nat} (c : Cfg) (a b : BitVec w) : Tr (BitVec w) := op [] (Rs.subU c a b)
def mulU {w : Nat} (c : Cfg) (a b : BitVec w) : Tr (BitVec w) := op [] (Rs.mulU c a b)
def shlU {w : Nat} (c : Cfg) (a : BitVec w) (n : Nat) : Tr (BitVec w) := op [] (Rs.shlU c a n)
def shrU {w : Nat} (c : Cfg) (a : BitVec w) (n : Nat) : Tr (BitVec w) := op [] (Rs.shrU c a n)
def assertR (b : Bool) : Tr Unit := op [] (Chf.assertR b)
def debugAssert (c : Cfg) (b : Bool) : Tr Unit := op [] (Chf.debugAssert c b)
def fail (f : Fault) : Tr α := op [] (.error f)

def index (s : List α) (i : Nat) : Tr α := op [.at i] (Chf.index s i)
def indexSet (s : List α) (i : Nat) (x : α) : Tr (List α) := op [.at i] (Chf.indexSet s i x)
def getUnchecked (s : List α) (i : Nat) : Tr α := op [.at i] (Rs.getUnchecked s i)
def sliceTo (s : List α) (n : Nat) : Tr (List α) := op [.span 0 n] (Chf.sliceTo s n)
def sliceFrom (s : List α) (n : Nat) : Tr (List α) := op [.span n s.length] (Chf.sliceFrom s n)
def sliceRange (s : List α) (i j : Nat) : Tr (List α) := op [.span i j] (Rs.sliceRange s i j)
def checkRange (s : List α) (i j : Nat) : Tr Unit := op [.span i j] (Rs.checkRange s i j)
def copyIntoRange (dst : List α) (i j : Nat) (src : List α) : Tr (List α) :=
  op [.span 0 src.length, .span i j] (Chf.copyIntoRange dst i j src)
def copyFromSlice (dst src : List α) : Tr (List α) :=
  op [.span 0 src.length, .span 0 dst.length] (Rs.copyFromSlice dst src)
def tryInto (n : Nat) (s : List α) : Tr (List α) := op [.span 0 n] (Rs.tryInto n s)
def copyNonoverlapping {w : Nat} (c : Cfg) (src : List Byte) (i : Nat) (dst : BitVec w) (n : Nat) :
    Tr (BitVec w) :=
  op [.span i (i + n)] (Rs.copyNonoverlapping c src i dst n)
def loadu8 (s : List Byte) (i : Nat) : Tr (BitVec 128) := op [.span i (i + 16)] (Rs.loadu8 s i)
def loadu32 (s : List (BitVec 32)) (i : Nat) : Tr (BitVec 128) :=
  op [.span i (i + 4)] (Rs.loadu32 s i)
def storeu32 (s : List (BitVec 32)) (i : Nat) (v : BitVec 128) : Tr (List (BitVec 32)) :=
  op [.span i (i + 4)] (Rs.storeu32 s i v)

/-! ## Loops -/

def whileR (fuel : Nat) (cond : σ → Tr Bool) (body : σ → Tr σ) (s : σ) : Tr σ :=
  match fuel with
  | 0 => fail .fuel
  | n + 1 => do
    let b ← cond s
    let b ← test b
    if b then do
      let s ← body s
      whileR n cond body s
    else pure s

def whileBreak (fuel : Nat) (cond : σ → Tr Bool) (body : σ → Tr (Rs.Flow σ σ)) (s : σ) : Tr σ :=
  match fuel with
  | 0 => fail .fuel
  | n + 1 => do
    let b ← cond s
    let b ← test b
    if b then do
      let r ← body s
      match r with
      | .ret s => pure s
      | .next s => whileBreak n cond body s
    else pure s

/-- `for x in xs { .. }` -/
def each (xs : List α) (f : σ → α → Tr σ) (init : σ) : Tr σ :=
  match xs with
  | [] => do
    let _ ← test false
    pure init
  | x :: xs => do
    let _ ← test true
    let s ← f init x
    each xs f s

/-- `for x in xs { .. }` where the body may `return`. -/
def eachFlow {ρ : Type} (xs : List α) (init : σ) (f : σ → α → Tr (Rs.Flow ρ σ)) : Tr (Rs.Flow ρ σ) :=
  match xs with
  | [] => do
    let _ ← test false
    pure (.next init)
  | x :: xs => do
    let _ ← test true
    let r ← f init x
    match r with
    | .ret r => pure (.ret r)
    | .next s => eachFlow xs s f

/-- `for x in xs { .. }` where the body may `break`. -/
def eachBreak (xs : List α) (init : σ) (f : σ → α → Tr (Rs.Flow σ σ)) : Tr σ :=
  match xs with
  | [] => do
    let _ ← test false
    pure init
  | x :: xs => do
    let _ ← test true
    let r ← f init x
    match r with
    | .ret s => pure s
    | .next s => eachBreak xs s f

def runLines (ls : List (σ → Tr σ)) (s : σ) : Tr σ := ls.foldlM (fun s f => f s) s

def zipMut (xs : List α) (ys : List β) (f : α → β → Tr α) : Tr (List α) :=
  match xs, ys with
  | x :: xs, y :: ys => do
    let _ ← test true
    let v ← f x y
    let rest ← zipMut xs ys f
    pure (v :: rest)
  | xs, _ => do
    let _ ← test false
    pure xs

def zipChunksMut (k : Nat) (vals : List α) (ret : List β) (f : α → List β → Tr (List β)) :
    Tr (List β) :=
  match vals with
  | [] => do
    let _ ← test false
    pure ret
  | v :: vals => do
    let b ← test (decide (ret.length < k))
    if b then pure ret
    else do
      let chunk ← f v (ret.take k)
      let rest ← zipChunksMut k vals (ret.drop k) f
      pure (chunk ++ rest)

/-! ## Type parameters -/

/-- The methods of a type with the trait `HashEngine`, observed. -/
structure HashEngine (E : Chf.HashEngine) where
  default : Tr E.State
  new : Tr E.State
  input : E.State → List Byte → Tr E.State
  finalize : E.State → Tr (List Byte)
  midstate : E.State → Tr E.Midstate
  fromMidstate : E.Midstate → Nat → Tr E.State

/-- `E::hash(bytes)`, the provided method, `lib.rs` 171-175. -/
def HashEngine.hash {E : Chf.HashEngine} (E' : HashEngine E) (bytes : List Byte) : Tr (List Byte) := do
  let engine ← E'.new
  let engine ← E'.input engine bytes
  E'.finalize engine

end Tr

end Chf
