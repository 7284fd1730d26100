import Verif.Model.Run

/-!
# Programs over any number of engines

A program is a list of calls on numbered engines of any of the crate's types.  It is run over
something that implements the calls (`Impl`): the model of the crate, or the specification.
-/

namespace Chf

/-- Something that implements engines and their methods. -/
structure Impl where
  /-- Engine values of a type. -/
  State : Alg → Type
  /-- The constructors; `none` if the call is ill typed. -/
  make : (a : Alg) → Make → Option (Res (State a))
  /-- `input` -/
  input : (a : Alg) → State a → List Byte → Res (State a)
  /-- `n_bytes_hashed` -/
  count : (a : Alg) → State a → Nat
  /-- `midstate` -/
  mid : (a : Alg) → State a → Res MidVal
  /-- `finalize` -/
  fin : (a : Alg) → State a → Res (List Byte)

/-- The crate's engines. -/
def Impl.crate (c : Cfg) : Impl where
  State a := (a.engine c).State
  make a mk := a.make c mk
  input a := (a.engine c).input
  count a := (a.engine c).nBytesHashed
  mid a e := ((a.engine c).midstate e).map (a.showMid c)
  fin a := (a.engine c).finalize

/-- A call.  Engines are numbered in the order in which they are made. -/
inductive Call where
  /-- Make an engine. -/
  | make (a : Alg) (mk : Make)
  /-- `clone()` -/
  | clone (i : Nat)
  /-- `input(data)` -/
  | input (i : Nat) (data : List Byte)
  /-- `n_bytes_hashed()` -/
  | count (i : Nat)
  /-- `midstate()` -/
  | midstate (i : Nat)
  /-- `finalize()`, which consumes the engine -/
  | finalize (i : Nat)

/-- What a call returns. -/
inductive Answer where
  /-- The call panicked. -/
  | panic (f : Fault)
  /-- The call returned nothing to look at. -/
  | done
  | count (n : Nat)
  | midstate (v : MidVal)
  | digest (d : List Byte)
  /-- The call does not type-check, or its engine was consumed or lost in a panic. -/
  | rejected
  deriving DecidableEq

namespace Impl
variable (I : Impl)

/-- The numbered engines; `none` for one that was consumed or lost in a panic. -/
abbrev Pool := List (Option ((a : Alg) × I.State a))

/-- The engine with number `i`. -/
def slot (p : I.Pool) (i : Nat) : Option ((a : Alg) × I.State a) := (p[i]?).join

/-- One call. -/
def step (p : I.Pool) : Call → I.Pool × Answer
  | .make a how =>
      match I.make a how with
      | none => (p, .rejected)
      | some (.error f) => (p, .panic f)
      | some (.ok e) => (p ++ [some ⟨a, e⟩], .done)
  | .clone i =>
      match I.slot p i with
      | none => (p, .rejected)
      | some s => (p ++ [some s], .done)
  | .input i data =>
      match I.slot p i with
      | none => (p, .rejected)
      | some ⟨a, e⟩ =>
          match I.input a e data with
          | .error f => (p.set i none, .panic f)
          | .ok e' => (p.set i (some ⟨a, e'⟩), .done)
  | .count i =>
      match I.slot p i with
      | none => (p, .rejected)
      | some ⟨a, e⟩ => (p, .count (I.count a e))
  | .midstate i =>
      match I.slot p i with
      | none => (p, .rejected)
      | some ⟨a, e⟩ =>
          match I.mid a e with
          | .error f => (p, .panic f)
          | .ok v => (p, .midstate v)
  | .finalize i =>
      match I.slot p i with
      | none => (p, .rejected)
      | some ⟨a, e⟩ =>
          match I.fin a e with
          | .error f => (p.set i none, .panic f)
          | .ok d => (p.set i none, .digest d)

/-- All answers of a program started with the engines `p`. -/
def answers (p : I.Pool) : List Call → List Answer
  | [] => []
  | x :: xs => (I.step p x).2 :: answers (I.step p x).1 xs

end Impl

/-- The values of the Rust types, and engine types whose `new()` does not panic. -/
def Call.Typed (c : Cfg) : Call → Prop
  | .make a how => a.Ok c ∧ how.Typed c
  | .input _ data => data.length < c.usizeMod
  | _ => True

end Chf
