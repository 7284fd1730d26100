import Verif.Model.Programs

/-!
# What a panicking `input` leaves behind

`input` takes `&mut self`, so a caller that catches the panic (`std::panic::catch_unwind`) still has
the engine, with its fields as they were at the moment of the panic.  The functions here are `input`
once more, with every assignment to a field of `self` in its place among the operations that may panic.
They return the fields at the end, and the panic if there was one.
-/

namespace Chf

/-- What a method with `&mut self` leaves: the value of `*self`, and the panic that ended it. -/
abbrev Leaves (σ : Type) := σ × Option Fault

/-- A caller that does not catch panics. -/
def Leaves.toRes {σ : Type} : Leaves σ → Res σ
  | (e, none) => .ok e
  | (_, some f) => .error f

namespace BlockEngine
variable {H : Type}

/-- `internal_macros.rs` 23-34.  `self.buffer` is assigned (28-29) before `self.length` (30), and
`self.length` before `self.process_block()` (32), which assigns `self.h` after the last operation that
may panic. -/
def inputLoopMut (c : Cfg) (ops : BlockOps H) :
    Nat → BlockEngine H → List Byte → Leaves (BlockEngine H)
  | _, e, [] => (e, none)
  | 0, e, _ :: _ => (e, some .fuel)
  | fuel + 1, e, b :: bs =>
      let inp := b :: bs
      let bufIdx := e.length % ops.B
      match subUsize c ops.B bufIdx with
      | .error f => (e, some f)
      | .ok remLen =>
      let writeLen := min remLen inp.length
      match addUsize c bufIdx writeLen with
      | .error f => (e, some f)
      | .ok endIdx =>
      match sliceTo inp writeLen with
      | .error f => (e, some f)
      | .ok src =>
      match copyIntoRange e.buffer bufIdx endIdx src with
      | .error f => (e, some f)
      | .ok buffer =>
      let e := { e with buffer := buffer }
      match addUsize c e.length writeLen with
      | .error f => (e, some f)
      | .ok length =>
      let e := { e with length := length }
      match if length % ops.B = 0 then processBlock ops e else pure e with
      | .error f => (e, some f)
      | .ok e =>
      match sliceFrom inp writeLen with
      | .error f => (e, some f)
      | .ok inp => inputLoopMut c ops fuel e inp

/-- `input`, `internal_macros.rs` 22-35. -/
def inputMut (c : Cfg) (ops : BlockOps H) (e : BlockEngine H) (inp : List Byte) :
    Leaves (BlockEngine H) :=
  inputLoopMut c ops inp.length e inp

end BlockEngine

namespace Siphash24

/-- `siphash24.rs` 159-167: `self.state` is assigned in every iteration. -/
def wordLoopMut (c : Cfg) (data : List Byte) (lim : Nat) : Nat → State → Nat → State × Res Nat
  | 0, s, _ => (s, .error .fuel)
  | fuel + 1, s, i =>
      if i < lim then
        match loadIntLe c data i 8 with
        | .error f => (s, .error f)
        | .ok mi =>
        let s := absorb s (BitVec.ofNat 64 mi)
        match addUsize c i 8 with
        | .error f => (s, .error f)
        | .ok i => wordLoopMut c data lim fuel s i
      else (s, .ok i)

/-- `siphash24.rs` 155-171. -/
def restMut (c : Cfg) (e : Engine) (data : List Byte) (needed : Nat) : Leaves Engine :=
  match subUsize c data.length needed with
  | .error f => (e, some f)
  | .ok len =>
  let left := len % 8
  match subUsize c len left with
  | .error f => (e, some f)
  | .ok lim =>
  let r := wordLoopMut c data lim (len / 8 + 1) e.state needed
  let e := { e with state := r.1 }
  match r.2 with
  | .error f => (e, some f)
  | .ok i =>
  match u8to64Le c data i left with
  | .error f => (e, some f)
  | .ok tail => ({ e with tail := tail, ntail := left }, none)

/-- `input`, `siphash24.rs` 133-171.  `self.length` is assigned first (136). -/
def inputMut (c : Cfg) (e : Engine) (data : List Byte) : Leaves Engine :=
  let length := data.length
  match addUsize c e.length length with
  | .error f => (e, some f)
  | .ok l =>
  let e := { e with length := l }
  if e.ntail ≠ 0 then
    match subUsize c 8 e.ntail with
    | .error f => (e, some f)
    | .ok needed =>
    match u8to64Le c data 0 (min length needed) with
    | .error f => (e, some f)
    | .ok x =>
    match mulUsize c 8 e.ntail with
    | .error f => (e, some f)
    | .ok sh =>
    match shlU64 c x sh with
    | .error f => (e, some f)
    | .ok x =>
    let e := { e with tail := e.tail ||| x }
    if length < needed then
      match addUsize c e.ntail length with
      | .error f => (e, some f)
      | .ok nt => ({ e with ntail := nt }, none)
    else restMut c { e with state := absorb e.state e.tail, ntail := 0 } data needed
  else restMut c e data 0

end Siphash24

/-- `input` of `hmac::Engine<E>`, `hmac.rs` 248: `self.iengine.input(data)`. -/
def Hmac.inputMut {E : HashEngine} (inner : E.State → List Byte → Leaves E.State) (e : Hmac.Engine E)
    (data : List Byte) : Leaves (Hmac.Engine E) :=
  let r := inner e.iengine data
  ({ e with iengine := r.1 }, r.2)

/-- `input` of every engine.  `sha384.rs` 34, `sha512_256.rs` 44 and `sha256t.rs` 27 pass the call on
to the engine they wrap. -/
def Alg.inputMut (c : Cfg) : (a : Alg) → (a.engine c).State → List Byte → Leaves (a.engine c).State
  | .sha1 => BlockEngine.inputMut c (Sha1.ops c)
  | .sha256 => BlockEngine.inputMut c (Sha256.ops c)
  | .sha384 => BlockEngine.inputMut c (Sha512.ops c)
  | .sha512 => BlockEngine.inputMut c (Sha512.ops c)
  | .sha512_256 => BlockEngine.inputMut c (Sha512.ops c)
  | .ripemd160 => BlockEngine.inputMut c (Ripemd160.ops c)
  | .siphash24 => Siphash24.inputMut c
  | .sha256t _ _ _ => BlockEngine.inputMut c (Sha256.ops c)
  | .hmac a => Hmac.inputMut (a.inputMut c)

/-- Something that implements engines, and says what a panicking `input` leaves. -/
structure CatchImpl extends Impl where
  /-- The engine after a panicking `input`. -/
  left : (a : Alg) → State a → List Byte → State a

/-- The crate's engines. -/
def CatchImpl.crate (c : Cfg) : CatchImpl where
  toImpl := Impl.crate c
  left a e d := (a.inputMut c e d).1

namespace CatchImpl
variable (I : CatchImpl)

/-- One call of a program that catches panics and keeps using the engine. -/
def step (p : I.Pool) (x : Call) : I.Pool × Answer :=
  match x with
  | .input i data =>
      match I.slot p i with
      | none => (p, .rejected)
      | some ⟨a, e⟩ =>
          match I.input a e data with
          | .error f => (p.set i (some ⟨a, I.left a e data⟩), .panic f)
          | .ok e' => (p.set i (some ⟨a, e'⟩), .done)
  | x => I.toImpl.step p x

/-- All answers of such a program started with the engines `p`. -/
def answers (p : I.Pool) : List Call → List Answer
  | [] => []
  | x :: xs => (I.step p x).2 :: answers (I.step p x).1 xs

end CatchImpl

end Chf
