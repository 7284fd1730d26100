import Verif.Model.Alg

/-!
# `impls.rs`: engines as writers

`/repo/src/impls.rs` implements `bitcoin_io::Write` and `std::io::Write`.  Neither trait is in `/repo`:
the provided method `write_all` is written down here as both crates document it, and so is
`std::io::copy`.
-/

namespace Chf

/-- The kinds of I/O errors that matter to `write_all`. -/
inductive IoError where
  | interrupted
  /-- `write` returned 0: `WriteZero` in `std`, `UnexpectedEof` in `bitcoin_io`. -/
  | writeZero
  | other
  deriving DecidableEq

/-- `trait Write`: the required methods. -/
structure Writer (State : Type) where
  /-- `fn write(&mut self, buf: &[u8]) -> Result<usize>` -/
  write : State → List Byte → Res (State × Except IoError Nat)
  /-- `fn flush(&mut self) -> Result<()>` -/
  flush : State → Res (State × Except IoError Unit)

namespace Writer
variable {State : Type} (w : Writer State)

/-- The provided method `write_all`: write until the buffer is empty.  The first argument bounds the
number of iterations. -/
def writeAllLoop : Nat → State → List Byte → Res (State × Except IoError Unit)
  | _, e, [] => .ok (e, .ok ())
  | 0, _, _ :: _ => .error .fuel
  | fuel + 1, e, b :: bs => do
      let (e, r) ← w.write e (b :: bs)
      match r with
      | .ok 0 => pure (e, .error .writeZero)
      | .ok n => do
          let buf ← sliceFrom (b :: bs) n
          writeAllLoop fuel e buf
      | .error .interrupted => writeAllLoop fuel e (b :: bs)
      | .error err => pure (e, .error err)

def writeAll (e : State) (buf : List Byte) : Res (State × Except IoError Unit) :=
  w.writeAllLoop buf.length e buf

/-- A call of a method of `Write`. -/
inductive Op where
  | write (buf : List Byte)
  | writeAll (buf : List Byte)
  | flush

/-- What a call returns. -/
inductive Answer where
  | written (r : Except IoError Nat)
  | done (r : Except IoError Unit)

/-- One call. -/
def step (e : State) : Op → Res (State × Answer)
  | .write buf => do
      let (e, r) ← w.write e buf
      pure (e, .written r)
  | .writeAll buf => do
      let (e, r) ← w.writeAll e buf
      pure (e, .done r)
  | .flush => do
      let (e, r) ← w.flush e
      pure (e, .done r)

/-- A sequence of calls and their answers. -/
def steps : State → List Op → Res (State × List Answer)
  | e, [] => .ok (e, [])
  | e, op :: ops => do
      let (e, r) ← w.step e op
      let (e, rs) ← steps e ops
      pure (e, r :: rs)

/-- What one call of `Read::read` gives: some bytes, none at the end of the data, or an error. -/
abbrev ReadResult := Except IoError (List Byte)

/-- `std::io::copy(reader, writer)`, as `lib.rs` 40 uses it to hash what a reader gives; the function is
`std`'s.  The list holds the results of successive calls of `read`; after the last one the reader is at
the end of its data.  `n` is the `u64` count of bytes copied so far. -/
def copy (e : State) (n : Nat) : List ReadResult → Res (State × Except IoError Nat)
  | [] => .ok (e, .ok n)
  | .ok [] :: _ => .ok (e, .ok n)
  | .ok (b :: bs) :: reads => do
      let (e, r) ← w.writeAll e (b :: bs)
      match r with
      | .ok () => copy e ((n + (b :: bs).length) % 2 ^ 64) reads
      | .error x => pure (e, .error x)
  | .error .interrupted :: reads => copy e n reads
  | .error x :: _ => .ok (e, .error x)

end Writer

/-- `us.input(buf); Ok(buf.len())` and `Ok(())`. -/
def HashEngine.writer (E : HashEngine) : Writer E.State where
  write e buf := do
    let e ← E.input e buf
    pure (e, .ok buf.length)
  flush e := .ok (e, .ok ())

/-- The implementations of `impls.rs` 11-88.  The engines of sha384 and sha512_256 have none. -/
def Alg.writer (c : Cfg) : (a : Alg) → Option (Writer (a.engine c).State)
  | .sha1 => some (Sha1.engine c).writer           -- 12-19
  | .sha256 => some (Sha256.engine c).writer       -- 21-28
  | .sha512 => some (Sha512.engine c).writer       -- 30-37
  | .ripemd160 => some (Ripemd160.engine c).writer -- 39-46
  | .siphash24 => some (Siphash24.engine c).writer -- 48-55
  | .hmac a => some (Alg.engine c (.hmac a)).writer  -- 57-78
  | .sha256t mid len data => some (Alg.engine c (.sha256t mid len data)).writer -- 80-88
  | .sha384 => none
  | .sha512_256 => none

end Chf
