/- Generated from the translation of /repo/src by tools/rust2lean.py; do not edit. -/
import Verif.Left.Prelude
import Verif.Source.Sha512

namespace Chf.Source.Sha512
open Chf
set_option linter.unusedVariables false

/-- `Engine::process_block`, sha512.rs 204-314, without feature `small-hash`. -/
def Engine.process_block_fast_left (cfg : Cfg) (self : Engine) : Left Engine Engine := do
  Left.keep self (debugAssert cfg (self.buffer.length == Sha512.BLOCK_SIZE))
  let w : List (BitVec 64) := List.replicate 16 0#64
  let w ← Left.keep self (Rs.zipMut w (chunksExact 8 self.buffer) fun w_val buff_bytes => do
    let x_1 ← Rs.tryInto 8 buff_bytes
    let w_val := Rs.fromBeBytes 64 x_1
    pure w_val)
  let a ← Left.keep self (index self.h 0)
  let b ← Left.keep self (index self.h 1)
  let c ← Left.keep self (index self.h 2)
  let d ← Left.keep self (index self.h 3)
  let e ← Left.keep self (index self.h 4)
  let f ← Left.keep self (index self.h 5)
  let g ← Left.keep self (index self.h 6)
  let h ← Left.keep self (index self.h 7)
  let (w, a, b, c, d, e, f, g, h) ← Left.keep self (Rs.runLines (Engine.process_block_fast.lines1 cfg) (w, a, b, c, d, e, f, g, h))
  let x_410 ← Left.keep self (index self.h 0)
  let x_411 ← Left.keep self (indexSet self.h 0 (x_410 + a))
  let self := { self with h := x_411 }
  let x_412 ← Left.keep self (index self.h 1)
  let x_413 ← Left.keep self (indexSet self.h 1 (x_412 + b))
  let self := { self with h := x_413 }
  let x_414 ← Left.keep self (index self.h 2)
  let x_415 ← Left.keep self (indexSet self.h 2 (x_414 + c))
  let self := { self with h := x_415 }
  let x_416 ← Left.keep self (index self.h 3)
  let x_417 ← Left.keep self (indexSet self.h 3 (x_416 + d))
  let self := { self with h := x_417 }
  let x_418 ← Left.keep self (index self.h 4)
  let x_419 ← Left.keep self (indexSet self.h 4 (x_418 + e))
  let self := { self with h := x_419 }
  let x_420 ← Left.keep self (index self.h 5)
  let x_421 ← Left.keep self (indexSet self.h 5 (x_420 + f))
  let self := { self with h := x_421 }
  let x_422 ← Left.keep self (index self.h 6)
  let x_423 ← Left.keep self (indexSet self.h 6 (x_422 + g))
  let self := { self with h := x_423 }
  let x_424 ← Left.keep self (index self.h 7)
  let x_425 ← Left.keep self (indexSet self.h 7 (x_424 + h))
  let self := { self with h := x_425 }
  pure self

/-- `Engine::process_block`, sha512.rs 204-314, with feature `small-hash`. -/
def Engine.process_block_small_left (cfg : Cfg) (self : Engine) : Left Engine Engine := do
  Left.keep self (debugAssert cfg (self.buffer.length == Sha512.BLOCK_SIZE))
  let w : List (BitVec 64) := List.replicate 16 0#64
  let w ← Left.keep self (Rs.zipMut w (chunksExact 8 self.buffer) fun w_val buff_bytes => do
    let x_1 ← Rs.tryInto 8 buff_bytes
    let w_val := Rs.fromBeBytes 64 x_1
    pure w_val)
  let a ← Left.keep self (index self.h 0)
  let b ← Left.keep self (index self.h 1)
  let c ← Left.keep self (index self.h 2)
  let d ← Left.keep self (index self.h 3)
  let e ← Left.keep self (index self.h 4)
  let f ← Left.keep self (index self.h 5)
  let g ← Left.keep self (index self.h 6)
  let h ← Left.keep self (index self.h 7)
  let (w, a, b, c, d, e, f, g, h) ← Left.keep self (Rs.runLines (Engine.process_block_small.lines1 cfg) (w, a, b, c, d, e, f, g, h))
  let x_570 ← Left.keep self (index self.h 0)
  let x_571 ← Left.keep self (indexSet self.h 0 (x_570 + a))
  let self := { self with h := x_571 }
  let x_572 ← Left.keep self (index self.h 1)
  let x_573 ← Left.keep self (indexSet self.h 1 (x_572 + b))
  let self := { self with h := x_573 }
  let x_574 ← Left.keep self (index self.h 2)
  let x_575 ← Left.keep self (indexSet self.h 2 (x_574 + c))
  let self := { self with h := x_575 }
  let x_576 ← Left.keep self (index self.h 3)
  let x_577 ← Left.keep self (indexSet self.h 3 (x_576 + d))
  let self := { self with h := x_577 }
  let x_578 ← Left.keep self (index self.h 4)
  let x_579 ← Left.keep self (indexSet self.h 4 (x_578 + e))
  let self := { self with h := x_579 }
  let x_580 ← Left.keep self (index self.h 5)
  let x_581 ← Left.keep self (indexSet self.h 5 (x_580 + f))
  let self := { self with h := x_581 }
  let x_582 ← Left.keep self (index self.h 6)
  let x_583 ← Left.keep self (indexSet self.h 6 (x_582 + g))
  let self := { self with h := x_583 }
  let x_584 ← Left.keep self (index self.h 7)
  let x_585 ← Left.keep self (indexSet self.h 7 (x_584 + h))
  let self := { self with h := x_585 }
  pure self

/-- `Engine::process_block`, sha512.rs 204-314. -/
def Engine.process_block_left (cfg : Cfg) (self : Engine) : Left Engine Engine :=
  if cfg.smallHash then Engine.process_block_small_left cfg self else Engine.process_block_fast_left cfg self

/-- `Engine::input`, internal_macros.rs 22-36. -/
def Engine.input_left (cfg : Cfg) (self : Engine) (inp : List Byte) : Left Engine Engine := do
  let (self, inp) ← Left.whileR (fun (self, inp) => self) cfg.usizeMod
    (fun (self, inp) => pure (!inp.isEmpty))
    (fun (self, inp) => do
      let buf_idx : Nat := self.length % Engine.BLOCK_SIZE
      let rem_len ← Left.keep self (subUsize cfg Engine.BLOCK_SIZE buf_idx)
      let write_len : Nat := min rem_len inp.length
      let x_2 ← Left.keep self (addUsize cfg buf_idx write_len)
      Left.keep self (Rs.checkRange self.buffer buf_idx x_2)
      let x_3 ← Left.keep self (sliceTo inp write_len)
      let x_4 ← Left.keep self (copyIntoRange self.buffer buf_idx x_2 x_3)
      let self := { self with buffer := x_4 }
      let x_5 ← Left.keep self (addUsize cfg self.length write_len)
      let self := { self with length := x_5 }
      let self ←
        if (self.length % Engine.BLOCK_SIZE) == 0 then do
          let self ← Engine.process_block_left cfg self
          pure self
        else do
          pure self
      let inp ← Left.keep self (sliceFrom inp write_len)
      pure (self, inp)) (self, inp)
  pure self

end Chf.Source.Sha512
