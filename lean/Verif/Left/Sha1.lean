/- Generated from the translation of /repo/src by tools/rust2lean.py; do not edit. -/
import Verif.Left.Prelude
import Verif.Source.Sha1

namespace Chf.Source.Sha1
open Chf
set_option linter.unusedVariables false

/-- `Engine::process_block`, sha1.rs 96-136. -/
def Engine.process_block_left (cfg : Cfg) (self : Engine) : Left Engine Engine := do
  Left.keep self (debugAssert cfg (self.buffer.length == Sha1.BLOCK_SIZE))
  let w : List (BitVec 32) := List.replicate 80 0#32
  let w ← Left.keep self (Rs.zipMut w (chunksExact 4 self.buffer) fun w_val buff_bytes => do
    let x_1 ← Rs.tryInto 4 buff_bytes
    let w_val := Rs.fromBeBytes 32 x_1
    pure w_val)
  let w ← Left.keep self ((Rs.range 16 80).foldlM (init := w) fun w i => do
    let x_2 ← subUsize cfg i 3
    let x_3 ← index w x_2
    let x_4 ← subUsize cfg i 8
    let x_5 ← index w x_4
    let x_6 ← subUsize cfg i 14
    let x_7 ← index w x_6
    let x_8 ← subUsize cfg i 16
    let x_9 ← index w x_8
    let w ← indexSet w i ((((x_3 ^^^ x_5) ^^^ x_7) ^^^ x_9).rotateLeft 1)
    pure w)
  let a ← Left.keep self (index self.h 0)
  let b ← Left.keep self (index self.h 1)
  let c ← Left.keep self (index self.h 2)
  let d ← Left.keep self (index self.h 3)
  let e ← Left.keep self (index self.h 4)
  let (a, b, c, d, e) ← Left.keep self ((Rs.enumerate w).foldlM (init := (a, b, c, d, e)) fun (a, b, c, d, e) (i, wi) => do
    let x_16 ←
      if decide (0 ≤ i) && decide (i ≤ 19) then do
        pure ((b &&& c) ||| ((~~~b) &&& d), 0x5a827999#32)
      else if decide (20 ≤ i) && decide (i ≤ 39) then do
        pure ((b ^^^ c) ^^^ d, 0x6ed9eba1#32)
      else if decide (40 ≤ i) && decide (i ≤ 59) then do
        pure (((b &&& c) ||| (b &&& d)) ||| (c &&& d), 0x8f1bbcdc#32)
      else if decide (60 ≤ i) && decide (i ≤ 79) then do
        pure ((b ^^^ c) ^^^ d, 0xca62c1d6#32)
      else do
        Except.error Fault.unreachable
    let (f, k) := x_16
    let new_a : BitVec 32 := ((((a.rotateLeft 5) + f) + e) + k) + wi
    let e := d
    let d := c
    let c := b.rotateLeft 30
    let b := a
    let a := new_a
    pure (a, b, c, d, e))
  let x_17 ← Left.keep self (index self.h 0)
  let x_18 ← Left.keep self (indexSet self.h 0 (x_17 + a))
  let self := { self with h := x_18 }
  let x_19 ← Left.keep self (index self.h 1)
  let x_20 ← Left.keep self (indexSet self.h 1 (x_19 + b))
  let self := { self with h := x_20 }
  let x_21 ← Left.keep self (index self.h 2)
  let x_22 ← Left.keep self (indexSet self.h 2 (x_21 + c))
  let self := { self with h := x_22 }
  let x_23 ← Left.keep self (index self.h 3)
  let x_24 ← Left.keep self (indexSet self.h 3 (x_23 + d))
  let self := { self with h := x_24 }
  let x_25 ← Left.keep self (index self.h 4)
  let x_26 ← Left.keep self (indexSet self.h 4 (x_25 + e))
  let self := { self with h := x_26 }
  pure self

/-- `Engine::input`, internal_macros.rs 22-36. -/
def Engine.input_left (cfg : Cfg) (self : Engine) (inp : List Byte) : Left Engine Engine := do
  let (self, inp) ← Left.whileR (fun (self, inp) => self) cfg.usizeMod
    (fun (self, inp) => pure (!inp.isEmpty))
    (fun (self, inp) => do
      let buf_idx : Nat := self.length % Engine.BLOCK_SIZE
      let rem_len ← Left.keep self (subUsize cfg Engine.BLOCK_SIZE buf_idx)
      let write_len : Nat := min rem_len inp.length
      let x_2 ← Left.keep self (addUsize cfg buf_idx write_len)
      Left.keep self (Rs.checkRange self.buffer buf_idx x_2)
      let x_3 ← Left.keep self (sliceTo inp write_len)
      let x_4 ← Left.keep self (copyIntoRange self.buffer buf_idx x_2 x_3)
      let self := { self with buffer := x_4 }
      let x_5 ← Left.keep self (addUsize cfg self.length write_len)
      let self := { self with length := x_5 }
      let self ←
        if (self.length % Engine.BLOCK_SIZE) == 0 then do
          let self ← Engine.process_block_left cfg self
          pure self
        else do
          pure self
      let inp ← Left.keep self (sliceFrom inp write_len)
      pure (self, inp)) (self, inp)
  pure self

end Chf.Source.Sha1
