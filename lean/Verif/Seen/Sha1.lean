/- Generated from the translation of /repo/src by tools/rust2lean.py; do not edit. -/
import Verif.Seen.Prelude
import Verif.Source.Sha1

namespace Chf.Seen.Sha1
open Chf
set_option linter.unusedVariables false

/-- `Engine::process_block`, sha1.rs 96-136. -/
def Engine.process_block (cfg : Cfg) (self : Source.Sha1.Engine) : Tr Source.Sha1.Engine := do
  Tr.debugAssert cfg (self.buffer.length == Source.Sha1.BLOCK_SIZE)
  let w : List (BitVec 32) := List.replicate 80 0#32
  let w ← Tr.zipMut w (chunksExact 4 self.buffer) fun w_val buff_bytes => do
    let x_1 ← Tr.tryInto 4 buff_bytes
    let w_val := Rs.fromBeBytes 32 x_1
    pure w_val
  let w ← Tr.each (Rs.range 16 80) (init := w) fun w i => do
    let x_2 ← Tr.subUsize cfg i 3
    let x_3 ← Tr.index w x_2
    let x_4 ← Tr.subUsize cfg i 8
    let x_5 ← Tr.index w x_4
    let x_6 ← Tr.subUsize cfg i 14
    let x_7 ← Tr.index w x_6
    let x_8 ← Tr.subUsize cfg i 16
    let x_9 ← Tr.index w x_8
    let w ← Tr.indexSet w i ((((x_3 ^^^ x_5) ^^^ x_7) ^^^ x_9).rotateLeft 1)
    pure w
  let a ← Tr.index self.h 0
  let b ← Tr.index self.h 1
  let c ← Tr.index self.h 2
  let d ← Tr.index self.h 3
  let e ← Tr.index self.h 4
  let (a, b, c, d, e) ← Tr.each (Rs.enumerate w) (init := (a, b, c, d, e)) fun (a, b, c, d, e) (i, wi) => do
    let x_16 ←
      Tr.all [decide (0 ≤ i), decide (i ≤ 19)] >>= fun b_1 => if b_1 then do
        pure ((b &&& c) ||| ((~~~b) &&& d), 0x5a827999#32)
      else Tr.all [decide (20 ≤ i), decide (i ≤ 39)] >>= fun b_2 => if b_2 then do
        pure ((b ^^^ c) ^^^ d, 0x6ed9eba1#32)
      else Tr.all [decide (40 ≤ i), decide (i ≤ 59)] >>= fun b_3 => if b_3 then do
        pure (((b &&& c) ||| (b &&& d)) ||| (c &&& d), 0x8f1bbcdc#32)
      else Tr.all [decide (60 ≤ i), decide (i ≤ 79)] >>= fun b_4 => if b_4 then do
        pure ((b ^^^ c) ^^^ d, 0xca62c1d6#32)
      else do
        Tr.fail Fault.unreachable
    let (f, k) := x_16
    let new_a : BitVec 32 := ((((a.rotateLeft 5) + f) + e) + k) + wi
    let e := d
    let d := c
    let c := b.rotateLeft 30
    let b := a
    let a := new_a
    pure (a, b, c, d, e)
  let x_17 ← Tr.index self.h 0
  let x_18 ← Tr.indexSet self.h 0 (x_17 + a)
  let self := { self with h := x_18 }
  let x_19 ← Tr.index self.h 1
  let x_20 ← Tr.indexSet self.h 1 (x_19 + b)
  let self := { self with h := x_20 }
  let x_21 ← Tr.index self.h 2
  let x_22 ← Tr.indexSet self.h 2 (x_21 + c)
  let self := { self with h := x_22 }
  let x_23 ← Tr.index self.h 3
  let x_24 ← Tr.indexSet self.h 3 (x_23 + d)
  let self := { self with h := x_24 }
  let x_25 ← Tr.index self.h 4
  let x_26 ← Tr.indexSet self.h 4 (x_25 + e)
  let self := { self with h := x_26 }
  pure self

/-- `Engine::input`, internal_macros.rs 22-36. -/
def Engine.input (cfg : Cfg) (self : Source.Sha1.Engine) (inp : List Byte) : Tr Source.Sha1.Engine := do
  let (self, inp) ← Tr.whileR cfg.usizeMod
    (fun (self, inp) => pure (!inp.isEmpty))
    (fun (self, inp) => do
      let buf_idx : Nat := self.length % Source.Sha1.Engine.BLOCK_SIZE
      let rem_len ← Tr.subUsize cfg Source.Sha1.Engine.BLOCK_SIZE buf_idx
      let write_len : Nat := min rem_len inp.length
      let x_2 ← Tr.addUsize cfg buf_idx write_len
      Tr.checkRange self.buffer buf_idx x_2
      let x_3 ← Tr.sliceTo inp write_len
      let x_4 ← Tr.copyIntoRange self.buffer buf_idx x_2 x_3
      let self := { self with buffer := x_4 }
      let x_5 ← Tr.addUsize cfg self.length write_len
      let self := { self with length := x_5 }
      let self ←
        Tr.test ((self.length % Source.Sha1.Engine.BLOCK_SIZE) == 0) >>= fun b_1 => if b_1 then do
          let self ← Seen.Sha1.Engine.process_block cfg self
          pure self
        else do
          pure self
      let inp ← Tr.sliceFrom inp write_len
      pure (self, inp)) (self, inp)
  pure self

/-- `Engine::midstate`, sha1.rs 66-72. -/
def Engine.midstate (cfg : Cfg) (self : Source.Sha1.Engine) : Tr (List Byte) := do
  let ret : List Byte := List.replicate 20 0#8
  let ret ← Tr.zipChunksMut 4 self.h ret fun val ret_bytes => do
    let ret_bytes ← Tr.copyFromSlice ret_bytes (Rs.toBeBytes val)
    pure ret_bytes
  pure ret

/-- `Engine::finalize`, sha1.rs 45-62. -/
def Engine.finalize (cfg : Cfg) (self : Source.Sha1.Engine) : Tr (List Byte) := do
  let data_len : BitVec 64 := BitVec.ofNat 64 self.length
  let zeroes : List Byte := List.replicate 56 0#8
  let self ← Seen.Sha1.Engine.input cfg self [0x80#8]
  let self ←
    Tr.test (decide ((self.length % Source.Sha1.BLOCK_SIZE) > zeroes.length)) >>= fun b_1 => if b_1 then do
      let self ← Seen.Sha1.Engine.input cfg self zeroes
      pure self
    else do
      pure self
  let pad_length ← Tr.subUsize cfg zeroes.length (self.length % Source.Sha1.BLOCK_SIZE)
  let x_4 ← Tr.sliceTo zeroes pad_length
  let self ← Seen.Sha1.Engine.input cfg self x_4
  Tr.debugAssert cfg ((self.length % Source.Sha1.BLOCK_SIZE) == zeroes.length)
  let x_6 ← Tr.mulU cfg 8#64 data_len
  let self ← Seen.Sha1.Engine.input cfg self (Rs.toBeBytes x_6)
  Tr.debugAssert cfg ((self.length % Source.Sha1.BLOCK_SIZE) == 0)
  let x_8 ← Seen.Sha1.Engine.midstate cfg self
  pure x_8

/-- `Hash::hash`, internal_macros.rs 158-162. -/
def Hash.hash (cfg : Cfg) (bytes : List Byte) : Tr Source.Sha1.Hash := do
  let engine := Source.Sha1.Hash.engine cfg
  let engine ← Seen.Sha1.Engine.input cfg engine bytes
  let x_2 ← Seen.Sha1.Engine.finalize cfg engine
  pure ({ f0 := x_2 } : Source.Sha1.Hash)

/-- `Engine::from_midstate`, sha1.rs 82-91. -/
def Engine.from_midstate (cfg : Cfg) (midstate : List Byte) (length : Nat) : Tr Source.Sha1.Engine := do
  Tr.assertR ((length % Source.Sha1.BLOCK_SIZE) == 0)
  let ret : List (BitVec 32) := List.replicate 5 0#32
  let ret ← Tr.zipMut ret (chunksExact 4 midstate) fun ret_val midstate_bytes => do
    let x_1 ← Tr.tryInto 4 midstate_bytes
    let ret_val := Rs.fromBeBytes 32 x_1
    pure ret_val
  pure ({ buffer := List.replicate 64 0#8, h := ret, length := length } : Source.Sha1.Engine)

/-- `impl HashEngine for Engine`, sha1.rs 34. -/
def engine (cfg : Cfg) : Tr.HashEngine (Source.Sha1.engine cfg) where
  default := pure (Source.Sha1.Engine.default cfg)
  new := pure (Source.Sha1.Engine.default cfg)
  input self data := Seen.Sha1.Engine.input cfg self data
  finalize self := Seen.Sha1.Engine.finalize cfg self
  midstate self := Seen.Sha1.Engine.midstate cfg self
  fromMidstate midstate length := Seen.Sha1.Engine.from_midstate cfg midstate length

end Chf.Seen.Sha1
