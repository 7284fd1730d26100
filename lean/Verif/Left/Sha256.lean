/- Generated from the translation of /repo/src by tools/rust2lean.py; do not edit. -/
import Verif.Left.Prelude
import Verif.Source.Sha256

namespace Chf.Source.Sha256
open Chf
set_option linter.unusedVariables false

/-- `Engine::process_block_simd_x86_intrinsics`, sha256.rs 463-718. -/
def Engine.process_block_simd_x86_intrinsics_left (cfg : Cfg) (self : Engine) : Left Engine Engine := do
  let MASK := Sha256.Simd.mm_set_epi64x 0x0c0d0e0f08090a0b#64 0x0405060700010203#64
  let block_offset : Nat := 0
  let tmp ← Left.keep self (Rs.loadu32 self.h 0)
  let state1 ← Left.keep self (Rs.loadu32 self.h 4)
  let tmp := Sha256.Simd.mm_shuffle_epi32 tmp 0xB1
  let state1 := Sha256.Simd.mm_shuffle_epi32 state1 0x1B
  let state0 : BitVec 128 := Sha256.Simd.mm_alignr_epi8 tmp state1 8
  let state1 := Sha256.Simd.mm_blend_epi16 state1 tmp 0xF0
  let msg : BitVec 128 := Rs.uninit
  let msg0 : BitVec 128 := Rs.uninit
  let msg1 : BitVec 128 := Rs.uninit
  let msg2 : BitVec 128 := Rs.uninit
  let msg3 : BitVec 128 := Rs.uninit
  let abef_save : BitVec 128 := Rs.uninit
  let cdgh_save : BitVec 128 := Rs.uninit
  let (state0, state1, msg, tmp, msg0, msg1, msg2, msg3, abef_save, cdgh_save) ← Left.keep self (Rs.runLines (Engine.process_block_simd_x86_intrinsics.lines1 cfg self MASK block_offset) (state0, state1, msg, tmp, msg0, msg1, msg2, msg3, abef_save, cdgh_save))
  let tmp := Sha256.Simd.mm_shuffle_epi32 state0 0x1B
  let state1 := Sha256.Simd.mm_shuffle_epi32 state1 0xB1
  let state0 := Sha256.Simd.mm_blend_epi16 tmp state1 0xF0
  let state1 := Sha256.Simd.mm_alignr_epi8 state1 tmp 8
  let x_10 ← Left.keep self (Rs.storeu32 self.h 0 state0)
  let self := { self with h := x_10 }
  let x_11 ← Left.keep self (Rs.storeu32 self.h 4 state1)
  let self := { self with h := x_11 }
  pure self

/-- `Engine::software_process_block`, sha256.rs 721-814, without feature `small-hash`. -/
def Engine.software_process_block_fast_left (cfg : Cfg) (self : Engine) : Left Engine Engine := do
  Left.keep self (debugAssert cfg (self.buffer.length == Sha256.BLOCK_SIZE))
  let w : List (BitVec 32) := List.replicate 16 0#32
  let w ← Left.keep self (Rs.zipMut w (chunksExact 4 self.buffer) fun w_val buff_bytes => do
    let x_1 ← Rs.tryInto 4 buff_bytes
    let w_val := Rs.fromBeBytes 32 x_1
    pure w_val)
  let a ← Left.keep self (index self.h 0)
  let b ← Left.keep self (index self.h 1)
  let c ← Left.keep self (index self.h 2)
  let d ← Left.keep self (index self.h 3)
  let e ← Left.keep self (index self.h 4)
  let f ← Left.keep self (index self.h 5)
  let g ← Left.keep self (index self.h 6)
  let h ← Left.keep self (index self.h 7)
  let (w, a, b, c, d, e, f, g, h) ← Left.keep self (Rs.runLines (Engine.software_process_block_fast.lines1 cfg) (w, a, b, c, d, e, f, g, h))
  let x_314 ← Left.keep self (index self.h 0)
  let x_315 ← Left.keep self (indexSet self.h 0 (x_314 + a))
  let self := { self with h := x_315 }
  let x_316 ← Left.keep self (index self.h 1)
  let x_317 ← Left.keep self (indexSet self.h 1 (x_316 + b))
  let self := { self with h := x_317 }
  let x_318 ← Left.keep self (index self.h 2)
  let x_319 ← Left.keep self (indexSet self.h 2 (x_318 + c))
  let self := { self with h := x_319 }
  let x_320 ← Left.keep self (index self.h 3)
  let x_321 ← Left.keep self (indexSet self.h 3 (x_320 + d))
  let self := { self with h := x_321 }
  let x_322 ← Left.keep self (index self.h 4)
  let x_323 ← Left.keep self (indexSet self.h 4 (x_322 + e))
  let self := { self with h := x_323 }
  let x_324 ← Left.keep self (index self.h 5)
  let x_325 ← Left.keep self (indexSet self.h 5 (x_324 + f))
  let self := { self with h := x_325 }
  let x_326 ← Left.keep self (index self.h 6)
  let x_327 ← Left.keep self (indexSet self.h 6 (x_326 + g))
  let self := { self with h := x_327 }
  let x_328 ← Left.keep self (index self.h 7)
  let x_329 ← Left.keep self (indexSet self.h 7 (x_328 + h))
  let self := { self with h := x_329 }
  pure self

/-- `Engine::software_process_block`, sha256.rs 721-814, with feature `small-hash`. -/
def Engine.software_process_block_small_left (cfg : Cfg) (self : Engine) : Left Engine Engine := do
  Left.keep self (debugAssert cfg (self.buffer.length == Sha256.BLOCK_SIZE))
  let w : List (BitVec 32) := List.replicate 16 0#32
  let w ← Left.keep self (Rs.zipMut w (chunksExact 4 self.buffer) fun w_val buff_bytes => do
    let x_1 ← Rs.tryInto 4 buff_bytes
    let w_val := Rs.fromBeBytes 32 x_1
    pure w_val)
  let a ← Left.keep self (index self.h 0)
  let b ← Left.keep self (index self.h 1)
  let c ← Left.keep self (index self.h 2)
  let d ← Left.keep self (index self.h 3)
  let e ← Left.keep self (index self.h 4)
  let f ← Left.keep self (index self.h 5)
  let g ← Left.keep self (index self.h 6)
  let h ← Left.keep self (index self.h 7)
  let (w, a, b, c, d, e, f, g, h) ← Left.keep self (Rs.runLines (Engine.software_process_block_small.lines1 cfg) (w, a, b, c, d, e, f, g, h))
  let x_266 ← Left.keep self (index self.h 0)
  let x_267 ← Left.keep self (indexSet self.h 0 (x_266 + a))
  let self := { self with h := x_267 }
  let x_268 ← Left.keep self (index self.h 1)
  let x_269 ← Left.keep self (indexSet self.h 1 (x_268 + b))
  let self := { self with h := x_269 }
  let x_270 ← Left.keep self (index self.h 2)
  let x_271 ← Left.keep self (indexSet self.h 2 (x_270 + c))
  let self := { self with h := x_271 }
  let x_272 ← Left.keep self (index self.h 3)
  let x_273 ← Left.keep self (indexSet self.h 3 (x_272 + d))
  let self := { self with h := x_273 }
  let x_274 ← Left.keep self (index self.h 4)
  let x_275 ← Left.keep self (indexSet self.h 4 (x_274 + e))
  let self := { self with h := x_275 }
  let x_276 ← Left.keep self (index self.h 5)
  let x_277 ← Left.keep self (indexSet self.h 5 (x_276 + f))
  let self := { self with h := x_277 }
  let x_278 ← Left.keep self (index self.h 6)
  let x_279 ← Left.keep self (indexSet self.h 6 (x_278 + g))
  let self := { self with h := x_279 }
  let x_280 ← Left.keep self (index self.h 7)
  let x_281 ← Left.keep self (indexSet self.h 7 (x_280 + h))
  let self := { self with h := x_281 }
  pure self

/-- `Engine::software_process_block`, sha256.rs 721-814. -/
def Engine.software_process_block_left (cfg : Cfg) (self : Engine) : Left Engine Engine :=
  if cfg.smallHash then Engine.software_process_block_small_left cfg self else Engine.software_process_block_fast_left cfg self

/-- `Engine::process_block`, sha256.rs 445-459. -/
def Engine.process_block_left (cfg : Cfg) (self : Engine) : Left Engine Engine := do
  let x_2 ←
    if ((cfg.shaNi && cfg.shaNi) && cfg.shaNi) && cfg.shaNi then do
      let self ← Engine.process_block_simd_x86_intrinsics_left cfg self
      pure (Rs.Flow.ret self)
    else do
      pure (Rs.Flow.next self)
  match x_2 with
  | Rs.Flow.ret r => pure r
  | Rs.Flow.next self => do
    let self ← Engine.software_process_block_left cfg self
    pure self

/-- `Engine::input`, internal_macros.rs 22-36. -/
def Engine.input_left (cfg : Cfg) (self : Engine) (inp : List Byte) : Left Engine Engine := do
  let (self, inp) ← Left.whileR (fun (self, inp) => self) cfg.usizeMod
    (fun (self, inp) => pure (!inp.isEmpty))
    (fun (self, inp) => do
      let buf_idx : Nat := self.length % Engine.BLOCK_SIZE
      let rem_len ← Left.keep self (subUsize cfg Engine.BLOCK_SIZE buf_idx)
      let write_len : Nat := min rem_len inp.length
      let x_2 ← Left.keep self (addUsize cfg buf_idx write_len)
      Left.keep self (Rs.checkRange self.buffer buf_idx x_2)
      let x_3 ← Left.keep self (sliceTo inp write_len)
      let x_4 ← Left.keep self (copyIntoRange self.buffer buf_idx x_2 x_3)
      let self := { self with buffer := x_4 }
      let x_5 ← Left.keep self (addUsize cfg self.length write_len)
      let self := { self with length := x_5 }
      let self ←
        if (self.length % Engine.BLOCK_SIZE) == 0 then do
          let self ← Engine.process_block_left cfg self
          pure self
        else do
          pure self
      let inp ← Left.keep self (sliceFrom inp write_len)
      pure (self, inp)) (self, inp)
  pure self

end Chf.Source.Sha256
