/- Generated from the translation of /repo/src by tools/rust2lean.py; do not edit. -/
import Verif.Left.Prelude
import Verif.Source.Ripemd160

namespace Chf.Source.Ripemd160
open Chf
set_option linter.unusedVariables false

/-- `Engine::process_block`, ripemd160.rs 228-417, without feature `small-hash`. -/
def Engine.process_block_fast_left (cfg : Cfg) (self : Engine) : Left Engine Engine := do
  Left.keep self (debugAssert cfg (self.buffer.length == Ripemd160.BLOCK_SIZE))
  let w : List (BitVec 32) := List.replicate 16 0#32
  let w ← Left.keep self (Rs.zipMut w (chunksExact 4 self.buffer) fun w_val buff_bytes => do
    let x_1 ← Rs.tryInto 4 buff_bytes
    let w_val := Rs.fromLeBytes 32 x_1
    pure w_val)
  let bb' : List (BitVec 32) := self.h
  let bbb' : List (BitVec 32) := self.h
  let (bb', bbb') ← Left.keep self (Rs.runLines (Engine.process_block_fast.lines1 cfg w) (bb', bbb'))
  let x_1826 ← Left.keep self (index bbb' 3)
  let x_1827 ← Left.keep self (index self.h 1)
  let x_1828 ← Left.keep self (index bb' 2)
  let bbb' ← Left.keep self (indexSet bbb' 3 ((x_1826 + x_1827) + x_1828))
  let x_1830 ← Left.keep self (index self.h 2)
  let x_1831 ← Left.keep self (index bb' 3)
  let x_1832 ← Left.keep self (index bbb' 4)
  let x_1833 ← Left.keep self (indexSet self.h 1 ((x_1830 + x_1831) + x_1832))
  let self := { self with h := x_1833 }
  let x_1834 ← Left.keep self (index self.h 3)
  let x_1835 ← Left.keep self (index bb' 4)
  let x_1836 ← Left.keep self (index bbb' 0)
  let x_1837 ← Left.keep self (indexSet self.h 2 ((x_1834 + x_1835) + x_1836))
  let self := { self with h := x_1837 }
  let x_1838 ← Left.keep self (index self.h 4)
  let x_1839 ← Left.keep self (index bb' 0)
  let x_1840 ← Left.keep self (index bbb' 1)
  let x_1841 ← Left.keep self (indexSet self.h 3 ((x_1838 + x_1839) + x_1840))
  let self := { self with h := x_1841 }
  let x_1842 ← Left.keep self (index self.h 0)
  let x_1843 ← Left.keep self (index bb' 1)
  let x_1844 ← Left.keep self (index bbb' 2)
  let x_1845 ← Left.keep self (indexSet self.h 4 ((x_1842 + x_1843) + x_1844))
  let self := { self with h := x_1845 }
  let x_1846 ← Left.keep self (index bbb' 3)
  let x_1847 ← Left.keep self (indexSet self.h 0 x_1846)
  let self := { self with h := x_1847 }
  pure self

/-- `Engine::process_block`, ripemd160.rs 228-417, with feature `small-hash`. -/
def Engine.process_block_small_left (cfg : Cfg) (self : Engine) : Left Engine Engine := do
  Left.keep self (debugAssert cfg (self.buffer.length == Ripemd160.BLOCK_SIZE))
  let w : List (BitVec 32) := List.replicate 16 0#32
  let w ← Left.keep self (Rs.zipMut w (chunksExact 4 self.buffer) fun w_val buff_bytes => do
    let x_1 ← Rs.tryInto 4 buff_bytes
    let w_val := Rs.fromLeBytes 32 x_1
    pure w_val)
  let bb' : List (BitVec 32) := self.h
  let bbb' : List (BitVec 32) := self.h
  let (bb', bbb') ← Left.keep self (Rs.runLines (Engine.process_block_small.lines1 cfg w) (bb', bbb'))
  let x_1826 ← Left.keep self (index bbb' 3)
  let x_1827 ← Left.keep self (index self.h 1)
  let x_1828 ← Left.keep self (index bb' 2)
  let bbb' ← Left.keep self (indexSet bbb' 3 ((x_1826 + x_1827) + x_1828))
  let x_1830 ← Left.keep self (index self.h 2)
  let x_1831 ← Left.keep self (index bb' 3)
  let x_1832 ← Left.keep self (index bbb' 4)
  let x_1833 ← Left.keep self (indexSet self.h 1 ((x_1830 + x_1831) + x_1832))
  let self := { self with h := x_1833 }
  let x_1834 ← Left.keep self (index self.h 3)
  let x_1835 ← Left.keep self (index bb' 4)
  let x_1836 ← Left.keep self (index bbb' 0)
  let x_1837 ← Left.keep self (indexSet self.h 2 ((x_1834 + x_1835) + x_1836))
  let self := { self with h := x_1837 }
  let x_1838 ← Left.keep self (index self.h 4)
  let x_1839 ← Left.keep self (index bb' 0)
  let x_1840 ← Left.keep self (index bbb' 1)
  let x_1841 ← Left.keep self (indexSet self.h 3 ((x_1838 + x_1839) + x_1840))
  let self := { self with h := x_1841 }
  let x_1842 ← Left.keep self (index self.h 0)
  let x_1843 ← Left.keep self (index bb' 1)
  let x_1844 ← Left.keep self (index bbb' 2)
  let x_1845 ← Left.keep self (indexSet self.h 4 ((x_1842 + x_1843) + x_1844))
  let self := { self with h := x_1845 }
  let x_1846 ← Left.keep self (index bbb' 3)
  let x_1847 ← Left.keep self (indexSet self.h 0 x_1846)
  let self := { self with h := x_1847 }
  pure self

/-- `Engine::process_block`, ripemd160.rs 228-417. -/
def Engine.process_block_left (cfg : Cfg) (self : Engine) : Left Engine Engine :=
  if cfg.smallHash then Engine.process_block_small_left cfg self else Engine.process_block_fast_left cfg self

/-- `Engine::input`, internal_macros.rs 22-36. -/
def Engine.input_left (cfg : Cfg) (self : Engine) (inp : List Byte) : Left Engine Engine := do
  let (self, inp) ← Left.whileR (fun (self, inp) => self) cfg.usizeMod
    (fun (self, inp) => pure (!inp.isEmpty))
    (fun (self, inp) => do
      let buf_idx : Nat := self.length % Engine.BLOCK_SIZE
      let rem_len ← Left.keep self (subUsize cfg Engine.BLOCK_SIZE buf_idx)
      let write_len : Nat := min rem_len inp.length
      let x_2 ← Left.keep self (addUsize cfg buf_idx write_len)
      Left.keep self (Rs.checkRange self.buffer buf_idx x_2)
      let x_3 ← Left.keep self (sliceTo inp write_len)
      let x_4 ← Left.keep self (copyIntoRange self.buffer buf_idx x_2 x_3)
      let self := { self with buffer := x_4 }
      let x_5 ← Left.keep self (addUsize cfg self.length write_len)
      let self := { self with length := x_5 }
      let self ←
        if (self.length % Engine.BLOCK_SIZE) == 0 then do
          let self ← Engine.process_block_left cfg self
          pure self
        else do
          pure self
      let inp ← Left.keep self (sliceFrom inp write_len)
      pure (self, inp)) (self, inp)
  pure self

end Chf.Source.Ripemd160
