/- Generated from the translation of /repo/src by tools/rust2lean.py; do not edit. -/
import Verif.Left.Prelude
import Verif.Source.Siphash24

namespace Chf.Source.Siphash24
open Chf
set_option linter.unusedVariables false

/-- `Engine::input`, siphash24.rs 133-171. -/
def Engine.input_left (cfg : Cfg) (self : Engine) (data : List Byte) : Left Engine Engine := do
  let length : Nat := data.length
  let x_1 ← Left.keep self (addUsize cfg self.length length)
  let self := { self with length := x_1 }
  let needed : Nat := 0
  let x_9 ←
    if self.ntail != 0 then do
      let needed ← Left.keep self (subUsize cfg 8 self.ntail)
      let x_3 ← Left.keep self (u8to64_le cfg data 0 (min length needed))
      let x_4 ← Left.keep self (mulUsize cfg 8 self.ntail)
      let x_5 ← Left.keep self (Rs.shlU cfg x_3 x_4)
      let self := { self with tail := self.tail ||| x_5 }
      let x_8 ←
        if decide (length < needed) then do
          let x_6 ← Left.keep self (addUsize cfg self.ntail length)
          let self := { self with ntail := x_6 }
          pure (Rs.Flow.ret self)
        else do
          let self := { self with state := { self.state with v3 := self.state.v3 ^^^ self.tail } }
          let x_7 := Engine.c_rounds cfg self.state
          let self := { self with state := x_7 }
          let self := { self with state := { self.state with v0 := self.state.v0 ^^^ self.tail } }
          let self := { self with ntail := 0 }
          pure (Rs.Flow.next self)
      match x_8 with
      | Rs.Flow.ret r => pure (Rs.Flow.ret r)
      | Rs.Flow.next self => do
        pure (Rs.Flow.next (self, needed))
    else do
      pure (Rs.Flow.next (self, needed))
  match x_9 with
  | Rs.Flow.ret r => pure r
  | Rs.Flow.next (self, needed) => do
    let len ← Left.keep self (subUsize cfg length needed)
    let left : Nat := len &&& 0x7
    let i : Nat := needed
    let (self, i) ← Left.whileR (fun (self, i) => self) cfg.usizeMod
      (fun (self, i) => do
        let x_11 ← Left.keep self (subUsize cfg len left)
        pure (decide (i < x_11)))
      (fun (self, i) => do
        let _ ← Left.keep self (
          if cfg.debugAssertions then do
            let x_12 ← addUsize cfg i 8
            debugAssert cfg (decide (x_12 ≤ data.length))
          else pure ())
        let data' : BitVec 64 := 0#64
        let data' ← Left.keep self (Rs.copyNonoverlapping cfg data i data' 8)
        let mi : BitVec 64 := Rs.toLe cfg data'
        let self := { self with state := { self.state with v3 := self.state.v3 ^^^ mi } }
        let x_14 := Engine.c_rounds cfg self.state
        let self := { self with state := x_14 }
        let self := { self with state := { self.state with v0 := self.state.v0 ^^^ mi } }
        let i ← Left.keep self (addUsize cfg i 8)
        pure (self, i)) (self, i)
    let x_16 ← Left.keep self (u8to64_le cfg data i left)
    let self := { self with tail := x_16 }
    let self := { self with ntail := left }
    pure self

end Chf.Source.Siphash24
