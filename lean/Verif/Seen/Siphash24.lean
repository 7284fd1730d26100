/- Generated from the translation of /repo/src by tools/rust2lean.py; do not edit. -/
import Verif.Seen.Prelude
import Verif.Source.Siphash24

namespace Chf.Seen.Siphash24
open Chf
set_option linter.unusedVariables false

/-- `u8to64_le`, siphash24.rs 250-268. -/
def u8to64_le (cfg : Cfg) (buf : List Byte) (start : Nat) (len : Nat) : Tr (BitVec 64) := do
  Tr.debugAssert cfg (decide (len < 8))
  let i : Nat := 0
  let out : BitVec 64 := 0#64
  let x_1 ← Tr.addUsize cfg i 3
  let (i, out) ←
    Tr.test (decide (x_1 < len)) >>= fun b_1 => if b_1 then do
      let _ ←
        if cfg.debugAssertions then do
          let x_2 ← Tr.addUsize cfg start i
          let x_3 ← Tr.addUsize cfg x_2 4
          Tr.debugAssert cfg (decide (x_3 ≤ buf.length))
        else pure ()
      let data' : BitVec 32 := 0#32
      let x_4 ← Tr.addUsize cfg start i
      let data' ← Tr.copyNonoverlapping cfg buf x_4 data' 4
      let out := BitVec.setWidth 64 (Rs.toLe cfg data')
      let i ← Tr.addUsize cfg i 4
      pure (i, out)
    else do
      pure (i, out)
  let x_7 ← Tr.addUsize cfg i 1
  let (i, out) ←
    Tr.test (decide (x_7 < len)) >>= fun b_2 => if b_2 then do
      let _ ←
        if cfg.debugAssertions then do
          let x_8 ← Tr.addUsize cfg start i
          let x_9 ← Tr.addUsize cfg x_8 2
          Tr.debugAssert cfg (decide (x_9 ≤ buf.length))
        else pure ()
      let data' : BitVec 16 := 0#16
      let x_10 ← Tr.addUsize cfg start i
      let data' ← Tr.copyNonoverlapping cfg buf x_10 data' 2
      let x_12 ← Tr.mulUsize cfg i 8
      let x_13 ← Tr.shlU cfg (BitVec.setWidth 64 (Rs.toLe cfg data')) x_12
      let out := out ||| x_13
      let i ← Tr.addUsize cfg i 2
      pure (i, out)
    else do
      pure (i, out)
  let (i, out) ←
    Tr.test (decide (i < len)) >>= fun b_3 => if b_3 then do
      let x_15 ← Tr.addUsize cfg start i
      let x_16 ← Tr.getUnchecked buf x_15
      let x_17 ← Tr.mulUsize cfg i 8
      let x_18 ← Tr.shlU cfg (BitVec.setWidth 64 x_16) x_17
      let out := out ||| x_18
      let i ← Tr.addUsize cfg i 1
      pure (i, out)
    else do
      pure (i, out)
  Tr.debugAssert cfg (i == len)
  pure out

/-- `Engine::input`, siphash24.rs 133-171. -/
def Engine.input (cfg : Cfg) (self : Source.Siphash24.Engine) (data : List Byte) : Tr Source.Siphash24.Engine := do
  let length : Nat := data.length
  let x_1 ← Tr.addUsize cfg self.length length
  let self := { self with length := x_1 }
  let needed : Nat := 0
  let x_9 ←
    Tr.test (self.ntail != 0) >>= fun b_1 => if b_1 then do
      let needed ← Tr.subUsize cfg 8 self.ntail
      let x_3 ← Seen.Siphash24.u8to64_le cfg data 0 (min length needed)
      let x_4 ← Tr.mulUsize cfg 8 self.ntail
      let x_5 ← Tr.shlU cfg x_3 x_4
      let self := { self with tail := self.tail ||| x_5 }
      let x_8 ←
        Tr.test (decide (length < needed)) >>= fun b_2 => if b_2 then do
          let x_6 ← Tr.addUsize cfg self.ntail length
          let self := { self with ntail := x_6 }
          pure (Rs.Flow.ret self)
        else do
          let self := { self with state := { self.state with v3 := self.state.v3 ^^^ self.tail } }
          let x_7 := Source.Siphash24.Engine.c_rounds cfg self.state
          let self := { self with state := x_7 }
          let self := { self with state := { self.state with v0 := self.state.v0 ^^^ self.tail } }
          let self := { self with ntail := 0 }
          pure (Rs.Flow.next self)
      match x_8 with
      | Rs.Flow.ret r => pure (Rs.Flow.ret r)
      | Rs.Flow.next self => do
        pure (Rs.Flow.next (self, needed))
    else do
      pure (Rs.Flow.next (self, needed))
  match x_9 with
  | Rs.Flow.ret r => pure r
  | Rs.Flow.next (self, needed) => do
    let len ← Tr.subUsize cfg length needed
    let left : Nat := len &&& 0x7
    let i : Nat := needed
    let (self, i) ← Tr.whileR cfg.usizeMod
      (fun (self, i) => do
        let x_11 ← Tr.subUsize cfg len left
        pure (decide (i < x_11)))
      (fun (self, i) => do
        let _ ←
          if cfg.debugAssertions then do
            let x_12 ← Tr.addUsize cfg i 8
            Tr.debugAssert cfg (decide (x_12 ≤ data.length))
          else pure ()
        let data' : BitVec 64 := 0#64
        let data' ← Tr.copyNonoverlapping cfg data i data' 8
        let mi : BitVec 64 := Rs.toLe cfg data'
        let self := { self with state := { self.state with v3 := self.state.v3 ^^^ mi } }
        let x_14 := Source.Siphash24.Engine.c_rounds cfg self.state
        let self := { self with state := x_14 }
        let self := { self with state := { self.state with v0 := self.state.v0 ^^^ mi } }
        let i ← Tr.addUsize cfg i 8
        pure (self, i)) (self, i)
    let x_16 ← Seen.Siphash24.u8to64_le cfg data i left
    let self := { self with tail := x_16 }
    let self := { self with ntail := left }
    pure self

/-- `Hash::hash`, internal_macros.rs 158-162. -/
def Hash.hash (cfg : Cfg) (bytes : List Byte) : Tr Source.Siphash24.Hash := do
  let engine := Source.Siphash24.Hash.engine cfg
  let engine ← Seen.Siphash24.Engine.input cfg engine bytes
  pure ({ f0 := Source.Siphash24.Engine.finalize cfg engine } : Source.Siphash24.Hash)

/-- `Hash::hash_with_keys`, siphash24.rs 209-213. -/
def Hash.hash_with_keys (cfg : Cfg) (k0 : BitVec 64) (k1 : BitVec 64) (data : List Byte) : Tr Source.Siphash24.Hash := do
  let engine := Source.Siphash24.Engine.with_keys cfg k0 k1
  let engine ← Seen.Siphash24.Engine.input cfg engine data
  pure ({ f0 := Source.Siphash24.Engine.finalize cfg engine } : Source.Siphash24.Hash)

/-- `Hash::hash_to_u64_with_keys`, siphash24.rs 216-220. -/
def Hash.hash_to_u64_with_keys (cfg : Cfg) (k0 : BitVec 64) (k1 : BitVec 64) (data : List Byte) : Tr (BitVec 64) := do
  let engine := Source.Siphash24.Engine.with_keys cfg k0 k1
  let engine ← Seen.Siphash24.Engine.input cfg engine data
  pure (Source.Siphash24.Hash.from_engine_to_u64 cfg engine)

/-- `impl HashEngine for Engine`, siphash24.rs 123. -/
def engine (cfg : Cfg) : Tr.HashEngine (Source.Siphash24.engine cfg) where
  default := pure (Source.Siphash24.Engine.default cfg)
  new := pure (Source.Siphash24.Engine.default cfg)
  input self data := Seen.Siphash24.Engine.input cfg self data
  finalize self := pure (Source.Siphash24.Engine.finalize cfg self)
  midstate self := pure (Source.Siphash24.Engine.midstate cfg self)
  fromMidstate midstate length := pure (Source.Siphash24.Engine.from_midstate cfg midstate length)

end Chf.Seen.Siphash24
