/- Generated from /repo/src/siphash24.rs by tools/rust2lean.py; do not edit. -/
import Verif.Source.Lib
import Verif.Source.SerdeMacros

namespace Chf.Source.Siphash24
open Chf
set_option linter.unusedVariables false

/-- `struct Hash`. -/
structure Hash where
  f0 : List Byte

/-- `struct State`. -/
structure State where
  v0 : BitVec 64
  v2 : BitVec 64
  v1 : BitVec 64
  v3 : BitVec 64

/-- `struct Engine`. -/
structure Engine where
  k0 : BitVec 64
  k1 : BitVec 64
  length : Nat
  state : State
  tail : BitVec 64
  ntail : Nat

/-- `const Hash::LEN`. -/
def Hash.LEN : Nat := 8

/-- `const Hash::N`. -/
def Hash.N : Nat := 8

/-- `const Engine::BLOCK_SIZE`. -/
def Engine.BLOCK_SIZE : Nat := 32

/-- `Engine::with_keys`, siphash24.rs 81-95. -/
def Engine.with_keys (cfg : Cfg) (k0 : BitVec 64) (k1 : BitVec 64) : Engine :=
  ({ k0 := k0, k1 := k1, length := 0, state := ({ v0 := k0 ^^^ 0x736f6d6570736575#64, v1 := k1 ^^^ 0x646f72616e646f6d#64, v2 := k0 ^^^ 0x6c7967656e657261#64, v3 := k1 ^^^ 0x7465646279746573#64 } : State), tail := 0#64, ntail := 0 } : Engine)

/-- `Engine::new`, siphash24.rs 99. -/
def Engine.new (cfg : Cfg) : Engine :=
  Engine.with_keys cfg 0#64 0#64

/-- `Hash::engine`, internal_macros.rs 165. -/
def Hash.engine (cfg : Cfg) : Engine :=
  Engine.new cfg

/-- `u8to64_le`, siphash24.rs 250-268. -/
def u8to64_le (cfg : Cfg) (buf : List Byte) (start : Nat) (len : Nat) : Res (BitVec 64) := do
  debugAssert cfg (decide (len < 8))
  let i : Nat := 0
  let out : BitVec 64 := 0#64
  let x_1 ← addUsize cfg i 3
  let (i, out) ←
    if decide (x_1 < len) then do
      let _ ←
        if cfg.debugAssertions then do
          let x_2 ← addUsize cfg start i
          let x_3 ← addUsize cfg x_2 4
          debugAssert cfg (decide (x_3 ≤ buf.length))
        else pure ()
      let data' : BitVec 32 := 0#32
      let x_4 ← addUsize cfg start i
      let data' ← Rs.copyNonoverlapping cfg buf x_4 data' 4
      let out := BitVec.setWidth 64 (Rs.toLe cfg data')
      let i ← addUsize cfg i 4
      pure (i, out)
    else do
      pure (i, out)
  let x_7 ← addUsize cfg i 1
  let (i, out) ←
    if decide (x_7 < len) then do
      let _ ←
        if cfg.debugAssertions then do
          let x_8 ← addUsize cfg start i
          let x_9 ← addUsize cfg x_8 2
          debugAssert cfg (decide (x_9 ≤ buf.length))
        else pure ()
      let data' : BitVec 16 := 0#16
      let x_10 ← addUsize cfg start i
      let data' ← Rs.copyNonoverlapping cfg buf x_10 data' 2
      let x_12 ← mulUsize cfg i 8
      let x_13 ← Rs.shlU cfg (BitVec.setWidth 64 (Rs.toLe cfg data')) x_12
      let out := out ||| x_13
      let i ← addUsize cfg i 2
      pure (i, out)
    else do
      pure (i, out)
  let (i, out) ←
    if decide (i < len) then do
      let x_15 ← addUsize cfg start i
      let x_16 ← Rs.getUnchecked buf x_15
      let x_17 ← mulUsize cfg i 8
      let x_18 ← Rs.shlU cfg (BitVec.setWidth 64 x_16) x_17
      let out := out ||| x_18
      let i ← addUsize cfg i 1
      pure (i, out)
    else do
      pure (i, out)
  debugAssert cfg (i == len)
  pure out

/-- line 106 -/
def Engine.c_rounds.line1_0 (cfg : Cfg) : State → State :=
  fun state =>
    let state := { state with v0 := state.v0 + state.v1 }
    state

/-- line 106 -/
def Engine.c_rounds.line1_1 (cfg : Cfg) : State → State :=
  fun state =>
    let state := { state with v1 := state.v1.rotateLeft 13 }
    state

/-- line 106 -/
def Engine.c_rounds.line1_2 (cfg : Cfg) : State → State :=
  fun state =>
    let state := { state with v1 := state.v1 ^^^ state.v0 }
    state

/-- line 106 -/
def Engine.c_rounds.line1_3 (cfg : Cfg) : State → State :=
  fun state =>
    let state := { state with v0 := state.v0.rotateLeft 32 }
    state

/-- line 106 -/
def Engine.c_rounds.line1_4 (cfg : Cfg) : State → State :=
  fun state =>
    let state := { state with v2 := state.v2 + state.v3 }
    state

/-- line 106 -/
def Engine.c_rounds.line1_5 (cfg : Cfg) : State → State :=
  fun state =>
    let state := { state with v3 := state.v3.rotateLeft 16 }
    state

/-- line 106 -/
def Engine.c_rounds.line1_6 (cfg : Cfg) : State → State :=
  fun state =>
    let state := { state with v3 := state.v3 ^^^ state.v2 }
    state

/-- line 106 -/
def Engine.c_rounds.line1_7 (cfg : Cfg) : State → State :=
  fun state =>
    let state := { state with v0 := state.v0 + state.v3 }
    state

/-- line 106 -/
def Engine.c_rounds.line1_8 (cfg : Cfg) : State → State :=
  fun state =>
    let state := { state with v3 := state.v3.rotateLeft 21 }
    state

/-- line 106 -/
def Engine.c_rounds.line1_9 (cfg : Cfg) : State → State :=
  fun state =>
    let state := { state with v3 := state.v3 ^^^ state.v0 }
    state

/-- line 106 -/
def Engine.c_rounds.line1_10 (cfg : Cfg) : State → State :=
  fun state =>
    let state := { state with v2 := state.v2 + state.v1 }
    state

/-- line 106 -/
def Engine.c_rounds.line1_11 (cfg : Cfg) : State → State :=
  fun state =>
    let state := { state with v1 := state.v1.rotateLeft 17 }
    state

/-- line 106 -/
def Engine.c_rounds.line1_12 (cfg : Cfg) : State → State :=
  fun state =>
    let state := { state with v1 := state.v1 ^^^ state.v2 }
    state

/-- line 106 -/
def Engine.c_rounds.line1_13 (cfg : Cfg) : State → State :=
  fun state =>
    let state := { state with v2 := state.v2.rotateLeft 32 }
    state

/-- The 14 statements. -/
def Engine.c_rounds.lines1 (cfg : Cfg) : List (State → State) := [
  Engine.c_rounds.line1_0 cfg,
  Engine.c_rounds.line1_1 cfg,
  Engine.c_rounds.line1_2 cfg,
  Engine.c_rounds.line1_3 cfg,
  Engine.c_rounds.line1_4 cfg,
  Engine.c_rounds.line1_5 cfg,
  Engine.c_rounds.line1_6 cfg,
  Engine.c_rounds.line1_7 cfg,
  Engine.c_rounds.line1_8 cfg,
  Engine.c_rounds.line1_9 cfg,
  Engine.c_rounds.line1_10 cfg,
  Engine.c_rounds.line1_11 cfg,
  Engine.c_rounds.line1_12 cfg,
  Engine.c_rounds.line1_13 cfg]

/-- line 107 -/
def Engine.c_rounds.line2_0 (cfg : Cfg) : State → State :=
  fun state =>
    let state := { state with v0 := state.v0 + state.v1 }
    state

/-- line 107 -/
def Engine.c_rounds.line2_1 (cfg : Cfg) : State → State :=
  fun state =>
    let state := { state with v1 := state.v1.rotateLeft 13 }
    state

/-- line 107 -/
def Engine.c_rounds.line2_2 (cfg : Cfg) : State → State :=
  fun state =>
    let state := { state with v1 := state.v1 ^^^ state.v0 }
    state

/-- line 107 -/
def Engine.c_rounds.line2_3 (cfg : Cfg) : State → State :=
  fun state =>
    let state := { state with v0 := state.v0.rotateLeft 32 }
    state

/-- line 107 -/
def Engine.c_rounds.line2_4 (cfg : Cfg) : State → State :=
  fun state =>
    let state := { state with v2 := state.v2 + state.v3 }
    state

/-- line 107 -/
def Engine.c_rounds.line2_5 (cfg : Cfg) : State → State :=
  fun state =>
    let state := { state with v3 := state.v3.rotateLeft 16 }
    state

/-- line 107 -/
def Engine.c_rounds.line2_6 (cfg : Cfg) : State → State :=
  fun state =>
    let state := { state with v3 := state.v3 ^^^ state.v2 }
    state

/-- line 107 -/
def Engine.c_rounds.line2_7 (cfg : Cfg) : State → State :=
  fun state =>
    let state := { state with v0 := state.v0 + state.v3 }
    state

/-- line 107 -/
def Engine.c_rounds.line2_8 (cfg : Cfg) : State → State :=
  fun state =>
    let state := { state with v3 := state.v3.rotateLeft 21 }
    state

/-- line 107 -/
def Engine.c_rounds.line2_9 (cfg : Cfg) : State → State :=
  fun state =>
    let state := { state with v3 := state.v3 ^^^ state.v0 }
    state

/-- line 107 -/
def Engine.c_rounds.line2_10 (cfg : Cfg) : State → State :=
  fun state =>
    let state := { state with v2 := state.v2 + state.v1 }
    state

/-- line 107 -/
def Engine.c_rounds.line2_11 (cfg : Cfg) : State → State :=
  fun state =>
    let state := { state with v1 := state.v1.rotateLeft 17 }
    state

/-- line 107 -/
def Engine.c_rounds.line2_12 (cfg : Cfg) : State → State :=
  fun state =>
    let state := { state with v1 := state.v1 ^^^ state.v2 }
    state

/-- line 107 -/
def Engine.c_rounds.line2_13 (cfg : Cfg) : State → State :=
  fun state =>
    let state := { state with v2 := state.v2.rotateLeft 32 }
    state

/-- The 14 statements. -/
def Engine.c_rounds.lines2 (cfg : Cfg) : List (State → State) := [
  Engine.c_rounds.line2_0 cfg,
  Engine.c_rounds.line2_1 cfg,
  Engine.c_rounds.line2_2 cfg,
  Engine.c_rounds.line2_3 cfg,
  Engine.c_rounds.line2_4 cfg,
  Engine.c_rounds.line2_5 cfg,
  Engine.c_rounds.line2_6 cfg,
  Engine.c_rounds.line2_7 cfg,
  Engine.c_rounds.line2_8 cfg,
  Engine.c_rounds.line2_9 cfg,
  Engine.c_rounds.line2_10 cfg,
  Engine.c_rounds.line2_11 cfg,
  Engine.c_rounds.line2_12 cfg,
  Engine.c_rounds.line2_13 cfg]

/-- `Engine::c_rounds`, siphash24.rs 105-108. -/
def Engine.c_rounds (cfg : Cfg) (state : State) : State :=
  let state := Rs.runPure (Engine.c_rounds.lines1 cfg) state
  let state := Rs.runPure (Engine.c_rounds.lines2 cfg) state
  state

/-- `Engine::input`, siphash24.rs 133-171. -/
def Engine.input (cfg : Cfg) (self : Engine) (data : List Byte) : Res Engine := do
  let length : Nat := data.length
  let x_1 ← addUsize cfg self.length length
  let self := { self with length := x_1 }
  let needed : Nat := 0
  let x_9 ←
    if self.ntail != 0 then do
      let needed ← subUsize cfg 8 self.ntail
      let x_3 ← u8to64_le cfg data 0 (min length needed)
      let x_4 ← mulUsize cfg 8 self.ntail
      let x_5 ← Rs.shlU cfg x_3 x_4
      let self := { self with tail := self.tail ||| x_5 }
      let x_8 ←
        if decide (length < needed) then do
          let x_6 ← addUsize cfg self.ntail length
          let self := { self with ntail := x_6 }
          pure (Rs.Flow.ret self)
        else do
          let self := { self with state := { self.state with v3 := self.state.v3 ^^^ self.tail } }
          let x_7 := Engine.c_rounds cfg self.state
          let self := { self with state := x_7 }
          let self := { self with state := { self.state with v0 := self.state.v0 ^^^ self.tail } }
          let self := { self with ntail := 0 }
          pure (Rs.Flow.next self)
      match x_8 with
      | Rs.Flow.ret r => pure (Rs.Flow.ret r)
      | Rs.Flow.next self => do
        pure (Rs.Flow.next (self, needed))
    else do
      pure (Rs.Flow.next (self, needed))
  match x_9 with
  | Rs.Flow.ret r => pure r
  | Rs.Flow.next (self, needed) => do
    let len ← subUsize cfg length needed
    let left : Nat := len &&& 0x7
    let i : Nat := needed
    let (self, i) ← Rs.whileR cfg.usizeMod
      (fun (self, i) => do
        let x_11 ← subUsize cfg len left
        pure (decide (i < x_11)))
      (fun (self, i) => do
        let _ ←
          if cfg.debugAssertions then do
            let x_12 ← addUsize cfg i 8
            debugAssert cfg (decide (x_12 ≤ data.length))
          else pure ()
        let data' : BitVec 64 := 0#64
        let data' ← Rs.copyNonoverlapping cfg data i data' 8
        let mi : BitVec 64 := Rs.toLe cfg data'
        let self := { self with state := { self.state with v3 := self.state.v3 ^^^ mi } }
        let x_14 := Engine.c_rounds cfg self.state
        let self := { self with state := x_14 }
        let self := { self with state := { self.state with v0 := self.state.v0 ^^^ mi } }
        let i ← addUsize cfg i 8
        pure (self, i)) (self, i)
    let x_16 ← u8to64_le cfg data i left
    let self := { self with tail := x_16 }
    let self := { self with ntail := left }
    pure self

/-- line 112 -/
def Engine.d_rounds.line1_0 (cfg : Cfg) : State → State :=
  fun state =>
    let state := { state with v0 := state.v0 + state.v1 }
    state

/-- line 112 -/
def Engine.d_rounds.line1_1 (cfg : Cfg) : State → State :=
  fun state =>
    let state := { state with v1 := state.v1.rotateLeft 13 }
    state

/-- line 112 -/
def Engine.d_rounds.line1_2 (cfg : Cfg) : State → State :=
  fun state =>
    let state := { state with v1 := state.v1 ^^^ state.v0 }
    state

/-- line 112 -/
def Engine.d_rounds.line1_3 (cfg : Cfg) : State → State :=
  fun state =>
    let state := { state with v0 := state.v0.rotateLeft 32 }
    state

/-- line 112 -/
def Engine.d_rounds.line1_4 (cfg : Cfg) : State → State :=
  fun state =>
    let state := { state with v2 := state.v2 + state.v3 }
    state

/-- line 112 -/
def Engine.d_rounds.line1_5 (cfg : Cfg) : State → State :=
  fun state =>
    let state := { state with v3 := state.v3.rotateLeft 16 }
    state

/-- line 112 -/
def Engine.d_rounds.line1_6 (cfg : Cfg) : State → State :=
  fun state =>
    let state := { state with v3 := state.v3 ^^^ state.v2 }
    state

/-- line 112 -/
def Engine.d_rounds.line1_7 (cfg : Cfg) : State → State :=
  fun state =>
    let state := { state with v0 := state.v0 + state.v3 }
    state

/-- line 112 -/
def Engine.d_rounds.line1_8 (cfg : Cfg) : State → State :=
  fun state =>
    let state := { state with v3 := state.v3.rotateLeft 21 }
    state

/-- line 112 -/
def Engine.d_rounds.line1_9 (cfg : Cfg) : State → State :=
  fun state =>
    let state := { state with v3 := state.v3 ^^^ state.v0 }
    state

/-- line 112 -/
def Engine.d_rounds.line1_10 (cfg : Cfg) : State → State :=
  fun state =>
    let state := { state with v2 := state.v2 + state.v1 }
    state

/-- line 112 -/
def Engine.d_rounds.line1_11 (cfg : Cfg) : State → State :=
  fun state =>
    let state := { state with v1 := state.v1.rotateLeft 17 }
    state

/-- line 112 -/
def Engine.d_rounds.line1_12 (cfg : Cfg) : State → State :=
  fun state =>
    let state := { state with v1 := state.v1 ^^^ state.v2 }
    state

/-- line 112 -/
def Engine.d_rounds.line1_13 (cfg : Cfg) : State → State :=
  fun state =>
    let state := { state with v2 := state.v2.rotateLeft 32 }
    state

/-- The 14 statements. -/
def Engine.d_rounds.lines1 (cfg : Cfg) : List (State → State) := [
  Engine.d_rounds.line1_0 cfg,
  Engine.d_rounds.line1_1 cfg,
  Engine.d_rounds.line1_2 cfg,
  Engine.d_rounds.line1_3 cfg,
  Engine.d_rounds.line1_4 cfg,
  Engine.d_rounds.line1_5 cfg,
  Engine.d_rounds.line1_6 cfg,
  Engine.d_rounds.line1_7 cfg,
  Engine.d_rounds.line1_8 cfg,
  Engine.d_rounds.line1_9 cfg,
  Engine.d_rounds.line1_10 cfg,
  Engine.d_rounds.line1_11 cfg,
  Engine.d_rounds.line1_12 cfg,
  Engine.d_rounds.line1_13 cfg]

/-- line 113 -/
def Engine.d_rounds.line2_0 (cfg : Cfg) : State → State :=
  fun state =>
    let state := { state with v0 := state.v0 + state.v1 }
    state

/-- line 113 -/
def Engine.d_rounds.line2_1 (cfg : Cfg) : State → State :=
  fun state =>
    let state := { state with v1 := state.v1.rotateLeft 13 }
    state

/-- line 113 -/
def Engine.d_rounds.line2_2 (cfg : Cfg) : State → State :=
  fun state =>
    let state := { state with v1 := state.v1 ^^^ state.v0 }
    state

/-- line 113 -/
def Engine.d_rounds.line2_3 (cfg : Cfg) : State → State :=
  fun state =>
    let state := { state with v0 := state.v0.rotateLeft 32 }
    state

/-- line 113 -/
def Engine.d_rounds.line2_4 (cfg : Cfg) : State → State :=
  fun state =>
    let state := { state with v2 := state.v2 + state.v3 }
    state

/-- line 113 -/
def Engine.d_rounds.line2_5 (cfg : Cfg) : State → State :=
  fun state =>
    let state := { state with v3 := state.v3.rotateLeft 16 }
    state

/-- line 113 -/
def Engine.d_rounds.line2_6 (cfg : Cfg) : State → State :=
  fun state =>
    let state := { state with v3 := state.v3 ^^^ state.v2 }
    state

/-- line 113 -/
def Engine.d_rounds.line2_7 (cfg : Cfg) : State → State :=
  fun state =>
    let state := { state with v0 := state.v0 + state.v3 }
    state

/-- line 113 -/
def Engine.d_rounds.line2_8 (cfg : Cfg) : State → State :=
  fun state =>
    let state := { state with v3 := state.v3.rotateLeft 21 }
    state

/-- line 113 -/
def Engine.d_rounds.line2_9 (cfg : Cfg) : State → State :=
  fun state =>
    let state := { state with v3 := state.v3 ^^^ state.v0 }
    state

/-- line 113 -/
def Engine.d_rounds.line2_10 (cfg : Cfg) : State → State :=
  fun state =>
    let state := { state with v2 := state.v2 + state.v1 }
    state

/-- line 113 -/
def Engine.d_rounds.line2_11 (cfg : Cfg) : State → State :=
  fun state =>
    let state := { state with v1 := state.v1.rotateLeft 17 }
    state

/-- line 113 -/
def Engine.d_rounds.line2_12 (cfg : Cfg) : State → State :=
  fun state =>
    let state := { state with v1 := state.v1 ^^^ state.v2 }
    state

/-- line 113 -/
def Engine.d_rounds.line2_13 (cfg : Cfg) : State → State :=
  fun state =>
    let state := { state with v2 := state.v2.rotateLeft 32 }
    state

/-- The 14 statements. -/
def Engine.d_rounds.lines2 (cfg : Cfg) : List (State → State) := [
  Engine.d_rounds.line2_0 cfg,
  Engine.d_rounds.line2_1 cfg,
  Engine.d_rounds.line2_2 cfg,
  Engine.d_rounds.line2_3 cfg,
  Engine.d_rounds.line2_4 cfg,
  Engine.d_rounds.line2_5 cfg,
  Engine.d_rounds.line2_6 cfg,
  Engine.d_rounds.line2_7 cfg,
  Engine.d_rounds.line2_8 cfg,
  Engine.d_rounds.line2_9 cfg,
  Engine.d_rounds.line2_10 cfg,
  Engine.d_rounds.line2_11 cfg,
  Engine.d_rounds.line2_12 cfg,
  Engine.d_rounds.line2_13 cfg]

/-- line 114 -/
def Engine.d_rounds.line3_0 (cfg : Cfg) : State → State :=
  fun state =>
    let state := { state with v0 := state.v0 + state.v1 }
    state

/-- line 114 -/
def Engine.d_rounds.line3_1 (cfg : Cfg) : State → State :=
  fun state =>
    let state := { state with v1 := state.v1.rotateLeft 13 }
    state

/-- line 114 -/
def Engine.d_rounds.line3_2 (cfg : Cfg) : State → State :=
  fun state =>
    let state := { state with v1 := state.v1 ^^^ state.v0 }
    state

/-- line 114 -/
def Engine.d_rounds.line3_3 (cfg : Cfg) : State → State :=
  fun state =>
    let state := { state with v0 := state.v0.rotateLeft 32 }
    state

/-- line 114 -/
def Engine.d_rounds.line3_4 (cfg : Cfg) : State → State :=
  fun state =>
    let state := { state with v2 := state.v2 + state.v3 }
    state

/-- line 114 -/
def Engine.d_rounds.line3_5 (cfg : Cfg) : State → State :=
  fun state =>
    let state := { state with v3 := state.v3.rotateLeft 16 }
    state

/-- line 114 -/
def Engine.d_rounds.line3_6 (cfg : Cfg) : State → State :=
  fun state =>
    let state := { state with v3 := state.v3 ^^^ state.v2 }
    state

/-- line 114 -/
def Engine.d_rounds.line3_7 (cfg : Cfg) : State → State :=
  fun state =>
    let state := { state with v0 := state.v0 + state.v3 }
    state

/-- line 114 -/
def Engine.d_rounds.line3_8 (cfg : Cfg) : State → State :=
  fun state =>
    let state := { state with v3 := state.v3.rotateLeft 21 }
    state

/-- line 114 -/
def Engine.d_rounds.line3_9 (cfg : Cfg) : State → State :=
  fun state =>
    let state := { state with v3 := state.v3 ^^^ state.v0 }
    state

/-- line 114 -/
def Engine.d_rounds.line3_10 (cfg : Cfg) : State → State :=
  fun state =>
    let state := { state with v2 := state.v2 + state.v1 }
    state

/-- line 114 -/
def Engine.d_rounds.line3_11 (cfg : Cfg) : State → State :=
  fun state =>
    let state := { state with v1 := state.v1.rotateLeft 17 }
    state

/-- line 114 -/
def Engine.d_rounds.line3_12 (cfg : Cfg) : State → State :=
  fun state =>
    let state := { state with v1 := state.v1 ^^^ state.v2 }
    state

/-- line 114 -/
def Engine.d_rounds.line3_13 (cfg : Cfg) : State → State :=
  fun state =>
    let state := { state with v2 := state.v2.rotateLeft 32 }
    state

/-- The 14 statements. -/
def Engine.d_rounds.lines3 (cfg : Cfg) : List (State → State) := [
  Engine.d_rounds.line3_0 cfg,
  Engine.d_rounds.line3_1 cfg,
  Engine.d_rounds.line3_2 cfg,
  Engine.d_rounds.line3_3 cfg,
  Engine.d_rounds.line3_4 cfg,
  Engine.d_rounds.line3_5 cfg,
  Engine.d_rounds.line3_6 cfg,
  Engine.d_rounds.line3_7 cfg,
  Engine.d_rounds.line3_8 cfg,
  Engine.d_rounds.line3_9 cfg,
  Engine.d_rounds.line3_10 cfg,
  Engine.d_rounds.line3_11 cfg,
  Engine.d_rounds.line3_12 cfg,
  Engine.d_rounds.line3_13 cfg]

/-- line 115 -/
def Engine.d_rounds.line4_0 (cfg : Cfg) : State → State :=
  fun state =>
    let state := { state with v0 := state.v0 + state.v1 }
    state

/-- line 115 -/
def Engine.d_rounds.line4_1 (cfg : Cfg) : State → State :=
  fun state =>
    let state := { state with v1 := state.v1.rotateLeft 13 }
    state

/-- line 115 -/
def Engine.d_rounds.line4_2 (cfg : Cfg) : State → State :=
  fun state =>
    let state := { state with v1 := state.v1 ^^^ state.v0 }
    state

/-- line 115 -/
def Engine.d_rounds.line4_3 (cfg : Cfg) : State → State :=
  fun state =>
    let state := { state with v0 := state.v0.rotateLeft 32 }
    state

/-- line 115 -/
def Engine.d_rounds.line4_4 (cfg : Cfg) : State → State :=
  fun state =>
    let state := { state with v2 := state.v2 + state.v3 }
    state

/-- line 115 -/
def Engine.d_rounds.line4_5 (cfg : Cfg) : State → State :=
  fun state =>
    let state := { state with v3 := state.v3.rotateLeft 16 }
    state

/-- line 115 -/
def Engine.d_rounds.line4_6 (cfg : Cfg) : State → State :=
  fun state =>
    let state := { state with v3 := state.v3 ^^^ state.v2 }
    state

/-- line 115 -/
def Engine.d_rounds.line4_7 (cfg : Cfg) : State → State :=
  fun state =>
    let state := { state with v0 := state.v0 + state.v3 }
    state

/-- line 115 -/
def Engine.d_rounds.line4_8 (cfg : Cfg) : State → State :=
  fun state =>
    let state := { state with v3 := state.v3.rotateLeft 21 }
    state

/-- line 115 -/
def Engine.d_rounds.line4_9 (cfg : Cfg) : State → State :=
  fun state =>
    let state := { state with v3 := state.v3 ^^^ state.v0 }
    state

/-- line 115 -/
def Engine.d_rounds.line4_10 (cfg : Cfg) : State → State :=
  fun state =>
    let state := { state with v2 := state.v2 + state.v1 }
    state

/-- line 115 -/
def Engine.d_rounds.line4_11 (cfg : Cfg) : State → State :=
  fun state =>
    let state := { state with v1 := state.v1.rotateLeft 17 }
    state

/-- line 115 -/
def Engine.d_rounds.line4_12 (cfg : Cfg) : State → State :=
  fun state =>
    let state := { state with v1 := state.v1 ^^^ state.v2 }
    state

/-- line 115 -/
def Engine.d_rounds.line4_13 (cfg : Cfg) : State → State :=
  fun state =>
    let state := { state with v2 := state.v2.rotateLeft 32 }
    state

/-- The 14 statements. -/
def Engine.d_rounds.lines4 (cfg : Cfg) : List (State → State) := [
  Engine.d_rounds.line4_0 cfg,
  Engine.d_rounds.line4_1 cfg,
  Engine.d_rounds.line4_2 cfg,
  Engine.d_rounds.line4_3 cfg,
  Engine.d_rounds.line4_4 cfg,
  Engine.d_rounds.line4_5 cfg,
  Engine.d_rounds.line4_6 cfg,
  Engine.d_rounds.line4_7 cfg,
  Engine.d_rounds.line4_8 cfg,
  Engine.d_rounds.line4_9 cfg,
  Engine.d_rounds.line4_10 cfg,
  Engine.d_rounds.line4_11 cfg,
  Engine.d_rounds.line4_12 cfg,
  Engine.d_rounds.line4_13 cfg]

/-- `Engine::d_rounds`, siphash24.rs 111-116. -/
def Engine.d_rounds (cfg : Cfg) (state : State) : State :=
  let state := Rs.runPure (Engine.d_rounds.lines1 cfg) state
  let state := Rs.runPure (Engine.d_rounds.lines2 cfg) state
  let state := Rs.runPure (Engine.d_rounds.lines3 cfg) state
  let state := Rs.runPure (Engine.d_rounds.lines4 cfg) state
  state

/-- `Engine::finalize`, siphash24.rs 175-189. -/
def Engine.finalize (cfg : Cfg) (self : Engine) : (List Byte) :=
  let state := self.state
  let b : BitVec 64 := (((BitVec.ofNat 64 self.length) &&& 0xff#64) <<< 56) ||| self.tail
  let state := { state with v3 := state.v3 ^^^ b }
  let x_1 := Engine.c_rounds cfg state
  let state := x_1
  let state := { state with v0 := state.v0 ^^^ b }
  let state := { state with v2 := state.v2 ^^^ 0xff#64 }
  let x_2 := Engine.d_rounds cfg state
  let state := x_2
  let hash : BitVec 64 := ((state.v0 ^^^ state.v1) ^^^ state.v2) ^^^ state.v3
  Rs.toLeBytes hash

/-- `Hash::hash`, internal_macros.rs 158-162. -/
def Hash.hash (cfg : Cfg) (bytes : List Byte) : Res Hash := do
  let engine := Hash.engine cfg
  let engine ← Engine.input cfg engine bytes
  pure ({ f0 := Engine.finalize cfg engine } : Hash)

/-- `Hash::from_engine`, internal_macros.rs 170-173. -/
def Hash.from_engine (cfg : Cfg) (engine : Engine) : Hash :=
  let digest : List Byte := Engine.finalize cfg engine
  ({ f0 := digest } : Hash)

/-- `Hash::from_bytes_ref`, internal_macros.rs 177-180. -/
def Hash.from_bytes_ref (cfg : Cfg) (bytes : List Byte) : Hash :=
  ({ f0 := bytes } : Hash)

/-- `Hash::from_bytes_mut`, internal_macros.rs 184-187. -/
def Hash.from_bytes_mut (cfg : Cfg) (bytes : List Byte) : Hash × (Hash → List Byte) :=
  (({ f0 := bytes } : Hash), fun r => r.f0)

/-- `Hash::from_byte_array`, internal_macros.rs 201. -/
def Hash.from_byte_array (cfg : Cfg) (bytes : List Byte) : Hash :=
  ({ f0 := bytes } : Hash)

/-- `Hash::from_slice`, internal_macros.rs 190-198. -/
def Hash.from_slice (cfg : Cfg) (sl : List Byte) : Res (Except Lib.FromSliceError Hash) := do
  let x_2 ←
    if sl.length != (64 / 8) then do
      pure (Except.error ({ expected := 64 / 8, got := sl.length } : Lib.FromSliceError))
    else do
      let ret : List Byte := List.replicate 8 0#8
      let ret ← Rs.copyFromSlice ret sl
      pure (Except.ok (Hash.from_byte_array cfg ret))
  pure x_2

/-- `Hash::to_byte_array`, internal_macros.rs 204. -/
def Hash.to_byte_array (cfg : Cfg) (self : Hash) : (List Byte) :=
  self.f0

/-- `Hash::as_byte_array`, internal_macros.rs 207. -/
def Hash.as_byte_array (cfg : Cfg) (self : Hash) : (List Byte) :=
  self.f0

/-- `Hash::as_bytes`, internal_macros.rs 211. -/
def Hash.as_bytes (cfg : Cfg) (self : Hash) : (List Byte) :=
  self.f0

/-- `Hash::to_bytes`, internal_macros.rs 216. -/
def Hash.to_bytes (cfg : Cfg) (self : Hash) : (List Byte) :=
  self.f0

/-- `Hash::all_zeros`, internal_macros.rs 223. -/
def Hash.all_zeros (cfg : Cfg) : Hash :=
  ({ f0 := List.replicate 8 0x00#8 } : Hash)

/-- `Hash::JsonSchema::schema_name`, internal_macros.rs 228. -/
def Hash.JsonSchema.schema_name (cfg : Cfg) : (List Byte) :=
  ascii "Hash"

/-- `Hash::JsonSchema::json_schema`, internal_macros.rs 230-239. -/
def Hash.JsonSchema.json_schema (cfg : Cfg) (gen : Rs.SchemaGenerator) : Res Rs.SchemaObject := do
  let len : BitVec 32 := 64#32 / 8#32
  let schema := Rs.stringSchema gen
  let x_1 ← Rs.mulU cfg len 2#32
  let x_2 ← Rs.mulU cfg len 2#32
  let schema := { schema with string := some ({ max_length := some x_1, min_length := some x_2, pattern := some (ascii "[0-9a-fA-F]+") } : Rs.StringValidation) }
  pure schema

/-- `Hash::FromStr::from_str`, internal_macros.rs 106-111. -/
def Hash.FromStr.from_str (cfg : Cfg) (s : List Byte) : Res (Except Hex.Error Hash) := do
  let x_1 ← Rs.fromHex 8 s
  Rs.tryOk x_1 fun bytes => do
    pure (Except.ok (Hash.from_byte_array cfg bytes))

/-- `Hash::LowerHex::fmt`, internal_macros.rs 54-56. -/
def Hash.LowerHex.fmt (cfg : Cfg) (self : Hash) (f : Hex.Flags) : Res (List Byte) := do
  let x_1 ← Hex.fmtHexExact f 8 self.f0 .lower
  pure x_1

/-- `Hash::UpperHex::fmt`, internal_macros.rs 61-63. -/
def Hash.UpperHex.fmt (cfg : Cfg) (self : Hash) (f : Hex.Flags) : Res (List Byte) := do
  let x_1 ← Hex.fmtHexExact f 8 self.f0 .upper
  pure x_1

/-- `Hash::Display::fmt`, internal_macros.rs 68-70. -/
def Hash.Display.fmt (cfg : Cfg) (self : Hash) (f : Hex.Flags) : Res (List Byte) := do
  let x_1 ← Hash.LowerHex.fmt cfg self f
  pure x_1

/-- `Hash::Debug::fmt`, internal_macros.rs 75-77. -/
def Hash.Debug.fmt (cfg : Cfg) (self : Hash) (f : Hex.Flags) : Res (List Byte) := do
  let x_1 ← Hash.Display.fmt cfg self ({ alternate := true })
  pure x_1

/-- `Hash::SerdeHash::from_slice_delegated`, serde_macros.rs 115-117. -/
def Hash.SerdeHash.from_slice_delegated (cfg : Cfg) (sl : List Byte) : Res (Except Lib.FromSliceError Hash) := do
  let x_1 ← Hash.from_slice cfg sl
  pure x_1

/-- `Hash::AsRef::as_ref`, internal_macros.rs 12. -/
def Hash.AsRef.as_ref (cfg : Cfg) (self : Hash) : (List Byte) :=
  self.f0

/-- `Hash::AsRefArray::as_ref`, internal_macros.rs 119. -/
def Hash.AsRefArray.as_ref (cfg : Cfg) (self : Hash) : (List Byte) :=
  self.f0

/-- `Hash::Index::index`, internal_macros.rs 126. -/
def Hash.Index.index (cfg : Cfg) (self : Hash) (index_ : Rs.SliceIndex) : Res (List Byte) := do
  let x_1 ← Rs.SliceIndex.get index_ self.f0
  pure x_1

/-- `Engine::keys`, siphash24.rs 102. -/
def Engine.keys (cfg : Cfg) (self : Engine) : ((BitVec 64) × (BitVec 64)) :=
  (self.k0, self.k1)

/-- `Engine::default`, siphash24.rs 120. -/
def Engine.default (cfg : Cfg) : Engine :=
  Engine.new cfg

/-- `Engine::n_bytes_hashed`, siphash24.rs 129. -/
def Engine.n_bytes_hashed (cfg : Cfg) (self : Engine) : Nat :=
  self.length

/-- `Engine::midstate`, siphash24.rs 199. -/
def Engine.midstate (cfg : Cfg) (self : Engine) : State :=
  self.state

/-- `Engine::from_midstate`, siphash24.rs 202-204. -/
def Engine.from_midstate (cfg : Cfg) (midstate : State) (length : Nat) : Engine :=
  ({ Engine.default cfg with state := midstate } : Engine)

/-- `Hash::hash_with_keys`, siphash24.rs 209-213. -/
def Hash.hash_with_keys (cfg : Cfg) (k0 : BitVec 64) (k1 : BitVec 64) (data : List Byte) : Res Hash := do
  let engine := Engine.with_keys cfg k0 k1
  let engine ← Engine.input cfg engine data
  pure ({ f0 := Engine.finalize cfg engine } : Hash)

/-- `Hash::from_engine_to_u64`, siphash24.rs 224-237. -/
def Hash.from_engine_to_u64 (cfg : Cfg) (e : Engine) : (BitVec 64) :=
  let state := e.state
  let b : BitVec 64 := (((BitVec.ofNat 64 e.length) &&& 0xff#64) <<< 56) ||| e.tail
  let state := { state with v3 := state.v3 ^^^ b }
  let x_1 := Engine.c_rounds cfg state
  let state := x_1
  let state := { state with v0 := state.v0 ^^^ b }
  let state := { state with v2 := state.v2 ^^^ 0xff#64 }
  let x_2 := Engine.d_rounds cfg state
  let state := x_2
  ((state.v0 ^^^ state.v1) ^^^ state.v2) ^^^ state.v3

/-- `Hash::hash_to_u64_with_keys`, siphash24.rs 216-220. -/
def Hash.hash_to_u64_with_keys (cfg : Cfg) (k0 : BitVec 64) (k1 : BitVec 64) (data : List Byte) : Res (BitVec 64) := do
  let engine := Engine.with_keys cfg k0 k1
  let engine ← Engine.input cfg engine data
  pure (Hash.from_engine_to_u64 cfg engine)

/-- `Hash::as_u64`, siphash24.rs 240. -/
def Hash.as_u64 (cfg : Cfg) (self : Hash) : (BitVec 64) :=
  Rs.fromLeBytes 64 self.f0

/-- `Hash::from_u64`, siphash24.rs 243. -/
def Hash.from_u64 (cfg : Cfg) (hash : BitVec 64) : Hash :=
  ({ f0 := Rs.toLeBytes hash } : Hash)

/-- `impl SerdeHash for Hash`. -/
def Hash.serdeHash (cfg : Cfg) : SerdeMacros.SerdeHash where
  State := Hash
  from_slice_delegated sl := Hash.SerdeHash.from_slice_delegated cfg sl
  from_str s := Hash.FromStr.from_str cfg s
  fmt self f := Hash.Display.fmt cfg self f
  index self i := Hash.Index.index cfg self (.rangeFull i)

/-- `Hash::Serialize::serialize`, serde_macros.rs 121-123. -/
def Hash.Serialize.serialize (cfg : Cfg) (self : Hash) (s : Rs.Serializer) : Res Rs.Serialized := do
  let x_1 ← SerdeMacros.SerdeHash.serialize cfg (Hash.serdeHash cfg) self s
  pure x_1

/-- `Hash::Deserialize::deserialize`, serde_macros.rs 127-129. -/
def Hash.Deserialize.deserialize (cfg : Cfg) (d : Rs.Deserializer) : Res (Except Rs.DeError Hash) := do
  let x_1 ← SerdeMacros.SerdeHash.deserialize cfg (Hash.serdeHash cfg) d
  pure x_1

/-- `#[derive(PartialEq)]` of `Hash`, internal_macros.rs 144. -/
def Hash.PartialEq.eq (cfg : Cfg) (self : Hash) (other : Hash) : Bool :=
  self.f0 == other.f0

/-- `#[derive(PartialOrd)]` of `Hash`, internal_macros.rs 144. -/
def Hash.PartialOrd.partial_cmp (cfg : Cfg) (self : Hash) (other : Hash) : Option Ordering :=
  some (Rs.cmpSlice self.f0 other.f0)

/-- `#[derive(Ord)]` of `Hash`, internal_macros.rs 144. -/
def Hash.Ord.cmp (cfg : Cfg) (self : Hash) (other : Hash) : Ordering :=
  Rs.cmpSlice self.f0 other.f0

/-- `#[derive(Hash)]` of `Hash`, internal_macros.rs 144. -/
def Hash.Hash.hash (cfg : Cfg) (H : Rs.Hasher) (self : Hash) (h : H.State) : H.State :=
  H.hashSlice self.f0 h

/-- `impl HashEngine for Engine`, siphash24.rs 123. -/
def engine (cfg : Cfg) : Chf.HashEngine where
  State := Engine
  Midstate := State
  blockSize := Engine.BLOCK_SIZE
  default := pure (Engine.default cfg)
  new := pure (Engine.default cfg)
  input self data := Engine.input cfg self data
  nBytesHashed self := Engine.n_bytes_hashed cfg self
  finalize self := pure (Engine.finalize cfg self)
  midstate self := pure (Engine.midstate cfg self)
  fromMidstate midstate length := pure (Engine.from_midstate cfg midstate length)

end Chf.Source.Siphash24
