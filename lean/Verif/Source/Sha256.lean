/- Generated from /repo/src/sha256.rs by tools/rust2lean.py; do not edit. -/
import Verif.Source.Lib
import Verif.Model.Sha256Simd
import Verif.Source.SerdeMacros

namespace Chf.Source.Sha256
open Chf
set_option linter.unusedVariables false

/-- `struct Hash`. -/
structure Hash where
  f0 : List Byte

/-- `struct Engine`. -/
structure Engine where
  buffer : List Byte
  h : List (BitVec 32)
  length : Nat

/-- `struct Midstate`. -/
structure Midstate where
  f0 : List Byte

/-- `const Hash::LEN`. -/
def Hash.LEN : Nat := 32

/-- `const Hash::N`. -/
def Hash.N : Nat := 32

/-- `const BLOCK_SIZE`. -/
def BLOCK_SIZE : Nat := 64

/-- `const Engine::BLOCK_SIZE`. -/
def Engine.BLOCK_SIZE : Nat := 64

/-- `const Midstate::N`. -/
def Midstate.N : Nat := 32

/-- `const Midstate::LEN`. -/
def Midstate.LEN : Nat := 32

/-- `Engine::default`, sha256.rs 32-41. -/
def Engine.default (cfg : Cfg) : Engine :=
  ({ h := [0x6a09e667#32, 0xbb67ae85#32, 0x3c6ef372#32, 0xa54ff53a#32, 0x510e527f#32, 0x9b05688c#32, 0x1f83d9ab#32, 0x5be0cd19#32], length := 0, buffer := List.replicate 64 0#8 } : Engine)

/-- `Hash::engine`, internal_macros.rs 165. -/
def Hash.engine (cfg : Cfg) : Engine :=
  Engine.default cfg

/-- The variables state0, state1, msg, tmp, msg0, msg1, msg2, msg3, abef_save, cdgh_save of `process_block_simd_x86_intrinsics`. -/
abbrev Engine.process_block_simd_x86_intrinsics.State1 := (BitVec 128) × (BitVec 128) × (BitVec 128) × (BitVec 128) × (BitVec 128) × (BitVec 128) × (BitVec 128) × (BitVec 128) × (BitVec 128) × (BitVec 128)

/-- line 500 -/
def Engine.process_block_simd_x86_intrinsics.line1_0 (cfg : Cfg) (self : Engine) (MASK : BitVec 128) (block_offset : Nat) : Engine.process_block_simd_x86_intrinsics.State1 → Res Engine.process_block_simd_x86_intrinsics.State1 :=
  fun (state0, state1, msg, tmp, msg0, msg1, msg2, msg3, abef_save, cdgh_save) => do
    let abef_save : BitVec 128 := state0
    pure (state0, state1, msg, tmp, msg0, msg1, msg2, msg3, abef_save, cdgh_save)

/-- line 501 -/
def Engine.process_block_simd_x86_intrinsics.line1_1 (cfg : Cfg) (self : Engine) (MASK : BitVec 128) (block_offset : Nat) : Engine.process_block_simd_x86_intrinsics.State1 → Res Engine.process_block_simd_x86_intrinsics.State1 :=
  fun (state0, state1, msg, tmp, msg0, msg1, msg2, msg3, abef_save, cdgh_save) => do
    let cdgh_save : BitVec 128 := state1
    pure (state0, state1, msg, tmp, msg0, msg1, msg2, msg3, abef_save, cdgh_save)

/-- line 504 -/
def Engine.process_block_simd_x86_intrinsics.line1_2 (cfg : Cfg) (self : Engine) (MASK : BitVec 128) (block_offset : Nat) : Engine.process_block_simd_x86_intrinsics.State1 → Res Engine.process_block_simd_x86_intrinsics.State1 :=
  fun (state0, state1, msg, tmp, msg0, msg1, msg2, msg3, abef_save, cdgh_save) => do
    let msg ← Rs.loadu8 self.buffer block_offset
    pure (state0, state1, msg, tmp, msg0, msg1, msg2, msg3, abef_save, cdgh_save)

/-- line 505 -/
def Engine.process_block_simd_x86_intrinsics.line1_3 (cfg : Cfg) (self : Engine) (MASK : BitVec 128) (block_offset : Nat) : Engine.process_block_simd_x86_intrinsics.State1 → Res Engine.process_block_simd_x86_intrinsics.State1 :=
  fun (state0, state1, msg, tmp, msg0, msg1, msg2, msg3, abef_save, cdgh_save) => do
    let msg0 : BitVec 128 := Sha256.Simd.mm_shuffle_epi8 msg MASK
    pure (state0, state1, msg, tmp, msg0, msg1, msg2, msg3, abef_save, cdgh_save)

/-- line 506 -/
def Engine.process_block_simd_x86_intrinsics.line1_4 (cfg : Cfg) (self : Engine) (MASK : BitVec 128) (block_offset : Nat) : Engine.process_block_simd_x86_intrinsics.State1 → Res Engine.process_block_simd_x86_intrinsics.State1 :=
  fun (state0, state1, msg, tmp, msg0, msg1, msg2, msg3, abef_save, cdgh_save) => do
    let msg := Sha256.Simd.mm_add_epi32 msg0 (Sha256.Simd.mm_set_epi64x 0xE9B5DBA5B5C0FBCF#64 0x71374491428A2F98#64)
    pure (state0, state1, msg, tmp, msg0, msg1, msg2, msg3, abef_save, cdgh_save)

/-- line 510 -/
def Engine.process_block_simd_x86_intrinsics.line1_5 (cfg : Cfg) (self : Engine) (MASK : BitVec 128) (block_offset : Nat) : Engine.process_block_simd_x86_intrinsics.State1 → Res Engine.process_block_simd_x86_intrinsics.State1 :=
  fun (state0, state1, msg, tmp, msg0, msg1, msg2, msg3, abef_save, cdgh_save) => do
    let state1 := Sha256.Simd.mm_sha256rnds2_epu32 state1 state0 msg
    pure (state0, state1, msg, tmp, msg0, msg1, msg2, msg3, abef_save, cdgh_save)

/-- line 511 -/
def Engine.process_block_simd_x86_intrinsics.line1_6 (cfg : Cfg) (self : Engine) (MASK : BitVec 128) (block_offset : Nat) : Engine.process_block_simd_x86_intrinsics.State1 → Res Engine.process_block_simd_x86_intrinsics.State1 :=
  fun (state0, state1, msg, tmp, msg0, msg1, msg2, msg3, abef_save, cdgh_save) => do
    let msg := Sha256.Simd.mm_shuffle_epi32 msg 0x0E
    pure (state0, state1, msg, tmp, msg0, msg1, msg2, msg3, abef_save, cdgh_save)

/-- line 512 -/
def Engine.process_block_simd_x86_intrinsics.line1_7 (cfg : Cfg) (self : Engine) (MASK : BitVec 128) (block_offset : Nat) : Engine.process_block_simd_x86_intrinsics.State1 → Res Engine.process_block_simd_x86_intrinsics.State1 :=
  fun (state0, state1, msg, tmp, msg0, msg1, msg2, msg3, abef_save, cdgh_save) => do
    let state0 := Sha256.Simd.mm_sha256rnds2_epu32 state0 state1 msg
    pure (state0, state1, msg, tmp, msg0, msg1, msg2, msg3, abef_save, cdgh_save)

/-- line 515 -/
def Engine.process_block_simd_x86_intrinsics.line1_8 (cfg : Cfg) (self : Engine) (MASK : BitVec 128) (block_offset : Nat) : Engine.process_block_simd_x86_intrinsics.State1 → Res Engine.process_block_simd_x86_intrinsics.State1 :=
  fun (state0, state1, msg, tmp, msg0, msg1, msg2, msg3, abef_save, cdgh_save) => do
    let x_4 ← addUsize cfg block_offset 16
    let msg1 ← Rs.loadu8 self.buffer x_4
    pure (state0, state1, msg, tmp, msg0, msg1, msg2, msg3, abef_save, cdgh_save)

/-- line 516 -/
def Engine.process_block_simd_x86_intrinsics.line1_9 (cfg : Cfg) (self : Engine) (MASK : BitVec 128) (block_offset : Nat) : Engine.process_block_simd_x86_intrinsics.State1 → Res Engine.process_block_simd_x86_intrinsics.State1 :=
  fun (state0, state1, msg, tmp, msg0, msg1, msg2, msg3, abef_save, cdgh_save) => do
    let msg1 := Sha256.Simd.mm_shuffle_epi8 msg1 MASK
    pure (state0, state1, msg, tmp, msg0, msg1, msg2, msg3, abef_save, cdgh_save)

/-- line 517 -/
def Engine.process_block_simd_x86_intrinsics.line1_10 (cfg : Cfg) (self : Engine) (MASK : BitVec 128) (block_offset : Nat) : Engine.process_block_simd_x86_intrinsics.State1 → Res Engine.process_block_simd_x86_intrinsics.State1 :=
  fun (state0, state1, msg, tmp, msg0, msg1, msg2, msg3, abef_save, cdgh_save) => do
    let msg := Sha256.Simd.mm_add_epi32 msg1 (Sha256.Simd.mm_set_epi64x 0xAB1C5ED5923F82A4#64 0x59F111F13956C25B#64)
    pure (state0, state1, msg, tmp, msg0, msg1, msg2, msg3, abef_save, cdgh_save)

/-- line 521 -/
def Engine.process_block_simd_x86_intrinsics.line1_11 (cfg : Cfg) (self : Engine) (MASK : BitVec 128) (block_offset : Nat) : Engine.process_block_simd_x86_intrinsics.State1 → Res Engine.process_block_simd_x86_intrinsics.State1 :=
  fun (state0, state1, msg, tmp, msg0, msg1, msg2, msg3, abef_save, cdgh_save) => do
    let state1 := Sha256.Simd.mm_sha256rnds2_epu32 state1 state0 msg
    pure (state0, state1, msg, tmp, msg0, msg1, msg2, msg3, abef_save, cdgh_save)

/-- line 522 -/
def Engine.process_block_simd_x86_intrinsics.line1_12 (cfg : Cfg) (self : Engine) (MASK : BitVec 128) (block_offset : Nat) : Engine.process_block_simd_x86_intrinsics.State1 → Res Engine.process_block_simd_x86_intrinsics.State1 :=
  fun (state0, state1, msg, tmp, msg0, msg1, msg2, msg3, abef_save, cdgh_save) => do
    let msg := Sha256.Simd.mm_shuffle_epi32 msg 0x0E
    pure (state0, state1, msg, tmp, msg0, msg1, msg2, msg3, abef_save, cdgh_save)

/-- line 523 -/
def Engine.process_block_simd_x86_intrinsics.line1_13 (cfg : Cfg) (self : Engine) (MASK : BitVec 128) (block_offset : Nat) : Engine.process_block_simd_x86_intrinsics.State1 → Res Engine.process_block_simd_x86_intrinsics.State1 :=
  fun (state0, state1, msg, tmp, msg0, msg1, msg2, msg3, abef_save, cdgh_save) => do
    let state0 := Sha256.Simd.mm_sha256rnds2_epu32 state0 state1 msg
    pure (state0, state1, msg, tmp, msg0, msg1, msg2, msg3, abef_save, cdgh_save)

/-- line 524 -/
def Engine.process_block_simd_x86_intrinsics.line1_14 (cfg : Cfg) (self : Engine) (MASK : BitVec 128) (block_offset : Nat) : Engine.process_block_simd_x86_intrinsics.State1 → Res Engine.process_block_simd_x86_intrinsics.State1 :=
  fun (state0, state1, msg, tmp, msg0, msg1, msg2, msg3, abef_save, cdgh_save) => do
    let msg0 := Sha256.Simd.mm_sha256msg1_epu32 msg0 msg1
    pure (state0, state1, msg, tmp, msg0, msg1, msg2, msg3, abef_save, cdgh_save)

/-- line 527 -/
def Engine.process_block_simd_x86_intrinsics.line1_15 (cfg : Cfg) (self : Engine) (MASK : BitVec 128) (block_offset : Nat) : Engine.process_block_simd_x86_intrinsics.State1 → Res Engine.process_block_simd_x86_intrinsics.State1 :=
  fun (state0, state1, msg, tmp, msg0, msg1, msg2, msg3, abef_save, cdgh_save) => do
    let x_6 ← addUsize cfg block_offset 32
    let msg2 ← Rs.loadu8 self.buffer x_6
    pure (state0, state1, msg, tmp, msg0, msg1, msg2, msg3, abef_save, cdgh_save)

/-- line 528 -/
def Engine.process_block_simd_x86_intrinsics.line1_16 (cfg : Cfg) (self : Engine) (MASK : BitVec 128) (block_offset : Nat) : Engine.process_block_simd_x86_intrinsics.State1 → Res Engine.process_block_simd_x86_intrinsics.State1 :=
  fun (state0, state1, msg, tmp, msg0, msg1, msg2, msg3, abef_save, cdgh_save) => do
    let msg2 := Sha256.Simd.mm_shuffle_epi8 msg2 MASK
    pure (state0, state1, msg, tmp, msg0, msg1, msg2, msg3, abef_save, cdgh_save)

/-- line 529 -/
def Engine.process_block_simd_x86_intrinsics.line1_17 (cfg : Cfg) (self : Engine) (MASK : BitVec 128) (block_offset : Nat) : Engine.process_block_simd_x86_intrinsics.State1 → Res Engine.process_block_simd_x86_intrinsics.State1 :=
  fun (state0, state1, msg, tmp, msg0, msg1, msg2, msg3, abef_save, cdgh_save) => do
    let msg := Sha256.Simd.mm_add_epi32 msg2 (Sha256.Simd.mm_set_epi64x 0x550C7DC3243185BE#64 0x12835B01D807AA98#64)
    pure (state0, state1, msg, tmp, msg0, msg1, msg2, msg3, abef_save, cdgh_save)

/-- line 533 -/
def Engine.process_block_simd_x86_intrinsics.line1_18 (cfg : Cfg) (self : Engine) (MASK : BitVec 128) (block_offset : Nat) : Engine.process_block_simd_x86_intrinsics.State1 → Res Engine.process_block_simd_x86_intrinsics.State1 :=
  fun (state0, state1, msg, tmp, msg0, msg1, msg2, msg3, abef_save, cdgh_save) => do
    let state1 := Sha256.Simd.mm_sha256rnds2_epu32 state1 state0 msg
    pure (state0, state1, msg, tmp, msg0, msg1, msg2, msg3, abef_save, cdgh_save)

/-- line 534 -/
def Engine.process_block_simd_x86_intrinsics.line1_19 (cfg : Cfg) (self : Engine) (MASK : BitVec 128) (block_offset : Nat) : Engine.process_block_simd_x86_intrinsics.State1 → Res Engine.process_block_simd_x86_intrinsics.State1 :=
  fun (state0, state1, msg, tmp, msg0, msg1, msg2, msg3, abef_save, cdgh_save) => do
    let msg := Sha256.Simd.mm_shuffle_epi32 msg 0x0E
    pure (state0, state1, msg, tmp, msg0, msg1, msg2, msg3, abef_save, cdgh_save)

/-- line 535 -/
def Engine.process_block_simd_x86_intrinsics.line1_20 (cfg : Cfg) (self : Engine) (MASK : BitVec 128) (block_offset : Nat) : Engine.process_block_simd_x86_intrinsics.State1 → Res Engine.process_block_simd_x86_intrinsics.State1 :=
  fun (state0, state1, msg, tmp, msg0, msg1, msg2, msg3, abef_save, cdgh_save) => do
    let state0 := Sha256.Simd.mm_sha256rnds2_epu32 state0 state1 msg
    pure (state0, state1, msg, tmp, msg0, msg1, msg2, msg3, abef_save, cdgh_save)

/-- line 536 -/
def Engine.process_block_simd_x86_intrinsics.line1_21 (cfg : Cfg) (self : Engine) (MASK : BitVec 128) (block_offset : Nat) : Engine.process_block_simd_x86_intrinsics.State1 → Res Engine.process_block_simd_x86_intrinsics.State1 :=
  fun (state0, state1, msg, tmp, msg0, msg1, msg2, msg3, abef_save, cdgh_save) => do
    let msg1 := Sha256.Simd.mm_sha256msg1_epu32 msg1 msg2
    pure (state0, state1, msg, tmp, msg0, msg1, msg2, msg3, abef_save, cdgh_save)

/-- line 539 -/
def Engine.process_block_simd_x86_intrinsics.line1_22 (cfg : Cfg) (self : Engine) (MASK : BitVec 128) (block_offset : Nat) : Engine.process_block_simd_x86_intrinsics.State1 → Res Engine.process_block_simd_x86_intrinsics.State1 :=
  fun (state0, state1, msg, tmp, msg0, msg1, msg2, msg3, abef_save, cdgh_save) => do
    let x_8 ← addUsize cfg block_offset 48
    let msg3 ← Rs.loadu8 self.buffer x_8
    pure (state0, state1, msg, tmp, msg0, msg1, msg2, msg3, abef_save, cdgh_save)

/-- line 540 -/
def Engine.process_block_simd_x86_intrinsics.line1_23 (cfg : Cfg) (self : Engine) (MASK : BitVec 128) (block_offset : Nat) : Engine.process_block_simd_x86_intrinsics.State1 → Res Engine.process_block_simd_x86_intrinsics.State1 :=
  fun (state0, state1, msg, tmp, msg0, msg1, msg2, msg3, abef_save, cdgh_save) => do
    let msg3 := Sha256.Simd.mm_shuffle_epi8 msg3 MASK
    pure (state0, state1, msg, tmp, msg0, msg1, msg2, msg3, abef_save, cdgh_save)

/-- line 541 -/
def Engine.process_block_simd_x86_intrinsics.line1_24 (cfg : Cfg) (self : Engine) (MASK : BitVec 128) (block_offset : Nat) : Engine.process_block_simd_x86_intrinsics.State1 → Res Engine.process_block_simd_x86_intrinsics.State1 :=
  fun (state0, state1, msg, tmp, msg0, msg1, msg2, msg3, abef_save, cdgh_save) => do
    let msg := Sha256.Simd.mm_add_epi32 msg3 (Sha256.Simd.mm_set_epi64x 0xC19BF1749BDC06A7#64 0x80DEB1FE72BE5D74#64)
    pure (state0, state1, msg, tmp, msg0, msg1, msg2, msg3, abef_save, cdgh_save)

/-- line 545 -/
def Engine.process_block_simd_x86_intrinsics.line1_25 (cfg : Cfg) (self : Engine) (MASK : BitVec 128) (block_offset : Nat) : Engine.process_block_simd_x86_intrinsics.State1 → Res Engine.process_block_simd_x86_intrinsics.State1 :=
  fun (state0, state1, msg, tmp, msg0, msg1, msg2, msg3, abef_save, cdgh_save) => do
    let state1 := Sha256.Simd.mm_sha256rnds2_epu32 state1 state0 msg
    pure (state0, state1, msg, tmp, msg0, msg1, msg2, msg3, abef_save, cdgh_save)

/-- line 546 -/
def Engine.process_block_simd_x86_intrinsics.line1_26 (cfg : Cfg) (self : Engine) (MASK : BitVec 128) (block_offset : Nat) : Engine.process_block_simd_x86_intrinsics.State1 → Res Engine.process_block_simd_x86_intrinsics.State1 :=
  fun (state0, state1, msg, tmp, msg0, msg1, msg2, msg3, abef_save, cdgh_save) => do
    let tmp := Sha256.Simd.mm_alignr_epi8 msg3 msg2 4
    pure (state0, state1, msg, tmp, msg0, msg1, msg2, msg3, abef_save, cdgh_save)

/-- line 547 -/
def Engine.process_block_simd_x86_intrinsics.line1_27 (cfg : Cfg) (self : Engine) (MASK : BitVec 128) (block_offset : Nat) : Engine.process_block_simd_x86_intrinsics.State1 → Res Engine.process_block_simd_x86_intrinsics.State1 :=
  fun (state0, state1, msg, tmp, msg0, msg1, msg2, msg3, abef_save, cdgh_save) => do
    let msg0 := Sha256.Simd.mm_add_epi32 msg0 tmp
    pure (state0, state1, msg, tmp, msg0, msg1, msg2, msg3, abef_save, cdgh_save)

/-- line 548 -/
def Engine.process_block_simd_x86_intrinsics.line1_28 (cfg : Cfg) (self : Engine) (MASK : BitVec 128) (block_offset : Nat) : Engine.process_block_simd_x86_intrinsics.State1 → Res Engine.process_block_simd_x86_intrinsics.State1 :=
  fun (state0, state1, msg, tmp, msg0, msg1, msg2, msg3, abef_save, cdgh_save) => do
    let msg0 := Sha256.Simd.mm_sha256msg2_epu32 msg0 msg3
    pure (state0, state1, msg, tmp, msg0, msg1, msg2, msg3, abef_save, cdgh_save)

/-- line 549 -/
def Engine.process_block_simd_x86_intrinsics.line1_29 (cfg : Cfg) (self : Engine) (MASK : BitVec 128) (block_offset : Nat) : Engine.process_block_simd_x86_intrinsics.State1 → Res Engine.process_block_simd_x86_intrinsics.State1 :=
  fun (state0, state1, msg, tmp, msg0, msg1, msg2, msg3, abef_save, cdgh_save) => do
    let msg := Sha256.Simd.mm_shuffle_epi32 msg 0x0E
    pure (state0, state1, msg, tmp, msg0, msg1, msg2, msg3, abef_save, cdgh_save)

/-- line 550 -/
def Engine.process_block_simd_x86_intrinsics.line1_30 (cfg : Cfg) (self : Engine) (MASK : BitVec 128) (block_offset : Nat) : Engine.process_block_simd_x86_intrinsics.State1 → Res Engine.process_block_simd_x86_intrinsics.State1 :=
  fun (state0, state1, msg, tmp, msg0, msg1, msg2, msg3, abef_save, cdgh_save) => do
    let state0 := Sha256.Simd.mm_sha256rnds2_epu32 state0 state1 msg
    pure (state0, state1, msg, tmp, msg0, msg1, msg2, msg3, abef_save, cdgh_save)

/-- line 551 -/
def Engine.process_block_simd_x86_intrinsics.line1_31 (cfg : Cfg) (self : Engine) (MASK : BitVec 128) (block_offset : Nat) : Engine.process_block_simd_x86_intrinsics.State1 → Res Engine.process_block_simd_x86_intrinsics.State1 :=
  fun (state0, state1, msg, tmp, msg0, msg1, msg2, msg3, abef_save, cdgh_save) => do
    let msg2 := Sha256.Simd.mm_sha256msg1_epu32 msg2 msg3
    pure (state0, state1, msg, tmp, msg0, msg1, msg2, msg3, abef_save, cdgh_save)

/-- line 554 -/
def Engine.process_block_simd_x86_intrinsics.line1_32 (cfg : Cfg) (self : Engine) (MASK : BitVec 128) (block_offset : Nat) : Engine.process_block_simd_x86_intrinsics.State1 → Res Engine.process_block_simd_x86_intrinsics.State1 :=
  fun (state0, state1, msg, tmp, msg0, msg1, msg2, msg3, abef_save, cdgh_save) => do
    let msg := Sha256.Simd.mm_add_epi32 msg0 (Sha256.Simd.mm_set_epi64x 0x240CA1CC0FC19DC6#64 0xEFBE4786E49B69C1#64)
    pure (state0, state1, msg, tmp, msg0, msg1, msg2, msg3, abef_save, cdgh_save)

/-- line 558 -/
def Engine.process_block_simd_x86_intrinsics.line1_33 (cfg : Cfg) (self : Engine) (MASK : BitVec 128) (block_offset : Nat) : Engine.process_block_simd_x86_intrinsics.State1 → Res Engine.process_block_simd_x86_intrinsics.State1 :=
  fun (state0, state1, msg, tmp, msg0, msg1, msg2, msg3, abef_save, cdgh_save) => do
    let state1 := Sha256.Simd.mm_sha256rnds2_epu32 state1 state0 msg
    pure (state0, state1, msg, tmp, msg0, msg1, msg2, msg3, abef_save, cdgh_save)

/-- line 559 -/
def Engine.process_block_simd_x86_intrinsics.line1_34 (cfg : Cfg) (self : Engine) (MASK : BitVec 128) (block_offset : Nat) : Engine.process_block_simd_x86_intrinsics.State1 → Res Engine.process_block_simd_x86_intrinsics.State1 :=
  fun (state0, state1, msg, tmp, msg0, msg1, msg2, msg3, abef_save, cdgh_save) => do
    let tmp := Sha256.Simd.mm_alignr_epi8 msg0 msg3 4
    pure (state0, state1, msg, tmp, msg0, msg1, msg2, msg3, abef_save, cdgh_save)

/-- line 560 -/
def Engine.process_block_simd_x86_intrinsics.line1_35 (cfg : Cfg) (self : Engine) (MASK : BitVec 128) (block_offset : Nat) : Engine.process_block_simd_x86_intrinsics.State1 → Res Engine.process_block_simd_x86_intrinsics.State1 :=
  fun (state0, state1, msg, tmp, msg0, msg1, msg2, msg3, abef_save, cdgh_save) => do
    let msg1 := Sha256.Simd.mm_add_epi32 msg1 tmp
    pure (state0, state1, msg, tmp, msg0, msg1, msg2, msg3, abef_save, cdgh_save)

/-- line 561 -/
def Engine.process_block_simd_x86_intrinsics.line1_36 (cfg : Cfg) (self : Engine) (MASK : BitVec 128) (block_offset : Nat) : Engine.process_block_simd_x86_intrinsics.State1 → Res Engine.process_block_simd_x86_intrinsics.State1 :=
  fun (state0, state1, msg, tmp, msg0, msg1, msg2, msg3, abef_save, cdgh_save) => do
    let msg1 := Sha256.Simd.mm_sha256msg2_epu32 msg1 msg0
    pure (state0, state1, msg, tmp, msg0, msg1, msg2, msg3, abef_save, cdgh_save)

/-- line 562 -/
def Engine.process_block_simd_x86_intrinsics.line1_37 (cfg : Cfg) (self : Engine) (MASK : BitVec 128) (block_offset : Nat) : Engine.process_block_simd_x86_intrinsics.State1 → Res Engine.process_block_simd_x86_intrinsics.State1 :=
  fun (state0, state1, msg, tmp, msg0, msg1, msg2, msg3, abef_save, cdgh_save) => do
    let msg := Sha256.Simd.mm_shuffle_epi32 msg 0x0E
    pure (state0, state1, msg, tmp, msg0, msg1, msg2, msg3, abef_save, cdgh_save)

/-- line 563 -/
def Engine.process_block_simd_x86_intrinsics.line1_38 (cfg : Cfg) (self : Engine) (MASK : BitVec 128) (block_offset : Nat) : Engine.process_block_simd_x86_intrinsics.State1 → Res Engine.process_block_simd_x86_intrinsics.State1 :=
  fun (state0, state1, msg, tmp, msg0, msg1, msg2, msg3, abef_save, cdgh_save) => do
    let state0 := Sha256.Simd.mm_sha256rnds2_epu32 state0 state1 msg
    pure (state0, state1, msg, tmp, msg0, msg1, msg2, msg3, abef_save, cdgh_save)

/-- line 564 -/
def Engine.process_block_simd_x86_intrinsics.line1_39 (cfg : Cfg) (self : Engine) (MASK : BitVec 128) (block_offset : Nat) : Engine.process_block_simd_x86_intrinsics.State1 → Res Engine.process_block_simd_x86_intrinsics.State1 :=
  fun (state0, state1, msg, tmp, msg0, msg1, msg2, msg3, abef_save, cdgh_save) => do
    let msg3 := Sha256.Simd.mm_sha256msg1_epu32 msg3 msg0
    pure (state0, state1, msg, tmp, msg0, msg1, msg2, msg3, abef_save, cdgh_save)

/-- line 567 -/
def Engine.process_block_simd_x86_intrinsics.line1_40 (cfg : Cfg) (self : Engine) (MASK : BitVec 128) (block_offset : Nat) : Engine.process_block_simd_x86_intrinsics.State1 → Res Engine.process_block_simd_x86_intrinsics.State1 :=
  fun (state0, state1, msg, tmp, msg0, msg1, msg2, msg3, abef_save, cdgh_save) => do
    let msg := Sha256.Simd.mm_add_epi32 msg1 (Sha256.Simd.mm_set_epi64x 0x76F988DA5CB0A9DC#64 0x4A7484AA2DE92C6F#64)
    pure (state0, state1, msg, tmp, msg0, msg1, msg2, msg3, abef_save, cdgh_save)

/-- line 571 -/
def Engine.process_block_simd_x86_intrinsics.line1_41 (cfg : Cfg) (self : Engine) (MASK : BitVec 128) (block_offset : Nat) : Engine.process_block_simd_x86_intrinsics.State1 → Res Engine.process_block_simd_x86_intrinsics.State1 :=
  fun (state0, state1, msg, tmp, msg0, msg1, msg2, msg3, abef_save, cdgh_save) => do
    let state1 := Sha256.Simd.mm_sha256rnds2_epu32 state1 state0 msg
    pure (state0, state1, msg, tmp, msg0, msg1, msg2, msg3, abef_save, cdgh_save)

/-- line 572 -/
def Engine.process_block_simd_x86_intrinsics.line1_42 (cfg : Cfg) (self : Engine) (MASK : BitVec 128) (block_offset : Nat) : Engine.process_block_simd_x86_intrinsics.State1 → Res Engine.process_block_simd_x86_intrinsics.State1 :=
  fun (state0, state1, msg, tmp, msg0, msg1, msg2, msg3, abef_save, cdgh_save) => do
    let tmp := Sha256.Simd.mm_alignr_epi8 msg1 msg0 4
    pure (state0, state1, msg, tmp, msg0, msg1, msg2, msg3, abef_save, cdgh_save)

/-- line 573 -/
def Engine.process_block_simd_x86_intrinsics.line1_43 (cfg : Cfg) (self : Engine) (MASK : BitVec 128) (block_offset : Nat) : Engine.process_block_simd_x86_intrinsics.State1 → Res Engine.process_block_simd_x86_intrinsics.State1 :=
  fun (state0, state1, msg, tmp, msg0, msg1, msg2, msg3, abef_save, cdgh_save) => do
    let msg2 := Sha256.Simd.mm_add_epi32 msg2 tmp
    pure (state0, state1, msg, tmp, msg0, msg1, msg2, msg3, abef_save, cdgh_save)

/-- line 574 -/
def Engine.process_block_simd_x86_intrinsics.line1_44 (cfg : Cfg) (self : Engine) (MASK : BitVec 128) (block_offset : Nat) : Engine.process_block_simd_x86_intrinsics.State1 → Res Engine.process_block_simd_x86_intrinsics.State1 :=
  fun (state0, state1, msg, tmp, msg0, msg1, msg2, msg3, abef_save, cdgh_save) => do
    let msg2 := Sha256.Simd.mm_sha256msg2_epu32 msg2 msg1
    pure (state0, state1, msg, tmp, msg0, msg1, msg2, msg3, abef_save, cdgh_save)

/-- line 575 -/
def Engine.process_block_simd_x86_intrinsics.line1_45 (cfg : Cfg) (self : Engine) (MASK : BitVec 128) (block_offset : Nat) : Engine.process_block_simd_x86_intrinsics.State1 → Res Engine.process_block_simd_x86_intrinsics.State1 :=
  fun (state0, state1, msg, tmp, msg0, msg1, msg2, msg3, abef_save, cdgh_save) => do
    let msg := Sha256.Simd.mm_shuffle_epi32 msg 0x0E
    pure (state0, state1, msg, tmp, msg0, msg1, msg2, msg3, abef_save, cdgh_save)

/-- line 576 -/
def Engine.process_block_simd_x86_intrinsics.line1_46 (cfg : Cfg) (self : Engine) (MASK : BitVec 128) (block_offset : Nat) : Engine.process_block_simd_x86_intrinsics.State1 → Res Engine.process_block_simd_x86_intrinsics.State1 :=
  fun (state0, state1, msg, tmp, msg0, msg1, msg2, msg3, abef_save, cdgh_save) => do
    let state0 := Sha256.Simd.mm_sha256rnds2_epu32 state0 state1 msg
    pure (state0, state1, msg, tmp, msg0, msg1, msg2, msg3, abef_save, cdgh_save)

/-- line 577 -/
def Engine.process_block_simd_x86_intrinsics.line1_47 (cfg : Cfg) (self : Engine) (MASK : BitVec 128) (block_offset : Nat) : Engine.process_block_simd_x86_intrinsics.State1 → Res Engine.process_block_simd_x86_intrinsics.State1 :=
  fun (state0, state1, msg, tmp, msg0, msg1, msg2, msg3, abef_save, cdgh_save) => do
    let msg0 := Sha256.Simd.mm_sha256msg1_epu32 msg0 msg1
    pure (state0, state1, msg, tmp, msg0, msg1, msg2, msg3, abef_save, cdgh_save)

/-- line 580 -/
def Engine.process_block_simd_x86_intrinsics.line1_48 (cfg : Cfg) (self : Engine) (MASK : BitVec 128) (block_offset : Nat) : Engine.process_block_simd_x86_intrinsics.State1 → Res Engine.process_block_simd_x86_intrinsics.State1 :=
  fun (state0, state1, msg, tmp, msg0, msg1, msg2, msg3, abef_save, cdgh_save) => do
    let msg := Sha256.Simd.mm_add_epi32 msg2 (Sha256.Simd.mm_set_epi64x 0xBF597FC7B00327C8#64 0xA831C66D983E5152#64)
    pure (state0, state1, msg, tmp, msg0, msg1, msg2, msg3, abef_save, cdgh_save)

/-- line 584 -/
def Engine.process_block_simd_x86_intrinsics.line1_49 (cfg : Cfg) (self : Engine) (MASK : BitVec 128) (block_offset : Nat) : Engine.process_block_simd_x86_intrinsics.State1 → Res Engine.process_block_simd_x86_intrinsics.State1 :=
  fun (state0, state1, msg, tmp, msg0, msg1, msg2, msg3, abef_save, cdgh_save) => do
    let state1 := Sha256.Simd.mm_sha256rnds2_epu32 state1 state0 msg
    pure (state0, state1, msg, tmp, msg0, msg1, msg2, msg3, abef_save, cdgh_save)

/-- line 585 -/
def Engine.process_block_simd_x86_intrinsics.line1_50 (cfg : Cfg) (self : Engine) (MASK : BitVec 128) (block_offset : Nat) : Engine.process_block_simd_x86_intrinsics.State1 → Res Engine.process_block_simd_x86_intrinsics.State1 :=
  fun (state0, state1, msg, tmp, msg0, msg1, msg2, msg3, abef_save, cdgh_save) => do
    let tmp := Sha256.Simd.mm_alignr_epi8 msg2 msg1 4
    pure (state0, state1, msg, tmp, msg0, msg1, msg2, msg3, abef_save, cdgh_save)

/-- line 586 -/
def Engine.process_block_simd_x86_intrinsics.line1_51 (cfg : Cfg) (self : Engine) (MASK : BitVec 128) (block_offset : Nat) : Engine.process_block_simd_x86_intrinsics.State1 → Res Engine.process_block_simd_x86_intrinsics.State1 :=
  fun (state0, state1, msg, tmp, msg0, msg1, msg2, msg3, abef_save, cdgh_save) => do
    let msg3 := Sha256.Simd.mm_add_epi32 msg3 tmp
    pure (state0, state1, msg, tmp, msg0, msg1, msg2, msg3, abef_save, cdgh_save)

/-- line 587 -/
def Engine.process_block_simd_x86_intrinsics.line1_52 (cfg : Cfg) (self : Engine) (MASK : BitVec 128) (block_offset : Nat) : Engine.process_block_simd_x86_intrinsics.State1 → Res Engine.process_block_simd_x86_intrinsics.State1 :=
  fun (state0, state1, msg, tmp, msg0, msg1, msg2, msg3, abef_save, cdgh_save) => do
    let msg3 := Sha256.Simd.mm_sha256msg2_epu32 msg3 msg2
    pure (state0, state1, msg, tmp, msg0, msg1, msg2, msg3, abef_save, cdgh_save)

/-- line 588 -/
def Engine.process_block_simd_x86_intrinsics.line1_53 (cfg : Cfg) (self : Engine) (MASK : BitVec 128) (block_offset : Nat) : Engine.process_block_simd_x86_intrinsics.State1 → Res Engine.process_block_simd_x86_intrinsics.State1 :=
  fun (state0, state1, msg, tmp, msg0, msg1, msg2, msg3, abef_save, cdgh_save) => do
    let msg := Sha256.Simd.mm_shuffle_epi32 msg 0x0E
    pure (state0, state1, msg, tmp, msg0, msg1, msg2, msg3, abef_save, cdgh_save)

/-- line 589 -/
def Engine.process_block_simd_x86_intrinsics.line1_54 (cfg : Cfg) (self : Engine) (MASK : BitVec 128) (block_offset : Nat) : Engine.process_block_simd_x86_intrinsics.State1 → Res Engine.process_block_simd_x86_intrinsics.State1 :=
  fun (state0, state1, msg, tmp, msg0, msg1, msg2, msg3, abef_save, cdgh_save) => do
    let state0 := Sha256.Simd.mm_sha256rnds2_epu32 state0 state1 msg
    pure (state0, state1, msg, tmp, msg0, msg1, msg2, msg3, abef_save, cdgh_save)

/-- line 590 -/
def Engine.process_block_simd_x86_intrinsics.line1_55 (cfg : Cfg) (self : Engine) (MASK : BitVec 128) (block_offset : Nat) : Engine.process_block_simd_x86_intrinsics.State1 → Res Engine.process_block_simd_x86_intrinsics.State1 :=
  fun (state0, state1, msg, tmp, msg0, msg1, msg2, msg3, abef_save, cdgh_save) => do
    let msg1 := Sha256.Simd.mm_sha256msg1_epu32 msg1 msg2
    pure (state0, state1, msg, tmp, msg0, msg1, msg2, msg3, abef_save, cdgh_save)

/-- line 593 -/
def Engine.process_block_simd_x86_intrinsics.line1_56 (cfg : Cfg) (self : Engine) (MASK : BitVec 128) (block_offset : Nat) : Engine.process_block_simd_x86_intrinsics.State1 → Res Engine.process_block_simd_x86_intrinsics.State1 :=
  fun (state0, state1, msg, tmp, msg0, msg1, msg2, msg3, abef_save, cdgh_save) => do
    let msg := Sha256.Simd.mm_add_epi32 msg3 (Sha256.Simd.mm_set_epi64x 0x1429296706CA6351#64 0xD5A79147C6E00BF3#64)
    pure (state0, state1, msg, tmp, msg0, msg1, msg2, msg3, abef_save, cdgh_save)

/-- line 597 -/
def Engine.process_block_simd_x86_intrinsics.line1_57 (cfg : Cfg) (self : Engine) (MASK : BitVec 128) (block_offset : Nat) : Engine.process_block_simd_x86_intrinsics.State1 → Res Engine.process_block_simd_x86_intrinsics.State1 :=
  fun (state0, state1, msg, tmp, msg0, msg1, msg2, msg3, abef_save, cdgh_save) => do
    let state1 := Sha256.Simd.mm_sha256rnds2_epu32 state1 state0 msg
    pure (state0, state1, msg, tmp, msg0, msg1, msg2, msg3, abef_save, cdgh_save)

/-- line 598 -/
def Engine.process_block_simd_x86_intrinsics.line1_58 (cfg : Cfg) (self : Engine) (MASK : BitVec 128) (block_offset : Nat) : Engine.process_block_simd_x86_intrinsics.State1 → Res Engine.process_block_simd_x86_intrinsics.State1 :=
  fun (state0, state1, msg, tmp, msg0, msg1, msg2, msg3, abef_save, cdgh_save) => do
    let tmp := Sha256.Simd.mm_alignr_epi8 msg3 msg2 4
    pure (state0, state1, msg, tmp, msg0, msg1, msg2, msg3, abef_save, cdgh_save)

/-- line 599 -/
def Engine.process_block_simd_x86_intrinsics.line1_59 (cfg : Cfg) (self : Engine) (MASK : BitVec 128) (block_offset : Nat) : Engine.process_block_simd_x86_intrinsics.State1 → Res Engine.process_block_simd_x86_intrinsics.State1 :=
  fun (state0, state1, msg, tmp, msg0, msg1, msg2, msg3, abef_save, cdgh_save) => do
    let msg0 := Sha256.Simd.mm_add_epi32 msg0 tmp
    pure (state0, state1, msg, tmp, msg0, msg1, msg2, msg3, abef_save, cdgh_save)

/-- line 600 -/
def Engine.process_block_simd_x86_intrinsics.line1_60 (cfg : Cfg) (self : Engine) (MASK : BitVec 128) (block_offset : Nat) : Engine.process_block_simd_x86_intrinsics.State1 → Res Engine.process_block_simd_x86_intrinsics.State1 :=
  fun (state0, state1, msg, tmp, msg0, msg1, msg2, msg3, abef_save, cdgh_save) => do
    let msg0 := Sha256.Simd.mm_sha256msg2_epu32 msg0 msg3
    pure (state0, state1, msg, tmp, msg0, msg1, msg2, msg3, abef_save, cdgh_save)

/-- line 601 -/
def Engine.process_block_simd_x86_intrinsics.line1_61 (cfg : Cfg) (self : Engine) (MASK : BitVec 128) (block_offset : Nat) : Engine.process_block_simd_x86_intrinsics.State1 → Res Engine.process_block_simd_x86_intrinsics.State1 :=
  fun (state0, state1, msg, tmp, msg0, msg1, msg2, msg3, abef_save, cdgh_save) => do
    let msg := Sha256.Simd.mm_shuffle_epi32 msg 0x0E
    pure (state0, state1, msg, tmp, msg0, msg1, msg2, msg3, abef_save, cdgh_save)

/-- line 602 -/
def Engine.process_block_simd_x86_intrinsics.line1_62 (cfg : Cfg) (self : Engine) (MASK : BitVec 128) (block_offset : Nat) : Engine.process_block_simd_x86_intrinsics.State1 → Res Engine.process_block_simd_x86_intrinsics.State1 :=
  fun (state0, state1, msg, tmp, msg0, msg1, msg2, msg3, abef_save, cdgh_save) => do
    let state0 := Sha256.Simd.mm_sha256rnds2_epu32 state0 state1 msg
    pure (state0, state1, msg, tmp, msg0, msg1, msg2, msg3, abef_save, cdgh_save)

/-- line 603 -/
def Engine.process_block_simd_x86_intrinsics.line1_63 (cfg : Cfg) (self : Engine) (MASK : BitVec 128) (block_offset : Nat) : Engine.process_block_simd_x86_intrinsics.State1 → Res Engine.process_block_simd_x86_intrinsics.State1 :=
  fun (state0, state1, msg, tmp, msg0, msg1, msg2, msg3, abef_save, cdgh_save) => do
    let msg2 := Sha256.Simd.mm_sha256msg1_epu32 msg2 msg3
    pure (state0, state1, msg, tmp, msg0, msg1, msg2, msg3, abef_save, cdgh_save)

/-- line 606 -/
def Engine.process_block_simd_x86_intrinsics.line1_64 (cfg : Cfg) (self : Engine) (MASK : BitVec 128) (block_offset : Nat) : Engine.process_block_simd_x86_intrinsics.State1 → Res Engine.process_block_simd_x86_intrinsics.State1 :=
  fun (state0, state1, msg, tmp, msg0, msg1, msg2, msg3, abef_save, cdgh_save) => do
    let msg := Sha256.Simd.mm_add_epi32 msg0 (Sha256.Simd.mm_set_epi64x 0x53380D134D2C6DFC#64 0x2E1B213827B70A85#64)
    pure (state0, state1, msg, tmp, msg0, msg1, msg2, msg3, abef_save, cdgh_save)

/-- line 610 -/
def Engine.process_block_simd_x86_intrinsics.line1_65 (cfg : Cfg) (self : Engine) (MASK : BitVec 128) (block_offset : Nat) : Engine.process_block_simd_x86_intrinsics.State1 → Res Engine.process_block_simd_x86_intrinsics.State1 :=
  fun (state0, state1, msg, tmp, msg0, msg1, msg2, msg3, abef_save, cdgh_save) => do
    let state1 := Sha256.Simd.mm_sha256rnds2_epu32 state1 state0 msg
    pure (state0, state1, msg, tmp, msg0, msg1, msg2, msg3, abef_save, cdgh_save)

/-- line 611 -/
def Engine.process_block_simd_x86_intrinsics.line1_66 (cfg : Cfg) (self : Engine) (MASK : BitVec 128) (block_offset : Nat) : Engine.process_block_simd_x86_intrinsics.State1 → Res Engine.process_block_simd_x86_intrinsics.State1 :=
  fun (state0, state1, msg, tmp, msg0, msg1, msg2, msg3, abef_save, cdgh_save) => do
    let tmp := Sha256.Simd.mm_alignr_epi8 msg0 msg3 4
    pure (state0, state1, msg, tmp, msg0, msg1, msg2, msg3, abef_save, cdgh_save)

/-- line 612 -/
def Engine.process_block_simd_x86_intrinsics.line1_67 (cfg : Cfg) (self : Engine) (MASK : BitVec 128) (block_offset : Nat) : Engine.process_block_simd_x86_intrinsics.State1 → Res Engine.process_block_simd_x86_intrinsics.State1 :=
  fun (state0, state1, msg, tmp, msg0, msg1, msg2, msg3, abef_save, cdgh_save) => do
    let msg1 := Sha256.Simd.mm_add_epi32 msg1 tmp
    pure (state0, state1, msg, tmp, msg0, msg1, msg2, msg3, abef_save, cdgh_save)

/-- line 613 -/
def Engine.process_block_simd_x86_intrinsics.line1_68 (cfg : Cfg) (self : Engine) (MASK : BitVec 128) (block_offset : Nat) : Engine.process_block_simd_x86_intrinsics.State1 → Res Engine.process_block_simd_x86_intrinsics.State1 :=
  fun (state0, state1, msg, tmp, msg0, msg1, msg2, msg3, abef_save, cdgh_save) => do
    let msg1 := Sha256.Simd.mm_sha256msg2_epu32 msg1 msg0
    pure (state0, state1, msg, tmp, msg0, msg1, msg2, msg3, abef_save, cdgh_save)

/-- line 614 -/
def Engine.process_block_simd_x86_intrinsics.line1_69 (cfg : Cfg) (self : Engine) (MASK : BitVec 128) (block_offset : Nat) : Engine.process_block_simd_x86_intrinsics.State1 → Res Engine.process_block_simd_x86_intrinsics.State1 :=
  fun (state0, state1, msg, tmp, msg0, msg1, msg2, msg3, abef_save, cdgh_save) => do
    let msg := Sha256.Simd.mm_shuffle_epi32 msg 0x0E
    pure (state0, state1, msg, tmp, msg0, msg1, msg2, msg3, abef_save, cdgh_save)

/-- line 615 -/
def Engine.process_block_simd_x86_intrinsics.line1_70 (cfg : Cfg) (self : Engine) (MASK : BitVec 128) (block_offset : Nat) : Engine.process_block_simd_x86_intrinsics.State1 → Res Engine.process_block_simd_x86_intrinsics.State1 :=
  fun (state0, state1, msg, tmp, msg0, msg1, msg2, msg3, abef_save, cdgh_save) => do
    let state0 := Sha256.Simd.mm_sha256rnds2_epu32 state0 state1 msg
    pure (state0, state1, msg, tmp, msg0, msg1, msg2, msg3, abef_save, cdgh_save)

/-- line 616 -/
def Engine.process_block_simd_x86_intrinsics.line1_71 (cfg : Cfg) (self : Engine) (MASK : BitVec 128) (block_offset : Nat) : Engine.process_block_simd_x86_intrinsics.State1 → Res Engine.process_block_simd_x86_intrinsics.State1 :=
  fun (state0, state1, msg, tmp, msg0, msg1, msg2, msg3, abef_save, cdgh_save) => do
    let msg3 := Sha256.Simd.mm_sha256msg1_epu32 msg3 msg0
    pure (state0, state1, msg, tmp, msg0, msg1, msg2, msg3, abef_save, cdgh_save)

/-- line 619 -/
def Engine.process_block_simd_x86_intrinsics.line1_72 (cfg : Cfg) (self : Engine) (MASK : BitVec 128) (block_offset : Nat) : Engine.process_block_simd_x86_intrinsics.State1 → Res Engine.process_block_simd_x86_intrinsics.State1 :=
  fun (state0, state1, msg, tmp, msg0, msg1, msg2, msg3, abef_save, cdgh_save) => do
    let msg := Sha256.Simd.mm_add_epi32 msg1 (Sha256.Simd.mm_set_epi64x 0x92722C8581C2C92E#64 0x766A0ABB650A7354#64)
    pure (state0, state1, msg, tmp, msg0, msg1, msg2, msg3, abef_save, cdgh_save)

/-- line 623 -/
def Engine.process_block_simd_x86_intrinsics.line1_73 (cfg : Cfg) (self : Engine) (MASK : BitVec 128) (block_offset : Nat) : Engine.process_block_simd_x86_intrinsics.State1 → Res Engine.process_block_simd_x86_intrinsics.State1 :=
  fun (state0, state1, msg, tmp, msg0, msg1, msg2, msg3, abef_save, cdgh_save) => do
    let state1 := Sha256.Simd.mm_sha256rnds2_epu32 state1 state0 msg
    pure (state0, state1, msg, tmp, msg0, msg1, msg2, msg3, abef_save, cdgh_save)

/-- line 624 -/
def Engine.process_block_simd_x86_intrinsics.line1_74 (cfg : Cfg) (self : Engine) (MASK : BitVec 128) (block_offset : Nat) : Engine.process_block_simd_x86_intrinsics.State1 → Res Engine.process_block_simd_x86_intrinsics.State1 :=
  fun (state0, state1, msg, tmp, msg0, msg1, msg2, msg3, abef_save, cdgh_save) => do
    let tmp := Sha256.Simd.mm_alignr_epi8 msg1 msg0 4
    pure (state0, state1, msg, tmp, msg0, msg1, msg2, msg3, abef_save, cdgh_save)

/-- line 625 -/
def Engine.process_block_simd_x86_intrinsics.line1_75 (cfg : Cfg) (self : Engine) (MASK : BitVec 128) (block_offset : Nat) : Engine.process_block_simd_x86_intrinsics.State1 → Res Engine.process_block_simd_x86_intrinsics.State1 :=
  fun (state0, state1, msg, tmp, msg0, msg1, msg2, msg3, abef_save, cdgh_save) => do
    let msg2 := Sha256.Simd.mm_add_epi32 msg2 tmp
    pure (state0, state1, msg, tmp, msg0, msg1, msg2, msg3, abef_save, cdgh_save)

/-- line 626 -/
def Engine.process_block_simd_x86_intrinsics.line1_76 (cfg : Cfg) (self : Engine) (MASK : BitVec 128) (block_offset : Nat) : Engine.process_block_simd_x86_intrinsics.State1 → Res Engine.process_block_simd_x86_intrinsics.State1 :=
  fun (state0, state1, msg, tmp, msg0, msg1, msg2, msg3, abef_save, cdgh_save) => do
    let msg2 := Sha256.Simd.mm_sha256msg2_epu32 msg2 msg1
    pure (state0, state1, msg, tmp, msg0, msg1, msg2, msg3, abef_save, cdgh_save)

/-- line 627 -/
def Engine.process_block_simd_x86_intrinsics.line1_77 (cfg : Cfg) (self : Engine) (MASK : BitVec 128) (block_offset : Nat) : Engine.process_block_simd_x86_intrinsics.State1 → Res Engine.process_block_simd_x86_intrinsics.State1 :=
  fun (state0, state1, msg, tmp, msg0, msg1, msg2, msg3, abef_save, cdgh_save) => do
    let msg := Sha256.Simd.mm_shuffle_epi32 msg 0x0E
    pure (state0, state1, msg, tmp, msg0, msg1, msg2, msg3, abef_save, cdgh_save)

/-- line 628 -/
def Engine.process_block_simd_x86_intrinsics.line1_78 (cfg : Cfg) (self : Engine) (MASK : BitVec 128) (block_offset : Nat) : Engine.process_block_simd_x86_intrinsics.State1 → Res Engine.process_block_simd_x86_intrinsics.State1 :=
  fun (state0, state1, msg, tmp, msg0, msg1, msg2, msg3, abef_save, cdgh_save) => do
    let state0 := Sha256.Simd.mm_sha256rnds2_epu32 state0 state1 msg
    pure (state0, state1, msg, tmp, msg0, msg1, msg2, msg3, abef_save, cdgh_save)

/-- line 629 -/
def Engine.process_block_simd_x86_intrinsics.line1_79 (cfg : Cfg) (self : Engine) (MASK : BitVec 128) (block_offset : Nat) : Engine.process_block_simd_x86_intrinsics.State1 → Res Engine.process_block_simd_x86_intrinsics.State1 :=
  fun (state0, state1, msg, tmp, msg0, msg1, msg2, msg3, abef_save, cdgh_save) => do
    let msg0 := Sha256.Simd.mm_sha256msg1_epu32 msg0 msg1
    pure (state0, state1, msg, tmp, msg0, msg1, msg2, msg3, abef_save, cdgh_save)

/-- line 632 -/
def Engine.process_block_simd_x86_intrinsics.line1_80 (cfg : Cfg) (self : Engine) (MASK : BitVec 128) (block_offset : Nat) : Engine.process_block_simd_x86_intrinsics.State1 → Res Engine.process_block_simd_x86_intrinsics.State1 :=
  fun (state0, state1, msg, tmp, msg0, msg1, msg2, msg3, abef_save, cdgh_save) => do
    let msg := Sha256.Simd.mm_add_epi32 msg2 (Sha256.Simd.mm_set_epi64x 0xC76C51A3C24B8B70#64 0xA81A664BA2BFE8A1#64)
    pure (state0, state1, msg, tmp, msg0, msg1, msg2, msg3, abef_save, cdgh_save)

/-- line 636 -/
def Engine.process_block_simd_x86_intrinsics.line1_81 (cfg : Cfg) (self : Engine) (MASK : BitVec 128) (block_offset : Nat) : Engine.process_block_simd_x86_intrinsics.State1 → Res Engine.process_block_simd_x86_intrinsics.State1 :=
  fun (state0, state1, msg, tmp, msg0, msg1, msg2, msg3, abef_save, cdgh_save) => do
    let state1 := Sha256.Simd.mm_sha256rnds2_epu32 state1 state0 msg
    pure (state0, state1, msg, tmp, msg0, msg1, msg2, msg3, abef_save, cdgh_save)

/-- line 637 -/
def Engine.process_block_simd_x86_intrinsics.line1_82 (cfg : Cfg) (self : Engine) (MASK : BitVec 128) (block_offset : Nat) : Engine.process_block_simd_x86_intrinsics.State1 → Res Engine.process_block_simd_x86_intrinsics.State1 :=
  fun (state0, state1, msg, tmp, msg0, msg1, msg2, msg3, abef_save, cdgh_save) => do
    let tmp := Sha256.Simd.mm_alignr_epi8 msg2 msg1 4
    pure (state0, state1, msg, tmp, msg0, msg1, msg2, msg3, abef_save, cdgh_save)

/-- line 638 -/
def Engine.process_block_simd_x86_intrinsics.line1_83 (cfg : Cfg) (self : Engine) (MASK : BitVec 128) (block_offset : Nat) : Engine.process_block_simd_x86_intrinsics.State1 → Res Engine.process_block_simd_x86_intrinsics.State1 :=
  fun (state0, state1, msg, tmp, msg0, msg1, msg2, msg3, abef_save, cdgh_save) => do
    let msg3 := Sha256.Simd.mm_add_epi32 msg3 tmp
    pure (state0, state1, msg, tmp, msg0, msg1, msg2, msg3, abef_save, cdgh_save)

/-- line 639 -/
def Engine.process_block_simd_x86_intrinsics.line1_84 (cfg : Cfg) (self : Engine) (MASK : BitVec 128) (block_offset : Nat) : Engine.process_block_simd_x86_intrinsics.State1 → Res Engine.process_block_simd_x86_intrinsics.State1 :=
  fun (state0, state1, msg, tmp, msg0, msg1, msg2, msg3, abef_save, cdgh_save) => do
    let msg3 := Sha256.Simd.mm_sha256msg2_epu32 msg3 msg2
    pure (state0, state1, msg, tmp, msg0, msg1, msg2, msg3, abef_save, cdgh_save)

/-- line 640 -/
def Engine.process_block_simd_x86_intrinsics.line1_85 (cfg : Cfg) (self : Engine) (MASK : BitVec 128) (block_offset : Nat) : Engine.process_block_simd_x86_intrinsics.State1 → Res Engine.process_block_simd_x86_intrinsics.State1 :=
  fun (state0, state1, msg, tmp, msg0, msg1, msg2, msg3, abef_save, cdgh_save) => do
    let msg := Sha256.Simd.mm_shuffle_epi32 msg 0x0E
    pure (state0, state1, msg, tmp, msg0, msg1, msg2, msg3, abef_save, cdgh_save)

/-- line 641 -/
def Engine.process_block_simd_x86_intrinsics.line1_86 (cfg : Cfg) (self : Engine) (MASK : BitVec 128) (block_offset : Nat) : Engine.process_block_simd_x86_intrinsics.State1 → Res Engine.process_block_simd_x86_intrinsics.State1 :=
  fun (state0, state1, msg, tmp, msg0, msg1, msg2, msg3, abef_save, cdgh_save) => do
    let state0 := Sha256.Simd.mm_sha256rnds2_epu32 state0 state1 msg
    pure (state0, state1, msg, tmp, msg0, msg1, msg2, msg3, abef_save, cdgh_save)

/-- line 642 -/
def Engine.process_block_simd_x86_intrinsics.line1_87 (cfg : Cfg) (self : Engine) (MASK : BitVec 128) (block_offset : Nat) : Engine.process_block_simd_x86_intrinsics.State1 → Res Engine.process_block_simd_x86_intrinsics.State1 :=
  fun (state0, state1, msg, tmp, msg0, msg1, msg2, msg3, abef_save, cdgh_save) => do
    let msg1 := Sha256.Simd.mm_sha256msg1_epu32 msg1 msg2
    pure (state0, state1, msg, tmp, msg0, msg1, msg2, msg3, abef_save, cdgh_save)

/-- line 645 -/
def Engine.process_block_simd_x86_intrinsics.line1_88 (cfg : Cfg) (self : Engine) (MASK : BitVec 128) (block_offset : Nat) : Engine.process_block_simd_x86_intrinsics.State1 → Res Engine.process_block_simd_x86_intrinsics.State1 :=
  fun (state0, state1, msg, tmp, msg0, msg1, msg2, msg3, abef_save, cdgh_save) => do
    let msg := Sha256.Simd.mm_add_epi32 msg3 (Sha256.Simd.mm_set_epi64x 0x106AA070F40E3585#64 0xD6990624D192E819#64)
    pure (state0, state1, msg, tmp, msg0, msg1, msg2, msg3, abef_save, cdgh_save)

/-- line 649 -/
def Engine.process_block_simd_x86_intrinsics.line1_89 (cfg : Cfg) (self : Engine) (MASK : BitVec 128) (block_offset : Nat) : Engine.process_block_simd_x86_intrinsics.State1 → Res Engine.process_block_simd_x86_intrinsics.State1 :=
  fun (state0, state1, msg, tmp, msg0, msg1, msg2, msg3, abef_save, cdgh_save) => do
    let state1 := Sha256.Simd.mm_sha256rnds2_epu32 state1 state0 msg
    pure (state0, state1, msg, tmp, msg0, msg1, msg2, msg3, abef_save, cdgh_save)

/-- line 650 -/
def Engine.process_block_simd_x86_intrinsics.line1_90 (cfg : Cfg) (self : Engine) (MASK : BitVec 128) (block_offset : Nat) : Engine.process_block_simd_x86_intrinsics.State1 → Res Engine.process_block_simd_x86_intrinsics.State1 :=
  fun (state0, state1, msg, tmp, msg0, msg1, msg2, msg3, abef_save, cdgh_save) => do
    let tmp := Sha256.Simd.mm_alignr_epi8 msg3 msg2 4
    pure (state0, state1, msg, tmp, msg0, msg1, msg2, msg3, abef_save, cdgh_save)

/-- line 651 -/
def Engine.process_block_simd_x86_intrinsics.line1_91 (cfg : Cfg) (self : Engine) (MASK : BitVec 128) (block_offset : Nat) : Engine.process_block_simd_x86_intrinsics.State1 → Res Engine.process_block_simd_x86_intrinsics.State1 :=
  fun (state0, state1, msg, tmp, msg0, msg1, msg2, msg3, abef_save, cdgh_save) => do
    let msg0 := Sha256.Simd.mm_add_epi32 msg0 tmp
    pure (state0, state1, msg, tmp, msg0, msg1, msg2, msg3, abef_save, cdgh_save)

/-- line 652 -/
def Engine.process_block_simd_x86_intrinsics.line1_92 (cfg : Cfg) (self : Engine) (MASK : BitVec 128) (block_offset : Nat) : Engine.process_block_simd_x86_intrinsics.State1 → Res Engine.process_block_simd_x86_intrinsics.State1 :=
  fun (state0, state1, msg, tmp, msg0, msg1, msg2, msg3, abef_save, cdgh_save) => do
    let msg0 := Sha256.Simd.mm_sha256msg2_epu32 msg0 msg3
    pure (state0, state1, msg, tmp, msg0, msg1, msg2, msg3, abef_save, cdgh_save)

/-- line 653 -/
def Engine.process_block_simd_x86_intrinsics.line1_93 (cfg : Cfg) (self : Engine) (MASK : BitVec 128) (block_offset : Nat) : Engine.process_block_simd_x86_intrinsics.State1 → Res Engine.process_block_simd_x86_intrinsics.State1 :=
  fun (state0, state1, msg, tmp, msg0, msg1, msg2, msg3, abef_save, cdgh_save) => do
    let msg := Sha256.Simd.mm_shuffle_epi32 msg 0x0E
    pure (state0, state1, msg, tmp, msg0, msg1, msg2, msg3, abef_save, cdgh_save)

/-- line 654 -/
def Engine.process_block_simd_x86_intrinsics.line1_94 (cfg : Cfg) (self : Engine) (MASK : BitVec 128) (block_offset : Nat) : Engine.process_block_simd_x86_intrinsics.State1 → Res Engine.process_block_simd_x86_intrinsics.State1 :=
  fun (state0, state1, msg, tmp, msg0, msg1, msg2, msg3, abef_save, cdgh_save) => do
    let state0 := Sha256.Simd.mm_sha256rnds2_epu32 state0 state1 msg
    pure (state0, state1, msg, tmp, msg0, msg1, msg2, msg3, abef_save, cdgh_save)

/-- line 655 -/
def Engine.process_block_simd_x86_intrinsics.line1_95 (cfg : Cfg) (self : Engine) (MASK : BitVec 128) (block_offset : Nat) : Engine.process_block_simd_x86_intrinsics.State1 → Res Engine.process_block_simd_x86_intrinsics.State1 :=
  fun (state0, state1, msg, tmp, msg0, msg1, msg2, msg3, abef_save, cdgh_save) => do
    let msg2 := Sha256.Simd.mm_sha256msg1_epu32 msg2 msg3
    pure (state0, state1, msg, tmp, msg0, msg1, msg2, msg3, abef_save, cdgh_save)

/-- line 658 -/
def Engine.process_block_simd_x86_intrinsics.line1_96 (cfg : Cfg) (self : Engine) (MASK : BitVec 128) (block_offset : Nat) : Engine.process_block_simd_x86_intrinsics.State1 → Res Engine.process_block_simd_x86_intrinsics.State1 :=
  fun (state0, state1, msg, tmp, msg0, msg1, msg2, msg3, abef_save, cdgh_save) => do
    let msg := Sha256.Simd.mm_add_epi32 msg0 (Sha256.Simd.mm_set_epi64x 0x34B0BCB52748774C#64 0x1E376C0819A4C116#64)
    pure (state0, state1, msg, tmp, msg0, msg1, msg2, msg3, abef_save, cdgh_save)

/-- line 662 -/
def Engine.process_block_simd_x86_intrinsics.line1_97 (cfg : Cfg) (self : Engine) (MASK : BitVec 128) (block_offset : Nat) : Engine.process_block_simd_x86_intrinsics.State1 → Res Engine.process_block_simd_x86_intrinsics.State1 :=
  fun (state0, state1, msg, tmp, msg0, msg1, msg2, msg3, abef_save, cdgh_save) => do
    let state1 := Sha256.Simd.mm_sha256rnds2_epu32 state1 state0 msg
    pure (state0, state1, msg, tmp, msg0, msg1, msg2, msg3, abef_save, cdgh_save)

/-- line 663 -/
def Engine.process_block_simd_x86_intrinsics.line1_98 (cfg : Cfg) (self : Engine) (MASK : BitVec 128) (block_offset : Nat) : Engine.process_block_simd_x86_intrinsics.State1 → Res Engine.process_block_simd_x86_intrinsics.State1 :=
  fun (state0, state1, msg, tmp, msg0, msg1, msg2, msg3, abef_save, cdgh_save) => do
    let tmp := Sha256.Simd.mm_alignr_epi8 msg0 msg3 4
    pure (state0, state1, msg, tmp, msg0, msg1, msg2, msg3, abef_save, cdgh_save)

/-- line 664 -/
def Engine.process_block_simd_x86_intrinsics.line1_99 (cfg : Cfg) (self : Engine) (MASK : BitVec 128) (block_offset : Nat) : Engine.process_block_simd_x86_intrinsics.State1 → Res Engine.process_block_simd_x86_intrinsics.State1 :=
  fun (state0, state1, msg, tmp, msg0, msg1, msg2, msg3, abef_save, cdgh_save) => do
    let msg1 := Sha256.Simd.mm_add_epi32 msg1 tmp
    pure (state0, state1, msg, tmp, msg0, msg1, msg2, msg3, abef_save, cdgh_save)

/-- line 665 -/
def Engine.process_block_simd_x86_intrinsics.line1_100 (cfg : Cfg) (self : Engine) (MASK : BitVec 128) (block_offset : Nat) : Engine.process_block_simd_x86_intrinsics.State1 → Res Engine.process_block_simd_x86_intrinsics.State1 :=
  fun (state0, state1, msg, tmp, msg0, msg1, msg2, msg3, abef_save, cdgh_save) => do
    let msg1 := Sha256.Simd.mm_sha256msg2_epu32 msg1 msg0
    pure (state0, state1, msg, tmp, msg0, msg1, msg2, msg3, abef_save, cdgh_save)

/-- line 666 -/
def Engine.process_block_simd_x86_intrinsics.line1_101 (cfg : Cfg) (self : Engine) (MASK : BitVec 128) (block_offset : Nat) : Engine.process_block_simd_x86_intrinsics.State1 → Res Engine.process_block_simd_x86_intrinsics.State1 :=
  fun (state0, state1, msg, tmp, msg0, msg1, msg2, msg3, abef_save, cdgh_save) => do
    let msg := Sha256.Simd.mm_shuffle_epi32 msg 0x0E
    pure (state0, state1, msg, tmp, msg0, msg1, msg2, msg3, abef_save, cdgh_save)

/-- line 667 -/
def Engine.process_block_simd_x86_intrinsics.line1_102 (cfg : Cfg) (self : Engine) (MASK : BitVec 128) (block_offset : Nat) : Engine.process_block_simd_x86_intrinsics.State1 → Res Engine.process_block_simd_x86_intrinsics.State1 :=
  fun (state0, state1, msg, tmp, msg0, msg1, msg2, msg3, abef_save, cdgh_save) => do
    let state0 := Sha256.Simd.mm_sha256rnds2_epu32 state0 state1 msg
    pure (state0, state1, msg, tmp, msg0, msg1, msg2, msg3, abef_save, cdgh_save)

/-- line 668 -/
def Engine.process_block_simd_x86_intrinsics.line1_103 (cfg : Cfg) (self : Engine) (MASK : BitVec 128) (block_offset : Nat) : Engine.process_block_simd_x86_intrinsics.State1 → Res Engine.process_block_simd_x86_intrinsics.State1 :=
  fun (state0, state1, msg, tmp, msg0, msg1, msg2, msg3, abef_save, cdgh_save) => do
    let msg3 := Sha256.Simd.mm_sha256msg1_epu32 msg3 msg0
    pure (state0, state1, msg, tmp, msg0, msg1, msg2, msg3, abef_save, cdgh_save)

/-- line 671 -/
def Engine.process_block_simd_x86_intrinsics.line1_104 (cfg : Cfg) (self : Engine) (MASK : BitVec 128) (block_offset : Nat) : Engine.process_block_simd_x86_intrinsics.State1 → Res Engine.process_block_simd_x86_intrinsics.State1 :=
  fun (state0, state1, msg, tmp, msg0, msg1, msg2, msg3, abef_save, cdgh_save) => do
    let msg := Sha256.Simd.mm_add_epi32 msg1 (Sha256.Simd.mm_set_epi64x 0x682E6FF35B9CCA4F#64 0x4ED8AA4A391C0CB3#64)
    pure (state0, state1, msg, tmp, msg0, msg1, msg2, msg3, abef_save, cdgh_save)

/-- line 675 -/
def Engine.process_block_simd_x86_intrinsics.line1_105 (cfg : Cfg) (self : Engine) (MASK : BitVec 128) (block_offset : Nat) : Engine.process_block_simd_x86_intrinsics.State1 → Res Engine.process_block_simd_x86_intrinsics.State1 :=
  fun (state0, state1, msg, tmp, msg0, msg1, msg2, msg3, abef_save, cdgh_save) => do
    let state1 := Sha256.Simd.mm_sha256rnds2_epu32 state1 state0 msg
    pure (state0, state1, msg, tmp, msg0, msg1, msg2, msg3, abef_save, cdgh_save)

/-- line 676 -/
def Engine.process_block_simd_x86_intrinsics.line1_106 (cfg : Cfg) (self : Engine) (MASK : BitVec 128) (block_offset : Nat) : Engine.process_block_simd_x86_intrinsics.State1 → Res Engine.process_block_simd_x86_intrinsics.State1 :=
  fun (state0, state1, msg, tmp, msg0, msg1, msg2, msg3, abef_save, cdgh_save) => do
    let tmp := Sha256.Simd.mm_alignr_epi8 msg1 msg0 4
    pure (state0, state1, msg, tmp, msg0, msg1, msg2, msg3, abef_save, cdgh_save)

/-- line 677 -/
def Engine.process_block_simd_x86_intrinsics.line1_107 (cfg : Cfg) (self : Engine) (MASK : BitVec 128) (block_offset : Nat) : Engine.process_block_simd_x86_intrinsics.State1 → Res Engine.process_block_simd_x86_intrinsics.State1 :=
  fun (state0, state1, msg, tmp, msg0, msg1, msg2, msg3, abef_save, cdgh_save) => do
    let msg2 := Sha256.Simd.mm_add_epi32 msg2 tmp
    pure (state0, state1, msg, tmp, msg0, msg1, msg2, msg3, abef_save, cdgh_save)

/-- line 678 -/
def Engine.process_block_simd_x86_intrinsics.line1_108 (cfg : Cfg) (self : Engine) (MASK : BitVec 128) (block_offset : Nat) : Engine.process_block_simd_x86_intrinsics.State1 → Res Engine.process_block_simd_x86_intrinsics.State1 :=
  fun (state0, state1, msg, tmp, msg0, msg1, msg2, msg3, abef_save, cdgh_save) => do
    let msg2 := Sha256.Simd.mm_sha256msg2_epu32 msg2 msg1
    pure (state0, state1, msg, tmp, msg0, msg1, msg2, msg3, abef_save, cdgh_save)

/-- line 679 -/
def Engine.process_block_simd_x86_intrinsics.line1_109 (cfg : Cfg) (self : Engine) (MASK : BitVec 128) (block_offset : Nat) : Engine.process_block_simd_x86_intrinsics.State1 → Res Engine.process_block_simd_x86_intrinsics.State1 :=
  fun (state0, state1, msg, tmp, msg0, msg1, msg2, msg3, abef_save, cdgh_save) => do
    let msg := Sha256.Simd.mm_shuffle_epi32 msg 0x0E
    pure (state0, state1, msg, tmp, msg0, msg1, msg2, msg3, abef_save, cdgh_save)

/-- line 680 -/
def Engine.process_block_simd_x86_intrinsics.line1_110 (cfg : Cfg) (self : Engine) (MASK : BitVec 128) (block_offset : Nat) : Engine.process_block_simd_x86_intrinsics.State1 → Res Engine.process_block_simd_x86_intrinsics.State1 :=
  fun (state0, state1, msg, tmp, msg0, msg1, msg2, msg3, abef_save, cdgh_save) => do
    let state0 := Sha256.Simd.mm_sha256rnds2_epu32 state0 state1 msg
    pure (state0, state1, msg, tmp, msg0, msg1, msg2, msg3, abef_save, cdgh_save)

/-- line 683 -/
def Engine.process_block_simd_x86_intrinsics.line1_111 (cfg : Cfg) (self : Engine) (MASK : BitVec 128) (block_offset : Nat) : Engine.process_block_simd_x86_intrinsics.State1 → Res Engine.process_block_simd_x86_intrinsics.State1 :=
  fun (state0, state1, msg, tmp, msg0, msg1, msg2, msg3, abef_save, cdgh_save) => do
    let msg := Sha256.Simd.mm_add_epi32 msg2 (Sha256.Simd.mm_set_epi64x 0x8CC7020884C87814#64 0x78A5636F748F82EE#64)
    pure (state0, state1, msg, tmp, msg0, msg1, msg2, msg3, abef_save, cdgh_save)

/-- line 687 -/
def Engine.process_block_simd_x86_intrinsics.line1_112 (cfg : Cfg) (self : Engine) (MASK : BitVec 128) (block_offset : Nat) : Engine.process_block_simd_x86_intrinsics.State1 → Res Engine.process_block_simd_x86_intrinsics.State1 :=
  fun (state0, state1, msg, tmp, msg0, msg1, msg2, msg3, abef_save, cdgh_save) => do
    let state1 := Sha256.Simd.mm_sha256rnds2_epu32 state1 state0 msg
    pure (state0, state1, msg, tmp, msg0, msg1, msg2, msg3, abef_save, cdgh_save)

/-- line 688 -/
def Engine.process_block_simd_x86_intrinsics.line1_113 (cfg : Cfg) (self : Engine) (MASK : BitVec 128) (block_offset : Nat) : Engine.process_block_simd_x86_intrinsics.State1 → Res Engine.process_block_simd_x86_intrinsics.State1 :=
  fun (state0, state1, msg, tmp, msg0, msg1, msg2, msg3, abef_save, cdgh_save) => do
    let tmp := Sha256.Simd.mm_alignr_epi8 msg2 msg1 4
    pure (state0, state1, msg, tmp, msg0, msg1, msg2, msg3, abef_save, cdgh_save)

/-- line 689 -/
def Engine.process_block_simd_x86_intrinsics.line1_114 (cfg : Cfg) (self : Engine) (MASK : BitVec 128) (block_offset : Nat) : Engine.process_block_simd_x86_intrinsics.State1 → Res Engine.process_block_simd_x86_intrinsics.State1 :=
  fun (state0, state1, msg, tmp, msg0, msg1, msg2, msg3, abef_save, cdgh_save) => do
    let msg3 := Sha256.Simd.mm_add_epi32 msg3 tmp
    pure (state0, state1, msg, tmp, msg0, msg1, msg2, msg3, abef_save, cdgh_save)

/-- line 690 -/
def Engine.process_block_simd_x86_intrinsics.line1_115 (cfg : Cfg) (self : Engine) (MASK : BitVec 128) (block_offset : Nat) : Engine.process_block_simd_x86_intrinsics.State1 → Res Engine.process_block_simd_x86_intrinsics.State1 :=
  fun (state0, state1, msg, tmp, msg0, msg1, msg2, msg3, abef_save, cdgh_save) => do
    let msg3 := Sha256.Simd.mm_sha256msg2_epu32 msg3 msg2
    pure (state0, state1, msg, tmp, msg0, msg1, msg2, msg3, abef_save, cdgh_save)

/-- line 691 -/
def Engine.process_block_simd_x86_intrinsics.line1_116 (cfg : Cfg) (self : Engine) (MASK : BitVec 128) (block_offset : Nat) : Engine.process_block_simd_x86_intrinsics.State1 → Res Engine.process_block_simd_x86_intrinsics.State1 :=
  fun (state0, state1, msg, tmp, msg0, msg1, msg2, msg3, abef_save, cdgh_save) => do
    let msg := Sha256.Simd.mm_shuffle_epi32 msg 0x0E
    pure (state0, state1, msg, tmp, msg0, msg1, msg2, msg3, abef_save, cdgh_save)

/-- line 692 -/
def Engine.process_block_simd_x86_intrinsics.line1_117 (cfg : Cfg) (self : Engine) (MASK : BitVec 128) (block_offset : Nat) : Engine.process_block_simd_x86_intrinsics.State1 → Res Engine.process_block_simd_x86_intrinsics.State1 :=
  fun (state0, state1, msg, tmp, msg0, msg1, msg2, msg3, abef_save, cdgh_save) => do
    let state0 := Sha256.Simd.mm_sha256rnds2_epu32 state0 state1 msg
    pure (state0, state1, msg, tmp, msg0, msg1, msg2, msg3, abef_save, cdgh_save)

/-- line 695 -/
def Engine.process_block_simd_x86_intrinsics.line1_118 (cfg : Cfg) (self : Engine) (MASK : BitVec 128) (block_offset : Nat) : Engine.process_block_simd_x86_intrinsics.State1 → Res Engine.process_block_simd_x86_intrinsics.State1 :=
  fun (state0, state1, msg, tmp, msg0, msg1, msg2, msg3, abef_save, cdgh_save) => do
    let msg := Sha256.Simd.mm_add_epi32 msg3 (Sha256.Simd.mm_set_epi64x 0xC67178F2BEF9A3F7#64 0xA4506CEB90BEFFFA#64)
    pure (state0, state1, msg, tmp, msg0, msg1, msg2, msg3, abef_save, cdgh_save)

/-- line 699 -/
def Engine.process_block_simd_x86_intrinsics.line1_119 (cfg : Cfg) (self : Engine) (MASK : BitVec 128) (block_offset : Nat) : Engine.process_block_simd_x86_intrinsics.State1 → Res Engine.process_block_simd_x86_intrinsics.State1 :=
  fun (state0, state1, msg, tmp, msg0, msg1, msg2, msg3, abef_save, cdgh_save) => do
    let state1 := Sha256.Simd.mm_sha256rnds2_epu32 state1 state0 msg
    pure (state0, state1, msg, tmp, msg0, msg1, msg2, msg3, abef_save, cdgh_save)

/-- line 700 -/
def Engine.process_block_simd_x86_intrinsics.line1_120 (cfg : Cfg) (self : Engine) (MASK : BitVec 128) (block_offset : Nat) : Engine.process_block_simd_x86_intrinsics.State1 → Res Engine.process_block_simd_x86_intrinsics.State1 :=
  fun (state0, state1, msg, tmp, msg0, msg1, msg2, msg3, abef_save, cdgh_save) => do
    let msg := Sha256.Simd.mm_shuffle_epi32 msg 0x0E
    pure (state0, state1, msg, tmp, msg0, msg1, msg2, msg3, abef_save, cdgh_save)

/-- line 701 -/
def Engine.process_block_simd_x86_intrinsics.line1_121 (cfg : Cfg) (self : Engine) (MASK : BitVec 128) (block_offset : Nat) : Engine.process_block_simd_x86_intrinsics.State1 → Res Engine.process_block_simd_x86_intrinsics.State1 :=
  fun (state0, state1, msg, tmp, msg0, msg1, msg2, msg3, abef_save, cdgh_save) => do
    let state0 := Sha256.Simd.mm_sha256rnds2_epu32 state0 state1 msg
    pure (state0, state1, msg, tmp, msg0, msg1, msg2, msg3, abef_save, cdgh_save)

/-- line 704 -/
def Engine.process_block_simd_x86_intrinsics.line1_122 (cfg : Cfg) (self : Engine) (MASK : BitVec 128) (block_offset : Nat) : Engine.process_block_simd_x86_intrinsics.State1 → Res Engine.process_block_simd_x86_intrinsics.State1 :=
  fun (state0, state1, msg, tmp, msg0, msg1, msg2, msg3, abef_save, cdgh_save) => do
    let state0 := Sha256.Simd.mm_add_epi32 state0 abef_save
    pure (state0, state1, msg, tmp, msg0, msg1, msg2, msg3, abef_save, cdgh_save)

/-- line 705 -/
def Engine.process_block_simd_x86_intrinsics.line1_123 (cfg : Cfg) (self : Engine) (MASK : BitVec 128) (block_offset : Nat) : Engine.process_block_simd_x86_intrinsics.State1 → Res Engine.process_block_simd_x86_intrinsics.State1 :=
  fun (state0, state1, msg, tmp, msg0, msg1, msg2, msg3, abef_save, cdgh_save) => do
    let state1 := Sha256.Simd.mm_add_epi32 state1 cdgh_save
    pure (state0, state1, msg, tmp, msg0, msg1, msg2, msg3, abef_save, cdgh_save)

/-- The 124 statements. -/
def Engine.process_block_simd_x86_intrinsics.lines1 (cfg : Cfg) (self : Engine) (MASK : BitVec 128) (block_offset : Nat) : List (Engine.process_block_simd_x86_intrinsics.State1 → Res Engine.process_block_simd_x86_intrinsics.State1) := [
  Engine.process_block_simd_x86_intrinsics.line1_0 cfg self MASK block_offset,
  Engine.process_block_simd_x86_intrinsics.line1_1 cfg self MASK block_offset,
  Engine.process_block_simd_x86_intrinsics.line1_2 cfg self MASK block_offset,
  Engine.process_block_simd_x86_intrinsics.line1_3 cfg self MASK block_offset,
  Engine.process_block_simd_x86_intrinsics.line1_4 cfg self MASK block_offset,
  Engine.process_block_simd_x86_intrinsics.line1_5 cfg self MASK block_offset,
  Engine.process_block_simd_x86_intrinsics.line1_6 cfg self MASK block_offset,
  Engine.process_block_simd_x86_intrinsics.line1_7 cfg self MASK block_offset,
  Engine.process_block_simd_x86_intrinsics.line1_8 cfg self MASK block_offset,
  Engine.process_block_simd_x86_intrinsics.line1_9 cfg self MASK block_offset,
  Engine.process_block_simd_x86_intrinsics.line1_10 cfg self MASK block_offset,
  Engine.process_block_simd_x86_intrinsics.line1_11 cfg self MASK block_offset,
  Engine.process_block_simd_x86_intrinsics.line1_12 cfg self MASK block_offset,
  Engine.process_block_simd_x86_intrinsics.line1_13 cfg self MASK block_offset,
  Engine.process_block_simd_x86_intrinsics.line1_14 cfg self MASK block_offset,
  Engine.process_block_simd_x86_intrinsics.line1_15 cfg self MASK block_offset,
  Engine.process_block_simd_x86_intrinsics.line1_16 cfg self MASK block_offset,
  Engine.process_block_simd_x86_intrinsics.line1_17 cfg self MASK block_offset,
  Engine.process_block_simd_x86_intrinsics.line1_18 cfg self MASK block_offset,
  Engine.process_block_simd_x86_intrinsics.line1_19 cfg self MASK block_offset,
  Engine.process_block_simd_x86_intrinsics.line1_20 cfg self MASK block_offset,
  Engine.process_block_simd_x86_intrinsics.line1_21 cfg self MASK block_offset,
  Engine.process_block_simd_x86_intrinsics.line1_22 cfg self MASK block_offset,
  Engine.process_block_simd_x86_intrinsics.line1_23 cfg self MASK block_offset,
  Engine.process_block_simd_x86_intrinsics.line1_24 cfg self MASK block_offset,
  Engine.process_block_simd_x86_intrinsics.line1_25 cfg self MASK block_offset,
  Engine.process_block_simd_x86_intrinsics.line1_26 cfg self MASK block_offset,
  Engine.process_block_simd_x86_intrinsics.line1_27 cfg self MASK block_offset,
  Engine.process_block_simd_x86_intrinsics.line1_28 cfg self MASK block_offset,
  Engine.process_block_simd_x86_intrinsics.line1_29 cfg self MASK block_offset,
  Engine.process_block_simd_x86_intrinsics.line1_30 cfg self MASK block_offset,
  Engine.process_block_simd_x86_intrinsics.line1_31 cfg self MASK block_offset,
  Engine.process_block_simd_x86_intrinsics.line1_32 cfg self MASK block_offset,
  Engine.process_block_simd_x86_intrinsics.line1_33 cfg self MASK block_offset,
  Engine.process_block_simd_x86_intrinsics.line1_34 cfg self MASK block_offset,
  Engine.process_block_simd_x86_intrinsics.line1_35 cfg self MASK block_offset,
  Engine.process_block_simd_x86_intrinsics.line1_36 cfg self MASK block_offset,
  Engine.process_block_simd_x86_intrinsics.line1_37 cfg self MASK block_offset,
  Engine.process_block_simd_x86_intrinsics.line1_38 cfg self MASK block_offset,
  Engine.process_block_simd_x86_intrinsics.line1_39 cfg self MASK block_offset,
  Engine.process_block_simd_x86_intrinsics.line1_40 cfg self MASK block_offset,
  Engine.process_block_simd_x86_intrinsics.line1_41 cfg self MASK block_offset,
  Engine.process_block_simd_x86_intrinsics.line1_42 cfg self MASK block_offset,
  Engine.process_block_simd_x86_intrinsics.line1_43 cfg self MASK block_offset,
  Engine.process_block_simd_x86_intrinsics.line1_44 cfg self MASK block_offset,
  Engine.process_block_simd_x86_intrinsics.line1_45 cfg self MASK block_offset,
  Engine.process_block_simd_x86_intrinsics.line1_46 cfg self MASK block_offset,
  Engine.process_block_simd_x86_intrinsics.line1_47 cfg self MASK block_offset,
  Engine.process_block_simd_x86_intrinsics.line1_48 cfg self MASK block_offset,
  Engine.process_block_simd_x86_intrinsics.line1_49 cfg self MASK block_offset,
  Engine.process_block_simd_x86_intrinsics.line1_50 cfg self MASK block_offset,
  Engine.process_block_simd_x86_intrinsics.line1_51 cfg self MASK block_offset,
  Engine.process_block_simd_x86_intrinsics.line1_52 cfg self MASK block_offset,
  Engine.process_block_simd_x86_intrinsics.line1_53 cfg self MASK block_offset,
  Engine.process_block_simd_x86_intrinsics.line1_54 cfg self MASK block_offset,
  Engine.process_block_simd_x86_intrinsics.line1_55 cfg self MASK block_offset,
  Engine.process_block_simd_x86_intrinsics.line1_56 cfg self MASK block_offset,
  Engine.process_block_simd_x86_intrinsics.line1_57 cfg self MASK block_offset,
  Engine.process_block_simd_x86_intrinsics.line1_58 cfg self MASK block_offset,
  Engine.process_block_simd_x86_intrinsics.line1_59 cfg self MASK block_offset,
  Engine.process_block_simd_x86_intrinsics.line1_60 cfg self MASK block_offset,
  Engine.process_block_simd_x86_intrinsics.line1_61 cfg self MASK block_offset,
  Engine.process_block_simd_x86_intrinsics.line1_62 cfg self MASK block_offset,
  Engine.process_block_simd_x86_intrinsics.line1_63 cfg self MASK block_offset,
  Engine.process_block_simd_x86_intrinsics.line1_64 cfg self MASK block_offset,
  Engine.process_block_simd_x86_intrinsics.line1_65 cfg self MASK block_offset,
  Engine.process_block_simd_x86_intrinsics.line1_66 cfg self MASK block_offset,
  Engine.process_block_simd_x86_intrinsics.line1_67 cfg self MASK block_offset,
  Engine.process_block_simd_x86_intrinsics.line1_68 cfg self MASK block_offset,
  Engine.process_block_simd_x86_intrinsics.line1_69 cfg self MASK block_offset,
  Engine.process_block_simd_x86_intrinsics.line1_70 cfg self MASK block_offset,
  Engine.process_block_simd_x86_intrinsics.line1_71 cfg self MASK block_offset,
  Engine.process_block_simd_x86_intrinsics.line1_72 cfg self MASK block_offset,
  Engine.process_block_simd_x86_intrinsics.line1_73 cfg self MASK block_offset,
  Engine.process_block_simd_x86_intrinsics.line1_74 cfg self MASK block_offset,
  Engine.process_block_simd_x86_intrinsics.line1_75 cfg self MASK block_offset,
  Engine.process_block_simd_x86_intrinsics.line1_76 cfg self MASK block_offset,
  Engine.process_block_simd_x86_intrinsics.line1_77 cfg self MASK block_offset,
  Engine.process_block_simd_x86_intrinsics.line1_78 cfg self MASK block_offset,
  Engine.process_block_simd_x86_intrinsics.line1_79 cfg self MASK block_offset,
  Engine.process_block_simd_x86_intrinsics.line1_80 cfg self MASK block_offset,
  Engine.process_block_simd_x86_intrinsics.line1_81 cfg self MASK block_offset,
  Engine.process_block_simd_x86_intrinsics.line1_82 cfg self MASK block_offset,
  Engine.process_block_simd_x86_intrinsics.line1_83 cfg self MASK block_offset,
  Engine.process_block_simd_x86_intrinsics.line1_84 cfg self MASK block_offset,
  Engine.process_block_simd_x86_intrinsics.line1_85 cfg self MASK block_offset,
  Engine.process_block_simd_x86_intrinsics.line1_86 cfg self MASK block_offset,
  Engine.process_block_simd_x86_intrinsics.line1_87 cfg self MASK block_offset,
  Engine.process_block_simd_x86_intrinsics.line1_88 cfg self MASK block_offset,
  Engine.process_block_simd_x86_intrinsics.line1_89 cfg self MASK block_offset,
  Engine.process_block_simd_x86_intrinsics.line1_90 cfg self MASK block_offset,
  Engine.process_block_simd_x86_intrinsics.line1_91 cfg self MASK block_offset,
  Engine.process_block_simd_x86_intrinsics.line1_92 cfg self MASK block_offset,
  Engine.process_block_simd_x86_intrinsics.line1_93 cfg self MASK block_offset,
  Engine.process_block_simd_x86_intrinsics.line1_94 cfg self MASK block_offset,
  Engine.process_block_simd_x86_intrinsics.line1_95 cfg self MASK block_offset,
  Engine.process_block_simd_x86_intrinsics.line1_96 cfg self MASK block_offset,
  Engine.process_block_simd_x86_intrinsics.line1_97 cfg self MASK block_offset,
  Engine.process_block_simd_x86_intrinsics.line1_98 cfg self MASK block_offset,
  Engine.process_block_simd_x86_intrinsics.line1_99 cfg self MASK block_offset,
  Engine.process_block_simd_x86_intrinsics.line1_100 cfg self MASK block_offset,
  Engine.process_block_simd_x86_intrinsics.line1_101 cfg self MASK block_offset,
  Engine.process_block_simd_x86_intrinsics.line1_102 cfg self MASK block_offset,
  Engine.process_block_simd_x86_intrinsics.line1_103 cfg self MASK block_offset,
  Engine.process_block_simd_x86_intrinsics.line1_104 cfg self MASK block_offset,
  Engine.process_block_simd_x86_intrinsics.line1_105 cfg self MASK block_offset,
  Engine.process_block_simd_x86_intrinsics.line1_106 cfg self MASK block_offset,
  Engine.process_block_simd_x86_intrinsics.line1_107 cfg self MASK block_offset,
  Engine.process_block_simd_x86_intrinsics.line1_108 cfg self MASK block_offset,
  Engine.process_block_simd_x86_intrinsics.line1_109 cfg self MASK block_offset,
  Engine.process_block_simd_x86_intrinsics.line1_110 cfg self MASK block_offset,
  Engine.process_block_simd_x86_intrinsics.line1_111 cfg self MASK block_offset,
  Engine.process_block_simd_x86_intrinsics.line1_112 cfg self MASK block_offset,
  Engine.process_block_simd_x86_intrinsics.line1_113 cfg self MASK block_offset,
  Engine.process_block_simd_x86_intrinsics.line1_114 cfg self MASK block_offset,
  Engine.process_block_simd_x86_intrinsics.line1_115 cfg self MASK block_offset,
  Engine.process_block_simd_x86_intrinsics.line1_116 cfg self MASK block_offset,
  Engine.process_block_simd_x86_intrinsics.line1_117 cfg self MASK block_offset,
  Engine.process_block_simd_x86_intrinsics.line1_118 cfg self MASK block_offset,
  Engine.process_block_simd_x86_intrinsics.line1_119 cfg self MASK block_offset,
  Engine.process_block_simd_x86_intrinsics.line1_120 cfg self MASK block_offset,
  Engine.process_block_simd_x86_intrinsics.line1_121 cfg self MASK block_offset,
  Engine.process_block_simd_x86_intrinsics.line1_122 cfg self MASK block_offset,
  Engine.process_block_simd_x86_intrinsics.line1_123 cfg self MASK block_offset]

/-- `Engine::process_block_simd_x86_intrinsics`, sha256.rs 463-718. -/
def Engine.process_block_simd_x86_intrinsics (cfg : Cfg) (self : Engine) : Res Engine := do
  let MASK := Sha256.Simd.mm_set_epi64x 0x0c0d0e0f08090a0b#64 0x0405060700010203#64
  let block_offset : Nat := 0
  let tmp ← Rs.loadu32 self.h 0
  let state1 ← Rs.loadu32 self.h 4
  let tmp := Sha256.Simd.mm_shuffle_epi32 tmp 0xB1
  let state1 := Sha256.Simd.mm_shuffle_epi32 state1 0x1B
  let state0 : BitVec 128 := Sha256.Simd.mm_alignr_epi8 tmp state1 8
  let state1 := Sha256.Simd.mm_blend_epi16 state1 tmp 0xF0
  let msg : BitVec 128 := Rs.uninit
  let msg0 : BitVec 128 := Rs.uninit
  let msg1 : BitVec 128 := Rs.uninit
  let msg2 : BitVec 128 := Rs.uninit
  let msg3 : BitVec 128 := Rs.uninit
  let abef_save : BitVec 128 := Rs.uninit
  let cdgh_save : BitVec 128 := Rs.uninit
  let (state0, state1, msg, tmp, msg0, msg1, msg2, msg3, abef_save, cdgh_save) ← Rs.runLines (Engine.process_block_simd_x86_intrinsics.lines1 cfg self MASK block_offset) (state0, state1, msg, tmp, msg0, msg1, msg2, msg3, abef_save, cdgh_save)
  let tmp := Sha256.Simd.mm_shuffle_epi32 state0 0x1B
  let state1 := Sha256.Simd.mm_shuffle_epi32 state1 0xB1
  let state0 := Sha256.Simd.mm_blend_epi16 tmp state1 0xF0
  let state1 := Sha256.Simd.mm_alignr_epi8 state1 tmp 8
  let x_10 ← Rs.storeu32 self.h 0 state0
  let self := { self with h := x_10 }
  let x_11 ← Rs.storeu32 self.h 4 state1
  let self := { self with h := x_11 }
  pure self

/-- `Sigma1`, sha256.rs 197. -/
def Sigma1 (cfg : Cfg) (x : BitVec 32) : (BitVec 32) :=
  ((x.rotateLeft 26) ^^^ (x.rotateLeft 21)) ^^^ (x.rotateLeft 7)

/-- `Ch`, sha256.rs 191. -/
def Ch (cfg : Cfg) (x : BitVec 32) (y : BitVec 32) (z : BitVec 32) : (BitVec 32) :=
  z ^^^ (x &&& (y ^^^ z))

/-- `Sigma0`, sha256.rs 195. -/
def Sigma0 (cfg : Cfg) (x : BitVec 32) : (BitVec 32) :=
  ((x.rotateLeft 30) ^^^ (x.rotateLeft 19)) ^^^ (x.rotateLeft 10)

/-- `Maj`, sha256.rs 193. -/
def Maj (cfg : Cfg) (x : BitVec 32) (y : BitVec 32) (z : BitVec 32) : (BitVec 32) :=
  (x &&& y) ||| (z &&& (x ||| y))

/-- `small_hash::round`, sha256.rs 207-213. -/
def small_hash.round (cfg : Cfg) (a : BitVec 32) (b : BitVec 32) (c : BitVec 32) (d : BitVec 32) (e : BitVec 32) (f : BitVec 32) (g : BitVec 32) (h : BitVec 32) (k : BitVec 32) (w : BitVec 32) : ((BitVec 32) × (BitVec 32)) :=
  let t1 : BitVec 32 := (((h + (Sigma1 cfg e)) + (Ch cfg e f g)) + k) + w
  let t2 : BitVec 32 := (Sigma0 cfg a) + (Maj cfg a b c)
  (d + t1, t1 + t2)

/-- `sigma1`, sha256.rs 199. -/
def sigma1 (cfg : Cfg) (x : BitVec 32) : (BitVec 32) :=
  ((x.rotateLeft 15) ^^^ (x.rotateLeft 13)) ^^^ (x >>> 10)

/-- `sigma0`, sha256.rs 198. -/
def sigma0 (cfg : Cfg) (x : BitVec 32) : (BitVec 32) :=
  ((x.rotateLeft 25) ^^^ (x.rotateLeft 14)) ^^^ (x >>> 3)

/-- `small_hash::later_round`, sha256.rs 215-222. -/
def small_hash.later_round (cfg : Cfg) (a : BitVec 32) (b : BitVec 32) (c : BitVec 32) (d : BitVec 32) (e : BitVec 32) (f : BitVec 32) (g : BitVec 32) (h : BitVec 32) (k : BitVec 32) (w : BitVec 32) (w1 : BitVec 32) (w2 : BitVec 32) (w3 : BitVec 32) : ((BitVec 32) × (BitVec 32) × (BitVec 32)) :=
  let w_1 : BitVec 32 := ((w + (sigma1 cfg w1)) + w2) + (sigma0 cfg w3)
  let (d_1, h_1) := small_hash.round cfg a b c d e f g h k w_1
  (d_1, h_1, w_1)

/-- The variables w, a, b, c, d, e, f, g, h of `software_process_block`. -/
abbrev Engine.software_process_block_fast.State1 := (List (BitVec 32)) × (BitVec 32) × (BitVec 32) × (BitVec 32) × (BitVec 32) × (BitVec 32) × (BitVec 32) × (BitVec 32) × (BitVec 32)

/-- round!(a, b, c, d, e, f, g, h, 0x428a2f98, w[0]) -/
def Engine.software_process_block_fast.line1_0 (cfg : Cfg) : Engine.software_process_block_fast.State1 → Res Engine.software_process_block_fast.State1 :=
  fun (w, a, b, c, d, e, f, g, h) => do
    let x_10 ← index w 0
    let t1' : BitVec 32 := (((h + (Sigma1 cfg e)) + (Ch cfg e f g)) + 0x428a2f98#32) + x_10
    let t2' : BitVec 32 := (Sigma0 cfg a) + (Maj cfg a b c)
    let d := d + t1'
    let h := t1' + t2'
    pure (w, a, b, c, d, e, f, g, h)

/-- round!(h, a, b, c, d, e, f, g, 0x71374491, w[1]) -/
def Engine.software_process_block_fast.line1_1 (cfg : Cfg) : Engine.software_process_block_fast.State1 → Res Engine.software_process_block_fast.State1 :=
  fun (w, a, b, c, d, e, f, g, h) => do
    let x_11 ← index w 1
    let t1' : BitVec 32 := (((g + (Sigma1 cfg d)) + (Ch cfg d e f)) + 0x71374491#32) + x_11
    let t2' : BitVec 32 := (Sigma0 cfg h) + (Maj cfg h a b)
    let c := c + t1'
    let g := t1' + t2'
    pure (w, a, b, c, d, e, f, g, h)

/-- round!(g, h, a, b, c, d, e, f, 0xb5c0fbcf, w[2]) -/
def Engine.software_process_block_fast.line1_2 (cfg : Cfg) : Engine.software_process_block_fast.State1 → Res Engine.software_process_block_fast.State1 :=
  fun (w, a, b, c, d, e, f, g, h) => do
    let x_12 ← index w 2
    let t1' : BitVec 32 := (((f + (Sigma1 cfg c)) + (Ch cfg c d e)) + 0xb5c0fbcf#32) + x_12
    let t2' : BitVec 32 := (Sigma0 cfg g) + (Maj cfg g h a)
    let b := b + t1'
    let f := t1' + t2'
    pure (w, a, b, c, d, e, f, g, h)

/-- round!(f, g, h, a, b, c, d, e, 0xe9b5dba5, w[3]) -/
def Engine.software_process_block_fast.line1_3 (cfg : Cfg) : Engine.software_process_block_fast.State1 → Res Engine.software_process_block_fast.State1 :=
  fun (w, a, b, c, d, e, f, g, h) => do
    let x_13 ← index w 3
    let t1' : BitVec 32 := (((e + (Sigma1 cfg b)) + (Ch cfg b c d)) + 0xe9b5dba5#32) + x_13
    let t2' : BitVec 32 := (Sigma0 cfg f) + (Maj cfg f g h)
    let a := a + t1'
    let e := t1' + t2'
    pure (w, a, b, c, d, e, f, g, h)

/-- round!(e, f, g, h, a, b, c, d, 0x3956c25b, w[4]) -/
def Engine.software_process_block_fast.line1_4 (cfg : Cfg) : Engine.software_process_block_fast.State1 → Res Engine.software_process_block_fast.State1 :=
  fun (w, a, b, c, d, e, f, g, h) => do
    let x_14 ← index w 4
    let t1' : BitVec 32 := (((d + (Sigma1 cfg a)) + (Ch cfg a b c)) + 0x3956c25b#32) + x_14
    let t2' : BitVec 32 := (Sigma0 cfg e) + (Maj cfg e f g)
    let h := h + t1'
    let d := t1' + t2'
    pure (w, a, b, c, d, e, f, g, h)

/-- round!(d, e, f, g, h, a, b, c, 0x59f111f1, w[5]) -/
def Engine.software_process_block_fast.line1_5 (cfg : Cfg) : Engine.software_process_block_fast.State1 → Res Engine.software_process_block_fast.State1 :=
  fun (w, a, b, c, d, e, f, g, h) => do
    let x_15 ← index w 5
    let t1' : BitVec 32 := (((c + (Sigma1 cfg h)) + (Ch cfg h a b)) + 0x59f111f1#32) + x_15
    let t2' : BitVec 32 := (Sigma0 cfg d) + (Maj cfg d e f)
    let g := g + t1'
    let c := t1' + t2'
    pure (w, a, b, c, d, e, f, g, h)

/-- round!(c, d, e, f, g, h, a, b, 0x923f82a4, w[6]) -/
def Engine.software_process_block_fast.line1_6 (cfg : Cfg) : Engine.software_process_block_fast.State1 → Res Engine.software_process_block_fast.State1 :=
  fun (w, a, b, c, d, e, f, g, h) => do
    let x_16 ← index w 6
    let t1' : BitVec 32 := (((b + (Sigma1 cfg g)) + (Ch cfg g h a)) + 0x923f82a4#32) + x_16
    let t2' : BitVec 32 := (Sigma0 cfg c) + (Maj cfg c d e)
    let f := f + t1'
    let b := t1' + t2'
    pure (w, a, b, c, d, e, f, g, h)

/-- round!(b, c, d, e, f, g, h, a, 0xab1c5ed5, w[7]) -/
def Engine.software_process_block_fast.line1_7 (cfg : Cfg) : Engine.software_process_block_fast.State1 → Res Engine.software_process_block_fast.State1 :=
  fun (w, a, b, c, d, e, f, g, h) => do
    let x_17 ← index w 7
    let t1' : BitVec 32 := (((a + (Sigma1 cfg f)) + (Ch cfg f g h)) + 0xab1c5ed5#32) + x_17
    let t2' : BitVec 32 := (Sigma0 cfg b) + (Maj cfg b c d)
    let e := e + t1'
    let a := t1' + t2'
    pure (w, a, b, c, d, e, f, g, h)

/-- round!(a, b, c, d, e, f, g, h, 0xd807aa98, w[8]) -/
def Engine.software_process_block_fast.line1_8 (cfg : Cfg) : Engine.software_process_block_fast.State1 → Res Engine.software_process_block_fast.State1 :=
  fun (w, a, b, c, d, e, f, g, h) => do
    let x_18 ← index w 8
    let t1' : BitVec 32 := (((h + (Sigma1 cfg e)) + (Ch cfg e f g)) + 0xd807aa98#32) + x_18
    let t2' : BitVec 32 := (Sigma0 cfg a) + (Maj cfg a b c)
    let d := d + t1'
    let h := t1' + t2'
    pure (w, a, b, c, d, e, f, g, h)

/-- round!(h, a, b, c, d, e, f, g, 0x12835b01, w[9]) -/
def Engine.software_process_block_fast.line1_9 (cfg : Cfg) : Engine.software_process_block_fast.State1 → Res Engine.software_process_block_fast.State1 :=
  fun (w, a, b, c, d, e, f, g, h) => do
    let x_19 ← index w 9
    let t1' : BitVec 32 := (((g + (Sigma1 cfg d)) + (Ch cfg d e f)) + 0x12835b01#32) + x_19
    let t2' : BitVec 32 := (Sigma0 cfg h) + (Maj cfg h a b)
    let c := c + t1'
    let g := t1' + t2'
    pure (w, a, b, c, d, e, f, g, h)

/-- round!(g, h, a, b, c, d, e, f, 0x243185be, w[10]) -/
def Engine.software_process_block_fast.line1_10 (cfg : Cfg) : Engine.software_process_block_fast.State1 → Res Engine.software_process_block_fast.State1 :=
  fun (w, a, b, c, d, e, f, g, h) => do
    let x_20 ← index w 10
    let t1' : BitVec 32 := (((f + (Sigma1 cfg c)) + (Ch cfg c d e)) + 0x243185be#32) + x_20
    let t2' : BitVec 32 := (Sigma0 cfg g) + (Maj cfg g h a)
    let b := b + t1'
    let f := t1' + t2'
    pure (w, a, b, c, d, e, f, g, h)

/-- round!(f, g, h, a, b, c, d, e, 0x550c7dc3, w[11]) -/
def Engine.software_process_block_fast.line1_11 (cfg : Cfg) : Engine.software_process_block_fast.State1 → Res Engine.software_process_block_fast.State1 :=
  fun (w, a, b, c, d, e, f, g, h) => do
    let x_21 ← index w 11
    let t1' : BitVec 32 := (((e + (Sigma1 cfg b)) + (Ch cfg b c d)) + 0x550c7dc3#32) + x_21
    let t2' : BitVec 32 := (Sigma0 cfg f) + (Maj cfg f g h)
    let a := a + t1'
    let e := t1' + t2'
    pure (w, a, b, c, d, e, f, g, h)

/-- round!(e, f, g, h, a, b, c, d, 0x72be5d74, w[12]) -/
def Engine.software_process_block_fast.line1_12 (cfg : Cfg) : Engine.software_process_block_fast.State1 → Res Engine.software_process_block_fast.State1 :=
  fun (w, a, b, c, d, e, f, g, h) => do
    let x_22 ← index w 12
    let t1' : BitVec 32 := (((d + (Sigma1 cfg a)) + (Ch cfg a b c)) + 0x72be5d74#32) + x_22
    let t2' : BitVec 32 := (Sigma0 cfg e) + (Maj cfg e f g)
    let h := h + t1'
    let d := t1' + t2'
    pure (w, a, b, c, d, e, f, g, h)

/-- round!(d, e, f, g, h, a, b, c, 0x80deb1fe, w[13]) -/
def Engine.software_process_block_fast.line1_13 (cfg : Cfg) : Engine.software_process_block_fast.State1 → Res Engine.software_process_block_fast.State1 :=
  fun (w, a, b, c, d, e, f, g, h) => do
    let x_23 ← index w 13
    let t1' : BitVec 32 := (((c + (Sigma1 cfg h)) + (Ch cfg h a b)) + 0x80deb1fe#32) + x_23
    let t2' : BitVec 32 := (Sigma0 cfg d) + (Maj cfg d e f)
    let g := g + t1'
    let c := t1' + t2'
    pure (w, a, b, c, d, e, f, g, h)

/-- round!(c, d, e, f, g, h, a, b, 0x9bdc06a7, w[14]) -/
def Engine.software_process_block_fast.line1_14 (cfg : Cfg) : Engine.software_process_block_fast.State1 → Res Engine.software_process_block_fast.State1 :=
  fun (w, a, b, c, d, e, f, g, h) => do
    let x_24 ← index w 14
    let t1' : BitVec 32 := (((b + (Sigma1 cfg g)) + (Ch cfg g h a)) + 0x9bdc06a7#32) + x_24
    let t2' : BitVec 32 := (Sigma0 cfg c) + (Maj cfg c d e)
    let f := f + t1'
    let b := t1' + t2'
    pure (w, a, b, c, d, e, f, g, h)

/-- round!(b, c, d, e, f, g, h, a, 0xc19bf174, w[15]) -/
def Engine.software_process_block_fast.line1_15 (cfg : Cfg) : Engine.software_process_block_fast.State1 → Res Engine.software_process_block_fast.State1 :=
  fun (w, a, b, c, d, e, f, g, h) => do
    let x_25 ← index w 15
    let t1' : BitVec 32 := (((a + (Sigma1 cfg f)) + (Ch cfg f g h)) + 0xc19bf174#32) + x_25
    let t2' : BitVec 32 := (Sigma0 cfg b) + (Maj cfg b c d)
    let e := e + t1'
    let a := t1' + t2'
    pure (w, a, b, c, d, e, f, g, h)

/-- round!(a, b, c, d, e, f, g, h, 0xe49b69c1, w[0], w[14], w[9], w[1]) -/
def Engine.software_process_block_fast.line1_16 (cfg : Cfg) : Engine.software_process_block_fast.State1 → Res Engine.software_process_block_fast.State1 :=
  fun (w, a, b, c, d, e, f, g, h) => do
    let x_26 ← index w 0
    let x_27 ← index w 14
    let x_28 ← index w 9
    let x_29 ← index w 1
    let w ← indexSet w 0 (((x_26 + (sigma1 cfg x_27)) + x_28) + (sigma0 cfg x_29))
    let x_31 ← index w 0
    let t1' : BitVec 32 := (((h + (Sigma1 cfg e)) + (Ch cfg e f g)) + 0xe49b69c1#32) + x_31
    let t2' : BitVec 32 := (Sigma0 cfg a) + (Maj cfg a b c)
    let d := d + t1'
    let h := t1' + t2'
    pure (w, a, b, c, d, e, f, g, h)

/-- round!(h, a, b, c, d, e, f, g, 0xefbe4786, w[1], w[15], w[10], w[2]) -/
def Engine.software_process_block_fast.line1_17 (cfg : Cfg) : Engine.software_process_block_fast.State1 → Res Engine.software_process_block_fast.State1 :=
  fun (w, a, b, c, d, e, f, g, h) => do
    let x_32 ← index w 1
    let x_33 ← index w 15
    let x_34 ← index w 10
    let x_35 ← index w 2
    let w ← indexSet w 1 (((x_32 + (sigma1 cfg x_33)) + x_34) + (sigma0 cfg x_35))
    let x_37 ← index w 1
    let t1' : BitVec 32 := (((g + (Sigma1 cfg d)) + (Ch cfg d e f)) + 0xefbe4786#32) + x_37
    let t2' : BitVec 32 := (Sigma0 cfg h) + (Maj cfg h a b)
    let c := c + t1'
    let g := t1' + t2'
    pure (w, a, b, c, d, e, f, g, h)

/-- round!(g, h, a, b, c, d, e, f, 0x0fc19dc6, w[2], w[0], w[11], w[3]) -/
def Engine.software_process_block_fast.line1_18 (cfg : Cfg) : Engine.software_process_block_fast.State1 → Res Engine.software_process_block_fast.State1 :=
  fun (w, a, b, c, d, e, f, g, h) => do
    let x_38 ← index w 2
    let x_39 ← index w 0
    let x_40 ← index w 11
    let x_41 ← index w 3
    let w ← indexSet w 2 (((x_38 + (sigma1 cfg x_39)) + x_40) + (sigma0 cfg x_41))
    let x_43 ← index w 2
    let t1' : BitVec 32 := (((f + (Sigma1 cfg c)) + (Ch cfg c d e)) + 0x0fc19dc6#32) + x_43
    let t2' : BitVec 32 := (Sigma0 cfg g) + (Maj cfg g h a)
    let b := b + t1'
    let f := t1' + t2'
    pure (w, a, b, c, d, e, f, g, h)

/-- round!(f, g, h, a, b, c, d, e, 0x240ca1cc, w[3], w[1], w[12], w[4]) -/
def Engine.software_process_block_fast.line1_19 (cfg : Cfg) : Engine.software_process_block_fast.State1 → Res Engine.software_process_block_fast.State1 :=
  fun (w, a, b, c, d, e, f, g, h) => do
    let x_44 ← index w 3
    let x_45 ← index w 1
    let x_46 ← index w 12
    let x_47 ← index w 4
    let w ← indexSet w 3 (((x_44 + (sigma1 cfg x_45)) + x_46) + (sigma0 cfg x_47))
    let x_49 ← index w 3
    let t1' : BitVec 32 := (((e + (Sigma1 cfg b)) + (Ch cfg b c d)) + 0x240ca1cc#32) + x_49
    let t2' : BitVec 32 := (Sigma0 cfg f) + (Maj cfg f g h)
    let a := a + t1'
    let e := t1' + t2'
    pure (w, a, b, c, d, e, f, g, h)

/-- round!(e, f, g, h, a, b, c, d, 0x2de92c6f, w[4], w[2], w[13], w[5]) -/
def Engine.software_process_block_fast.line1_20 (cfg : Cfg) : Engine.software_process_block_fast.State1 → Res Engine.software_process_block_fast.State1 :=
  fun (w, a, b, c, d, e, f, g, h) => do
    let x_50 ← index w 4
    let x_51 ← index w 2
    let x_52 ← index w 13
    let x_53 ← index w 5
    let w ← indexSet w 4 (((x_50 + (sigma1 cfg x_51)) + x_52) + (sigma0 cfg x_53))
    let x_55 ← index w 4
    let t1' : BitVec 32 := (((d + (Sigma1 cfg a)) + (Ch cfg a b c)) + 0x2de92c6f#32) + x_55
    let t2' : BitVec 32 := (Sigma0 cfg e) + (Maj cfg e f g)
    let h := h + t1'
    let d := t1' + t2'
    pure (w, a, b, c, d, e, f, g, h)

/-- round!(d, e, f, g, h, a, b, c, 0x4a7484aa, w[5], w[3], w[14], w[6]) -/
def Engine.software_process_block_fast.line1_21 (cfg : Cfg) : Engine.software_process_block_fast.State1 → Res Engine.software_process_block_fast.State1 :=
  fun (w, a, b, c, d, e, f, g, h) => do
    let x_56 ← index w 5
    let x_57 ← index w 3
    let x_58 ← index w 14
    let x_59 ← index w 6
    let w ← indexSet w 5 (((x_56 + (sigma1 cfg x_57)) + x_58) + (sigma0 cfg x_59))
    let x_61 ← index w 5
    let t1' : BitVec 32 := (((c + (Sigma1 cfg h)) + (Ch cfg h a b)) + 0x4a7484aa#32) + x_61
    let t2' : BitVec 32 := (Sigma0 cfg d) + (Maj cfg d e f)
    let g := g + t1'
    let c := t1' + t2'
    pure (w, a, b, c, d, e, f, g, h)

/-- round!(c, d, e, f, g, h, a, b, 0x5cb0a9dc, w[6], w[4], w[15], w[7]) -/
def Engine.software_process_block_fast.line1_22 (cfg : Cfg) : Engine.software_process_block_fast.State1 → Res Engine.software_process_block_fast.State1 :=
  fun (w, a, b, c, d, e, f, g, h) => do
    let x_62 ← index w 6
    let x_63 ← index w 4
    let x_64 ← index w 15
    let x_65 ← index w 7
    let w ← indexSet w 6 (((x_62 + (sigma1 cfg x_63)) + x_64) + (sigma0 cfg x_65))
    let x_67 ← index w 6
    let t1' : BitVec 32 := (((b + (Sigma1 cfg g)) + (Ch cfg g h a)) + 0x5cb0a9dc#32) + x_67
    let t2' : BitVec 32 := (Sigma0 cfg c) + (Maj cfg c d e)
    let f := f + t1'
    let b := t1' + t2'
    pure (w, a, b, c, d, e, f, g, h)

/-- round!(b, c, d, e, f, g, h, a, 0x76f988da, w[7], w[5], w[0], w[8]) -/
def Engine.software_process_block_fast.line1_23 (cfg : Cfg) : Engine.software_process_block_fast.State1 → Res Engine.software_process_block_fast.State1 :=
  fun (w, a, b, c, d, e, f, g, h) => do
    let x_68 ← index w 7
    let x_69 ← index w 5
    let x_70 ← index w 0
    let x_71 ← index w 8
    let w ← indexSet w 7 (((x_68 + (sigma1 cfg x_69)) + x_70) + (sigma0 cfg x_71))
    let x_73 ← index w 7
    let t1' : BitVec 32 := (((a + (Sigma1 cfg f)) + (Ch cfg f g h)) + 0x76f988da#32) + x_73
    let t2' : BitVec 32 := (Sigma0 cfg b) + (Maj cfg b c d)
    let e := e + t1'
    let a := t1' + t2'
    pure (w, a, b, c, d, e, f, g, h)

/-- round!(a, b, c, d, e, f, g, h, 0x983e5152, w[8], w[6], w[1], w[9]) -/
def Engine.software_process_block_fast.line1_24 (cfg : Cfg) : Engine.software_process_block_fast.State1 → Res Engine.software_process_block_fast.State1 :=
  fun (w, a, b, c, d, e, f, g, h) => do
    let x_74 ← index w 8
    let x_75 ← index w 6
    let x_76 ← index w 1
    let x_77 ← index w 9
    let w ← indexSet w 8 (((x_74 + (sigma1 cfg x_75)) + x_76) + (sigma0 cfg x_77))
    let x_79 ← index w 8
    let t1' : BitVec 32 := (((h + (Sigma1 cfg e)) + (Ch cfg e f g)) + 0x983e5152#32) + x_79
    let t2' : BitVec 32 := (Sigma0 cfg a) + (Maj cfg a b c)
    let d := d + t1'
    let h := t1' + t2'
    pure (w, a, b, c, d, e, f, g, h)

/-- round!(h, a, b, c, d, e, f, g, 0xa831c66d, w[9], w[7], w[2], w[10]) -/
def Engine.software_process_block_fast.line1_25 (cfg : Cfg) : Engine.software_process_block_fast.State1 → Res Engine.software_process_block_fast.State1 :=
  fun (w, a, b, c, d, e, f, g, h) => do
    let x_80 ← index w 9
    let x_81 ← index w 7
    let x_82 ← index w 2
    let x_83 ← index w 10
    let w ← indexSet w 9 (((x_80 + (sigma1 cfg x_81)) + x_82) + (sigma0 cfg x_83))
    let x_85 ← index w 9
    let t1' : BitVec 32 := (((g + (Sigma1 cfg d)) + (Ch cfg d e f)) + 0xa831c66d#32) + x_85
    let t2' : BitVec 32 := (Sigma0 cfg h) + (Maj cfg h a b)
    let c := c + t1'
    let g := t1' + t2'
    pure (w, a, b, c, d, e, f, g, h)

/-- round!(g, h, a, b, c, d, e, f, 0xb00327c8, w[10], w[8], w[3], w[11]) -/
def Engine.software_process_block_fast.line1_26 (cfg : Cfg) : Engine.software_process_block_fast.State1 → Res Engine.software_process_block_fast.State1 :=
  fun (w, a, b, c, d, e, f, g, h) => do
    let x_86 ← index w 10
    let x_87 ← index w 8
    let x_88 ← index w 3
    let x_89 ← index w 11
    let w ← indexSet w 10 (((x_86 + (sigma1 cfg x_87)) + x_88) + (sigma0 cfg x_89))
    let x_91 ← index w 10
    let t1' : BitVec 32 := (((f + (Sigma1 cfg c)) + (Ch cfg c d e)) + 0xb00327c8#32) + x_91
    let t2' : BitVec 32 := (Sigma0 cfg g) + (Maj cfg g h a)
    let b := b + t1'
    let f := t1' + t2'
    pure (w, a, b, c, d, e, f, g, h)

/-- round!(f, g, h, a, b, c, d, e, 0xbf597fc7, w[11], w[9], w[4], w[12]) -/
def Engine.software_process_block_fast.line1_27 (cfg : Cfg) : Engine.software_process_block_fast.State1 → Res Engine.software_process_block_fast.State1 :=
  fun (w, a, b, c, d, e, f, g, h) => do
    let x_92 ← index w 11
    let x_93 ← index w 9
    let x_94 ← index w 4
    let x_95 ← index w 12
    let w ← indexSet w 11 (((x_92 + (sigma1 cfg x_93)) + x_94) + (sigma0 cfg x_95))
    let x_97 ← index w 11
    let t1' : BitVec 32 := (((e + (Sigma1 cfg b)) + (Ch cfg b c d)) + 0xbf597fc7#32) + x_97
    let t2' : BitVec 32 := (Sigma0 cfg f) + (Maj cfg f g h)
    let a := a + t1'
    let e := t1' + t2'
    pure (w, a, b, c, d, e, f, g, h)

/-- round!(e, f, g, h, a, b, c, d, 0xc6e00bf3, w[12], w[10], w[5], w[13]) -/
def Engine.software_process_block_fast.line1_28 (cfg : Cfg) : Engine.software_process_block_fast.State1 → Res Engine.software_process_block_fast.State1 :=
  fun (w, a, b, c, d, e, f, g, h) => do
    let x_98 ← index w 12
    let x_99 ← index w 10
    let x_100 ← index w 5
    let x_101 ← index w 13
    let w ← indexSet w 12 (((x_98 + (sigma1 cfg x_99)) + x_100) + (sigma0 cfg x_101))
    let x_103 ← index w 12
    let t1' : BitVec 32 := (((d + (Sigma1 cfg a)) + (Ch cfg a b c)) + 0xc6e00bf3#32) + x_103
    let t2' : BitVec 32 := (Sigma0 cfg e) + (Maj cfg e f g)
    let h := h + t1'
    let d := t1' + t2'
    pure (w, a, b, c, d, e, f, g, h)

/-- round!(d, e, f, g, h, a, b, c, 0xd5a79147, w[13], w[11], w[6], w[14]) -/
def Engine.software_process_block_fast.line1_29 (cfg : Cfg) : Engine.software_process_block_fast.State1 → Res Engine.software_process_block_fast.State1 :=
  fun (w, a, b, c, d, e, f, g, h) => do
    let x_104 ← index w 13
    let x_105 ← index w 11
    let x_106 ← index w 6
    let x_107 ← index w 14
    let w ← indexSet w 13 (((x_104 + (sigma1 cfg x_105)) + x_106) + (sigma0 cfg x_107))
    let x_109 ← index w 13
    let t1' : BitVec 32 := (((c + (Sigma1 cfg h)) + (Ch cfg h a b)) + 0xd5a79147#32) + x_109
    let t2' : BitVec 32 := (Sigma0 cfg d) + (Maj cfg d e f)
    let g := g + t1'
    let c := t1' + t2'
    pure (w, a, b, c, d, e, f, g, h)

/-- round!(c, d, e, f, g, h, a, b, 0x06ca6351, w[14], w[12], w[7], w[15]) -/
def Engine.software_process_block_fast.line1_30 (cfg : Cfg) : Engine.software_process_block_fast.State1 → Res Engine.software_process_block_fast.State1 :=
  fun (w, a, b, c, d, e, f, g, h) => do
    let x_110 ← index w 14
    let x_111 ← index w 12
    let x_112 ← index w 7
    let x_113 ← index w 15
    let w ← indexSet w 14 (((x_110 + (sigma1 cfg x_111)) + x_112) + (sigma0 cfg x_113))
    let x_115 ← index w 14
    let t1' : BitVec 32 := (((b + (Sigma1 cfg g)) + (Ch cfg g h a)) + 0x06ca6351#32) + x_115
    let t2' : BitVec 32 := (Sigma0 cfg c) + (Maj cfg c d e)
    let f := f + t1'
    let b := t1' + t2'
    pure (w, a, b, c, d, e, f, g, h)

/-- round!(b, c, d, e, f, g, h, a, 0x14292967, w[15], w[13], w[8], w[0]) -/
def Engine.software_process_block_fast.line1_31 (cfg : Cfg) : Engine.software_process_block_fast.State1 → Res Engine.software_process_block_fast.State1 :=
  fun (w, a, b, c, d, e, f, g, h) => do
    let x_116 ← index w 15
    let x_117 ← index w 13
    let x_118 ← index w 8
    let x_119 ← index w 0
    let w ← indexSet w 15 (((x_116 + (sigma1 cfg x_117)) + x_118) + (sigma0 cfg x_119))
    let x_121 ← index w 15
    let t1' : BitVec 32 := (((a + (Sigma1 cfg f)) + (Ch cfg f g h)) + 0x14292967#32) + x_121
    let t2' : BitVec 32 := (Sigma0 cfg b) + (Maj cfg b c d)
    let e := e + t1'
    let a := t1' + t2'
    pure (w, a, b, c, d, e, f, g, h)

/-- round!(a, b, c, d, e, f, g, h, 0x27b70a85, w[0], w[14], w[9], w[1]) -/
def Engine.software_process_block_fast.line1_32 (cfg : Cfg) : Engine.software_process_block_fast.State1 → Res Engine.software_process_block_fast.State1 :=
  fun (w, a, b, c, d, e, f, g, h) => do
    let x_122 ← index w 0
    let x_123 ← index w 14
    let x_124 ← index w 9
    let x_125 ← index w 1
    let w ← indexSet w 0 (((x_122 + (sigma1 cfg x_123)) + x_124) + (sigma0 cfg x_125))
    let x_127 ← index w 0
    let t1' : BitVec 32 := (((h + (Sigma1 cfg e)) + (Ch cfg e f g)) + 0x27b70a85#32) + x_127
    let t2' : BitVec 32 := (Sigma0 cfg a) + (Maj cfg a b c)
    let d := d + t1'
    let h := t1' + t2'
    pure (w, a, b, c, d, e, f, g, h)

/-- round!(h, a, b, c, d, e, f, g, 0x2e1b2138, w[1], w[15], w[10], w[2]) -/
def Engine.software_process_block_fast.line1_33 (cfg : Cfg) : Engine.software_process_block_fast.State1 → Res Engine.software_process_block_fast.State1 :=
  fun (w, a, b, c, d, e, f, g, h) => do
    let x_128 ← index w 1
    let x_129 ← index w 15
    let x_130 ← index w 10
    let x_131 ← index w 2
    let w ← indexSet w 1 (((x_128 + (sigma1 cfg x_129)) + x_130) + (sigma0 cfg x_131))
    let x_133 ← index w 1
    let t1' : BitVec 32 := (((g + (Sigma1 cfg d)) + (Ch cfg d e f)) + 0x2e1b2138#32) + x_133
    let t2' : BitVec 32 := (Sigma0 cfg h) + (Maj cfg h a b)
    let c := c + t1'
    let g := t1' + t2'
    pure (w, a, b, c, d, e, f, g, h)

/-- round!(g, h, a, b, c, d, e, f, 0x4d2c6dfc, w[2], w[0], w[11], w[3]) -/
def Engine.software_process_block_fast.line1_34 (cfg : Cfg) : Engine.software_process_block_fast.State1 → Res Engine.software_process_block_fast.State1 :=
  fun (w, a, b, c, d, e, f, g, h) => do
    let x_134 ← index w 2
    let x_135 ← index w 0
    let x_136 ← index w 11
    let x_137 ← index w 3
    let w ← indexSet w 2 (((x_134 + (sigma1 cfg x_135)) + x_136) + (sigma0 cfg x_137))
    let x_139 ← index w 2
    let t1' : BitVec 32 := (((f + (Sigma1 cfg c)) + (Ch cfg c d e)) + 0x4d2c6dfc#32) + x_139
    let t2' : BitVec 32 := (Sigma0 cfg g) + (Maj cfg g h a)
    let b := b + t1'
    let f := t1' + t2'
    pure (w, a, b, c, d, e, f, g, h)

/-- round!(f, g, h, a, b, c, d, e, 0x53380d13, w[3], w[1], w[12], w[4]) -/
def Engine.software_process_block_fast.line1_35 (cfg : Cfg) : Engine.software_process_block_fast.State1 → Res Engine.software_process_block_fast.State1 :=
  fun (w, a, b, c, d, e, f, g, h) => do
    let x_140 ← index w 3
    let x_141 ← index w 1
    let x_142 ← index w 12
    let x_143 ← index w 4
    let w ← indexSet w 3 (((x_140 + (sigma1 cfg x_141)) + x_142) + (sigma0 cfg x_143))
    let x_145 ← index w 3
    let t1' : BitVec 32 := (((e + (Sigma1 cfg b)) + (Ch cfg b c d)) + 0x53380d13#32) + x_145
    let t2' : BitVec 32 := (Sigma0 cfg f) + (Maj cfg f g h)
    let a := a + t1'
    let e := t1' + t2'
    pure (w, a, b, c, d, e, f, g, h)

/-- round!(e, f, g, h, a, b, c, d, 0x650a7354, w[4], w[2], w[13], w[5]) -/
def Engine.software_process_block_fast.line1_36 (cfg : Cfg) : Engine.software_process_block_fast.State1 → Res Engine.software_process_block_fast.State1 :=
  fun (w, a, b, c, d, e, f, g, h) => do
    let x_146 ← index w 4
    let x_147 ← index w 2
    let x_148 ← index w 13
    let x_149 ← index w 5
    let w ← indexSet w 4 (((x_146 + (sigma1 cfg x_147)) + x_148) + (sigma0 cfg x_149))
    let x_151 ← index w 4
    let t1' : BitVec 32 := (((d + (Sigma1 cfg a)) + (Ch cfg a b c)) + 0x650a7354#32) + x_151
    let t2' : BitVec 32 := (Sigma0 cfg e) + (Maj cfg e f g)
    let h := h + t1'
    let d := t1' + t2'
    pure (w, a, b, c, d, e, f, g, h)

/-- round!(d, e, f, g, h, a, b, c, 0x766a0abb, w[5], w[3], w[14], w[6]) -/
def Engine.software_process_block_fast.line1_37 (cfg : Cfg) : Engine.software_process_block_fast.State1 → Res Engine.software_process_block_fast.State1 :=
  fun (w, a, b, c, d, e, f, g, h) => do
    let x_152 ← index w 5
    let x_153 ← index w 3
    let x_154 ← index w 14
    let x_155 ← index w 6
    let w ← indexSet w 5 (((x_152 + (sigma1 cfg x_153)) + x_154) + (sigma0 cfg x_155))
    let x_157 ← index w 5
    let t1' : BitVec 32 := (((c + (Sigma1 cfg h)) + (Ch cfg h a b)) + 0x766a0abb#32) + x_157
    let t2' : BitVec 32 := (Sigma0 cfg d) + (Maj cfg d e f)
    let g := g + t1'
    let c := t1' + t2'
    pure (w, a, b, c, d, e, f, g, h)

/-- round!(c, d, e, f, g, h, a, b, 0x81c2c92e, w[6], w[4], w[15], w[7]) -/
def Engine.software_process_block_fast.line1_38 (cfg : Cfg) : Engine.software_process_block_fast.State1 → Res Engine.software_process_block_fast.State1 :=
  fun (w, a, b, c, d, e, f, g, h) => do
    let x_158 ← index w 6
    let x_159 ← index w 4
    let x_160 ← index w 15
    let x_161 ← index w 7
    let w ← indexSet w 6 (((x_158 + (sigma1 cfg x_159)) + x_160) + (sigma0 cfg x_161))
    let x_163 ← index w 6
    let t1' : BitVec 32 := (((b + (Sigma1 cfg g)) + (Ch cfg g h a)) + 0x81c2c92e#32) + x_163
    let t2' : BitVec 32 := (Sigma0 cfg c) + (Maj cfg c d e)
    let f := f + t1'
    let b := t1' + t2'
    pure (w, a, b, c, d, e, f, g, h)

/-- round!(b, c, d, e, f, g, h, a, 0x92722c85, w[7], w[5], w[0], w[8]) -/
def Engine.software_process_block_fast.line1_39 (cfg : Cfg) : Engine.software_process_block_fast.State1 → Res Engine.software_process_block_fast.State1 :=
  fun (w, a, b, c, d, e, f, g, h) => do
    let x_164 ← index w 7
    let x_165 ← index w 5
    let x_166 ← index w 0
    let x_167 ← index w 8
    let w ← indexSet w 7 (((x_164 + (sigma1 cfg x_165)) + x_166) + (sigma0 cfg x_167))
    let x_169 ← index w 7
    let t1' : BitVec 32 := (((a + (Sigma1 cfg f)) + (Ch cfg f g h)) + 0x92722c85#32) + x_169
    let t2' : BitVec 32 := (Sigma0 cfg b) + (Maj cfg b c d)
    let e := e + t1'
    let a := t1' + t2'
    pure (w, a, b, c, d, e, f, g, h)

/-- round!(a, b, c, d, e, f, g, h, 0xa2bfe8a1, w[8], w[6], w[1], w[9]) -/
def Engine.software_process_block_fast.line1_40 (cfg : Cfg) : Engine.software_process_block_fast.State1 → Res Engine.software_process_block_fast.State1 :=
  fun (w, a, b, c, d, e, f, g, h) => do
    let x_170 ← index w 8
    let x_171 ← index w 6
    let x_172 ← index w 1
    let x_173 ← index w 9
    let w ← indexSet w 8 (((x_170 + (sigma1 cfg x_171)) + x_172) + (sigma0 cfg x_173))
    let x_175 ← index w 8
    let t1' : BitVec 32 := (((h + (Sigma1 cfg e)) + (Ch cfg e f g)) + 0xa2bfe8a1#32) + x_175
    let t2' : BitVec 32 := (Sigma0 cfg a) + (Maj cfg a b c)
    let d := d + t1'
    let h := t1' + t2'
    pure (w, a, b, c, d, e, f, g, h)

/-- round!(h, a, b, c, d, e, f, g, 0xa81a664b, w[9], w[7], w[2], w[10]) -/
def Engine.software_process_block_fast.line1_41 (cfg : Cfg) : Engine.software_process_block_fast.State1 → Res Engine.software_process_block_fast.State1 :=
  fun (w, a, b, c, d, e, f, g, h) => do
    let x_176 ← index w 9
    let x_177 ← index w 7
    let x_178 ← index w 2
    let x_179 ← index w 10
    let w ← indexSet w 9 (((x_176 + (sigma1 cfg x_177)) + x_178) + (sigma0 cfg x_179))
    let x_181 ← index w 9
    let t1' : BitVec 32 := (((g + (Sigma1 cfg d)) + (Ch cfg d e f)) + 0xa81a664b#32) + x_181
    let t2' : BitVec 32 := (Sigma0 cfg h) + (Maj cfg h a b)
    let c := c + t1'
    let g := t1' + t2'
    pure (w, a, b, c, d, e, f, g, h)

/-- round!(g, h, a, b, c, d, e, f, 0xc24b8b70, w[10], w[8], w[3], w[11]) -/
def Engine.software_process_block_fast.line1_42 (cfg : Cfg) : Engine.software_process_block_fast.State1 → Res Engine.software_process_block_fast.State1 :=
  fun (w, a, b, c, d, e, f, g, h) => do
    let x_182 ← index w 10
    let x_183 ← index w 8
    let x_184 ← index w 3
    let x_185 ← index w 11
    let w ← indexSet w 10 (((x_182 + (sigma1 cfg x_183)) + x_184) + (sigma0 cfg x_185))
    let x_187 ← index w 10
    let t1' : BitVec 32 := (((f + (Sigma1 cfg c)) + (Ch cfg c d e)) + 0xc24b8b70#32) + x_187
    let t2' : BitVec 32 := (Sigma0 cfg g) + (Maj cfg g h a)
    let b := b + t1'
    let f := t1' + t2'
    pure (w, a, b, c, d, e, f, g, h)

/-- round!(f, g, h, a, b, c, d, e, 0xc76c51a3, w[11], w[9], w[4], w[12]) -/
def Engine.software_process_block_fast.line1_43 (cfg : Cfg) : Engine.software_process_block_fast.State1 → Res Engine.software_process_block_fast.State1 :=
  fun (w, a, b, c, d, e, f, g, h) => do
    let x_188 ← index w 11
    let x_189 ← index w 9
    let x_190 ← index w 4
    let x_191 ← index w 12
    let w ← indexSet w 11 (((x_188 + (sigma1 cfg x_189)) + x_190) + (sigma0 cfg x_191))
    let x_193 ← index w 11
    let t1' : BitVec 32 := (((e + (Sigma1 cfg b)) + (Ch cfg b c d)) + 0xc76c51a3#32) + x_193
    let t2' : BitVec 32 := (Sigma0 cfg f) + (Maj cfg f g h)
    let a := a + t1'
    let e := t1' + t2'
    pure (w, a, b, c, d, e, f, g, h)

/-- round!(e, f, g, h, a, b, c, d, 0xd192e819, w[12], w[10], w[5], w[13]) -/
def Engine.software_process_block_fast.line1_44 (cfg : Cfg) : Engine.software_process_block_fast.State1 → Res Engine.software_process_block_fast.State1 :=
  fun (w, a, b, c, d, e, f, g, h) => do
    let x_194 ← index w 12
    let x_195 ← index w 10
    let x_196 ← index w 5
    let x_197 ← index w 13
    let w ← indexSet w 12 (((x_194 + (sigma1 cfg x_195)) + x_196) + (sigma0 cfg x_197))
    let x_199 ← index w 12
    let t1' : BitVec 32 := (((d + (Sigma1 cfg a)) + (Ch cfg a b c)) + 0xd192e819#32) + x_199
    let t2' : BitVec 32 := (Sigma0 cfg e) + (Maj cfg e f g)
    let h := h + t1'
    let d := t1' + t2'
    pure (w, a, b, c, d, e, f, g, h)

/-- round!(d, e, f, g, h, a, b, c, 0xd6990624, w[13], w[11], w[6], w[14]) -/
def Engine.software_process_block_fast.line1_45 (cfg : Cfg) : Engine.software_process_block_fast.State1 → Res Engine.software_process_block_fast.State1 :=
  fun (w, a, b, c, d, e, f, g, h) => do
    let x_200 ← index w 13
    let x_201 ← index w 11
    let x_202 ← index w 6
    let x_203 ← index w 14
    let w ← indexSet w 13 (((x_200 + (sigma1 cfg x_201)) + x_202) + (sigma0 cfg x_203))
    let x_205 ← index w 13
    let t1' : BitVec 32 := (((c + (Sigma1 cfg h)) + (Ch cfg h a b)) + 0xd6990624#32) + x_205
    let t2' : BitVec 32 := (Sigma0 cfg d) + (Maj cfg d e f)
    let g := g + t1'
    let c := t1' + t2'
    pure (w, a, b, c, d, e, f, g, h)

/-- round!(c, d, e, f, g, h, a, b, 0xf40e3585, w[14], w[12], w[7], w[15]) -/
def Engine.software_process_block_fast.line1_46 (cfg : Cfg) : Engine.software_process_block_fast.State1 → Res Engine.software_process_block_fast.State1 :=
  fun (w, a, b, c, d, e, f, g, h) => do
    let x_206 ← index w 14
    let x_207 ← index w 12
    let x_208 ← index w 7
    let x_209 ← index w 15
    let w ← indexSet w 14 (((x_206 + (sigma1 cfg x_207)) + x_208) + (sigma0 cfg x_209))
    let x_211 ← index w 14
    let t1' : BitVec 32 := (((b + (Sigma1 cfg g)) + (Ch cfg g h a)) + 0xf40e3585#32) + x_211
    let t2' : BitVec 32 := (Sigma0 cfg c) + (Maj cfg c d e)
    let f := f + t1'
    let b := t1' + t2'
    pure (w, a, b, c, d, e, f, g, h)

/-- round!(b, c, d, e, f, g, h, a, 0x106aa070, w[15], w[13], w[8], w[0]) -/
def Engine.software_process_block_fast.line1_47 (cfg : Cfg) : Engine.software_process_block_fast.State1 → Res Engine.software_process_block_fast.State1 :=
  fun (w, a, b, c, d, e, f, g, h) => do
    let x_212 ← index w 15
    let x_213 ← index w 13
    let x_214 ← index w 8
    let x_215 ← index w 0
    let w ← indexSet w 15 (((x_212 + (sigma1 cfg x_213)) + x_214) + (sigma0 cfg x_215))
    let x_217 ← index w 15
    let t1' : BitVec 32 := (((a + (Sigma1 cfg f)) + (Ch cfg f g h)) + 0x106aa070#32) + x_217
    let t2' : BitVec 32 := (Sigma0 cfg b) + (Maj cfg b c d)
    let e := e + t1'
    let a := t1' + t2'
    pure (w, a, b, c, d, e, f, g, h)

/-- round!(a, b, c, d, e, f, g, h, 0x19a4c116, w[0], w[14], w[9], w[1]) -/
def Engine.software_process_block_fast.line1_48 (cfg : Cfg) : Engine.software_process_block_fast.State1 → Res Engine.software_process_block_fast.State1 :=
  fun (w, a, b, c, d, e, f, g, h) => do
    let x_218 ← index w 0
    let x_219 ← index w 14
    let x_220 ← index w 9
    let x_221 ← index w 1
    let w ← indexSet w 0 (((x_218 + (sigma1 cfg x_219)) + x_220) + (sigma0 cfg x_221))
    let x_223 ← index w 0
    let t1' : BitVec 32 := (((h + (Sigma1 cfg e)) + (Ch cfg e f g)) + 0x19a4c116#32) + x_223
    let t2' : BitVec 32 := (Sigma0 cfg a) + (Maj cfg a b c)
    let d := d + t1'
    let h := t1' + t2'
    pure (w, a, b, c, d, e, f, g, h)

/-- round!(h, a, b, c, d, e, f, g, 0x1e376c08, w[1], w[15], w[10], w[2]) -/
def Engine.software_process_block_fast.line1_49 (cfg : Cfg) : Engine.software_process_block_fast.State1 → Res Engine.software_process_block_fast.State1 :=
  fun (w, a, b, c, d, e, f, g, h) => do
    let x_224 ← index w 1
    let x_225 ← index w 15
    let x_226 ← index w 10
    let x_227 ← index w 2
    let w ← indexSet w 1 (((x_224 + (sigma1 cfg x_225)) + x_226) + (sigma0 cfg x_227))
    let x_229 ← index w 1
    let t1' : BitVec 32 := (((g + (Sigma1 cfg d)) + (Ch cfg d e f)) + 0x1e376c08#32) + x_229
    let t2' : BitVec 32 := (Sigma0 cfg h) + (Maj cfg h a b)
    let c := c + t1'
    let g := t1' + t2'
    pure (w, a, b, c, d, e, f, g, h)

/-- round!(g, h, a, b, c, d, e, f, 0x2748774c, w[2], w[0], w[11], w[3]) -/
def Engine.software_process_block_fast.line1_50 (cfg : Cfg) : Engine.software_process_block_fast.State1 → Res Engine.software_process_block_fast.State1 :=
  fun (w, a, b, c, d, e, f, g, h) => do
    let x_230 ← index w 2
    let x_231 ← index w 0
    let x_232 ← index w 11
    let x_233 ← index w 3
    let w ← indexSet w 2 (((x_230 + (sigma1 cfg x_231)) + x_232) + (sigma0 cfg x_233))
    let x_235 ← index w 2
    let t1' : BitVec 32 := (((f + (Sigma1 cfg c)) + (Ch cfg c d e)) + 0x2748774c#32) + x_235
    let t2' : BitVec 32 := (Sigma0 cfg g) + (Maj cfg g h a)
    let b := b + t1'
    let f := t1' + t2'
    pure (w, a, b, c, d, e, f, g, h)

/-- round!(f, g, h, a, b, c, d, e, 0x34b0bcb5, w[3], w[1], w[12], w[4]) -/
def Engine.software_process_block_fast.line1_51 (cfg : Cfg) : Engine.software_process_block_fast.State1 → Res Engine.software_process_block_fast.State1 :=
  fun (w, a, b, c, d, e, f, g, h) => do
    let x_236 ← index w 3
    let x_237 ← index w 1
    let x_238 ← index w 12
    let x_239 ← index w 4
    let w ← indexSet w 3 (((x_236 + (sigma1 cfg x_237)) + x_238) + (sigma0 cfg x_239))
    let x_241 ← index w 3
    let t1' : BitVec 32 := (((e + (Sigma1 cfg b)) + (Ch cfg b c d)) + 0x34b0bcb5#32) + x_241
    let t2' : BitVec 32 := (Sigma0 cfg f) + (Maj cfg f g h)
    let a := a + t1'
    let e := t1' + t2'
    pure (w, a, b, c, d, e, f, g, h)

/-- round!(e, f, g, h, a, b, c, d, 0x391c0cb3, w[4], w[2], w[13], w[5]) -/
def Engine.software_process_block_fast.line1_52 (cfg : Cfg) : Engine.software_process_block_fast.State1 → Res Engine.software_process_block_fast.State1 :=
  fun (w, a, b, c, d, e, f, g, h) => do
    let x_242 ← index w 4
    let x_243 ← index w 2
    let x_244 ← index w 13
    let x_245 ← index w 5
    let w ← indexSet w 4 (((x_242 + (sigma1 cfg x_243)) + x_244) + (sigma0 cfg x_245))
    let x_247 ← index w 4
    let t1' : BitVec 32 := (((d + (Sigma1 cfg a)) + (Ch cfg a b c)) + 0x391c0cb3#32) + x_247
    let t2' : BitVec 32 := (Sigma0 cfg e) + (Maj cfg e f g)
    let h := h + t1'
    let d := t1' + t2'
    pure (w, a, b, c, d, e, f, g, h)

/-- round!(d, e, f, g, h, a, b, c, 0x4ed8aa4a, w[5], w[3], w[14], w[6]) -/
def Engine.software_process_block_fast.line1_53 (cfg : Cfg) : Engine.software_process_block_fast.State1 → Res Engine.software_process_block_fast.State1 :=
  fun (w, a, b, c, d, e, f, g, h) => do
    let x_248 ← index w 5
    let x_249 ← index w 3
    let x_250 ← index w 14
    let x_251 ← index w 6
    let w ← indexSet w 5 (((x_248 + (sigma1 cfg x_249)) + x_250) + (sigma0 cfg x_251))
    let x_253 ← index w 5
    let t1' : BitVec 32 := (((c + (Sigma1 cfg h)) + (Ch cfg h a b)) + 0x4ed8aa4a#32) + x_253
    let t2' : BitVec 32 := (Sigma0 cfg d) + (Maj cfg d e f)
    let g := g + t1'
    let c := t1' + t2'
    pure (w, a, b, c, d, e, f, g, h)

/-- round!(c, d, e, f, g, h, a, b, 0x5b9cca4f, w[6], w[4], w[15], w[7]) -/
def Engine.software_process_block_fast.line1_54 (cfg : Cfg) : Engine.software_process_block_fast.State1 → Res Engine.software_process_block_fast.State1 :=
  fun (w, a, b, c, d, e, f, g, h) => do
    let x_254 ← index w 6
    let x_255 ← index w 4
    let x_256 ← index w 15
    let x_257 ← index w 7
    let w ← indexSet w 6 (((x_254 + (sigma1 cfg x_255)) + x_256) + (sigma0 cfg x_257))
    let x_259 ← index w 6
    let t1' : BitVec 32 := (((b + (Sigma1 cfg g)) + (Ch cfg g h a)) + 0x5b9cca4f#32) + x_259
    let t2' : BitVec 32 := (Sigma0 cfg c) + (Maj cfg c d e)
    let f := f + t1'
    let b := t1' + t2'
    pure (w, a, b, c, d, e, f, g, h)

/-- round!(b, c, d, e, f, g, h, a, 0x682e6ff3, w[7], w[5], w[0], w[8]) -/
def Engine.software_process_block_fast.line1_55 (cfg : Cfg) : Engine.software_process_block_fast.State1 → Res Engine.software_process_block_fast.State1 :=
  fun (w, a, b, c, d, e, f, g, h) => do
    let x_260 ← index w 7
    let x_261 ← index w 5
    let x_262 ← index w 0
    let x_263 ← index w 8
    let w ← indexSet w 7 (((x_260 + (sigma1 cfg x_261)) + x_262) + (sigma0 cfg x_263))
    let x_265 ← index w 7
    let t1' : BitVec 32 := (((a + (Sigma1 cfg f)) + (Ch cfg f g h)) + 0x682e6ff3#32) + x_265
    let t2' : BitVec 32 := (Sigma0 cfg b) + (Maj cfg b c d)
    let e := e + t1'
    let a := t1' + t2'
    pure (w, a, b, c, d, e, f, g, h)

/-- round!(a, b, c, d, e, f, g, h, 0x748f82ee, w[8], w[6], w[1], w[9]) -/
def Engine.software_process_block_fast.line1_56 (cfg : Cfg) : Engine.software_process_block_fast.State1 → Res Engine.software_process_block_fast.State1 :=
  fun (w, a, b, c, d, e, f, g, h) => do
    let x_266 ← index w 8
    let x_267 ← index w 6
    let x_268 ← index w 1
    let x_269 ← index w 9
    let w ← indexSet w 8 (((x_266 + (sigma1 cfg x_267)) + x_268) + (sigma0 cfg x_269))
    let x_271 ← index w 8
    let t1' : BitVec 32 := (((h + (Sigma1 cfg e)) + (Ch cfg e f g)) + 0x748f82ee#32) + x_271
    let t2' : BitVec 32 := (Sigma0 cfg a) + (Maj cfg a b c)
    let d := d + t1'
    let h := t1' + t2'
    pure (w, a, b, c, d, e, f, g, h)

/-- round!(h, a, b, c, d, e, f, g, 0x78a5636f, w[9], w[7], w[2], w[10]) -/
def Engine.software_process_block_fast.line1_57 (cfg : Cfg) : Engine.software_process_block_fast.State1 → Res Engine.software_process_block_fast.State1 :=
  fun (w, a, b, c, d, e, f, g, h) => do
    let x_272 ← index w 9
    let x_273 ← index w 7
    let x_274 ← index w 2
    let x_275 ← index w 10
    let w ← indexSet w 9 (((x_272 + (sigma1 cfg x_273)) + x_274) + (sigma0 cfg x_275))
    let x_277 ← index w 9
    let t1' : BitVec 32 := (((g + (Sigma1 cfg d)) + (Ch cfg d e f)) + 0x78a5636f#32) + x_277
    let t2' : BitVec 32 := (Sigma0 cfg h) + (Maj cfg h a b)
    let c := c + t1'
    let g := t1' + t2'
    pure (w, a, b, c, d, e, f, g, h)

/-- round!(g, h, a, b, c, d, e, f, 0x84c87814, w[10], w[8], w[3], w[11]) -/
def Engine.software_process_block_fast.line1_58 (cfg : Cfg) : Engine.software_process_block_fast.State1 → Res Engine.software_process_block_fast.State1 :=
  fun (w, a, b, c, d, e, f, g, h) => do
    let x_278 ← index w 10
    let x_279 ← index w 8
    let x_280 ← index w 3
    let x_281 ← index w 11
    let w ← indexSet w 10 (((x_278 + (sigma1 cfg x_279)) + x_280) + (sigma0 cfg x_281))
    let x_283 ← index w 10
    let t1' : BitVec 32 := (((f + (Sigma1 cfg c)) + (Ch cfg c d e)) + 0x84c87814#32) + x_283
    let t2' : BitVec 32 := (Sigma0 cfg g) + (Maj cfg g h a)
    let b := b + t1'
    let f := t1' + t2'
    pure (w, a, b, c, d, e, f, g, h)

/-- round!(f, g, h, a, b, c, d, e, 0x8cc70208, w[11], w[9], w[4], w[12]) -/
def Engine.software_process_block_fast.line1_59 (cfg : Cfg) : Engine.software_process_block_fast.State1 → Res Engine.software_process_block_fast.State1 :=
  fun (w, a, b, c, d, e, f, g, h) => do
    let x_284 ← index w 11
    let x_285 ← index w 9
    let x_286 ← index w 4
    let x_287 ← index w 12
    let w ← indexSet w 11 (((x_284 + (sigma1 cfg x_285)) + x_286) + (sigma0 cfg x_287))
    let x_289 ← index w 11
    let t1' : BitVec 32 := (((e + (Sigma1 cfg b)) + (Ch cfg b c d)) + 0x8cc70208#32) + x_289
    let t2' : BitVec 32 := (Sigma0 cfg f) + (Maj cfg f g h)
    let a := a + t1'
    let e := t1' + t2'
    pure (w, a, b, c, d, e, f, g, h)

/-- round!(e, f, g, h, a, b, c, d, 0x90befffa, w[12], w[10], w[5], w[13]) -/
def Engine.software_process_block_fast.line1_60 (cfg : Cfg) : Engine.software_process_block_fast.State1 → Res Engine.software_process_block_fast.State1 :=
  fun (w, a, b, c, d, e, f, g, h) => do
    let x_290 ← index w 12
    let x_291 ← index w 10
    let x_292 ← index w 5
    let x_293 ← index w 13
    let w ← indexSet w 12 (((x_290 + (sigma1 cfg x_291)) + x_292) + (sigma0 cfg x_293))
    let x_295 ← index w 12
    let t1' : BitVec 32 := (((d + (Sigma1 cfg a)) + (Ch cfg a b c)) + 0x90befffa#32) + x_295
    let t2' : BitVec 32 := (Sigma0 cfg e) + (Maj cfg e f g)
    let h := h + t1'
    let d := t1' + t2'
    pure (w, a, b, c, d, e, f, g, h)

/-- round!(d, e, f, g, h, a, b, c, 0xa4506ceb, w[13], w[11], w[6], w[14]) -/
def Engine.software_process_block_fast.line1_61 (cfg : Cfg) : Engine.software_process_block_fast.State1 → Res Engine.software_process_block_fast.State1 :=
  fun (w, a, b, c, d, e, f, g, h) => do
    let x_296 ← index w 13
    let x_297 ← index w 11
    let x_298 ← index w 6
    let x_299 ← index w 14
    let w ← indexSet w 13 (((x_296 + (sigma1 cfg x_297)) + x_298) + (sigma0 cfg x_299))
    let x_301 ← index w 13
    let t1' : BitVec 32 := (((c + (Sigma1 cfg h)) + (Ch cfg h a b)) + 0xa4506ceb#32) + x_301
    let t2' : BitVec 32 := (Sigma0 cfg d) + (Maj cfg d e f)
    let g := g + t1'
    let c := t1' + t2'
    pure (w, a, b, c, d, e, f, g, h)

/-- round!(c, d, e, f, g, h, a, b, 0xbef9a3f7, w[14], w[12], w[7], w[15]) -/
def Engine.software_process_block_fast.line1_62 (cfg : Cfg) : Engine.software_process_block_fast.State1 → Res Engine.software_process_block_fast.State1 :=
  fun (w, a, b, c, d, e, f, g, h) => do
    let x_302 ← index w 14
    let x_303 ← index w 12
    let x_304 ← index w 7
    let x_305 ← index w 15
    let w ← indexSet w 14 (((x_302 + (sigma1 cfg x_303)) + x_304) + (sigma0 cfg x_305))
    let x_307 ← index w 14
    let t1' : BitVec 32 := (((b + (Sigma1 cfg g)) + (Ch cfg g h a)) + 0xbef9a3f7#32) + x_307
    let t2' : BitVec 32 := (Sigma0 cfg c) + (Maj cfg c d e)
    let f := f + t1'
    let b := t1' + t2'
    pure (w, a, b, c, d, e, f, g, h)

/-- round!(b, c, d, e, f, g, h, a, 0xc67178f2, w[15], w[13], w[8], w[0]) -/
def Engine.software_process_block_fast.line1_63 (cfg : Cfg) : Engine.software_process_block_fast.State1 → Res Engine.software_process_block_fast.State1 :=
  fun (w, a, b, c, d, e, f, g, h) => do
    let x_308 ← index w 15
    let x_309 ← index w 13
    let x_310 ← index w 8
    let x_311 ← index w 0
    let w ← indexSet w 15 (((x_308 + (sigma1 cfg x_309)) + x_310) + (sigma0 cfg x_311))
    let x_313 ← index w 15
    let t1' : BitVec 32 := (((a + (Sigma1 cfg f)) + (Ch cfg f g h)) + 0xc67178f2#32) + x_313
    let t2' : BitVec 32 := (Sigma0 cfg b) + (Maj cfg b c d)
    let e := e + t1'
    let a := t1' + t2'
    pure (w, a, b, c, d, e, f, g, h)

/-- The 64 statements. -/
def Engine.software_process_block_fast.lines1 (cfg : Cfg) : List (Engine.software_process_block_fast.State1 → Res Engine.software_process_block_fast.State1) := [
  Engine.software_process_block_fast.line1_0 cfg,
  Engine.software_process_block_fast.line1_1 cfg,
  Engine.software_process_block_fast.line1_2 cfg,
  Engine.software_process_block_fast.line1_3 cfg,
  Engine.software_process_block_fast.line1_4 cfg,
  Engine.software_process_block_fast.line1_5 cfg,
  Engine.software_process_block_fast.line1_6 cfg,
  Engine.software_process_block_fast.line1_7 cfg,
  Engine.software_process_block_fast.line1_8 cfg,
  Engine.software_process_block_fast.line1_9 cfg,
  Engine.software_process_block_fast.line1_10 cfg,
  Engine.software_process_block_fast.line1_11 cfg,
  Engine.software_process_block_fast.line1_12 cfg,
  Engine.software_process_block_fast.line1_13 cfg,
  Engine.software_process_block_fast.line1_14 cfg,
  Engine.software_process_block_fast.line1_15 cfg,
  Engine.software_process_block_fast.line1_16 cfg,
  Engine.software_process_block_fast.line1_17 cfg,
  Engine.software_process_block_fast.line1_18 cfg,
  Engine.software_process_block_fast.line1_19 cfg,
  Engine.software_process_block_fast.line1_20 cfg,
  Engine.software_process_block_fast.line1_21 cfg,
  Engine.software_process_block_fast.line1_22 cfg,
  Engine.software_process_block_fast.line1_23 cfg,
  Engine.software_process_block_fast.line1_24 cfg,
  Engine.software_process_block_fast.line1_25 cfg,
  Engine.software_process_block_fast.line1_26 cfg,
  Engine.software_process_block_fast.line1_27 cfg,
  Engine.software_process_block_fast.line1_28 cfg,
  Engine.software_process_block_fast.line1_29 cfg,
  Engine.software_process_block_fast.line1_30 cfg,
  Engine.software_process_block_fast.line1_31 cfg,
  Engine.software_process_block_fast.line1_32 cfg,
  Engine.software_process_block_fast.line1_33 cfg,
  Engine.software_process_block_fast.line1_34 cfg,
  Engine.software_process_block_fast.line1_35 cfg,
  Engine.software_process_block_fast.line1_36 cfg,
  Engine.software_process_block_fast.line1_37 cfg,
  Engine.software_process_block_fast.line1_38 cfg,
  Engine.software_process_block_fast.line1_39 cfg,
  Engine.software_process_block_fast.line1_40 cfg,
  Engine.software_process_block_fast.line1_41 cfg,
  Engine.software_process_block_fast.line1_42 cfg,
  Engine.software_process_block_fast.line1_43 cfg,
  Engine.software_process_block_fast.line1_44 cfg,
  Engine.software_process_block_fast.line1_45 cfg,
  Engine.software_process_block_fast.line1_46 cfg,
  Engine.software_process_block_fast.line1_47 cfg,
  Engine.software_process_block_fast.line1_48 cfg,
  Engine.software_process_block_fast.line1_49 cfg,
  Engine.software_process_block_fast.line1_50 cfg,
  Engine.software_process_block_fast.line1_51 cfg,
  Engine.software_process_block_fast.line1_52 cfg,
  Engine.software_process_block_fast.line1_53 cfg,
  Engine.software_process_block_fast.line1_54 cfg,
  Engine.software_process_block_fast.line1_55 cfg,
  Engine.software_process_block_fast.line1_56 cfg,
  Engine.software_process_block_fast.line1_57 cfg,
  Engine.software_process_block_fast.line1_58 cfg,
  Engine.software_process_block_fast.line1_59 cfg,
  Engine.software_process_block_fast.line1_60 cfg,
  Engine.software_process_block_fast.line1_61 cfg,
  Engine.software_process_block_fast.line1_62 cfg,
  Engine.software_process_block_fast.line1_63 cfg]

/-- `Engine::software_process_block`, sha256.rs 721-814, without feature `small-hash`. -/
def Engine.software_process_block_fast (cfg : Cfg) (self : Engine) : Res Engine := do
  debugAssert cfg (self.buffer.length == Sha256.BLOCK_SIZE)
  let w : List (BitVec 32) := List.replicate 16 0#32
  let w ← Rs.zipMut w (chunksExact 4 self.buffer) fun w_val buff_bytes => do
    let x_1 ← Rs.tryInto 4 buff_bytes
    let w_val := Rs.fromBeBytes 32 x_1
    pure w_val
  let a ← index self.h 0
  let b ← index self.h 1
  let c ← index self.h 2
  let d ← index self.h 3
  let e ← index self.h 4
  let f ← index self.h 5
  let g ← index self.h 6
  let h ← index self.h 7
  let (w, a, b, c, d, e, f, g, h) ← Rs.runLines (Engine.software_process_block_fast.lines1 cfg) (w, a, b, c, d, e, f, g, h)
  let x_314 ← index self.h 0
  let x_315 ← indexSet self.h 0 (x_314 + a)
  let self := { self with h := x_315 }
  let x_316 ← index self.h 1
  let x_317 ← indexSet self.h 1 (x_316 + b)
  let self := { self with h := x_317 }
  let x_318 ← index self.h 2
  let x_319 ← indexSet self.h 2 (x_318 + c)
  let self := { self with h := x_319 }
  let x_320 ← index self.h 3
  let x_321 ← indexSet self.h 3 (x_320 + d)
  let self := { self with h := x_321 }
  let x_322 ← index self.h 4
  let x_323 ← indexSet self.h 4 (x_322 + e)
  let self := { self with h := x_323 }
  let x_324 ← index self.h 5
  let x_325 ← indexSet self.h 5 (x_324 + f)
  let self := { self with h := x_325 }
  let x_326 ← index self.h 6
  let x_327 ← indexSet self.h 6 (x_326 + g)
  let self := { self with h := x_327 }
  let x_328 ← index self.h 7
  let x_329 ← indexSet self.h 7 (x_328 + h)
  let self := { self with h := x_329 }
  pure self

/-- The variables w, a, b, c, d, e, f, g, h of `software_process_block`. -/
abbrev Engine.software_process_block_small.State1 := (List (BitVec 32)) × (BitVec 32) × (BitVec 32) × (BitVec 32) × (BitVec 32) × (BitVec 32) × (BitVec 32) × (BitVec 32) × (BitVec 32)

/-- round!(a, b, c, d, e, f, g, h, 0x428a2f98, w[0]) -/
def Engine.software_process_block_small.line1_0 (cfg : Cfg) : Engine.software_process_block_small.State1 → Res Engine.software_process_block_small.State1 :=
  fun (w, a, b, c, d, e, f, g, h) => do
    let x_10 ← index w 0
    let updates' := small_hash.round cfg a b c d e f g h 0x428a2f98#32 x_10
    let d := updates'.1
    let h := updates'.2
    pure (w, a, b, c, d, e, f, g, h)

/-- round!(h, a, b, c, d, e, f, g, 0x71374491, w[1]) -/
def Engine.software_process_block_small.line1_1 (cfg : Cfg) : Engine.software_process_block_small.State1 → Res Engine.software_process_block_small.State1 :=
  fun (w, a, b, c, d, e, f, g, h) => do
    let x_11 ← index w 1
    let updates' := small_hash.round cfg h a b c d e f g 0x71374491#32 x_11
    let c := updates'.1
    let g := updates'.2
    pure (w, a, b, c, d, e, f, g, h)

/-- round!(g, h, a, b, c, d, e, f, 0xb5c0fbcf, w[2]) -/
def Engine.software_process_block_small.line1_2 (cfg : Cfg) : Engine.software_process_block_small.State1 → Res Engine.software_process_block_small.State1 :=
  fun (w, a, b, c, d, e, f, g, h) => do
    let x_12 ← index w 2
    let updates' := small_hash.round cfg g h a b c d e f 0xb5c0fbcf#32 x_12
    let b := updates'.1
    let f := updates'.2
    pure (w, a, b, c, d, e, f, g, h)

/-- round!(f, g, h, a, b, c, d, e, 0xe9b5dba5, w[3]) -/
def Engine.software_process_block_small.line1_3 (cfg : Cfg) : Engine.software_process_block_small.State1 → Res Engine.software_process_block_small.State1 :=
  fun (w, a, b, c, d, e, f, g, h) => do
    let x_13 ← index w 3
    let updates' := small_hash.round cfg f g h a b c d e 0xe9b5dba5#32 x_13
    let a := updates'.1
    let e := updates'.2
    pure (w, a, b, c, d, e, f, g, h)

/-- round!(e, f, g, h, a, b, c, d, 0x3956c25b, w[4]) -/
def Engine.software_process_block_small.line1_4 (cfg : Cfg) : Engine.software_process_block_small.State1 → Res Engine.software_process_block_small.State1 :=
  fun (w, a, b, c, d, e, f, g, h) => do
    let x_14 ← index w 4
    let updates' := small_hash.round cfg e f g h a b c d 0x3956c25b#32 x_14
    let h := updates'.1
    let d := updates'.2
    pure (w, a, b, c, d, e, f, g, h)

/-- round!(d, e, f, g, h, a, b, c, 0x59f111f1, w[5]) -/
def Engine.software_process_block_small.line1_5 (cfg : Cfg) : Engine.software_process_block_small.State1 → Res Engine.software_process_block_small.State1 :=
  fun (w, a, b, c, d, e, f, g, h) => do
    let x_15 ← index w 5
    let updates' := small_hash.round cfg d e f g h a b c 0x59f111f1#32 x_15
    let g := updates'.1
    let c := updates'.2
    pure (w, a, b, c, d, e, f, g, h)

/-- round!(c, d, e, f, g, h, a, b, 0x923f82a4, w[6]) -/
def Engine.software_process_block_small.line1_6 (cfg : Cfg) : Engine.software_process_block_small.State1 → Res Engine.software_process_block_small.State1 :=
  fun (w, a, b, c, d, e, f, g, h) => do
    let x_16 ← index w 6
    let updates' := small_hash.round cfg c d e f g h a b 0x923f82a4#32 x_16
    let f := updates'.1
    let b := updates'.2
    pure (w, a, b, c, d, e, f, g, h)

/-- round!(b, c, d, e, f, g, h, a, 0xab1c5ed5, w[7]) -/
def Engine.software_process_block_small.line1_7 (cfg : Cfg) : Engine.software_process_block_small.State1 → Res Engine.software_process_block_small.State1 :=
  fun (w, a, b, c, d, e, f, g, h) => do
    let x_17 ← index w 7
    let updates' := small_hash.round cfg b c d e f g h a 0xab1c5ed5#32 x_17
    let e := updates'.1
    let a := updates'.2
    pure (w, a, b, c, d, e, f, g, h)

/-- round!(a, b, c, d, e, f, g, h, 0xd807aa98, w[8]) -/
def Engine.software_process_block_small.line1_8 (cfg : Cfg) : Engine.software_process_block_small.State1 → Res Engine.software_process_block_small.State1 :=
  fun (w, a, b, c, d, e, f, g, h) => do
    let x_18 ← index w 8
    let updates' := small_hash.round cfg a b c d e f g h 0xd807aa98#32 x_18
    let d := updates'.1
    let h := updates'.2
    pure (w, a, b, c, d, e, f, g, h)

/-- round!(h, a, b, c, d, e, f, g, 0x12835b01, w[9]) -/
def Engine.software_process_block_small.line1_9 (cfg : Cfg) : Engine.software_process_block_small.State1 → Res Engine.software_process_block_small.State1 :=
  fun (w, a, b, c, d, e, f, g, h) => do
    let x_19 ← index w 9
    let updates' := small_hash.round cfg h a b c d e f g 0x12835b01#32 x_19
    let c := updates'.1
    let g := updates'.2
    pure (w, a, b, c, d, e, f, g, h)

/-- round!(g, h, a, b, c, d, e, f, 0x243185be, w[10]) -/
def Engine.software_process_block_small.line1_10 (cfg : Cfg) : Engine.software_process_block_small.State1 → Res Engine.software_process_block_small.State1 :=
  fun (w, a, b, c, d, e, f, g, h) => do
    let x_20 ← index w 10
    let updates' := small_hash.round cfg g h a b c d e f 0x243185be#32 x_20
    let b := updates'.1
    let f := updates'.2
    pure (w, a, b, c, d, e, f, g, h)

/-- round!(f, g, h, a, b, c, d, e, 0x550c7dc3, w[11]) -/
def Engine.software_process_block_small.line1_11 (cfg : Cfg) : Engine.software_process_block_small.State1 → Res Engine.software_process_block_small.State1 :=
  fun (w, a, b, c, d, e, f, g, h) => do
    let x_21 ← index w 11
    let updates' := small_hash.round cfg f g h a b c d e 0x550c7dc3#32 x_21
    let a := updates'.1
    let e := updates'.2
    pure (w, a, b, c, d, e, f, g, h)

/-- round!(e, f, g, h, a, b, c, d, 0x72be5d74, w[12]) -/
def Engine.software_process_block_small.line1_12 (cfg : Cfg) : Engine.software_process_block_small.State1 → Res Engine.software_process_block_small.State1 :=
  fun (w, a, b, c, d, e, f, g, h) => do
    let x_22 ← index w 12
    let updates' := small_hash.round cfg e f g h a b c d 0x72be5d74#32 x_22
    let h := updates'.1
    let d := updates'.2
    pure (w, a, b, c, d, e, f, g, h)

/-- round!(d, e, f, g, h, a, b, c, 0x80deb1fe, w[13]) -/
def Engine.software_process_block_small.line1_13 (cfg : Cfg) : Engine.software_process_block_small.State1 → Res Engine.software_process_block_small.State1 :=
  fun (w, a, b, c, d, e, f, g, h) => do
    let x_23 ← index w 13
    let updates' := small_hash.round cfg d e f g h a b c 0x80deb1fe#32 x_23
    let g := updates'.1
    let c := updates'.2
    pure (w, a, b, c, d, e, f, g, h)

/-- round!(c, d, e, f, g, h, a, b, 0x9bdc06a7, w[14]) -/
def Engine.software_process_block_small.line1_14 (cfg : Cfg) : Engine.software_process_block_small.State1 → Res Engine.software_process_block_small.State1 :=
  fun (w, a, b, c, d, e, f, g, h) => do
    let x_24 ← index w 14
    let updates' := small_hash.round cfg c d e f g h a b 0x9bdc06a7#32 x_24
    let f := updates'.1
    let b := updates'.2
    pure (w, a, b, c, d, e, f, g, h)

/-- round!(b, c, d, e, f, g, h, a, 0xc19bf174, w[15]) -/
def Engine.software_process_block_small.line1_15 (cfg : Cfg) : Engine.software_process_block_small.State1 → Res Engine.software_process_block_small.State1 :=
  fun (w, a, b, c, d, e, f, g, h) => do
    let x_25 ← index w 15
    let updates' := small_hash.round cfg b c d e f g h a 0xc19bf174#32 x_25
    let e := updates'.1
    let a := updates'.2
    pure (w, a, b, c, d, e, f, g, h)

/-- round!(a, b, c, d, e, f, g, h, 0xe49b69c1, w[0], w[14], w[9], w[1]) -/
def Engine.software_process_block_small.line1_16 (cfg : Cfg) : Engine.software_process_block_small.State1 → Res Engine.software_process_block_small.State1 :=
  fun (w, a, b, c, d, e, f, g, h) => do
    let x_26 ← index w 0
    let x_27 ← index w 14
    let x_28 ← index w 9
    let x_29 ← index w 1
    let updates' := small_hash.later_round cfg a b c d e f g h 0xe49b69c1#32 x_26 x_27 x_28 x_29
    let d := updates'.1
    let h := updates'.2.1
    let w ← indexSet w 0 updates'.2.2
    pure (w, a, b, c, d, e, f, g, h)

/-- round!(h, a, b, c, d, e, f, g, 0xefbe4786, w[1], w[15], w[10], w[2]) -/
def Engine.software_process_block_small.line1_17 (cfg : Cfg) : Engine.software_process_block_small.State1 → Res Engine.software_process_block_small.State1 :=
  fun (w, a, b, c, d, e, f, g, h) => do
    let x_31 ← index w 1
    let x_32 ← index w 15
    let x_33 ← index w 10
    let x_34 ← index w 2
    let updates' := small_hash.later_round cfg h a b c d e f g 0xefbe4786#32 x_31 x_32 x_33 x_34
    let c := updates'.1
    let g := updates'.2.1
    let w ← indexSet w 1 updates'.2.2
    pure (w, a, b, c, d, e, f, g, h)

/-- round!(g, h, a, b, c, d, e, f, 0x0fc19dc6, w[2], w[0], w[11], w[3]) -/
def Engine.software_process_block_small.line1_18 (cfg : Cfg) : Engine.software_process_block_small.State1 → Res Engine.software_process_block_small.State1 :=
  fun (w, a, b, c, d, e, f, g, h) => do
    let x_36 ← index w 2
    let x_37 ← index w 0
    let x_38 ← index w 11
    let x_39 ← index w 3
    let updates' := small_hash.later_round cfg g h a b c d e f 0x0fc19dc6#32 x_36 x_37 x_38 x_39
    let b := updates'.1
    let f := updates'.2.1
    let w ← indexSet w 2 updates'.2.2
    pure (w, a, b, c, d, e, f, g, h)

/-- round!(f, g, h, a, b, c, d, e, 0x240ca1cc, w[3], w[1], w[12], w[4]) -/
def Engine.software_process_block_small.line1_19 (cfg : Cfg) : Engine.software_process_block_small.State1 → Res Engine.software_process_block_small.State1 :=
  fun (w, a, b, c, d, e, f, g, h) => do
    let x_41 ← index w 3
    let x_42 ← index w 1
    let x_43 ← index w 12
    let x_44 ← index w 4
    let updates' := small_hash.later_round cfg f g h a b c d e 0x240ca1cc#32 x_41 x_42 x_43 x_44
    let a := updates'.1
    let e := updates'.2.1
    let w ← indexSet w 3 updates'.2.2
    pure (w, a, b, c, d, e, f, g, h)

/-- round!(e, f, g, h, a, b, c, d, 0x2de92c6f, w[4], w[2], w[13], w[5]) -/
def Engine.software_process_block_small.line1_20 (cfg : Cfg) : Engine.software_process_block_small.State1 → Res Engine.software_process_block_small.State1 :=
  fun (w, a, b, c, d, e, f, g, h) => do
    let x_46 ← index w 4
    let x_47 ← index w 2
    let x_48 ← index w 13
    let x_49 ← index w 5
    let updates' := small_hash.later_round cfg e f g h a b c d 0x2de92c6f#32 x_46 x_47 x_48 x_49
    let h := updates'.1
    let d := updates'.2.1
    let w ← indexSet w 4 updates'.2.2
    pure (w, a, b, c, d, e, f, g, h)

/-- round!(d, e, f, g, h, a, b, c, 0x4a7484aa, w[5], w[3], w[14], w[6]) -/
def Engine.software_process_block_small.line1_21 (cfg : Cfg) : Engine.software_process_block_small.State1 → Res Engine.software_process_block_small.State1 :=
  fun (w, a, b, c, d, e, f, g, h) => do
    let x_51 ← index w 5
    let x_52 ← index w 3
    let x_53 ← index w 14
    let x_54 ← index w 6
    let updates' := small_hash.later_round cfg d e f g h a b c 0x4a7484aa#32 x_51 x_52 x_53 x_54
    let g := updates'.1
    let c := updates'.2.1
    let w ← indexSet w 5 updates'.2.2
    pure (w, a, b, c, d, e, f, g, h)

/-- round!(c, d, e, f, g, h, a, b, 0x5cb0a9dc, w[6], w[4], w[15], w[7]) -/
def Engine.software_process_block_small.line1_22 (cfg : Cfg) : Engine.software_process_block_small.State1 → Res Engine.software_process_block_small.State1 :=
  fun (w, a, b, c, d, e, f, g, h) => do
    let x_56 ← index w 6
    let x_57 ← index w 4
    let x_58 ← index w 15
    let x_59 ← index w 7
    let updates' := small_hash.later_round cfg c d e f g h a b 0x5cb0a9dc#32 x_56 x_57 x_58 x_59
    let f := updates'.1
    let b := updates'.2.1
    let w ← indexSet w 6 updates'.2.2
    pure (w, a, b, c, d, e, f, g, h)

/-- round!(b, c, d, e, f, g, h, a, 0x76f988da, w[7], w[5], w[0], w[8]) -/
def Engine.software_process_block_small.line1_23 (cfg : Cfg) : Engine.software_process_block_small.State1 → Res Engine.software_process_block_small.State1 :=
  fun (w, a, b, c, d, e, f, g, h) => do
    let x_61 ← index w 7
    let x_62 ← index w 5
    let x_63 ← index w 0
    let x_64 ← index w 8
    let updates' := small_hash.later_round cfg b c d e f g h a 0x76f988da#32 x_61 x_62 x_63 x_64
    let e := updates'.1
    let a := updates'.2.1
    let w ← indexSet w 7 updates'.2.2
    pure (w, a, b, c, d, e, f, g, h)

/-- round!(a, b, c, d, e, f, g, h, 0x983e5152, w[8], w[6], w[1], w[9]) -/
def Engine.software_process_block_small.line1_24 (cfg : Cfg) : Engine.software_process_block_small.State1 → Res Engine.software_process_block_small.State1 :=
  fun (w, a, b, c, d, e, f, g, h) => do
    let x_66 ← index w 8
    let x_67 ← index w 6
    let x_68 ← index w 1
    let x_69 ← index w 9
    let updates' := small_hash.later_round cfg a b c d e f g h 0x983e5152#32 x_66 x_67 x_68 x_69
    let d := updates'.1
    let h := updates'.2.1
    let w ← indexSet w 8 updates'.2.2
    pure (w, a, b, c, d, e, f, g, h)

/-- round!(h, a, b, c, d, e, f, g, 0xa831c66d, w[9], w[7], w[2], w[10]) -/
def Engine.software_process_block_small.line1_25 (cfg : Cfg) : Engine.software_process_block_small.State1 → Res Engine.software_process_block_small.State1 :=
  fun (w, a, b, c, d, e, f, g, h) => do
    let x_71 ← index w 9
    let x_72 ← index w 7
    let x_73 ← index w 2
    let x_74 ← index w 10
    let updates' := small_hash.later_round cfg h a b c d e f g 0xa831c66d#32 x_71 x_72 x_73 x_74
    let c := updates'.1
    let g := updates'.2.1
    let w ← indexSet w 9 updates'.2.2
    pure (w, a, b, c, d, e, f, g, h)

/-- round!(g, h, a, b, c, d, e, f, 0xb00327c8, w[10], w[8], w[3], w[11]) -/
def Engine.software_process_block_small.line1_26 (cfg : Cfg) : Engine.software_process_block_small.State1 → Res Engine.software_process_block_small.State1 :=
  fun (w, a, b, c, d, e, f, g, h) => do
    let x_76 ← index w 10
    let x_77 ← index w 8
    let x_78 ← index w 3
    let x_79 ← index w 11
    let updates' := small_hash.later_round cfg g h a b c d e f 0xb00327c8#32 x_76 x_77 x_78 x_79
    let b := updates'.1
    let f := updates'.2.1
    let w ← indexSet w 10 updates'.2.2
    pure (w, a, b, c, d, e, f, g, h)

/-- round!(f, g, h, a, b, c, d, e, 0xbf597fc7, w[11], w[9], w[4], w[12]) -/
def Engine.software_process_block_small.line1_27 (cfg : Cfg) : Engine.software_process_block_small.State1 → Res Engine.software_process_block_small.State1 :=
  fun (w, a, b, c, d, e, f, g, h) => do
    let x_81 ← index w 11
    let x_82 ← index w 9
    let x_83 ← index w 4
    let x_84 ← index w 12
    let updates' := small_hash.later_round cfg f g h a b c d e 0xbf597fc7#32 x_81 x_82 x_83 x_84
    let a := updates'.1
    let e := updates'.2.1
    let w ← indexSet w 11 updates'.2.2
    pure (w, a, b, c, d, e, f, g, h)

/-- round!(e, f, g, h, a, b, c, d, 0xc6e00bf3, w[12], w[10], w[5], w[13]) -/
def Engine.software_process_block_small.line1_28 (cfg : Cfg) : Engine.software_process_block_small.State1 → Res Engine.software_process_block_small.State1 :=
  fun (w, a, b, c, d, e, f, g, h) => do
    let x_86 ← index w 12
    let x_87 ← index w 10
    let x_88 ← index w 5
    let x_89 ← index w 13
    let updates' := small_hash.later_round cfg e f g h a b c d 0xc6e00bf3#32 x_86 x_87 x_88 x_89
    let h := updates'.1
    let d := updates'.2.1
    let w ← indexSet w 12 updates'.2.2
    pure (w, a, b, c, d, e, f, g, h)

/-- round!(d, e, f, g, h, a, b, c, 0xd5a79147, w[13], w[11], w[6], w[14]) -/
def Engine.software_process_block_small.line1_29 (cfg : Cfg) : Engine.software_process_block_small.State1 → Res Engine.software_process_block_small.State1 :=
  fun (w, a, b, c, d, e, f, g, h) => do
    let x_91 ← index w 13
    let x_92 ← index w 11
    let x_93 ← index w 6
    let x_94 ← index w 14
    let updates' := small_hash.later_round cfg d e f g h a b c 0xd5a79147#32 x_91 x_92 x_93 x_94
    let g := updates'.1
    let c := updates'.2.1
    let w ← indexSet w 13 updates'.2.2
    pure (w, a, b, c, d, e, f, g, h)

/-- round!(c, d, e, f, g, h, a, b, 0x06ca6351, w[14], w[12], w[7], w[15]) -/
def Engine.software_process_block_small.line1_30 (cfg : Cfg) : Engine.software_process_block_small.State1 → Res Engine.software_process_block_small.State1 :=
  fun (w, a, b, c, d, e, f, g, h) => do
    let x_96 ← index w 14
    let x_97 ← index w 12
    let x_98 ← index w 7
    let x_99 ← index w 15
    let updates' := small_hash.later_round cfg c d e f g h a b 0x06ca6351#32 x_96 x_97 x_98 x_99
    let f := updates'.1
    let b := updates'.2.1
    let w ← indexSet w 14 updates'.2.2
    pure (w, a, b, c, d, e, f, g, h)

/-- round!(b, c, d, e, f, g, h, a, 0x14292967, w[15], w[13], w[8], w[0]) -/
def Engine.software_process_block_small.line1_31 (cfg : Cfg) : Engine.software_process_block_small.State1 → Res Engine.software_process_block_small.State1 :=
  fun (w, a, b, c, d, e, f, g, h) => do
    let x_101 ← index w 15
    let x_102 ← index w 13
    let x_103 ← index w 8
    let x_104 ← index w 0
    let updates' := small_hash.later_round cfg b c d e f g h a 0x14292967#32 x_101 x_102 x_103 x_104
    let e := updates'.1
    let a := updates'.2.1
    let w ← indexSet w 15 updates'.2.2
    pure (w, a, b, c, d, e, f, g, h)

/-- round!(a, b, c, d, e, f, g, h, 0x27b70a85, w[0], w[14], w[9], w[1]) -/
def Engine.software_process_block_small.line1_32 (cfg : Cfg) : Engine.software_process_block_small.State1 → Res Engine.software_process_block_small.State1 :=
  fun (w, a, b, c, d, e, f, g, h) => do
    let x_106 ← index w 0
    let x_107 ← index w 14
    let x_108 ← index w 9
    let x_109 ← index w 1
    let updates' := small_hash.later_round cfg a b c d e f g h 0x27b70a85#32 x_106 x_107 x_108 x_109
    let d := updates'.1
    let h := updates'.2.1
    let w ← indexSet w 0 updates'.2.2
    pure (w, a, b, c, d, e, f, g, h)

/-- round!(h, a, b, c, d, e, f, g, 0x2e1b2138, w[1], w[15], w[10], w[2]) -/
def Engine.software_process_block_small.line1_33 (cfg : Cfg) : Engine.software_process_block_small.State1 → Res Engine.software_process_block_small.State1 :=
  fun (w, a, b, c, d, e, f, g, h) => do
    let x_111 ← index w 1
    let x_112 ← index w 15
    let x_113 ← index w 10
    let x_114 ← index w 2
    let updates' := small_hash.later_round cfg h a b c d e f g 0x2e1b2138#32 x_111 x_112 x_113 x_114
    let c := updates'.1
    let g := updates'.2.1
    let w ← indexSet w 1 updates'.2.2
    pure (w, a, b, c, d, e, f, g, h)

/-- round!(g, h, a, b, c, d, e, f, 0x4d2c6dfc, w[2], w[0], w[11], w[3]) -/
def Engine.software_process_block_small.line1_34 (cfg : Cfg) : Engine.software_process_block_small.State1 → Res Engine.software_process_block_small.State1 :=
  fun (w, a, b, c, d, e, f, g, h) => do
    let x_116 ← index w 2
    let x_117 ← index w 0
    let x_118 ← index w 11
    let x_119 ← index w 3
    let updates' := small_hash.later_round cfg g h a b c d e f 0x4d2c6dfc#32 x_116 x_117 x_118 x_119
    let b := updates'.1
    let f := updates'.2.1
    let w ← indexSet w 2 updates'.2.2
    pure (w, a, b, c, d, e, f, g, h)

/-- round!(f, g, h, a, b, c, d, e, 0x53380d13, w[3], w[1], w[12], w[4]) -/
def Engine.software_process_block_small.line1_35 (cfg : Cfg) : Engine.software_process_block_small.State1 → Res Engine.software_process_block_small.State1 :=
  fun (w, a, b, c, d, e, f, g, h) => do
    let x_121 ← index w 3
    let x_122 ← index w 1
    let x_123 ← index w 12
    let x_124 ← index w 4
    let updates' := small_hash.later_round cfg f g h a b c d e 0x53380d13#32 x_121 x_122 x_123 x_124
    let a := updates'.1
    let e := updates'.2.1
    let w ← indexSet w 3 updates'.2.2
    pure (w, a, b, c, d, e, f, g, h)

/-- round!(e, f, g, h, a, b, c, d, 0x650a7354, w[4], w[2], w[13], w[5]) -/
def Engine.software_process_block_small.line1_36 (cfg : Cfg) : Engine.software_process_block_small.State1 → Res Engine.software_process_block_small.State1 :=
  fun (w, a, b, c, d, e, f, g, h) => do
    let x_126 ← index w 4
    let x_127 ← index w 2
    let x_128 ← index w 13
    let x_129 ← index w 5
    let updates' := small_hash.later_round cfg e f g h a b c d 0x650a7354#32 x_126 x_127 x_128 x_129
    let h := updates'.1
    let d := updates'.2.1
    let w ← indexSet w 4 updates'.2.2
    pure (w, a, b, c, d, e, f, g, h)

/-- round!(d, e, f, g, h, a, b, c, 0x766a0abb, w[5], w[3], w[14], w[6]) -/
def Engine.software_process_block_small.line1_37 (cfg : Cfg) : Engine.software_process_block_small.State1 → Res Engine.software_process_block_small.State1 :=
  fun (w, a, b, c, d, e, f, g, h) => do
    let x_131 ← index w 5
    let x_132 ← index w 3
    let x_133 ← index w 14
    let x_134 ← index w 6
    let updates' := small_hash.later_round cfg d e f g h a b c 0x766a0abb#32 x_131 x_132 x_133 x_134
    let g := updates'.1
    let c := updates'.2.1
    let w ← indexSet w 5 updates'.2.2
    pure (w, a, b, c, d, e, f, g, h)

/-- round!(c, d, e, f, g, h, a, b, 0x81c2c92e, w[6], w[4], w[15], w[7]) -/
def Engine.software_process_block_small.line1_38 (cfg : Cfg) : Engine.software_process_block_small.State1 → Res Engine.software_process_block_small.State1 :=
  fun (w, a, b, c, d, e, f, g, h) => do
    let x_136 ← index w 6
    let x_137 ← index w 4
    let x_138 ← index w 15
    let x_139 ← index w 7
    let updates' := small_hash.later_round cfg c d e f g h a b 0x81c2c92e#32 x_136 x_137 x_138 x_139
    let f := updates'.1
    let b := updates'.2.1
    let w ← indexSet w 6 updates'.2.2
    pure (w, a, b, c, d, e, f, g, h)

/-- round!(b, c, d, e, f, g, h, a, 0x92722c85, w[7], w[5], w[0], w[8]) -/
def Engine.software_process_block_small.line1_39 (cfg : Cfg) : Engine.software_process_block_small.State1 → Res Engine.software_process_block_small.State1 :=
  fun (w, a, b, c, d, e, f, g, h) => do
    let x_141 ← index w 7
    let x_142 ← index w 5
    let x_143 ← index w 0
    let x_144 ← index w 8
    let updates' := small_hash.later_round cfg b c d e f g h a 0x92722c85#32 x_141 x_142 x_143 x_144
    let e := updates'.1
    let a := updates'.2.1
    let w ← indexSet w 7 updates'.2.2
    pure (w, a, b, c, d, e, f, g, h)

/-- round!(a, b, c, d, e, f, g, h, 0xa2bfe8a1, w[8], w[6], w[1], w[9]) -/
def Engine.software_process_block_small.line1_40 (cfg : Cfg) : Engine.software_process_block_small.State1 → Res Engine.software_process_block_small.State1 :=
  fun (w, a, b, c, d, e, f, g, h) => do
    let x_146 ← index w 8
    let x_147 ← index w 6
    let x_148 ← index w 1
    let x_149 ← index w 9
    let updates' := small_hash.later_round cfg a b c d e f g h 0xa2bfe8a1#32 x_146 x_147 x_148 x_149
    let d := updates'.1
    let h := updates'.2.1
    let w ← indexSet w 8 updates'.2.2
    pure (w, a, b, c, d, e, f, g, h)

/-- round!(h, a, b, c, d, e, f, g, 0xa81a664b, w[9], w[7], w[2], w[10]) -/
def Engine.software_process_block_small.line1_41 (cfg : Cfg) : Engine.software_process_block_small.State1 → Res Engine.software_process_block_small.State1 :=
  fun (w, a, b, c, d, e, f, g, h) => do
    let x_151 ← index w 9
    let x_152 ← index w 7
    let x_153 ← index w 2
    let x_154 ← index w 10
    let updates' := small_hash.later_round cfg h a b c d e f g 0xa81a664b#32 x_151 x_152 x_153 x_154
    let c := updates'.1
    let g := updates'.2.1
    let w ← indexSet w 9 updates'.2.2
    pure (w, a, b, c, d, e, f, g, h)

/-- round!(g, h, a, b, c, d, e, f, 0xc24b8b70, w[10], w[8], w[3], w[11]) -/
def Engine.software_process_block_small.line1_42 (cfg : Cfg) : Engine.software_process_block_small.State1 → Res Engine.software_process_block_small.State1 :=
  fun (w, a, b, c, d, e, f, g, h) => do
    let x_156 ← index w 10
    let x_157 ← index w 8
    let x_158 ← index w 3
    let x_159 ← index w 11
    let updates' := small_hash.later_round cfg g h a b c d e f 0xc24b8b70#32 x_156 x_157 x_158 x_159
    let b := updates'.1
    let f := updates'.2.1
    let w ← indexSet w 10 updates'.2.2
    pure (w, a, b, c, d, e, f, g, h)

/-- round!(f, g, h, a, b, c, d, e, 0xc76c51a3, w[11], w[9], w[4], w[12]) -/
def Engine.software_process_block_small.line1_43 (cfg : Cfg) : Engine.software_process_block_small.State1 → Res Engine.software_process_block_small.State1 :=
  fun (w, a, b, c, d, e, f, g, h) => do
    let x_161 ← index w 11
    let x_162 ← index w 9
    let x_163 ← index w 4
    let x_164 ← index w 12
    let updates' := small_hash.later_round cfg f g h a b c d e 0xc76c51a3#32 x_161 x_162 x_163 x_164
    let a := updates'.1
    let e := updates'.2.1
    let w ← indexSet w 11 updates'.2.2
    pure (w, a, b, c, d, e, f, g, h)

/-- round!(e, f, g, h, a, b, c, d, 0xd192e819, w[12], w[10], w[5], w[13]) -/
def Engine.software_process_block_small.line1_44 (cfg : Cfg) : Engine.software_process_block_small.State1 → Res Engine.software_process_block_small.State1 :=
  fun (w, a, b, c, d, e, f, g, h) => do
    let x_166 ← index w 12
    let x_167 ← index w 10
    let x_168 ← index w 5
    let x_169 ← index w 13
    let updates' := small_hash.later_round cfg e f g h a b c d 0xd192e819#32 x_166 x_167 x_168 x_169
    let h := updates'.1
    let d := updates'.2.1
    let w ← indexSet w 12 updates'.2.2
    pure (w, a, b, c, d, e, f, g, h)

/-- round!(d, e, f, g, h, a, b, c, 0xd6990624, w[13], w[11], w[6], w[14]) -/
def Engine.software_process_block_small.line1_45 (cfg : Cfg) : Engine.software_process_block_small.State1 → Res Engine.software_process_block_small.State1 :=
  fun (w, a, b, c, d, e, f, g, h) => do
    let x_171 ← index w 13
    let x_172 ← index w 11
    let x_173 ← index w 6
    let x_174 ← index w 14
    let updates' := small_hash.later_round cfg d e f g h a b c 0xd6990624#32 x_171 x_172 x_173 x_174
    let g := updates'.1
    let c := updates'.2.1
    let w ← indexSet w 13 updates'.2.2
    pure (w, a, b, c, d, e, f, g, h)

/-- round!(c, d, e, f, g, h, a, b, 0xf40e3585, w[14], w[12], w[7], w[15]) -/
def Engine.software_process_block_small.line1_46 (cfg : Cfg) : Engine.software_process_block_small.State1 → Res Engine.software_process_block_small.State1 :=
  fun (w, a, b, c, d, e, f, g, h) => do
    let x_176 ← index w 14
    let x_177 ← index w 12
    let x_178 ← index w 7
    let x_179 ← index w 15
    let updates' := small_hash.later_round cfg c d e f g h a b 0xf40e3585#32 x_176 x_177 x_178 x_179
    let f := updates'.1
    let b := updates'.2.1
    let w ← indexSet w 14 updates'.2.2
    pure (w, a, b, c, d, e, f, g, h)

/-- round!(b, c, d, e, f, g, h, a, 0x106aa070, w[15], w[13], w[8], w[0]) -/
def Engine.software_process_block_small.line1_47 (cfg : Cfg) : Engine.software_process_block_small.State1 → Res Engine.software_process_block_small.State1 :=
  fun (w, a, b, c, d, e, f, g, h) => do
    let x_181 ← index w 15
    let x_182 ← index w 13
    let x_183 ← index w 8
    let x_184 ← index w 0
    let updates' := small_hash.later_round cfg b c d e f g h a 0x106aa070#32 x_181 x_182 x_183 x_184
    let e := updates'.1
    let a := updates'.2.1
    let w ← indexSet w 15 updates'.2.2
    pure (w, a, b, c, d, e, f, g, h)

/-- round!(a, b, c, d, e, f, g, h, 0x19a4c116, w[0], w[14], w[9], w[1]) -/
def Engine.software_process_block_small.line1_48 (cfg : Cfg) : Engine.software_process_block_small.State1 → Res Engine.software_process_block_small.State1 :=
  fun (w, a, b, c, d, e, f, g, h) => do
    let x_186 ← index w 0
    let x_187 ← index w 14
    let x_188 ← index w 9
    let x_189 ← index w 1
    let updates' := small_hash.later_round cfg a b c d e f g h 0x19a4c116#32 x_186 x_187 x_188 x_189
    let d := updates'.1
    let h := updates'.2.1
    let w ← indexSet w 0 updates'.2.2
    pure (w, a, b, c, d, e, f, g, h)

/-- round!(h, a, b, c, d, e, f, g, 0x1e376c08, w[1], w[15], w[10], w[2]) -/
def Engine.software_process_block_small.line1_49 (cfg : Cfg) : Engine.software_process_block_small.State1 → Res Engine.software_process_block_small.State1 :=
  fun (w, a, b, c, d, e, f, g, h) => do
    let x_191 ← index w 1
    let x_192 ← index w 15
    let x_193 ← index w 10
    let x_194 ← index w 2
    let updates' := small_hash.later_round cfg h a b c d e f g 0x1e376c08#32 x_191 x_192 x_193 x_194
    let c := updates'.1
    let g := updates'.2.1
    let w ← indexSet w 1 updates'.2.2
    pure (w, a, b, c, d, e, f, g, h)

/-- round!(g, h, a, b, c, d, e, f, 0x2748774c, w[2], w[0], w[11], w[3]) -/
def Engine.software_process_block_small.line1_50 (cfg : Cfg) : Engine.software_process_block_small.State1 → Res Engine.software_process_block_small.State1 :=
  fun (w, a, b, c, d, e, f, g, h) => do
    let x_196 ← index w 2
    let x_197 ← index w 0
    let x_198 ← index w 11
    let x_199 ← index w 3
    let updates' := small_hash.later_round cfg g h a b c d e f 0x2748774c#32 x_196 x_197 x_198 x_199
    let b := updates'.1
    let f := updates'.2.1
    let w ← indexSet w 2 updates'.2.2
    pure (w, a, b, c, d, e, f, g, h)

/-- round!(f, g, h, a, b, c, d, e, 0x34b0bcb5, w[3], w[1], w[12], w[4]) -/
def Engine.software_process_block_small.line1_51 (cfg : Cfg) : Engine.software_process_block_small.State1 → Res Engine.software_process_block_small.State1 :=
  fun (w, a, b, c, d, e, f, g, h) => do
    let x_201 ← index w 3
    let x_202 ← index w 1
    let x_203 ← index w 12
    let x_204 ← index w 4
    let updates' := small_hash.later_round cfg f g h a b c d e 0x34b0bcb5#32 x_201 x_202 x_203 x_204
    let a := updates'.1
    let e := updates'.2.1
    let w ← indexSet w 3 updates'.2.2
    pure (w, a, b, c, d, e, f, g, h)

/-- round!(e, f, g, h, a, b, c, d, 0x391c0cb3, w[4], w[2], w[13], w[5]) -/
def Engine.software_process_block_small.line1_52 (cfg : Cfg) : Engine.software_process_block_small.State1 → Res Engine.software_process_block_small.State1 :=
  fun (w, a, b, c, d, e, f, g, h) => do
    let x_206 ← index w 4
    let x_207 ← index w 2
    let x_208 ← index w 13
    let x_209 ← index w 5
    let updates' := small_hash.later_round cfg e f g h a b c d 0x391c0cb3#32 x_206 x_207 x_208 x_209
    let h := updates'.1
    let d := updates'.2.1
    let w ← indexSet w 4 updates'.2.2
    pure (w, a, b, c, d, e, f, g, h)

/-- round!(d, e, f, g, h, a, b, c, 0x4ed8aa4a, w[5], w[3], w[14], w[6]) -/
def Engine.software_process_block_small.line1_53 (cfg : Cfg) : Engine.software_process_block_small.State1 → Res Engine.software_process_block_small.State1 :=
  fun (w, a, b, c, d, e, f, g, h) => do
    let x_211 ← index w 5
    let x_212 ← index w 3
    let x_213 ← index w 14
    let x_214 ← index w 6
    let updates' := small_hash.later_round cfg d e f g h a b c 0x4ed8aa4a#32 x_211 x_212 x_213 x_214
    let g := updates'.1
    let c := updates'.2.1
    let w ← indexSet w 5 updates'.2.2
    pure (w, a, b, c, d, e, f, g, h)

/-- round!(c, d, e, f, g, h, a, b, 0x5b9cca4f, w[6], w[4], w[15], w[7]) -/
def Engine.software_process_block_small.line1_54 (cfg : Cfg) : Engine.software_process_block_small.State1 → Res Engine.software_process_block_small.State1 :=
  fun (w, a, b, c, d, e, f, g, h) => do
    let x_216 ← index w 6
    let x_217 ← index w 4
    let x_218 ← index w 15
    let x_219 ← index w 7
    let updates' := small_hash.later_round cfg c d e f g h a b 0x5b9cca4f#32 x_216 x_217 x_218 x_219
    let f := updates'.1
    let b := updates'.2.1
    let w ← indexSet w 6 updates'.2.2
    pure (w, a, b, c, d, e, f, g, h)

/-- round!(b, c, d, e, f, g, h, a, 0x682e6ff3, w[7], w[5], w[0], w[8]) -/
def Engine.software_process_block_small.line1_55 (cfg : Cfg) : Engine.software_process_block_small.State1 → Res Engine.software_process_block_small.State1 :=
  fun (w, a, b, c, d, e, f, g, h) => do
    let x_221 ← index w 7
    let x_222 ← index w 5
    let x_223 ← index w 0
    let x_224 ← index w 8
    let updates' := small_hash.later_round cfg b c d e f g h a 0x682e6ff3#32 x_221 x_222 x_223 x_224
    let e := updates'.1
    let a := updates'.2.1
    let w ← indexSet w 7 updates'.2.2
    pure (w, a, b, c, d, e, f, g, h)

/-- round!(a, b, c, d, e, f, g, h, 0x748f82ee, w[8], w[6], w[1], w[9]) -/
def Engine.software_process_block_small.line1_56 (cfg : Cfg) : Engine.software_process_block_small.State1 → Res Engine.software_process_block_small.State1 :=
  fun (w, a, b, c, d, e, f, g, h) => do
    let x_226 ← index w 8
    let x_227 ← index w 6
    let x_228 ← index w 1
    let x_229 ← index w 9
    let updates' := small_hash.later_round cfg a b c d e f g h 0x748f82ee#32 x_226 x_227 x_228 x_229
    let d := updates'.1
    let h := updates'.2.1
    let w ← indexSet w 8 updates'.2.2
    pure (w, a, b, c, d, e, f, g, h)

/-- round!(h, a, b, c, d, e, f, g, 0x78a5636f, w[9], w[7], w[2], w[10]) -/
def Engine.software_process_block_small.line1_57 (cfg : Cfg) : Engine.software_process_block_small.State1 → Res Engine.software_process_block_small.State1 :=
  fun (w, a, b, c, d, e, f, g, h) => do
    let x_231 ← index w 9
    let x_232 ← index w 7
    let x_233 ← index w 2
    let x_234 ← index w 10
    let updates' := small_hash.later_round cfg h a b c d e f g 0x78a5636f#32 x_231 x_232 x_233 x_234
    let c := updates'.1
    let g := updates'.2.1
    let w ← indexSet w 9 updates'.2.2
    pure (w, a, b, c, d, e, f, g, h)

/-- round!(g, h, a, b, c, d, e, f, 0x84c87814, w[10], w[8], w[3], w[11]) -/
def Engine.software_process_block_small.line1_58 (cfg : Cfg) : Engine.software_process_block_small.State1 → Res Engine.software_process_block_small.State1 :=
  fun (w, a, b, c, d, e, f, g, h) => do
    let x_236 ← index w 10
    let x_237 ← index w 8
    let x_238 ← index w 3
    let x_239 ← index w 11
    let updates' := small_hash.later_round cfg g h a b c d e f 0x84c87814#32 x_236 x_237 x_238 x_239
    let b := updates'.1
    let f := updates'.2.1
    let w ← indexSet w 10 updates'.2.2
    pure (w, a, b, c, d, e, f, g, h)

/-- round!(f, g, h, a, b, c, d, e, 0x8cc70208, w[11], w[9], w[4], w[12]) -/
def Engine.software_process_block_small.line1_59 (cfg : Cfg) : Engine.software_process_block_small.State1 → Res Engine.software_process_block_small.State1 :=
  fun (w, a, b, c, d, e, f, g, h) => do
    let x_241 ← index w 11
    let x_242 ← index w 9
    let x_243 ← index w 4
    let x_244 ← index w 12
    let updates' := small_hash.later_round cfg f g h a b c d e 0x8cc70208#32 x_241 x_242 x_243 x_244
    let a := updates'.1
    let e := updates'.2.1
    let w ← indexSet w 11 updates'.2.2
    pure (w, a, b, c, d, e, f, g, h)

/-- round!(e, f, g, h, a, b, c, d, 0x90befffa, w[12], w[10], w[5], w[13]) -/
def Engine.software_process_block_small.line1_60 (cfg : Cfg) : Engine.software_process_block_small.State1 → Res Engine.software_process_block_small.State1 :=
  fun (w, a, b, c, d, e, f, g, h) => do
    let x_246 ← index w 12
    let x_247 ← index w 10
    let x_248 ← index w 5
    let x_249 ← index w 13
    let updates' := small_hash.later_round cfg e f g h a b c d 0x90befffa#32 x_246 x_247 x_248 x_249
    let h := updates'.1
    let d := updates'.2.1
    let w ← indexSet w 12 updates'.2.2
    pure (w, a, b, c, d, e, f, g, h)

/-- round!(d, e, f, g, h, a, b, c, 0xa4506ceb, w[13], w[11], w[6], w[14]) -/
def Engine.software_process_block_small.line1_61 (cfg : Cfg) : Engine.software_process_block_small.State1 → Res Engine.software_process_block_small.State1 :=
  fun (w, a, b, c, d, e, f, g, h) => do
    let x_251 ← index w 13
    let x_252 ← index w 11
    let x_253 ← index w 6
    let x_254 ← index w 14
    let updates' := small_hash.later_round cfg d e f g h a b c 0xa4506ceb#32 x_251 x_252 x_253 x_254
    let g := updates'.1
    let c := updates'.2.1
    let w ← indexSet w 13 updates'.2.2
    pure (w, a, b, c, d, e, f, g, h)

/-- round!(c, d, e, f, g, h, a, b, 0xbef9a3f7, w[14], w[12], w[7], w[15]) -/
def Engine.software_process_block_small.line1_62 (cfg : Cfg) : Engine.software_process_block_small.State1 → Res Engine.software_process_block_small.State1 :=
  fun (w, a, b, c, d, e, f, g, h) => do
    let x_256 ← index w 14
    let x_257 ← index w 12
    let x_258 ← index w 7
    let x_259 ← index w 15
    let updates' := small_hash.later_round cfg c d e f g h a b 0xbef9a3f7#32 x_256 x_257 x_258 x_259
    let f := updates'.1
    let b := updates'.2.1
    let w ← indexSet w 14 updates'.2.2
    pure (w, a, b, c, d, e, f, g, h)

/-- round!(b, c, d, e, f, g, h, a, 0xc67178f2, w[15], w[13], w[8], w[0]) -/
def Engine.software_process_block_small.line1_63 (cfg : Cfg) : Engine.software_process_block_small.State1 → Res Engine.software_process_block_small.State1 :=
  fun (w, a, b, c, d, e, f, g, h) => do
    let x_261 ← index w 15
    let x_262 ← index w 13
    let x_263 ← index w 8
    let x_264 ← index w 0
    let updates' := small_hash.later_round cfg b c d e f g h a 0xc67178f2#32 x_261 x_262 x_263 x_264
    let e := updates'.1
    let a := updates'.2.1
    let w ← indexSet w 15 updates'.2.2
    pure (w, a, b, c, d, e, f, g, h)

/-- The 64 statements. -/
def Engine.software_process_block_small.lines1 (cfg : Cfg) : List (Engine.software_process_block_small.State1 → Res Engine.software_process_block_small.State1) := [
  Engine.software_process_block_small.line1_0 cfg,
  Engine.software_process_block_small.line1_1 cfg,
  Engine.software_process_block_small.line1_2 cfg,
  Engine.software_process_block_small.line1_3 cfg,
  Engine.software_process_block_small.line1_4 cfg,
  Engine.software_process_block_small.line1_5 cfg,
  Engine.software_process_block_small.line1_6 cfg,
  Engine.software_process_block_small.line1_7 cfg,
  Engine.software_process_block_small.line1_8 cfg,
  Engine.software_process_block_small.line1_9 cfg,
  Engine.software_process_block_small.line1_10 cfg,
  Engine.software_process_block_small.line1_11 cfg,
  Engine.software_process_block_small.line1_12 cfg,
  Engine.software_process_block_small.line1_13 cfg,
  Engine.software_process_block_small.line1_14 cfg,
  Engine.software_process_block_small.line1_15 cfg,
  Engine.software_process_block_small.line1_16 cfg,
  Engine.software_process_block_small.line1_17 cfg,
  Engine.software_process_block_small.line1_18 cfg,
  Engine.software_process_block_small.line1_19 cfg,
  Engine.software_process_block_small.line1_20 cfg,
  Engine.software_process_block_small.line1_21 cfg,
  Engine.software_process_block_small.line1_22 cfg,
  Engine.software_process_block_small.line1_23 cfg,
  Engine.software_process_block_small.line1_24 cfg,
  Engine.software_process_block_small.line1_25 cfg,
  Engine.software_process_block_small.line1_26 cfg,
  Engine.software_process_block_small.line1_27 cfg,
  Engine.software_process_block_small.line1_28 cfg,
  Engine.software_process_block_small.line1_29 cfg,
  Engine.software_process_block_small.line1_30 cfg,
  Engine.software_process_block_small.line1_31 cfg,
  Engine.software_process_block_small.line1_32 cfg,
  Engine.software_process_block_small.line1_33 cfg,
  Engine.software_process_block_small.line1_34 cfg,
  Engine.software_process_block_small.line1_35 cfg,
  Engine.software_process_block_small.line1_36 cfg,
  Engine.software_process_block_small.line1_37 cfg,
  Engine.software_process_block_small.line1_38 cfg,
  Engine.software_process_block_small.line1_39 cfg,
  Engine.software_process_block_small.line1_40 cfg,
  Engine.software_process_block_small.line1_41 cfg,
  Engine.software_process_block_small.line1_42 cfg,
  Engine.software_process_block_small.line1_43 cfg,
  Engine.software_process_block_small.line1_44 cfg,
  Engine.software_process_block_small.line1_45 cfg,
  Engine.software_process_block_small.line1_46 cfg,
  Engine.software_process_block_small.line1_47 cfg,
  Engine.software_process_block_small.line1_48 cfg,
  Engine.software_process_block_small.line1_49 cfg,
  Engine.software_process_block_small.line1_50 cfg,
  Engine.software_process_block_small.line1_51 cfg,
  Engine.software_process_block_small.line1_52 cfg,
  Engine.software_process_block_small.line1_53 cfg,
  Engine.software_process_block_small.line1_54 cfg,
  Engine.software_process_block_small.line1_55 cfg,
  Engine.software_process_block_small.line1_56 cfg,
  Engine.software_process_block_small.line1_57 cfg,
  Engine.software_process_block_small.line1_58 cfg,
  Engine.software_process_block_small.line1_59 cfg,
  Engine.software_process_block_small.line1_60 cfg,
  Engine.software_process_block_small.line1_61 cfg,
  Engine.software_process_block_small.line1_62 cfg,
  Engine.software_process_block_small.line1_63 cfg]

/-- `Engine::software_process_block`, sha256.rs 721-814, with feature `small-hash`. -/
def Engine.software_process_block_small (cfg : Cfg) (self : Engine) : Res Engine := do
  debugAssert cfg (self.buffer.length == Sha256.BLOCK_SIZE)
  let w : List (BitVec 32) := List.replicate 16 0#32
  let w ← Rs.zipMut w (chunksExact 4 self.buffer) fun w_val buff_bytes => do
    let x_1 ← Rs.tryInto 4 buff_bytes
    let w_val := Rs.fromBeBytes 32 x_1
    pure w_val
  let a ← index self.h 0
  let b ← index self.h 1
  let c ← index self.h 2
  let d ← index self.h 3
  let e ← index self.h 4
  let f ← index self.h 5
  let g ← index self.h 6
  let h ← index self.h 7
  let (w, a, b, c, d, e, f, g, h) ← Rs.runLines (Engine.software_process_block_small.lines1 cfg) (w, a, b, c, d, e, f, g, h)
  let x_266 ← index self.h 0
  let x_267 ← indexSet self.h 0 (x_266 + a)
  let self := { self with h := x_267 }
  let x_268 ← index self.h 1
  let x_269 ← indexSet self.h 1 (x_268 + b)
  let self := { self with h := x_269 }
  let x_270 ← index self.h 2
  let x_271 ← indexSet self.h 2 (x_270 + c)
  let self := { self with h := x_271 }
  let x_272 ← index self.h 3
  let x_273 ← indexSet self.h 3 (x_272 + d)
  let self := { self with h := x_273 }
  let x_274 ← index self.h 4
  let x_275 ← indexSet self.h 4 (x_274 + e)
  let self := { self with h := x_275 }
  let x_276 ← index self.h 5
  let x_277 ← indexSet self.h 5 (x_276 + f)
  let self := { self with h := x_277 }
  let x_278 ← index self.h 6
  let x_279 ← indexSet self.h 6 (x_278 + g)
  let self := { self with h := x_279 }
  let x_280 ← index self.h 7
  let x_281 ← indexSet self.h 7 (x_280 + h)
  let self := { self with h := x_281 }
  pure self

/-- `Engine::software_process_block`, sha256.rs 721-814. -/
def Engine.software_process_block (cfg : Cfg) (self : Engine) : Res Engine :=
  if cfg.smallHash then Engine.software_process_block_small cfg self else Engine.software_process_block_fast cfg self

/-- `Engine::process_block`, sha256.rs 445-459. -/
def Engine.process_block (cfg : Cfg) (self : Engine) : Res Engine := do
  let x_2 ←
    if ((cfg.shaNi && cfg.shaNi) && cfg.shaNi) && cfg.shaNi then do
      let self ← Engine.process_block_simd_x86_intrinsics cfg self
      pure (Rs.Flow.ret self)
    else do
      pure (Rs.Flow.next self)
  match x_2 with
  | Rs.Flow.ret r => pure r
  | Rs.Flow.next self => do
    let self ← Engine.software_process_block cfg self
    pure self

/-- `Engine::input`, internal_macros.rs 22-36. -/
def Engine.input (cfg : Cfg) (self : Engine) (inp : List Byte) : Res Engine := do
  let (self, inp) ← Rs.whileR cfg.usizeMod
    (fun (self, inp) => pure (!inp.isEmpty))
    (fun (self, inp) => do
      let buf_idx : Nat := self.length % Engine.BLOCK_SIZE
      let rem_len ← subUsize cfg Engine.BLOCK_SIZE buf_idx
      let write_len : Nat := min rem_len inp.length
      let x_2 ← addUsize cfg buf_idx write_len
      Rs.checkRange self.buffer buf_idx x_2
      let x_3 ← sliceTo inp write_len
      let x_4 ← copyIntoRange self.buffer buf_idx x_2 x_3
      let self := { self with buffer := x_4 }
      let x_5 ← addUsize cfg self.length write_len
      let self := { self with length := x_5 }
      let self ←
        if (self.length % Engine.BLOCK_SIZE) == 0 then do
          let self ← Engine.process_block cfg self
          pure self
        else do
          pure self
      let inp ← sliceFrom inp write_len
      pure (self, inp)) (self, inp)
  pure self

/-- `Midstate::to_byte_array`, sha256.rs 162. -/
def Midstate.to_byte_array (cfg : Cfg) (self : Midstate) : (List Byte) :=
  self.f0

/-- `Engine::midstate`, sha256.rs 88-94. -/
def Engine.midstate (cfg : Cfg) (self : Engine) : Res Midstate := do
  let ret : List Byte := List.replicate 32 0#8
  let ret ← Rs.zipChunksMut 4 self.h ret fun val ret_bytes => do
    let ret_bytes ← Rs.copyFromSlice ret_bytes (Rs.toBeBytes val)
    pure ret_bytes
  pure ({ f0 := ret } : Midstate)

/-- `Engine::finalize`, sha256.rs 56-73. -/
def Engine.finalize (cfg : Cfg) (self : Engine) : Res (List Byte) := do
  let data_len : BitVec 64 := BitVec.ofNat 64 self.length
  let zeroes : List Byte := List.replicate 56 0#8
  let self ← Engine.input cfg self [0x80#8]
  let self ←
    if decide ((self.length % Sha256.BLOCK_SIZE) > zeroes.length) then do
      let self ← Engine.input cfg self zeroes
      pure self
    else do
      pure self
  let pad_length ← subUsize cfg zeroes.length (self.length % Sha256.BLOCK_SIZE)
  let x_4 ← sliceTo zeroes pad_length
  let self ← Engine.input cfg self x_4
  debugAssert cfg ((self.length % Sha256.BLOCK_SIZE) == zeroes.length)
  let x_6 ← Rs.mulU cfg 8#64 data_len
  let self ← Engine.input cfg self (Rs.toBeBytes x_6)
  debugAssert cfg ((self.length % Sha256.BLOCK_SIZE) == 0)
  let x_8 ← Engine.midstate cfg self
  pure (Midstate.to_byte_array cfg x_8)

/-- `Hash::hash`, internal_macros.rs 158-162. -/
def Hash.hash (cfg : Cfg) (bytes : List Byte) : Res Hash := do
  let engine := Hash.engine cfg
  let engine ← Engine.input cfg engine bytes
  let x_2 ← Engine.finalize cfg engine
  pure ({ f0 := x_2 } : Hash)

/-- `Hash::from_engine`, internal_macros.rs 170-173. -/
def Hash.from_engine (cfg : Cfg) (engine : Engine) : Res Hash := do
  let digest ← Engine.finalize cfg engine
  pure ({ f0 := digest } : Hash)

/-- `Hash::from_bytes_ref`, internal_macros.rs 177-180. -/
def Hash.from_bytes_ref (cfg : Cfg) (bytes : List Byte) : Hash :=
  ({ f0 := bytes } : Hash)

/-- `Hash::from_bytes_mut`, internal_macros.rs 184-187. -/
def Hash.from_bytes_mut (cfg : Cfg) (bytes : List Byte) : Hash × (Hash → List Byte) :=
  (({ f0 := bytes } : Hash), fun r => r.f0)

/-- `Hash::from_byte_array`, internal_macros.rs 201. -/
def Hash.from_byte_array (cfg : Cfg) (bytes : List Byte) : Hash :=
  ({ f0 := bytes } : Hash)

/-- `Hash::from_slice`, internal_macros.rs 190-198. -/
def Hash.from_slice (cfg : Cfg) (sl : List Byte) : Res (Except Lib.FromSliceError Hash) := do
  let x_2 ←
    if sl.length != (256 / 8) then do
      pure (Except.error ({ expected := 256 / 8, got := sl.length } : Lib.FromSliceError))
    else do
      let ret : List Byte := List.replicate 32 0#8
      let ret ← Rs.copyFromSlice ret sl
      pure (Except.ok (Hash.from_byte_array cfg ret))
  pure x_2

/-- `Hash::to_byte_array`, internal_macros.rs 204. -/
def Hash.to_byte_array (cfg : Cfg) (self : Hash) : (List Byte) :=
  self.f0

/-- `Hash::as_byte_array`, internal_macros.rs 207. -/
def Hash.as_byte_array (cfg : Cfg) (self : Hash) : (List Byte) :=
  self.f0

/-- `Hash::as_bytes`, internal_macros.rs 211. -/
def Hash.as_bytes (cfg : Cfg) (self : Hash) : (List Byte) :=
  self.f0

/-- `Hash::to_bytes`, internal_macros.rs 216. -/
def Hash.to_bytes (cfg : Cfg) (self : Hash) : (List Byte) :=
  self.f0

/-- `Hash::all_zeros`, internal_macros.rs 223. -/
def Hash.all_zeros (cfg : Cfg) : Hash :=
  ({ f0 := List.replicate 32 0x00#8 } : Hash)

/-- `Hash::JsonSchema::schema_name`, internal_macros.rs 228. -/
def Hash.JsonSchema.schema_name (cfg : Cfg) : (List Byte) :=
  ascii "Hash"

/-- `Hash::JsonSchema::json_schema`, internal_macros.rs 230-239. -/
def Hash.JsonSchema.json_schema (cfg : Cfg) (gen : Rs.SchemaGenerator) : Res Rs.SchemaObject := do
  let len : BitVec 32 := 256#32 / 8#32
  let schema := Rs.stringSchema gen
  let x_1 ← Rs.mulU cfg len 2#32
  let x_2 ← Rs.mulU cfg len 2#32
  let schema := { schema with string := some ({ max_length := some x_1, min_length := some x_2, pattern := some (ascii "[0-9a-fA-F]+") } : Rs.StringValidation) }
  pure schema

/-- `Hash::FromStr::from_str`, internal_macros.rs 106-111. -/
def Hash.FromStr.from_str (cfg : Cfg) (s : List Byte) : Res (Except Hex.Error Hash) := do
  let x_1 ← Rs.fromHex 32 s
  Rs.tryOk x_1 fun bytes => do
    pure (Except.ok (Hash.from_byte_array cfg bytes))

/-- `Hash::LowerHex::fmt`, internal_macros.rs 54-56. -/
def Hash.LowerHex.fmt (cfg : Cfg) (self : Hash) (f : Hex.Flags) : Res (List Byte) := do
  let x_1 ← Hex.fmtHexExact f 32 self.f0 .lower
  pure x_1

/-- `Hash::UpperHex::fmt`, internal_macros.rs 61-63. -/
def Hash.UpperHex.fmt (cfg : Cfg) (self : Hash) (f : Hex.Flags) : Res (List Byte) := do
  let x_1 ← Hex.fmtHexExact f 32 self.f0 .upper
  pure x_1

/-- `Hash::Display::fmt`, internal_macros.rs 68-70. -/
def Hash.Display.fmt (cfg : Cfg) (self : Hash) (f : Hex.Flags) : Res (List Byte) := do
  let x_1 ← Hash.LowerHex.fmt cfg self f
  pure x_1

/-- `Hash::Debug::fmt`, internal_macros.rs 75-77. -/
def Hash.Debug.fmt (cfg : Cfg) (self : Hash) (f : Hex.Flags) : Res (List Byte) := do
  let x_1 ← Hash.Display.fmt cfg self ({ alternate := true })
  pure x_1

/-- `Hash::SerdeHash::from_slice_delegated`, serde_macros.rs 115-117. -/
def Hash.SerdeHash.from_slice_delegated (cfg : Cfg) (sl : List Byte) : Res (Except Lib.FromSliceError Hash) := do
  let x_1 ← Hash.from_slice cfg sl
  pure x_1

/-- `Hash::AsRef::as_ref`, internal_macros.rs 12. -/
def Hash.AsRef.as_ref (cfg : Cfg) (self : Hash) : (List Byte) :=
  self.f0

/-- `Hash::AsRefArray::as_ref`, internal_macros.rs 119. -/
def Hash.AsRefArray.as_ref (cfg : Cfg) (self : Hash) : (List Byte) :=
  self.f0

/-- `Hash::Index::index`, internal_macros.rs 126. -/
def Hash.Index.index (cfg : Cfg) (self : Hash) (index_ : Rs.SliceIndex) : Res (List Byte) := do
  let x_1 ← Rs.SliceIndex.get index_ self.f0
  pure x_1

/-- `Engine::n_bytes_hashed`, sha256.rs 50. -/
def Engine.n_bytes_hashed (cfg : Cfg) (self : Engine) : Nat :=
  self.length

/-- `Engine::from_midstate`, sha256.rs 434-443. -/
def Engine.from_midstate (cfg : Cfg) (midstate : Midstate) (length : Nat) : Res Engine := do
  assertR ((length % Sha256.BLOCK_SIZE) == 0)
  let ret : List (BitVec 32) := List.replicate 8 0#32
  let ret ← Rs.zipMut ret (chunksExact 4 midstate.f0) fun ret_val midstate_bytes => do
    let x_1 ← Rs.tryInto 4 midstate_bytes
    let ret_val := Rs.fromBeBytes 32 x_1
    pure ret_val
  pure ({ buffer := List.replicate 64 0#8, h := ret, length := length } : Engine)

/-- `Midstate::read_u32`, sha256.rs 262-267. -/
def Midstate.read_u32 (cfg : Cfg) (bytes : List Byte) (index_ : Nat) : Res (BitVec 32) := do
  let x_1 ← addUsize cfg index_ 0
  let x_2 ← index bytes x_1
  let x_3 ← addUsize cfg index_ 1
  let x_4 ← index bytes x_3
  let x_5 ← addUsize cfg index_ 2
  let x_6 ← index bytes x_5
  let x_7 ← addUsize cfg index_ 3
  let x_8 ← index bytes x_7
  pure (((((BitVec.setWidth 32 x_2) <<< 24) ||| ((BitVec.setWidth 32 x_4) <<< 16)) ||| ((BitVec.setWidth 32 x_6) <<< 8)) ||| ((BitVec.setWidth 32 x_8) <<< 0))

/-- `Midstate::copy_w`, sha256.rs 269-277. -/
def Midstate.copy_w (cfg : Cfg) (bytes : List Byte) (index_ : Nat) : Res (List (BitVec 32)) := do
  let w : List (BitVec 32) := List.replicate 16 0#32
  let i : Nat := 0
  let (w, i) ← Rs.whileR cfg.usizeMod
    (fun (w, i) => pure (decide (i < 16)))
    (fun (w, i) => do
      let x_1 ← mulUsize cfg i 4
      let x_2 ← addUsize cfg index_ x_1
      let x_3 ← Midstate.read_u32 cfg bytes x_2
      let w ← indexSet w i x_3
      let i ← addUsize cfg i 1
      pure (w, i)) (w, i)
  pure w

/-- The variables w, a, b, c, d, e, f, g, h of `const_hash`. -/
abbrev Midstate.const_hash_fast.State1 := (List (BitVec 32)) × (BitVec 32) × (BitVec 32) × (BitVec 32) × (BitVec 32) × (BitVec 32) × (BitVec 32) × (BitVec 32) × (BitVec 32)

/-- round!(a, b, c, d, e, f, g, h, 0x428a2f98, w[0]) -/
def Midstate.const_hash_fast.line1_0 (cfg : Cfg) : Midstate.const_hash_fast.State1 → Res Midstate.const_hash_fast.State1 :=
  fun (w, a, b, c, d, e, f, g, h) => do
    let x_40 ← index w 0
    let t1' : BitVec 32 := (((h + (Sigma1 cfg e)) + (Ch cfg e f g)) + 0x428a2f98#32) + x_40
    let t2' : BitVec 32 := (Sigma0 cfg a) + (Maj cfg a b c)
    let d := d + t1'
    let h := t1' + t2'
    pure (w, a, b, c, d, e, f, g, h)

/-- round!(h, a, b, c, d, e, f, g, 0x71374491, w[1]) -/
def Midstate.const_hash_fast.line1_1 (cfg : Cfg) : Midstate.const_hash_fast.State1 → Res Midstate.const_hash_fast.State1 :=
  fun (w, a, b, c, d, e, f, g, h) => do
    let x_41 ← index w 1
    let t1' : BitVec 32 := (((g + (Sigma1 cfg d)) + (Ch cfg d e f)) + 0x71374491#32) + x_41
    let t2' : BitVec 32 := (Sigma0 cfg h) + (Maj cfg h a b)
    let c := c + t1'
    let g := t1' + t2'
    pure (w, a, b, c, d, e, f, g, h)

/-- round!(g, h, a, b, c, d, e, f, 0xb5c0fbcf, w[2]) -/
def Midstate.const_hash_fast.line1_2 (cfg : Cfg) : Midstate.const_hash_fast.State1 → Res Midstate.const_hash_fast.State1 :=
  fun (w, a, b, c, d, e, f, g, h) => do
    let x_42 ← index w 2
    let t1' : BitVec 32 := (((f + (Sigma1 cfg c)) + (Ch cfg c d e)) + 0xb5c0fbcf#32) + x_42
    let t2' : BitVec 32 := (Sigma0 cfg g) + (Maj cfg g h a)
    let b := b + t1'
    let f := t1' + t2'
    pure (w, a, b, c, d, e, f, g, h)

/-- round!(f, g, h, a, b, c, d, e, 0xe9b5dba5, w[3]) -/
def Midstate.const_hash_fast.line1_3 (cfg : Cfg) : Midstate.const_hash_fast.State1 → Res Midstate.const_hash_fast.State1 :=
  fun (w, a, b, c, d, e, f, g, h) => do
    let x_43 ← index w 3
    let t1' : BitVec 32 := (((e + (Sigma1 cfg b)) + (Ch cfg b c d)) + 0xe9b5dba5#32) + x_43
    let t2' : BitVec 32 := (Sigma0 cfg f) + (Maj cfg f g h)
    let a := a + t1'
    let e := t1' + t2'
    pure (w, a, b, c, d, e, f, g, h)

/-- round!(e, f, g, h, a, b, c, d, 0x3956c25b, w[4]) -/
def Midstate.const_hash_fast.line1_4 (cfg : Cfg) : Midstate.const_hash_fast.State1 → Res Midstate.const_hash_fast.State1 :=
  fun (w, a, b, c, d, e, f, g, h) => do
    let x_44 ← index w 4
    let t1' : BitVec 32 := (((d + (Sigma1 cfg a)) + (Ch cfg a b c)) + 0x3956c25b#32) + x_44
    let t2' : BitVec 32 := (Sigma0 cfg e) + (Maj cfg e f g)
    let h := h + t1'
    let d := t1' + t2'
    pure (w, a, b, c, d, e, f, g, h)

/-- round!(d, e, f, g, h, a, b, c, 0x59f111f1, w[5]) -/
def Midstate.const_hash_fast.line1_5 (cfg : Cfg) : Midstate.const_hash_fast.State1 → Res Midstate.const_hash_fast.State1 :=
  fun (w, a, b, c, d, e, f, g, h) => do
    let x_45 ← index w 5
    let t1' : BitVec 32 := (((c + (Sigma1 cfg h)) + (Ch cfg h a b)) + 0x59f111f1#32) + x_45
    let t2' : BitVec 32 := (Sigma0 cfg d) + (Maj cfg d e f)
    let g := g + t1'
    let c := t1' + t2'
    pure (w, a, b, c, d, e, f, g, h)

/-- round!(c, d, e, f, g, h, a, b, 0x923f82a4, w[6]) -/
def Midstate.const_hash_fast.line1_6 (cfg : Cfg) : Midstate.const_hash_fast.State1 → Res Midstate.const_hash_fast.State1 :=
  fun (w, a, b, c, d, e, f, g, h) => do
    let x_46 ← index w 6
    let t1' : BitVec 32 := (((b + (Sigma1 cfg g)) + (Ch cfg g h a)) + 0x923f82a4#32) + x_46
    let t2' : BitVec 32 := (Sigma0 cfg c) + (Maj cfg c d e)
    let f := f + t1'
    let b := t1' + t2'
    pure (w, a, b, c, d, e, f, g, h)

/-- round!(b, c, d, e, f, g, h, a, 0xab1c5ed5, w[7]) -/
def Midstate.const_hash_fast.line1_7 (cfg : Cfg) : Midstate.const_hash_fast.State1 → Res Midstate.const_hash_fast.State1 :=
  fun (w, a, b, c, d, e, f, g, h) => do
    let x_47 ← index w 7
    let t1' : BitVec 32 := (((a + (Sigma1 cfg f)) + (Ch cfg f g h)) + 0xab1c5ed5#32) + x_47
    let t2' : BitVec 32 := (Sigma0 cfg b) + (Maj cfg b c d)
    let e := e + t1'
    let a := t1' + t2'
    pure (w, a, b, c, d, e, f, g, h)

/-- round!(a, b, c, d, e, f, g, h, 0xd807aa98, w[8]) -/
def Midstate.const_hash_fast.line1_8 (cfg : Cfg) : Midstate.const_hash_fast.State1 → Res Midstate.const_hash_fast.State1 :=
  fun (w, a, b, c, d, e, f, g, h) => do
    let x_48 ← index w 8
    let t1' : BitVec 32 := (((h + (Sigma1 cfg e)) + (Ch cfg e f g)) + 0xd807aa98#32) + x_48
    let t2' : BitVec 32 := (Sigma0 cfg a) + (Maj cfg a b c)
    let d := d + t1'
    let h := t1' + t2'
    pure (w, a, b, c, d, e, f, g, h)

/-- round!(h, a, b, c, d, e, f, g, 0x12835b01, w[9]) -/
def Midstate.const_hash_fast.line1_9 (cfg : Cfg) : Midstate.const_hash_fast.State1 → Res Midstate.const_hash_fast.State1 :=
  fun (w, a, b, c, d, e, f, g, h) => do
    let x_49 ← index w 9
    let t1' : BitVec 32 := (((g + (Sigma1 cfg d)) + (Ch cfg d e f)) + 0x12835b01#32) + x_49
    let t2' : BitVec 32 := (Sigma0 cfg h) + (Maj cfg h a b)
    let c := c + t1'
    let g := t1' + t2'
    pure (w, a, b, c, d, e, f, g, h)

/-- round!(g, h, a, b, c, d, e, f, 0x243185be, w[10]) -/
def Midstate.const_hash_fast.line1_10 (cfg : Cfg) : Midstate.const_hash_fast.State1 → Res Midstate.const_hash_fast.State1 :=
  fun (w, a, b, c, d, e, f, g, h) => do
    let x_50 ← index w 10
    let t1' : BitVec 32 := (((f + (Sigma1 cfg c)) + (Ch cfg c d e)) + 0x243185be#32) + x_50
    let t2' : BitVec 32 := (Sigma0 cfg g) + (Maj cfg g h a)
    let b := b + t1'
    let f := t1' + t2'
    pure (w, a, b, c, d, e, f, g, h)

/-- round!(f, g, h, a, b, c, d, e, 0x550c7dc3, w[11]) -/
def Midstate.const_hash_fast.line1_11 (cfg : Cfg) : Midstate.const_hash_fast.State1 → Res Midstate.const_hash_fast.State1 :=
  fun (w, a, b, c, d, e, f, g, h) => do
    let x_51 ← index w 11
    let t1' : BitVec 32 := (((e + (Sigma1 cfg b)) + (Ch cfg b c d)) + 0x550c7dc3#32) + x_51
    let t2' : BitVec 32 := (Sigma0 cfg f) + (Maj cfg f g h)
    let a := a + t1'
    let e := t1' + t2'
    pure (w, a, b, c, d, e, f, g, h)

/-- round!(e, f, g, h, a, b, c, d, 0x72be5d74, w[12]) -/
def Midstate.const_hash_fast.line1_12 (cfg : Cfg) : Midstate.const_hash_fast.State1 → Res Midstate.const_hash_fast.State1 :=
  fun (w, a, b, c, d, e, f, g, h) => do
    let x_52 ← index w 12
    let t1' : BitVec 32 := (((d + (Sigma1 cfg a)) + (Ch cfg a b c)) + 0x72be5d74#32) + x_52
    let t2' : BitVec 32 := (Sigma0 cfg e) + (Maj cfg e f g)
    let h := h + t1'
    let d := t1' + t2'
    pure (w, a, b, c, d, e, f, g, h)

/-- round!(d, e, f, g, h, a, b, c, 0x80deb1fe, w[13]) -/
def Midstate.const_hash_fast.line1_13 (cfg : Cfg) : Midstate.const_hash_fast.State1 → Res Midstate.const_hash_fast.State1 :=
  fun (w, a, b, c, d, e, f, g, h) => do
    let x_53 ← index w 13
    let t1' : BitVec 32 := (((c + (Sigma1 cfg h)) + (Ch cfg h a b)) + 0x80deb1fe#32) + x_53
    let t2' : BitVec 32 := (Sigma0 cfg d) + (Maj cfg d e f)
    let g := g + t1'
    let c := t1' + t2'
    pure (w, a, b, c, d, e, f, g, h)

/-- round!(c, d, e, f, g, h, a, b, 0x9bdc06a7, w[14]) -/
def Midstate.const_hash_fast.line1_14 (cfg : Cfg) : Midstate.const_hash_fast.State1 → Res Midstate.const_hash_fast.State1 :=
  fun (w, a, b, c, d, e, f, g, h) => do
    let x_54 ← index w 14
    let t1' : BitVec 32 := (((b + (Sigma1 cfg g)) + (Ch cfg g h a)) + 0x9bdc06a7#32) + x_54
    let t2' : BitVec 32 := (Sigma0 cfg c) + (Maj cfg c d e)
    let f := f + t1'
    let b := t1' + t2'
    pure (w, a, b, c, d, e, f, g, h)

/-- round!(b, c, d, e, f, g, h, a, 0xc19bf174, w[15]) -/
def Midstate.const_hash_fast.line1_15 (cfg : Cfg) : Midstate.const_hash_fast.State1 → Res Midstate.const_hash_fast.State1 :=
  fun (w, a, b, c, d, e, f, g, h) => do
    let x_55 ← index w 15
    let t1' : BitVec 32 := (((a + (Sigma1 cfg f)) + (Ch cfg f g h)) + 0xc19bf174#32) + x_55
    let t2' : BitVec 32 := (Sigma0 cfg b) + (Maj cfg b c d)
    let e := e + t1'
    let a := t1' + t2'
    pure (w, a, b, c, d, e, f, g, h)

/-- round!(a, b, c, d, e, f, g, h, 0xe49b69c1, w[0], w[14], w[9], w[1]) -/
def Midstate.const_hash_fast.line1_16 (cfg : Cfg) : Midstate.const_hash_fast.State1 → Res Midstate.const_hash_fast.State1 :=
  fun (w, a, b, c, d, e, f, g, h) => do
    let x_56 ← index w 0
    let x_57 ← index w 14
    let x_58 ← index w 9
    let x_59 ← index w 1
    let w ← indexSet w 0 (((x_56 + (sigma1 cfg x_57)) + x_58) + (sigma0 cfg x_59))
    let x_61 ← index w 0
    let t1' : BitVec 32 := (((h + (Sigma1 cfg e)) + (Ch cfg e f g)) + 0xe49b69c1#32) + x_61
    let t2' : BitVec 32 := (Sigma0 cfg a) + (Maj cfg a b c)
    let d := d + t1'
    let h := t1' + t2'
    pure (w, a, b, c, d, e, f, g, h)

/-- round!(h, a, b, c, d, e, f, g, 0xefbe4786, w[1], w[15], w[10], w[2]) -/
def Midstate.const_hash_fast.line1_17 (cfg : Cfg) : Midstate.const_hash_fast.State1 → Res Midstate.const_hash_fast.State1 :=
  fun (w, a, b, c, d, e, f, g, h) => do
    let x_62 ← index w 1
    let x_63 ← index w 15
    let x_64 ← index w 10
    let x_65 ← index w 2
    let w ← indexSet w 1 (((x_62 + (sigma1 cfg x_63)) + x_64) + (sigma0 cfg x_65))
    let x_67 ← index w 1
    let t1' : BitVec 32 := (((g + (Sigma1 cfg d)) + (Ch cfg d e f)) + 0xefbe4786#32) + x_67
    let t2' : BitVec 32 := (Sigma0 cfg h) + (Maj cfg h a b)
    let c := c + t1'
    let g := t1' + t2'
    pure (w, a, b, c, d, e, f, g, h)

/-- round!(g, h, a, b, c, d, e, f, 0x0fc19dc6, w[2], w[0], w[11], w[3]) -/
def Midstate.const_hash_fast.line1_18 (cfg : Cfg) : Midstate.const_hash_fast.State1 → Res Midstate.const_hash_fast.State1 :=
  fun (w, a, b, c, d, e, f, g, h) => do
    let x_68 ← index w 2
    let x_69 ← index w 0
    let x_70 ← index w 11
    let x_71 ← index w 3
    let w ← indexSet w 2 (((x_68 + (sigma1 cfg x_69)) + x_70) + (sigma0 cfg x_71))
    let x_73 ← index w 2
    let t1' : BitVec 32 := (((f + (Sigma1 cfg c)) + (Ch cfg c d e)) + 0x0fc19dc6#32) + x_73
    let t2' : BitVec 32 := (Sigma0 cfg g) + (Maj cfg g h a)
    let b := b + t1'
    let f := t1' + t2'
    pure (w, a, b, c, d, e, f, g, h)

/-- round!(f, g, h, a, b, c, d, e, 0x240ca1cc, w[3], w[1], w[12], w[4]) -/
def Midstate.const_hash_fast.line1_19 (cfg : Cfg) : Midstate.const_hash_fast.State1 → Res Midstate.const_hash_fast.State1 :=
  fun (w, a, b, c, d, e, f, g, h) => do
    let x_74 ← index w 3
    let x_75 ← index w 1
    let x_76 ← index w 12
    let x_77 ← index w 4
    let w ← indexSet w 3 (((x_74 + (sigma1 cfg x_75)) + x_76) + (sigma0 cfg x_77))
    let x_79 ← index w 3
    let t1' : BitVec 32 := (((e + (Sigma1 cfg b)) + (Ch cfg b c d)) + 0x240ca1cc#32) + x_79
    let t2' : BitVec 32 := (Sigma0 cfg f) + (Maj cfg f g h)
    let a := a + t1'
    let e := t1' + t2'
    pure (w, a, b, c, d, e, f, g, h)

/-- round!(e, f, g, h, a, b, c, d, 0x2de92c6f, w[4], w[2], w[13], w[5]) -/
def Midstate.const_hash_fast.line1_20 (cfg : Cfg) : Midstate.const_hash_fast.State1 → Res Midstate.const_hash_fast.State1 :=
  fun (w, a, b, c, d, e, f, g, h) => do
    let x_80 ← index w 4
    let x_81 ← index w 2
    let x_82 ← index w 13
    let x_83 ← index w 5
    let w ← indexSet w 4 (((x_80 + (sigma1 cfg x_81)) + x_82) + (sigma0 cfg x_83))
    let x_85 ← index w 4
    let t1' : BitVec 32 := (((d + (Sigma1 cfg a)) + (Ch cfg a b c)) + 0x2de92c6f#32) + x_85
    let t2' : BitVec 32 := (Sigma0 cfg e) + (Maj cfg e f g)
    let h := h + t1'
    let d := t1' + t2'
    pure (w, a, b, c, d, e, f, g, h)

/-- round!(d, e, f, g, h, a, b, c, 0x4a7484aa, w[5], w[3], w[14], w[6]) -/
def Midstate.const_hash_fast.line1_21 (cfg : Cfg) : Midstate.const_hash_fast.State1 → Res Midstate.const_hash_fast.State1 :=
  fun (w, a, b, c, d, e, f, g, h) => do
    let x_86 ← index w 5
    let x_87 ← index w 3
    let x_88 ← index w 14
    let x_89 ← index w 6
    let w ← indexSet w 5 (((x_86 + (sigma1 cfg x_87)) + x_88) + (sigma0 cfg x_89))
    let x_91 ← index w 5
    let t1' : BitVec 32 := (((c + (Sigma1 cfg h)) + (Ch cfg h a b)) + 0x4a7484aa#32) + x_91
    let t2' : BitVec 32 := (Sigma0 cfg d) + (Maj cfg d e f)
    let g := g + t1'
    let c := t1' + t2'
    pure (w, a, b, c, d, e, f, g, h)

/-- round!(c, d, e, f, g, h, a, b, 0x5cb0a9dc, w[6], w[4], w[15], w[7]) -/
def Midstate.const_hash_fast.line1_22 (cfg : Cfg) : Midstate.const_hash_fast.State1 → Res Midstate.const_hash_fast.State1 :=
  fun (w, a, b, c, d, e, f, g, h) => do
    let x_92 ← index w 6
    let x_93 ← index w 4
    let x_94 ← index w 15
    let x_95 ← index w 7
    let w ← indexSet w 6 (((x_92 + (sigma1 cfg x_93)) + x_94) + (sigma0 cfg x_95))
    let x_97 ← index w 6
    let t1' : BitVec 32 := (((b + (Sigma1 cfg g)) + (Ch cfg g h a)) + 0x5cb0a9dc#32) + x_97
    let t2' : BitVec 32 := (Sigma0 cfg c) + (Maj cfg c d e)
    let f := f + t1'
    let b := t1' + t2'
    pure (w, a, b, c, d, e, f, g, h)

/-- round!(b, c, d, e, f, g, h, a, 0x76f988da, w[7], w[5], w[0], w[8]) -/
def Midstate.const_hash_fast.line1_23 (cfg : Cfg) : Midstate.const_hash_fast.State1 → Res Midstate.const_hash_fast.State1 :=
  fun (w, a, b, c, d, e, f, g, h) => do
    let x_98 ← index w 7
    let x_99 ← index w 5
    let x_100 ← index w 0
    let x_101 ← index w 8
    let w ← indexSet w 7 (((x_98 + (sigma1 cfg x_99)) + x_100) + (sigma0 cfg x_101))
    let x_103 ← index w 7
    let t1' : BitVec 32 := (((a + (Sigma1 cfg f)) + (Ch cfg f g h)) + 0x76f988da#32) + x_103
    let t2' : BitVec 32 := (Sigma0 cfg b) + (Maj cfg b c d)
    let e := e + t1'
    let a := t1' + t2'
    pure (w, a, b, c, d, e, f, g, h)

/-- round!(a, b, c, d, e, f, g, h, 0x983e5152, w[8], w[6], w[1], w[9]) -/
def Midstate.const_hash_fast.line1_24 (cfg : Cfg) : Midstate.const_hash_fast.State1 → Res Midstate.const_hash_fast.State1 :=
  fun (w, a, b, c, d, e, f, g, h) => do
    let x_104 ← index w 8
    let x_105 ← index w 6
    let x_106 ← index w 1
    let x_107 ← index w 9
    let w ← indexSet w 8 (((x_104 + (sigma1 cfg x_105)) + x_106) + (sigma0 cfg x_107))
    let x_109 ← index w 8
    let t1' : BitVec 32 := (((h + (Sigma1 cfg e)) + (Ch cfg e f g)) + 0x983e5152#32) + x_109
    let t2' : BitVec 32 := (Sigma0 cfg a) + (Maj cfg a b c)
    let d := d + t1'
    let h := t1' + t2'
    pure (w, a, b, c, d, e, f, g, h)

/-- round!(h, a, b, c, d, e, f, g, 0xa831c66d, w[9], w[7], w[2], w[10]) -/
def Midstate.const_hash_fast.line1_25 (cfg : Cfg) : Midstate.const_hash_fast.State1 → Res Midstate.const_hash_fast.State1 :=
  fun (w, a, b, c, d, e, f, g, h) => do
    let x_110 ← index w 9
    let x_111 ← index w 7
    let x_112 ← index w 2
    let x_113 ← index w 10
    let w ← indexSet w 9 (((x_110 + (sigma1 cfg x_111)) + x_112) + (sigma0 cfg x_113))
    let x_115 ← index w 9
    let t1' : BitVec 32 := (((g + (Sigma1 cfg d)) + (Ch cfg d e f)) + 0xa831c66d#32) + x_115
    let t2' : BitVec 32 := (Sigma0 cfg h) + (Maj cfg h a b)
    let c := c + t1'
    let g := t1' + t2'
    pure (w, a, b, c, d, e, f, g, h)

/-- round!(g, h, a, b, c, d, e, f, 0xb00327c8, w[10], w[8], w[3], w[11]) -/
def Midstate.const_hash_fast.line1_26 (cfg : Cfg) : Midstate.const_hash_fast.State1 → Res Midstate.const_hash_fast.State1 :=
  fun (w, a, b, c, d, e, f, g, h) => do
    let x_116 ← index w 10
    let x_117 ← index w 8
    let x_118 ← index w 3
    let x_119 ← index w 11
    let w ← indexSet w 10 (((x_116 + (sigma1 cfg x_117)) + x_118) + (sigma0 cfg x_119))
    let x_121 ← index w 10
    let t1' : BitVec 32 := (((f + (Sigma1 cfg c)) + (Ch cfg c d e)) + 0xb00327c8#32) + x_121
    let t2' : BitVec 32 := (Sigma0 cfg g) + (Maj cfg g h a)
    let b := b + t1'
    let f := t1' + t2'
    pure (w, a, b, c, d, e, f, g, h)

/-- round!(f, g, h, a, b, c, d, e, 0xbf597fc7, w[11], w[9], w[4], w[12]) -/
def Midstate.const_hash_fast.line1_27 (cfg : Cfg) : Midstate.const_hash_fast.State1 → Res Midstate.const_hash_fast.State1 :=
  fun (w, a, b, c, d, e, f, g, h) => do
    let x_122 ← index w 11
    let x_123 ← index w 9
    let x_124 ← index w 4
    let x_125 ← index w 12
    let w ← indexSet w 11 (((x_122 + (sigma1 cfg x_123)) + x_124) + (sigma0 cfg x_125))
    let x_127 ← index w 11
    let t1' : BitVec 32 := (((e + (Sigma1 cfg b)) + (Ch cfg b c d)) + 0xbf597fc7#32) + x_127
    let t2' : BitVec 32 := (Sigma0 cfg f) + (Maj cfg f g h)
    let a := a + t1'
    let e := t1' + t2'
    pure (w, a, b, c, d, e, f, g, h)

/-- round!(e, f, g, h, a, b, c, d, 0xc6e00bf3, w[12], w[10], w[5], w[13]) -/
def Midstate.const_hash_fast.line1_28 (cfg : Cfg) : Midstate.const_hash_fast.State1 → Res Midstate.const_hash_fast.State1 :=
  fun (w, a, b, c, d, e, f, g, h) => do
    let x_128 ← index w 12
    let x_129 ← index w 10
    let x_130 ← index w 5
    let x_131 ← index w 13
    let w ← indexSet w 12 (((x_128 + (sigma1 cfg x_129)) + x_130) + (sigma0 cfg x_131))
    let x_133 ← index w 12
    let t1' : BitVec 32 := (((d + (Sigma1 cfg a)) + (Ch cfg a b c)) + 0xc6e00bf3#32) + x_133
    let t2' : BitVec 32 := (Sigma0 cfg e) + (Maj cfg e f g)
    let h := h + t1'
    let d := t1' + t2'
    pure (w, a, b, c, d, e, f, g, h)

/-- round!(d, e, f, g, h, a, b, c, 0xd5a79147, w[13], w[11], w[6], w[14]) -/
def Midstate.const_hash_fast.line1_29 (cfg : Cfg) : Midstate.const_hash_fast.State1 → Res Midstate.const_hash_fast.State1 :=
  fun (w, a, b, c, d, e, f, g, h) => do
    let x_134 ← index w 13
    let x_135 ← index w 11
    let x_136 ← index w 6
    let x_137 ← index w 14
    let w ← indexSet w 13 (((x_134 + (sigma1 cfg x_135)) + x_136) + (sigma0 cfg x_137))
    let x_139 ← index w 13
    let t1' : BitVec 32 := (((c + (Sigma1 cfg h)) + (Ch cfg h a b)) + 0xd5a79147#32) + x_139
    let t2' : BitVec 32 := (Sigma0 cfg d) + (Maj cfg d e f)
    let g := g + t1'
    let c := t1' + t2'
    pure (w, a, b, c, d, e, f, g, h)

/-- round!(c, d, e, f, g, h, a, b, 0x06ca6351, w[14], w[12], w[7], w[15]) -/
def Midstate.const_hash_fast.line1_30 (cfg : Cfg) : Midstate.const_hash_fast.State1 → Res Midstate.const_hash_fast.State1 :=
  fun (w, a, b, c, d, e, f, g, h) => do
    let x_140 ← index w 14
    let x_141 ← index w 12
    let x_142 ← index w 7
    let x_143 ← index w 15
    let w ← indexSet w 14 (((x_140 + (sigma1 cfg x_141)) + x_142) + (sigma0 cfg x_143))
    let x_145 ← index w 14
    let t1' : BitVec 32 := (((b + (Sigma1 cfg g)) + (Ch cfg g h a)) + 0x06ca6351#32) + x_145
    let t2' : BitVec 32 := (Sigma0 cfg c) + (Maj cfg c d e)
    let f := f + t1'
    let b := t1' + t2'
    pure (w, a, b, c, d, e, f, g, h)

/-- round!(b, c, d, e, f, g, h, a, 0x14292967, w[15], w[13], w[8], w[0]) -/
def Midstate.const_hash_fast.line1_31 (cfg : Cfg) : Midstate.const_hash_fast.State1 → Res Midstate.const_hash_fast.State1 :=
  fun (w, a, b, c, d, e, f, g, h) => do
    let x_146 ← index w 15
    let x_147 ← index w 13
    let x_148 ← index w 8
    let x_149 ← index w 0
    let w ← indexSet w 15 (((x_146 + (sigma1 cfg x_147)) + x_148) + (sigma0 cfg x_149))
    let x_151 ← index w 15
    let t1' : BitVec 32 := (((a + (Sigma1 cfg f)) + (Ch cfg f g h)) + 0x14292967#32) + x_151
    let t2' : BitVec 32 := (Sigma0 cfg b) + (Maj cfg b c d)
    let e := e + t1'
    let a := t1' + t2'
    pure (w, a, b, c, d, e, f, g, h)

/-- round!(a, b, c, d, e, f, g, h, 0x27b70a85, w[0], w[14], w[9], w[1]) -/
def Midstate.const_hash_fast.line1_32 (cfg : Cfg) : Midstate.const_hash_fast.State1 → Res Midstate.const_hash_fast.State1 :=
  fun (w, a, b, c, d, e, f, g, h) => do
    let x_152 ← index w 0
    let x_153 ← index w 14
    let x_154 ← index w 9
    let x_155 ← index w 1
    let w ← indexSet w 0 (((x_152 + (sigma1 cfg x_153)) + x_154) + (sigma0 cfg x_155))
    let x_157 ← index w 0
    let t1' : BitVec 32 := (((h + (Sigma1 cfg e)) + (Ch cfg e f g)) + 0x27b70a85#32) + x_157
    let t2' : BitVec 32 := (Sigma0 cfg a) + (Maj cfg a b c)
    let d := d + t1'
    let h := t1' + t2'
    pure (w, a, b, c, d, e, f, g, h)

/-- round!(h, a, b, c, d, e, f, g, 0x2e1b2138, w[1], w[15], w[10], w[2]) -/
def Midstate.const_hash_fast.line1_33 (cfg : Cfg) : Midstate.const_hash_fast.State1 → Res Midstate.const_hash_fast.State1 :=
  fun (w, a, b, c, d, e, f, g, h) => do
    let x_158 ← index w 1
    let x_159 ← index w 15
    let x_160 ← index w 10
    let x_161 ← index w 2
    let w ← indexSet w 1 (((x_158 + (sigma1 cfg x_159)) + x_160) + (sigma0 cfg x_161))
    let x_163 ← index w 1
    let t1' : BitVec 32 := (((g + (Sigma1 cfg d)) + (Ch cfg d e f)) + 0x2e1b2138#32) + x_163
    let t2' : BitVec 32 := (Sigma0 cfg h) + (Maj cfg h a b)
    let c := c + t1'
    let g := t1' + t2'
    pure (w, a, b, c, d, e, f, g, h)

/-- round!(g, h, a, b, c, d, e, f, 0x4d2c6dfc, w[2], w[0], w[11], w[3]) -/
def Midstate.const_hash_fast.line1_34 (cfg : Cfg) : Midstate.const_hash_fast.State1 → Res Midstate.const_hash_fast.State1 :=
  fun (w, a, b, c, d, e, f, g, h) => do
    let x_164 ← index w 2
    let x_165 ← index w 0
    let x_166 ← index w 11
    let x_167 ← index w 3
    let w ← indexSet w 2 (((x_164 + (sigma1 cfg x_165)) + x_166) + (sigma0 cfg x_167))
    let x_169 ← index w 2
    let t1' : BitVec 32 := (((f + (Sigma1 cfg c)) + (Ch cfg c d e)) + 0x4d2c6dfc#32) + x_169
    let t2' : BitVec 32 := (Sigma0 cfg g) + (Maj cfg g h a)
    let b := b + t1'
    let f := t1' + t2'
    pure (w, a, b, c, d, e, f, g, h)

/-- round!(f, g, h, a, b, c, d, e, 0x53380d13, w[3], w[1], w[12], w[4]) -/
def Midstate.const_hash_fast.line1_35 (cfg : Cfg) : Midstate.const_hash_fast.State1 → Res Midstate.const_hash_fast.State1 :=
  fun (w, a, b, c, d, e, f, g, h) => do
    let x_170 ← index w 3
    let x_171 ← index w 1
    let x_172 ← index w 12
    let x_173 ← index w 4
    let w ← indexSet w 3 (((x_170 + (sigma1 cfg x_171)) + x_172) + (sigma0 cfg x_173))
    let x_175 ← index w 3
    let t1' : BitVec 32 := (((e + (Sigma1 cfg b)) + (Ch cfg b c d)) + 0x53380d13#32) + x_175
    let t2' : BitVec 32 := (Sigma0 cfg f) + (Maj cfg f g h)
    let a := a + t1'
    let e := t1' + t2'
    pure (w, a, b, c, d, e, f, g, h)

/-- round!(e, f, g, h, a, b, c, d, 0x650a7354, w[4], w[2], w[13], w[5]) -/
def Midstate.const_hash_fast.line1_36 (cfg : Cfg) : Midstate.const_hash_fast.State1 → Res Midstate.const_hash_fast.State1 :=
  fun (w, a, b, c, d, e, f, g, h) => do
    let x_176 ← index w 4
    let x_177 ← index w 2
    let x_178 ← index w 13
    let x_179 ← index w 5
    let w ← indexSet w 4 (((x_176 + (sigma1 cfg x_177)) + x_178) + (sigma0 cfg x_179))
    let x_181 ← index w 4
    let t1' : BitVec 32 := (((d + (Sigma1 cfg a)) + (Ch cfg a b c)) + 0x650a7354#32) + x_181
    let t2' : BitVec 32 := (Sigma0 cfg e) + (Maj cfg e f g)
    let h := h + t1'
    let d := t1' + t2'
    pure (w, a, b, c, d, e, f, g, h)

/-- round!(d, e, f, g, h, a, b, c, 0x766a0abb, w[5], w[3], w[14], w[6]) -/
def Midstate.const_hash_fast.line1_37 (cfg : Cfg) : Midstate.const_hash_fast.State1 → Res Midstate.const_hash_fast.State1 :=
  fun (w, a, b, c, d, e, f, g, h) => do
    let x_182 ← index w 5
    let x_183 ← index w 3
    let x_184 ← index w 14
    let x_185 ← index w 6
    let w ← indexSet w 5 (((x_182 + (sigma1 cfg x_183)) + x_184) + (sigma0 cfg x_185))
    let x_187 ← index w 5
    let t1' : BitVec 32 := (((c + (Sigma1 cfg h)) + (Ch cfg h a b)) + 0x766a0abb#32) + x_187
    let t2' : BitVec 32 := (Sigma0 cfg d) + (Maj cfg d e f)
    let g := g + t1'
    let c := t1' + t2'
    pure (w, a, b, c, d, e, f, g, h)

/-- round!(c, d, e, f, g, h, a, b, 0x81c2c92e, w[6], w[4], w[15], w[7]) -/
def Midstate.const_hash_fast.line1_38 (cfg : Cfg) : Midstate.const_hash_fast.State1 → Res Midstate.const_hash_fast.State1 :=
  fun (w, a, b, c, d, e, f, g, h) => do
    let x_188 ← index w 6
    let x_189 ← index w 4
    let x_190 ← index w 15
    let x_191 ← index w 7
    let w ← indexSet w 6 (((x_188 + (sigma1 cfg x_189)) + x_190) + (sigma0 cfg x_191))
    let x_193 ← index w 6
    let t1' : BitVec 32 := (((b + (Sigma1 cfg g)) + (Ch cfg g h a)) + 0x81c2c92e#32) + x_193
    let t2' : BitVec 32 := (Sigma0 cfg c) + (Maj cfg c d e)
    let f := f + t1'
    let b := t1' + t2'
    pure (w, a, b, c, d, e, f, g, h)

/-- round!(b, c, d, e, f, g, h, a, 0x92722c85, w[7], w[5], w[0], w[8]) -/
def Midstate.const_hash_fast.line1_39 (cfg : Cfg) : Midstate.const_hash_fast.State1 → Res Midstate.const_hash_fast.State1 :=
  fun (w, a, b, c, d, e, f, g, h) => do
    let x_194 ← index w 7
    let x_195 ← index w 5
    let x_196 ← index w 0
    let x_197 ← index w 8
    let w ← indexSet w 7 (((x_194 + (sigma1 cfg x_195)) + x_196) + (sigma0 cfg x_197))
    let x_199 ← index w 7
    let t1' : BitVec 32 := (((a + (Sigma1 cfg f)) + (Ch cfg f g h)) + 0x92722c85#32) + x_199
    let t2' : BitVec 32 := (Sigma0 cfg b) + (Maj cfg b c d)
    let e := e + t1'
    let a := t1' + t2'
    pure (w, a, b, c, d, e, f, g, h)

/-- round!(a, b, c, d, e, f, g, h, 0xa2bfe8a1, w[8], w[6], w[1], w[9]) -/
def Midstate.const_hash_fast.line1_40 (cfg : Cfg) : Midstate.const_hash_fast.State1 → Res Midstate.const_hash_fast.State1 :=
  fun (w, a, b, c, d, e, f, g, h) => do
    let x_200 ← index w 8
    let x_201 ← index w 6
    let x_202 ← index w 1
    let x_203 ← index w 9
    let w ← indexSet w 8 (((x_200 + (sigma1 cfg x_201)) + x_202) + (sigma0 cfg x_203))
    let x_205 ← index w 8
    let t1' : BitVec 32 := (((h + (Sigma1 cfg e)) + (Ch cfg e f g)) + 0xa2bfe8a1#32) + x_205
    let t2' : BitVec 32 := (Sigma0 cfg a) + (Maj cfg a b c)
    let d := d + t1'
    let h := t1' + t2'
    pure (w, a, b, c, d, e, f, g, h)

/-- round!(h, a, b, c, d, e, f, g, 0xa81a664b, w[9], w[7], w[2], w[10]) -/
def Midstate.const_hash_fast.line1_41 (cfg : Cfg) : Midstate.const_hash_fast.State1 → Res Midstate.const_hash_fast.State1 :=
  fun (w, a, b, c, d, e, f, g, h) => do
    let x_206 ← index w 9
    let x_207 ← index w 7
    let x_208 ← index w 2
    let x_209 ← index w 10
    let w ← indexSet w 9 (((x_206 + (sigma1 cfg x_207)) + x_208) + (sigma0 cfg x_209))
    let x_211 ← index w 9
    let t1' : BitVec 32 := (((g + (Sigma1 cfg d)) + (Ch cfg d e f)) + 0xa81a664b#32) + x_211
    let t2' : BitVec 32 := (Sigma0 cfg h) + (Maj cfg h a b)
    let c := c + t1'
    let g := t1' + t2'
    pure (w, a, b, c, d, e, f, g, h)

/-- round!(g, h, a, b, c, d, e, f, 0xc24b8b70, w[10], w[8], w[3], w[11]) -/
def Midstate.const_hash_fast.line1_42 (cfg : Cfg) : Midstate.const_hash_fast.State1 → Res Midstate.const_hash_fast.State1 :=
  fun (w, a, b, c, d, e, f, g, h) => do
    let x_212 ← index w 10
    let x_213 ← index w 8
    let x_214 ← index w 3
    let x_215 ← index w 11
    let w ← indexSet w 10 (((x_212 + (sigma1 cfg x_213)) + x_214) + (sigma0 cfg x_215))
    let x_217 ← index w 10
    let t1' : BitVec 32 := (((f + (Sigma1 cfg c)) + (Ch cfg c d e)) + 0xc24b8b70#32) + x_217
    let t2' : BitVec 32 := (Sigma0 cfg g) + (Maj cfg g h a)
    let b := b + t1'
    let f := t1' + t2'
    pure (w, a, b, c, d, e, f, g, h)

/-- round!(f, g, h, a, b, c, d, e, 0xc76c51a3, w[11], w[9], w[4], w[12]) -/
def Midstate.const_hash_fast.line1_43 (cfg : Cfg) : Midstate.const_hash_fast.State1 → Res Midstate.const_hash_fast.State1 :=
  fun (w, a, b, c, d, e, f, g, h) => do
    let x_218 ← index w 11
    let x_219 ← index w 9
    let x_220 ← index w 4
    let x_221 ← index w 12
    let w ← indexSet w 11 (((x_218 + (sigma1 cfg x_219)) + x_220) + (sigma0 cfg x_221))
    let x_223 ← index w 11
    let t1' : BitVec 32 := (((e + (Sigma1 cfg b)) + (Ch cfg b c d)) + 0xc76c51a3#32) + x_223
    let t2' : BitVec 32 := (Sigma0 cfg f) + (Maj cfg f g h)
    let a := a + t1'
    let e := t1' + t2'
    pure (w, a, b, c, d, e, f, g, h)

/-- round!(e, f, g, h, a, b, c, d, 0xd192e819, w[12], w[10], w[5], w[13]) -/
def Midstate.const_hash_fast.line1_44 (cfg : Cfg) : Midstate.const_hash_fast.State1 → Res Midstate.const_hash_fast.State1 :=
  fun (w, a, b, c, d, e, f, g, h) => do
    let x_224 ← index w 12
    let x_225 ← index w 10
    let x_226 ← index w 5
    let x_227 ← index w 13
    let w ← indexSet w 12 (((x_224 + (sigma1 cfg x_225)) + x_226) + (sigma0 cfg x_227))
    let x_229 ← index w 12
    let t1' : BitVec 32 := (((d + (Sigma1 cfg a)) + (Ch cfg a b c)) + 0xd192e819#32) + x_229
    let t2' : BitVec 32 := (Sigma0 cfg e) + (Maj cfg e f g)
    let h := h + t1'
    let d := t1' + t2'
    pure (w, a, b, c, d, e, f, g, h)

/-- round!(d, e, f, g, h, a, b, c, 0xd6990624, w[13], w[11], w[6], w[14]) -/
def Midstate.const_hash_fast.line1_45 (cfg : Cfg) : Midstate.const_hash_fast.State1 → Res Midstate.const_hash_fast.State1 :=
  fun (w, a, b, c, d, e, f, g, h) => do
    let x_230 ← index w 13
    let x_231 ← index w 11
    let x_232 ← index w 6
    let x_233 ← index w 14
    let w ← indexSet w 13 (((x_230 + (sigma1 cfg x_231)) + x_232) + (sigma0 cfg x_233))
    let x_235 ← index w 13
    let t1' : BitVec 32 := (((c + (Sigma1 cfg h)) + (Ch cfg h a b)) + 0xd6990624#32) + x_235
    let t2' : BitVec 32 := (Sigma0 cfg d) + (Maj cfg d e f)
    let g := g + t1'
    let c := t1' + t2'
    pure (w, a, b, c, d, e, f, g, h)

/-- round!(c, d, e, f, g, h, a, b, 0xf40e3585, w[14], w[12], w[7], w[15]) -/
def Midstate.const_hash_fast.line1_46 (cfg : Cfg) : Midstate.const_hash_fast.State1 → Res Midstate.const_hash_fast.State1 :=
  fun (w, a, b, c, d, e, f, g, h) => do
    let x_236 ← index w 14
    let x_237 ← index w 12
    let x_238 ← index w 7
    let x_239 ← index w 15
    let w ← indexSet w 14 (((x_236 + (sigma1 cfg x_237)) + x_238) + (sigma0 cfg x_239))
    let x_241 ← index w 14
    let t1' : BitVec 32 := (((b + (Sigma1 cfg g)) + (Ch cfg g h a)) + 0xf40e3585#32) + x_241
    let t2' : BitVec 32 := (Sigma0 cfg c) + (Maj cfg c d e)
    let f := f + t1'
    let b := t1' + t2'
    pure (w, a, b, c, d, e, f, g, h)

/-- round!(b, c, d, e, f, g, h, a, 0x106aa070, w[15], w[13], w[8], w[0]) -/
def Midstate.const_hash_fast.line1_47 (cfg : Cfg) : Midstate.const_hash_fast.State1 → Res Midstate.const_hash_fast.State1 :=
  fun (w, a, b, c, d, e, f, g, h) => do
    let x_242 ← index w 15
    let x_243 ← index w 13
    let x_244 ← index w 8
    let x_245 ← index w 0
    let w ← indexSet w 15 (((x_242 + (sigma1 cfg x_243)) + x_244) + (sigma0 cfg x_245))
    let x_247 ← index w 15
    let t1' : BitVec 32 := (((a + (Sigma1 cfg f)) + (Ch cfg f g h)) + 0x106aa070#32) + x_247
    let t2' : BitVec 32 := (Sigma0 cfg b) + (Maj cfg b c d)
    let e := e + t1'
    let a := t1' + t2'
    pure (w, a, b, c, d, e, f, g, h)

/-- round!(a, b, c, d, e, f, g, h, 0x19a4c116, w[0], w[14], w[9], w[1]) -/
def Midstate.const_hash_fast.line1_48 (cfg : Cfg) : Midstate.const_hash_fast.State1 → Res Midstate.const_hash_fast.State1 :=
  fun (w, a, b, c, d, e, f, g, h) => do
    let x_248 ← index w 0
    let x_249 ← index w 14
    let x_250 ← index w 9
    let x_251 ← index w 1
    let w ← indexSet w 0 (((x_248 + (sigma1 cfg x_249)) + x_250) + (sigma0 cfg x_251))
    let x_253 ← index w 0
    let t1' : BitVec 32 := (((h + (Sigma1 cfg e)) + (Ch cfg e f g)) + 0x19a4c116#32) + x_253
    let t2' : BitVec 32 := (Sigma0 cfg a) + (Maj cfg a b c)
    let d := d + t1'
    let h := t1' + t2'
    pure (w, a, b, c, d, e, f, g, h)

/-- round!(h, a, b, c, d, e, f, g, 0x1e376c08, w[1], w[15], w[10], w[2]) -/
def Midstate.const_hash_fast.line1_49 (cfg : Cfg) : Midstate.const_hash_fast.State1 → Res Midstate.const_hash_fast.State1 :=
  fun (w, a, b, c, d, e, f, g, h) => do
    let x_254 ← index w 1
    let x_255 ← index w 15
    let x_256 ← index w 10
    let x_257 ← index w 2
    let w ← indexSet w 1 (((x_254 + (sigma1 cfg x_255)) + x_256) + (sigma0 cfg x_257))
    let x_259 ← index w 1
    let t1' : BitVec 32 := (((g + (Sigma1 cfg d)) + (Ch cfg d e f)) + 0x1e376c08#32) + x_259
    let t2' : BitVec 32 := (Sigma0 cfg h) + (Maj cfg h a b)
    let c := c + t1'
    let g := t1' + t2'
    pure (w, a, b, c, d, e, f, g, h)

/-- round!(g, h, a, b, c, d, e, f, 0x2748774c, w[2], w[0], w[11], w[3]) -/
def Midstate.const_hash_fast.line1_50 (cfg : Cfg) : Midstate.const_hash_fast.State1 → Res Midstate.const_hash_fast.State1 :=
  fun (w, a, b, c, d, e, f, g, h) => do
    let x_260 ← index w 2
    let x_261 ← index w 0
    let x_262 ← index w 11
    let x_263 ← index w 3
    let w ← indexSet w 2 (((x_260 + (sigma1 cfg x_261)) + x_262) + (sigma0 cfg x_263))
    let x_265 ← index w 2
    let t1' : BitVec 32 := (((f + (Sigma1 cfg c)) + (Ch cfg c d e)) + 0x2748774c#32) + x_265
    let t2' : BitVec 32 := (Sigma0 cfg g) + (Maj cfg g h a)
    let b := b + t1'
    let f := t1' + t2'
    pure (w, a, b, c, d, e, f, g, h)

/-- round!(f, g, h, a, b, c, d, e, 0x34b0bcb5, w[3], w[1], w[12], w[4]) -/
def Midstate.const_hash_fast.line1_51 (cfg : Cfg) : Midstate.const_hash_fast.State1 → Res Midstate.const_hash_fast.State1 :=
  fun (w, a, b, c, d, e, f, g, h) => do
    let x_266 ← index w 3
    let x_267 ← index w 1
    let x_268 ← index w 12
    let x_269 ← index w 4
    let w ← indexSet w 3 (((x_266 + (sigma1 cfg x_267)) + x_268) + (sigma0 cfg x_269))
    let x_271 ← index w 3
    let t1' : BitVec 32 := (((e + (Sigma1 cfg b)) + (Ch cfg b c d)) + 0x34b0bcb5#32) + x_271
    let t2' : BitVec 32 := (Sigma0 cfg f) + (Maj cfg f g h)
    let a := a + t1'
    let e := t1' + t2'
    pure (w, a, b, c, d, e, f, g, h)

/-- round!(e, f, g, h, a, b, c, d, 0x391c0cb3, w[4], w[2], w[13], w[5]) -/
def Midstate.const_hash_fast.line1_52 (cfg : Cfg) : Midstate.const_hash_fast.State1 → Res Midstate.const_hash_fast.State1 :=
  fun (w, a, b, c, d, e, f, g, h) => do
    let x_272 ← index w 4
    let x_273 ← index w 2
    let x_274 ← index w 13
    let x_275 ← index w 5
    let w ← indexSet w 4 (((x_272 + (sigma1 cfg x_273)) + x_274) + (sigma0 cfg x_275))
    let x_277 ← index w 4
    let t1' : BitVec 32 := (((d + (Sigma1 cfg a)) + (Ch cfg a b c)) + 0x391c0cb3#32) + x_277
    let t2' : BitVec 32 := (Sigma0 cfg e) + (Maj cfg e f g)
    let h := h + t1'
    let d := t1' + t2'
    pure (w, a, b, c, d, e, f, g, h)

/-- round!(d, e, f, g, h, a, b, c, 0x4ed8aa4a, w[5], w[3], w[14], w[6]) -/
def Midstate.const_hash_fast.line1_53 (cfg : Cfg) : Midstate.const_hash_fast.State1 → Res Midstate.const_hash_fast.State1 :=
  fun (w, a, b, c, d, e, f, g, h) => do
    let x_278 ← index w 5
    let x_279 ← index w 3
    let x_280 ← index w 14
    let x_281 ← index w 6
    let w ← indexSet w 5 (((x_278 + (sigma1 cfg x_279)) + x_280) + (sigma0 cfg x_281))
    let x_283 ← index w 5
    let t1' : BitVec 32 := (((c + (Sigma1 cfg h)) + (Ch cfg h a b)) + 0x4ed8aa4a#32) + x_283
    let t2' : BitVec 32 := (Sigma0 cfg d) + (Maj cfg d e f)
    let g := g + t1'
    let c := t1' + t2'
    pure (w, a, b, c, d, e, f, g, h)

/-- round!(c, d, e, f, g, h, a, b, 0x5b9cca4f, w[6], w[4], w[15], w[7]) -/
def Midstate.const_hash_fast.line1_54 (cfg : Cfg) : Midstate.const_hash_fast.State1 → Res Midstate.const_hash_fast.State1 :=
  fun (w, a, b, c, d, e, f, g, h) => do
    let x_284 ← index w 6
    let x_285 ← index w 4
    let x_286 ← index w 15
    let x_287 ← index w 7
    let w ← indexSet w 6 (((x_284 + (sigma1 cfg x_285)) + x_286) + (sigma0 cfg x_287))
    let x_289 ← index w 6
    let t1' : BitVec 32 := (((b + (Sigma1 cfg g)) + (Ch cfg g h a)) + 0x5b9cca4f#32) + x_289
    let t2' : BitVec 32 := (Sigma0 cfg c) + (Maj cfg c d e)
    let f := f + t1'
    let b := t1' + t2'
    pure (w, a, b, c, d, e, f, g, h)

/-- round!(b, c, d, e, f, g, h, a, 0x682e6ff3, w[7], w[5], w[0], w[8]) -/
def Midstate.const_hash_fast.line1_55 (cfg : Cfg) : Midstate.const_hash_fast.State1 → Res Midstate.const_hash_fast.State1 :=
  fun (w, a, b, c, d, e, f, g, h) => do
    let x_290 ← index w 7
    let x_291 ← index w 5
    let x_292 ← index w 0
    let x_293 ← index w 8
    let w ← indexSet w 7 (((x_290 + (sigma1 cfg x_291)) + x_292) + (sigma0 cfg x_293))
    let x_295 ← index w 7
    let t1' : BitVec 32 := (((a + (Sigma1 cfg f)) + (Ch cfg f g h)) + 0x682e6ff3#32) + x_295
    let t2' : BitVec 32 := (Sigma0 cfg b) + (Maj cfg b c d)
    let e := e + t1'
    let a := t1' + t2'
    pure (w, a, b, c, d, e, f, g, h)

/-- round!(a, b, c, d, e, f, g, h, 0x748f82ee, w[8], w[6], w[1], w[9]) -/
def Midstate.const_hash_fast.line1_56 (cfg : Cfg) : Midstate.const_hash_fast.State1 → Res Midstate.const_hash_fast.State1 :=
  fun (w, a, b, c, d, e, f, g, h) => do
    let x_296 ← index w 8
    let x_297 ← index w 6
    let x_298 ← index w 1
    let x_299 ← index w 9
    let w ← indexSet w 8 (((x_296 + (sigma1 cfg x_297)) + x_298) + (sigma0 cfg x_299))
    let x_301 ← index w 8
    let t1' : BitVec 32 := (((h + (Sigma1 cfg e)) + (Ch cfg e f g)) + 0x748f82ee#32) + x_301
    let t2' : BitVec 32 := (Sigma0 cfg a) + (Maj cfg a b c)
    let d := d + t1'
    let h := t1' + t2'
    pure (w, a, b, c, d, e, f, g, h)

/-- round!(h, a, b, c, d, e, f, g, 0x78a5636f, w[9], w[7], w[2], w[10]) -/
def Midstate.const_hash_fast.line1_57 (cfg : Cfg) : Midstate.const_hash_fast.State1 → Res Midstate.const_hash_fast.State1 :=
  fun (w, a, b, c, d, e, f, g, h) => do
    let x_302 ← index w 9
    let x_303 ← index w 7
    let x_304 ← index w 2
    let x_305 ← index w 10
    let w ← indexSet w 9 (((x_302 + (sigma1 cfg x_303)) + x_304) + (sigma0 cfg x_305))
    let x_307 ← index w 9
    let t1' : BitVec 32 := (((g + (Sigma1 cfg d)) + (Ch cfg d e f)) + 0x78a5636f#32) + x_307
    let t2' : BitVec 32 := (Sigma0 cfg h) + (Maj cfg h a b)
    let c := c + t1'
    let g := t1' + t2'
    pure (w, a, b, c, d, e, f, g, h)

/-- round!(g, h, a, b, c, d, e, f, 0x84c87814, w[10], w[8], w[3], w[11]) -/
def Midstate.const_hash_fast.line1_58 (cfg : Cfg) : Midstate.const_hash_fast.State1 → Res Midstate.const_hash_fast.State1 :=
  fun (w, a, b, c, d, e, f, g, h) => do
    let x_308 ← index w 10
    let x_309 ← index w 8
    let x_310 ← index w 3
    let x_311 ← index w 11
    let w ← indexSet w 10 (((x_308 + (sigma1 cfg x_309)) + x_310) + (sigma0 cfg x_311))
    let x_313 ← index w 10
    let t1' : BitVec 32 := (((f + (Sigma1 cfg c)) + (Ch cfg c d e)) + 0x84c87814#32) + x_313
    let t2' : BitVec 32 := (Sigma0 cfg g) + (Maj cfg g h a)
    let b := b + t1'
    let f := t1' + t2'
    pure (w, a, b, c, d, e, f, g, h)

/-- round!(f, g, h, a, b, c, d, e, 0x8cc70208, w[11], w[9], w[4], w[12]) -/
def Midstate.const_hash_fast.line1_59 (cfg : Cfg) : Midstate.const_hash_fast.State1 → Res Midstate.const_hash_fast.State1 :=
  fun (w, a, b, c, d, e, f, g, h) => do
    let x_314 ← index w 11
    let x_315 ← index w 9
    let x_316 ← index w 4
    let x_317 ← index w 12
    let w ← indexSet w 11 (((x_314 + (sigma1 cfg x_315)) + x_316) + (sigma0 cfg x_317))
    let x_319 ← index w 11
    let t1' : BitVec 32 := (((e + (Sigma1 cfg b)) + (Ch cfg b c d)) + 0x8cc70208#32) + x_319
    let t2' : BitVec 32 := (Sigma0 cfg f) + (Maj cfg f g h)
    let a := a + t1'
    let e := t1' + t2'
    pure (w, a, b, c, d, e, f, g, h)

/-- round!(e, f, g, h, a, b, c, d, 0x90befffa, w[12], w[10], w[5], w[13]) -/
def Midstate.const_hash_fast.line1_60 (cfg : Cfg) : Midstate.const_hash_fast.State1 → Res Midstate.const_hash_fast.State1 :=
  fun (w, a, b, c, d, e, f, g, h) => do
    let x_320 ← index w 12
    let x_321 ← index w 10
    let x_322 ← index w 5
    let x_323 ← index w 13
    let w ← indexSet w 12 (((x_320 + (sigma1 cfg x_321)) + x_322) + (sigma0 cfg x_323))
    let x_325 ← index w 12
    let t1' : BitVec 32 := (((d + (Sigma1 cfg a)) + (Ch cfg a b c)) + 0x90befffa#32) + x_325
    let t2' : BitVec 32 := (Sigma0 cfg e) + (Maj cfg e f g)
    let h := h + t1'
    let d := t1' + t2'
    pure (w, a, b, c, d, e, f, g, h)

/-- round!(d, e, f, g, h, a, b, c, 0xa4506ceb, w[13], w[11], w[6], w[14]) -/
def Midstate.const_hash_fast.line1_61 (cfg : Cfg) : Midstate.const_hash_fast.State1 → Res Midstate.const_hash_fast.State1 :=
  fun (w, a, b, c, d, e, f, g, h) => do
    let x_326 ← index w 13
    let x_327 ← index w 11
    let x_328 ← index w 6
    let x_329 ← index w 14
    let w ← indexSet w 13 (((x_326 + (sigma1 cfg x_327)) + x_328) + (sigma0 cfg x_329))
    let x_331 ← index w 13
    let t1' : BitVec 32 := (((c + (Sigma1 cfg h)) + (Ch cfg h a b)) + 0xa4506ceb#32) + x_331
    let t2' : BitVec 32 := (Sigma0 cfg d) + (Maj cfg d e f)
    let g := g + t1'
    let c := t1' + t2'
    pure (w, a, b, c, d, e, f, g, h)

/-- round!(c, d, e, f, g, h, a, b, 0xbef9a3f7, w[14], w[12], w[7], w[15]) -/
def Midstate.const_hash_fast.line1_62 (cfg : Cfg) : Midstate.const_hash_fast.State1 → Res Midstate.const_hash_fast.State1 :=
  fun (w, a, b, c, d, e, f, g, h) => do
    let x_332 ← index w 14
    let x_333 ← index w 12
    let x_334 ← index w 7
    let x_335 ← index w 15
    let w ← indexSet w 14 (((x_332 + (sigma1 cfg x_333)) + x_334) + (sigma0 cfg x_335))
    let x_337 ← index w 14
    let t1' : BitVec 32 := (((b + (Sigma1 cfg g)) + (Ch cfg g h a)) + 0xbef9a3f7#32) + x_337
    let t2' : BitVec 32 := (Sigma0 cfg c) + (Maj cfg c d e)
    let f := f + t1'
    let b := t1' + t2'
    pure (w, a, b, c, d, e, f, g, h)

/-- round!(b, c, d, e, f, g, h, a, 0xc67178f2, w[15], w[13], w[8], w[0]) -/
def Midstate.const_hash_fast.line1_63 (cfg : Cfg) : Midstate.const_hash_fast.State1 → Res Midstate.const_hash_fast.State1 :=
  fun (w, a, b, c, d, e, f, g, h) => do
    let x_338 ← index w 15
    let x_339 ← index w 13
    let x_340 ← index w 8
    let x_341 ← index w 0
    let w ← indexSet w 15 (((x_338 + (sigma1 cfg x_339)) + x_340) + (sigma0 cfg x_341))
    let x_343 ← index w 15
    let t1' : BitVec 32 := (((a + (Sigma1 cfg f)) + (Ch cfg f g h)) + 0xc67178f2#32) + x_343
    let t2' : BitVec 32 := (Sigma0 cfg b) + (Maj cfg b c d)
    let e := e + t1'
    let a := t1' + t2'
    pure (w, a, b, c, d, e, f, g, h)

/-- The 64 statements. -/
def Midstate.const_hash_fast.lines1 (cfg : Cfg) : List (Midstate.const_hash_fast.State1 → Res Midstate.const_hash_fast.State1) := [
  Midstate.const_hash_fast.line1_0 cfg,
  Midstate.const_hash_fast.line1_1 cfg,
  Midstate.const_hash_fast.line1_2 cfg,
  Midstate.const_hash_fast.line1_3 cfg,
  Midstate.const_hash_fast.line1_4 cfg,
  Midstate.const_hash_fast.line1_5 cfg,
  Midstate.const_hash_fast.line1_6 cfg,
  Midstate.const_hash_fast.line1_7 cfg,
  Midstate.const_hash_fast.line1_8 cfg,
  Midstate.const_hash_fast.line1_9 cfg,
  Midstate.const_hash_fast.line1_10 cfg,
  Midstate.const_hash_fast.line1_11 cfg,
  Midstate.const_hash_fast.line1_12 cfg,
  Midstate.const_hash_fast.line1_13 cfg,
  Midstate.const_hash_fast.line1_14 cfg,
  Midstate.const_hash_fast.line1_15 cfg,
  Midstate.const_hash_fast.line1_16 cfg,
  Midstate.const_hash_fast.line1_17 cfg,
  Midstate.const_hash_fast.line1_18 cfg,
  Midstate.const_hash_fast.line1_19 cfg,
  Midstate.const_hash_fast.line1_20 cfg,
  Midstate.const_hash_fast.line1_21 cfg,
  Midstate.const_hash_fast.line1_22 cfg,
  Midstate.const_hash_fast.line1_23 cfg,
  Midstate.const_hash_fast.line1_24 cfg,
  Midstate.const_hash_fast.line1_25 cfg,
  Midstate.const_hash_fast.line1_26 cfg,
  Midstate.const_hash_fast.line1_27 cfg,
  Midstate.const_hash_fast.line1_28 cfg,
  Midstate.const_hash_fast.line1_29 cfg,
  Midstate.const_hash_fast.line1_30 cfg,
  Midstate.const_hash_fast.line1_31 cfg,
  Midstate.const_hash_fast.line1_32 cfg,
  Midstate.const_hash_fast.line1_33 cfg,
  Midstate.const_hash_fast.line1_34 cfg,
  Midstate.const_hash_fast.line1_35 cfg,
  Midstate.const_hash_fast.line1_36 cfg,
  Midstate.const_hash_fast.line1_37 cfg,
  Midstate.const_hash_fast.line1_38 cfg,
  Midstate.const_hash_fast.line1_39 cfg,
  Midstate.const_hash_fast.line1_40 cfg,
  Midstate.const_hash_fast.line1_41 cfg,
  Midstate.const_hash_fast.line1_42 cfg,
  Midstate.const_hash_fast.line1_43 cfg,
  Midstate.const_hash_fast.line1_44 cfg,
  Midstate.const_hash_fast.line1_45 cfg,
  Midstate.const_hash_fast.line1_46 cfg,
  Midstate.const_hash_fast.line1_47 cfg,
  Midstate.const_hash_fast.line1_48 cfg,
  Midstate.const_hash_fast.line1_49 cfg,
  Midstate.const_hash_fast.line1_50 cfg,
  Midstate.const_hash_fast.line1_51 cfg,
  Midstate.const_hash_fast.line1_52 cfg,
  Midstate.const_hash_fast.line1_53 cfg,
  Midstate.const_hash_fast.line1_54 cfg,
  Midstate.const_hash_fast.line1_55 cfg,
  Midstate.const_hash_fast.line1_56 cfg,
  Midstate.const_hash_fast.line1_57 cfg,
  Midstate.const_hash_fast.line1_58 cfg,
  Midstate.const_hash_fast.line1_59 cfg,
  Midstate.const_hash_fast.line1_60 cfg,
  Midstate.const_hash_fast.line1_61 cfg,
  Midstate.const_hash_fast.line1_62 cfg,
  Midstate.const_hash_fast.line1_63 cfg]

/-- `Midstate::const_hash`, sha256.rs 279-425, without feature `small-hash`. -/
def Midstate.const_hash_fast (cfg : Cfg) (bytes : List Byte) (finalize : Bool) : Res Midstate := do
  let state : List (BitVec 32) := [0x6a09e667#32, 0xbb67ae85#32, 0x3c6ef372#32, 0xa54ff53a#32, 0x510e527f#32, 0x9b05688c#32, 0x1f83d9ab#32, 0x5be0cd19#32]
  let x_1 ← addUsize cfg bytes.length 9
  let x_2 ← addUsize cfg x_1 63
  let num_chunks : Nat := x_2 / 64
  let chunk : Nat := 0
  let (state, chunk) ← Rs.whileBreak cfg.usizeMod
    (fun (state, chunk) => pure (decide (chunk < num_chunks)))
    (fun (state, chunk) => do
      let x_4 ←
        if !finalize then do
          let x_3 ← addUsize cfg chunk 1
          pure (x_3 == num_chunks)
        else pure false
      let x_5 ←
        if x_4 then do
          pure (Rs.Flow.ret (state, chunk))
        else do
          pure (Rs.Flow.next ())
      match x_5 with
      | Rs.Flow.ret r => pure (Rs.Flow.ret r)
      | Rs.Flow.next _ => do
        let x_6 ← mulUsize cfg chunk 64
        let x_7 ← addUsize cfg x_6 64
        let x_30 ←
          if decide (x_7 ≤ bytes.length) then do
            let x_8 ← mulUsize cfg chunk 64
            let x_9 ← Midstate.copy_w cfg bytes x_8
            pure x_9
          else do
            let buf : List Byte := List.replicate 64 0#8
            let i : Nat := 0
            let offset ← mulUsize cfg chunk 64
            let (buf, i) ← Rs.whileR cfg.usizeMod
              (fun (buf, i) => do
                let x_11 ← addUsize cfg offset i
                pure (decide (x_11 < bytes.length)))
              (fun (buf, i) => do
                let x_12 ← addUsize cfg offset i
                let x_13 ← index bytes x_12
                let buf ← indexSet buf i x_13
                let i ← addUsize cfg i 1
                pure (buf, i)) (buf, i)
            let x_17 ←
              if !(decide ((bytes.length % 64) ≤ (64 - 9))) then do
                let x_16 ← addUsize cfg chunk 2
                pure (x_16 == num_chunks)
              else pure true
            let buf ←
              if x_17 then do
                let buf ← indexSet buf i 0x80#8
                pure buf
              else do
                pure buf
            let x_19 ← addUsize cfg chunk 1
            let buf ←
              if x_19 == num_chunks then do
                let bit_len ← Rs.mulU cfg (BitVec.ofNat 64 bytes.length) 8#64
                let buf ← indexSet buf (64 - 8) (BitVec.setWidth 8 ((bit_len >>> 56) &&& 0xFF#64))
                let buf ← indexSet buf (64 - 7) (BitVec.setWidth 8 ((bit_len >>> 48) &&& 0xFF#64))
                let buf ← indexSet buf (64 - 6) (BitVec.setWidth 8 ((bit_len >>> 40) &&& 0xFF#64))
                let buf ← indexSet buf (64 - 5) (BitVec.setWidth 8 ((bit_len >>> 32) &&& 0xFF#64))
                let buf ← indexSet buf (64 - 4) (BitVec.setWidth 8 ((bit_len >>> 24) &&& 0xFF#64))
                let buf ← indexSet buf (64 - 3) (BitVec.setWidth 8 ((bit_len >>> 16) &&& 0xFF#64))
                let buf ← indexSet buf (64 - 2) (BitVec.setWidth 8 ((bit_len >>> 8) &&& 0xFF#64))
                let buf ← indexSet buf (64 - 1) (BitVec.setWidth 8 ((bit_len >>> 0) &&& 0xFF#64))
                pure buf
              else do
                pure buf
            let x_29 ← Midstate.copy_w cfg buf 0
            pure x_29
        let w : List (BitVec 32) := x_30
        let chunk ← addUsize cfg chunk 1
        let a ← index state 0
        let b ← index state 1
        let c ← index state 2
        let d ← index state 3
        let e ← index state 4
        let f ← index state 5
        let g ← index state 6
        let h ← index state 7
        let (w, a, b, c, d, e, f, g, h) ← Rs.runLines (Midstate.const_hash_fast.lines1 cfg) (w, a, b, c, d, e, f, g, h)
        let x_344 ← index state 0
        let state ← indexSet state 0 (x_344 + a)
        let x_346 ← index state 1
        let state ← indexSet state 1 (x_346 + b)
        let x_348 ← index state 2
        let state ← indexSet state 2 (x_348 + c)
        let x_350 ← index state 3
        let state ← indexSet state 3 (x_350 + d)
        let x_352 ← index state 4
        let state ← indexSet state 4 (x_352 + e)
        let x_354 ← index state 5
        let state ← indexSet state 5 (x_354 + f)
        let x_356 ← index state 6
        let state ← indexSet state 6 (x_356 + g)
        let x_358 ← index state 7
        let state ← indexSet state 7 (x_358 + h)
        pure (Rs.Flow.next (state, chunk))) (state, chunk)
  let output : List Byte := List.replicate 32 0#8
  let i : Nat := 0
  let (output, i) ← Rs.whileR cfg.usizeMod
    (fun (output, i) => pure (decide (i < 8)))
    (fun (output, i) => do
      let x_360 ← addUsize cfg i 0
      let x_361 ← index state x_360
      let x_362 ← mulUsize cfg i 4
      let x_363 ← addUsize cfg x_362 0
      let output ← indexSet output x_363 (BitVec.setWidth 8 (x_361 >>> 24))
      let x_365 ← addUsize cfg i 0
      let x_366 ← index state x_365
      let x_367 ← mulUsize cfg i 4
      let x_368 ← addUsize cfg x_367 1
      let output ← indexSet output x_368 (BitVec.setWidth 8 (x_366 >>> 16))
      let x_370 ← addUsize cfg i 0
      let x_371 ← index state x_370
      let x_372 ← mulUsize cfg i 4
      let x_373 ← addUsize cfg x_372 2
      let output ← indexSet output x_373 (BitVec.setWidth 8 (x_371 >>> 8))
      let x_375 ← addUsize cfg i 0
      let x_376 ← index state x_375
      let x_377 ← mulUsize cfg i 4
      let x_378 ← addUsize cfg x_377 3
      let output ← indexSet output x_378 (BitVec.setWidth 8 (x_376 >>> 0))
      let i ← addUsize cfg i 1
      pure (output, i)) (output, i)
  pure ({ f0 := output } : Midstate)

/-- The variables w, a, b, c, d, e, f, g, h of `const_hash`. -/
abbrev Midstate.const_hash_small.State1 := (List (BitVec 32)) × (BitVec 32) × (BitVec 32) × (BitVec 32) × (BitVec 32) × (BitVec 32) × (BitVec 32) × (BitVec 32) × (BitVec 32)

/-- round!(a, b, c, d, e, f, g, h, 0x428a2f98, w[0]) -/
def Midstate.const_hash_small.line1_0 (cfg : Cfg) : Midstate.const_hash_small.State1 → Res Midstate.const_hash_small.State1 :=
  fun (w, a, b, c, d, e, f, g, h) => do
    let x_40 ← index w 0
    let updates' := small_hash.round cfg a b c d e f g h 0x428a2f98#32 x_40
    let d := updates'.1
    let h := updates'.2
    pure (w, a, b, c, d, e, f, g, h)

/-- round!(h, a, b, c, d, e, f, g, 0x71374491, w[1]) -/
def Midstate.const_hash_small.line1_1 (cfg : Cfg) : Midstate.const_hash_small.State1 → Res Midstate.const_hash_small.State1 :=
  fun (w, a, b, c, d, e, f, g, h) => do
    let x_41 ← index w 1
    let updates' := small_hash.round cfg h a b c d e f g 0x71374491#32 x_41
    let c := updates'.1
    let g := updates'.2
    pure (w, a, b, c, d, e, f, g, h)

/-- round!(g, h, a, b, c, d, e, f, 0xb5c0fbcf, w[2]) -/
def Midstate.const_hash_small.line1_2 (cfg : Cfg) : Midstate.const_hash_small.State1 → Res Midstate.const_hash_small.State1 :=
  fun (w, a, b, c, d, e, f, g, h) => do
    let x_42 ← index w 2
    let updates' := small_hash.round cfg g h a b c d e f 0xb5c0fbcf#32 x_42
    let b := updates'.1
    let f := updates'.2
    pure (w, a, b, c, d, e, f, g, h)

/-- round!(f, g, h, a, b, c, d, e, 0xe9b5dba5, w[3]) -/
def Midstate.const_hash_small.line1_3 (cfg : Cfg) : Midstate.const_hash_small.State1 → Res Midstate.const_hash_small.State1 :=
  fun (w, a, b, c, d, e, f, g, h) => do
    let x_43 ← index w 3
    let updates' := small_hash.round cfg f g h a b c d e 0xe9b5dba5#32 x_43
    let a := updates'.1
    let e := updates'.2
    pure (w, a, b, c, d, e, f, g, h)

/-- round!(e, f, g, h, a, b, c, d, 0x3956c25b, w[4]) -/
def Midstate.const_hash_small.line1_4 (cfg : Cfg) : Midstate.const_hash_small.State1 → Res Midstate.const_hash_small.State1 :=
  fun (w, a, b, c, d, e, f, g, h) => do
    let x_44 ← index w 4
    let updates' := small_hash.round cfg e f g h a b c d 0x3956c25b#32 x_44
    let h := updates'.1
    let d := updates'.2
    pure (w, a, b, c, d, e, f, g, h)

/-- round!(d, e, f, g, h, a, b, c, 0x59f111f1, w[5]) -/
def Midstate.const_hash_small.line1_5 (cfg : Cfg) : Midstate.const_hash_small.State1 → Res Midstate.const_hash_small.State1 :=
  fun (w, a, b, c, d, e, f, g, h) => do
    let x_45 ← index w 5
    let updates' := small_hash.round cfg d e f g h a b c 0x59f111f1#32 x_45
    let g := updates'.1
    let c := updates'.2
    pure (w, a, b, c, d, e, f, g, h)

/-- round!(c, d, e, f, g, h, a, b, 0x923f82a4, w[6]) -/
def Midstate.const_hash_small.line1_6 (cfg : Cfg) : Midstate.const_hash_small.State1 → Res Midstate.const_hash_small.State1 :=
  fun (w, a, b, c, d, e, f, g, h) => do
    let x_46 ← index w 6
    let updates' := small_hash.round cfg c d e f g h a b 0x923f82a4#32 x_46
    let f := updates'.1
    let b := updates'.2
    pure (w, a, b, c, d, e, f, g, h)

/-- round!(b, c, d, e, f, g, h, a, 0xab1c5ed5, w[7]) -/
def Midstate.const_hash_small.line1_7 (cfg : Cfg) : Midstate.const_hash_small.State1 → Res Midstate.const_hash_small.State1 :=
  fun (w, a, b, c, d, e, f, g, h) => do
    let x_47 ← index w 7
    let updates' := small_hash.round cfg b c d e f g h a 0xab1c5ed5#32 x_47
    let e := updates'.1
    let a := updates'.2
    pure (w, a, b, c, d, e, f, g, h)

/-- round!(a, b, c, d, e, f, g, h, 0xd807aa98, w[8]) -/
def Midstate.const_hash_small.line1_8 (cfg : Cfg) : Midstate.const_hash_small.State1 → Res Midstate.const_hash_small.State1 :=
  fun (w, a, b, c, d, e, f, g, h) => do
    let x_48 ← index w 8
    let updates' := small_hash.round cfg a b c d e f g h 0xd807aa98#32 x_48
    let d := updates'.1
    let h := updates'.2
    pure (w, a, b, c, d, e, f, g, h)

/-- round!(h, a, b, c, d, e, f, g, 0x12835b01, w[9]) -/
def Midstate.const_hash_small.line1_9 (cfg : Cfg) : Midstate.const_hash_small.State1 → Res Midstate.const_hash_small.State1 :=
  fun (w, a, b, c, d, e, f, g, h) => do
    let x_49 ← index w 9
    let updates' := small_hash.round cfg h a b c d e f g 0x12835b01#32 x_49
    let c := updates'.1
    let g := updates'.2
    pure (w, a, b, c, d, e, f, g, h)

/-- round!(g, h, a, b, c, d, e, f, 0x243185be, w[10]) -/
def Midstate.const_hash_small.line1_10 (cfg : Cfg) : Midstate.const_hash_small.State1 → Res Midstate.const_hash_small.State1 :=
  fun (w, a, b, c, d, e, f, g, h) => do
    let x_50 ← index w 10
    let updates' := small_hash.round cfg g h a b c d e f 0x243185be#32 x_50
    let b := updates'.1
    let f := updates'.2
    pure (w, a, b, c, d, e, f, g, h)

/-- round!(f, g, h, a, b, c, d, e, 0x550c7dc3, w[11]) -/
def Midstate.const_hash_small.line1_11 (cfg : Cfg) : Midstate.const_hash_small.State1 → Res Midstate.const_hash_small.State1 :=
  fun (w, a, b, c, d, e, f, g, h) => do
    let x_51 ← index w 11
    let updates' := small_hash.round cfg f g h a b c d e 0x550c7dc3#32 x_51
    let a := updates'.1
    let e := updates'.2
    pure (w, a, b, c, d, e, f, g, h)

/-- round!(e, f, g, h, a, b, c, d, 0x72be5d74, w[12]) -/
def Midstate.const_hash_small.line1_12 (cfg : Cfg) : Midstate.const_hash_small.State1 → Res Midstate.const_hash_small.State1 :=
  fun (w, a, b, c, d, e, f, g, h) => do
    let x_52 ← index w 12
    let updates' := small_hash.round cfg e f g h a b c d 0x72be5d74#32 x_52
    let h := updates'.1
    let d := updates'.2
    pure (w, a, b, c, d, e, f, g, h)

/-- round!(d, e, f, g, h, a, b, c, 0x80deb1fe, w[13]) -/
def Midstate.const_hash_small.line1_13 (cfg : Cfg) : Midstate.const_hash_small.State1 → Res Midstate.const_hash_small.State1 :=
  fun (w, a, b, c, d, e, f, g, h) => do
    let x_53 ← index w 13
    let updates' := small_hash.round cfg d e f g h a b c 0x80deb1fe#32 x_53
    let g := updates'.1
    let c := updates'.2
    pure (w, a, b, c, d, e, f, g, h)

/-- round!(c, d, e, f, g, h, a, b, 0x9bdc06a7, w[14]) -/
def Midstate.const_hash_small.line1_14 (cfg : Cfg) : Midstate.const_hash_small.State1 → Res Midstate.const_hash_small.State1 :=
  fun (w, a, b, c, d, e, f, g, h) => do
    let x_54 ← index w 14
    let updates' := small_hash.round cfg c d e f g h a b 0x9bdc06a7#32 x_54
    let f := updates'.1
    let b := updates'.2
    pure (w, a, b, c, d, e, f, g, h)

/-- round!(b, c, d, e, f, g, h, a, 0xc19bf174, w[15]) -/
def Midstate.const_hash_small.line1_15 (cfg : Cfg) : Midstate.const_hash_small.State1 → Res Midstate.const_hash_small.State1 :=
  fun (w, a, b, c, d, e, f, g, h) => do
    let x_55 ← index w 15
    let updates' := small_hash.round cfg b c d e f g h a 0xc19bf174#32 x_55
    let e := updates'.1
    let a := updates'.2
    pure (w, a, b, c, d, e, f, g, h)

/-- round!(a, b, c, d, e, f, g, h, 0xe49b69c1, w[0], w[14], w[9], w[1]) -/
def Midstate.const_hash_small.line1_16 (cfg : Cfg) : Midstate.const_hash_small.State1 → Res Midstate.const_hash_small.State1 :=
  fun (w, a, b, c, d, e, f, g, h) => do
    let x_56 ← index w 0
    let x_57 ← index w 14
    let x_58 ← index w 9
    let x_59 ← index w 1
    let updates' := small_hash.later_round cfg a b c d e f g h 0xe49b69c1#32 x_56 x_57 x_58 x_59
    let d := updates'.1
    let h := updates'.2.1
    let w ← indexSet w 0 updates'.2.2
    pure (w, a, b, c, d, e, f, g, h)

/-- round!(h, a, b, c, d, e, f, g, 0xefbe4786, w[1], w[15], w[10], w[2]) -/
def Midstate.const_hash_small.line1_17 (cfg : Cfg) : Midstate.const_hash_small.State1 → Res Midstate.const_hash_small.State1 :=
  fun (w, a, b, c, d, e, f, g, h) => do
    let x_61 ← index w 1
    let x_62 ← index w 15
    let x_63 ← index w 10
    let x_64 ← index w 2
    let updates' := small_hash.later_round cfg h a b c d e f g 0xefbe4786#32 x_61 x_62 x_63 x_64
    let c := updates'.1
    let g := updates'.2.1
    let w ← indexSet w 1 updates'.2.2
    pure (w, a, b, c, d, e, f, g, h)

/-- round!(g, h, a, b, c, d, e, f, 0x0fc19dc6, w[2], w[0], w[11], w[3]) -/
def Midstate.const_hash_small.line1_18 (cfg : Cfg) : Midstate.const_hash_small.State1 → Res Midstate.const_hash_small.State1 :=
  fun (w, a, b, c, d, e, f, g, h) => do
    let x_66 ← index w 2
    let x_67 ← index w 0
    let x_68 ← index w 11
    let x_69 ← index w 3
    let updates' := small_hash.later_round cfg g h a b c d e f 0x0fc19dc6#32 x_66 x_67 x_68 x_69
    let b := updates'.1
    let f := updates'.2.1
    let w ← indexSet w 2 updates'.2.2
    pure (w, a, b, c, d, e, f, g, h)

/-- round!(f, g, h, a, b, c, d, e, 0x240ca1cc, w[3], w[1], w[12], w[4]) -/
def Midstate.const_hash_small.line1_19 (cfg : Cfg) : Midstate.const_hash_small.State1 → Res Midstate.const_hash_small.State1 :=
  fun (w, a, b, c, d, e, f, g, h) => do
    let x_71 ← index w 3
    let x_72 ← index w 1
    let x_73 ← index w 12
    let x_74 ← index w 4
    let updates' := small_hash.later_round cfg f g h a b c d e 0x240ca1cc#32 x_71 x_72 x_73 x_74
    let a := updates'.1
    let e := updates'.2.1
    let w ← indexSet w 3 updates'.2.2
    pure (w, a, b, c, d, e, f, g, h)

/-- round!(e, f, g, h, a, b, c, d, 0x2de92c6f, w[4], w[2], w[13], w[5]) -/
def Midstate.const_hash_small.line1_20 (cfg : Cfg) : Midstate.const_hash_small.State1 → Res Midstate.const_hash_small.State1 :=
  fun (w, a, b, c, d, e, f, g, h) => do
    let x_76 ← index w 4
    let x_77 ← index w 2
    let x_78 ← index w 13
    let x_79 ← index w 5
    let updates' := small_hash.later_round cfg e f g h a b c d 0x2de92c6f#32 x_76 x_77 x_78 x_79
    let h := updates'.1
    let d := updates'.2.1
    let w ← indexSet w 4 updates'.2.2
    pure (w, a, b, c, d, e, f, g, h)

/-- round!(d, e, f, g, h, a, b, c, 0x4a7484aa, w[5], w[3], w[14], w[6]) -/
def Midstate.const_hash_small.line1_21 (cfg : Cfg) : Midstate.const_hash_small.State1 → Res Midstate.const_hash_small.State1 :=
  fun (w, a, b, c, d, e, f, g, h) => do
    let x_81 ← index w 5
    let x_82 ← index w 3
    let x_83 ← index w 14
    let x_84 ← index w 6
    let updates' := small_hash.later_round cfg d e f g h a b c 0x4a7484aa#32 x_81 x_82 x_83 x_84
    let g := updates'.1
    let c := updates'.2.1
    let w ← indexSet w 5 updates'.2.2
    pure (w, a, b, c, d, e, f, g, h)

/-- round!(c, d, e, f, g, h, a, b, 0x5cb0a9dc, w[6], w[4], w[15], w[7]) -/
def Midstate.const_hash_small.line1_22 (cfg : Cfg) : Midstate.const_hash_small.State1 → Res Midstate.const_hash_small.State1 :=
  fun (w, a, b, c, d, e, f, g, h) => do
    let x_86 ← index w 6
    let x_87 ← index w 4
    let x_88 ← index w 15
    let x_89 ← index w 7
    let updates' := small_hash.later_round cfg c d e f g h a b 0x5cb0a9dc#32 x_86 x_87 x_88 x_89
    let f := updates'.1
    let b := updates'.2.1
    let w ← indexSet w 6 updates'.2.2
    pure (w, a, b, c, d, e, f, g, h)

/-- round!(b, c, d, e, f, g, h, a, 0x76f988da, w[7], w[5], w[0], w[8]) -/
def Midstate.const_hash_small.line1_23 (cfg : Cfg) : Midstate.const_hash_small.State1 → Res Midstate.const_hash_small.State1 :=
  fun (w, a, b, c, d, e, f, g, h) => do
    let x_91 ← index w 7
    let x_92 ← index w 5
    let x_93 ← index w 0
    let x_94 ← index w 8
    let updates' := small_hash.later_round cfg b c d e f g h a 0x76f988da#32 x_91 x_92 x_93 x_94
    let e := updates'.1
    let a := updates'.2.1
    let w ← indexSet w 7 updates'.2.2
    pure (w, a, b, c, d, e, f, g, h)

/-- round!(a, b, c, d, e, f, g, h, 0x983e5152, w[8], w[6], w[1], w[9]) -/
def Midstate.const_hash_small.line1_24 (cfg : Cfg) : Midstate.const_hash_small.State1 → Res Midstate.const_hash_small.State1 :=
  fun (w, a, b, c, d, e, f, g, h) => do
    let x_96 ← index w 8
    let x_97 ← index w 6
    let x_98 ← index w 1
    let x_99 ← index w 9
    let updates' := small_hash.later_round cfg a b c d e f g h 0x983e5152#32 x_96 x_97 x_98 x_99
    let d := updates'.1
    let h := updates'.2.1
    let w ← indexSet w 8 updates'.2.2
    pure (w, a, b, c, d, e, f, g, h)

/-- round!(h, a, b, c, d, e, f, g, 0xa831c66d, w[9], w[7], w[2], w[10]) -/
def Midstate.const_hash_small.line1_25 (cfg : Cfg) : Midstate.const_hash_small.State1 → Res Midstate.const_hash_small.State1 :=
  fun (w, a, b, c, d, e, f, g, h) => do
    let x_101 ← index w 9
    let x_102 ← index w 7
    let x_103 ← index w 2
    let x_104 ← index w 10
    let updates' := small_hash.later_round cfg h a b c d e f g 0xa831c66d#32 x_101 x_102 x_103 x_104
    let c := updates'.1
    let g := updates'.2.1
    let w ← indexSet w 9 updates'.2.2
    pure (w, a, b, c, d, e, f, g, h)

/-- round!(g, h, a, b, c, d, e, f, 0xb00327c8, w[10], w[8], w[3], w[11]) -/
def Midstate.const_hash_small.line1_26 (cfg : Cfg) : Midstate.const_hash_small.State1 → Res Midstate.const_hash_small.State1 :=
  fun (w, a, b, c, d, e, f, g, h) => do
    let x_106 ← index w 10
    let x_107 ← index w 8
    let x_108 ← index w 3
    let x_109 ← index w 11
    let updates' := small_hash.later_round cfg g h a b c d e f 0xb00327c8#32 x_106 x_107 x_108 x_109
    let b := updates'.1
    let f := updates'.2.1
    let w ← indexSet w 10 updates'.2.2
    pure (w, a, b, c, d, e, f, g, h)

/-- round!(f, g, h, a, b, c, d, e, 0xbf597fc7, w[11], w[9], w[4], w[12]) -/
def Midstate.const_hash_small.line1_27 (cfg : Cfg) : Midstate.const_hash_small.State1 → Res Midstate.const_hash_small.State1 :=
  fun (w, a, b, c, d, e, f, g, h) => do
    let x_111 ← index w 11
    let x_112 ← index w 9
    let x_113 ← index w 4
    let x_114 ← index w 12
    let updates' := small_hash.later_round cfg f g h a b c d e 0xbf597fc7#32 x_111 x_112 x_113 x_114
    let a := updates'.1
    let e := updates'.2.1
    let w ← indexSet w 11 updates'.2.2
    pure (w, a, b, c, d, e, f, g, h)

/-- round!(e, f, g, h, a, b, c, d, 0xc6e00bf3, w[12], w[10], w[5], w[13]) -/
def Midstate.const_hash_small.line1_28 (cfg : Cfg) : Midstate.const_hash_small.State1 → Res Midstate.const_hash_small.State1 :=
  fun (w, a, b, c, d, e, f, g, h) => do
    let x_116 ← index w 12
    let x_117 ← index w 10
    let x_118 ← index w 5
    let x_119 ← index w 13
    let updates' := small_hash.later_round cfg e f g h a b c d 0xc6e00bf3#32 x_116 x_117 x_118 x_119
    let h := updates'.1
    let d := updates'.2.1
    let w ← indexSet w 12 updates'.2.2
    pure (w, a, b, c, d, e, f, g, h)

/-- round!(d, e, f, g, h, a, b, c, 0xd5a79147, w[13], w[11], w[6], w[14]) -/
def Midstate.const_hash_small.line1_29 (cfg : Cfg) : Midstate.const_hash_small.State1 → Res Midstate.const_hash_small.State1 :=
  fun (w, a, b, c, d, e, f, g, h) => do
    let x_121 ← index w 13
    let x_122 ← index w 11
    let x_123 ← index w 6
    let x_124 ← index w 14
    let updates' := small_hash.later_round cfg d e f g h a b c 0xd5a79147#32 x_121 x_122 x_123 x_124
    let g := updates'.1
    let c := updates'.2.1
    let w ← indexSet w 13 updates'.2.2
    pure (w, a, b, c, d, e, f, g, h)

/-- round!(c, d, e, f, g, h, a, b, 0x06ca6351, w[14], w[12], w[7], w[15]) -/
def Midstate.const_hash_small.line1_30 (cfg : Cfg) : Midstate.const_hash_small.State1 → Res Midstate.const_hash_small.State1 :=
  fun (w, a, b, c, d, e, f, g, h) => do
    let x_126 ← index w 14
    let x_127 ← index w 12
    let x_128 ← index w 7
    let x_129 ← index w 15
    let updates' := small_hash.later_round cfg c d e f g h a b 0x06ca6351#32 x_126 x_127 x_128 x_129
    let f := updates'.1
    let b := updates'.2.1
    let w ← indexSet w 14 updates'.2.2
    pure (w, a, b, c, d, e, f, g, h)

/-- round!(b, c, d, e, f, g, h, a, 0x14292967, w[15], w[13], w[8], w[0]) -/
def Midstate.const_hash_small.line1_31 (cfg : Cfg) : Midstate.const_hash_small.State1 → Res Midstate.const_hash_small.State1 :=
  fun (w, a, b, c, d, e, f, g, h) => do
    let x_131 ← index w 15
    let x_132 ← index w 13
    let x_133 ← index w 8
    let x_134 ← index w 0
    let updates' := small_hash.later_round cfg b c d e f g h a 0x14292967#32 x_131 x_132 x_133 x_134
    let e := updates'.1
    let a := updates'.2.1
    let w ← indexSet w 15 updates'.2.2
    pure (w, a, b, c, d, e, f, g, h)

/-- round!(a, b, c, d, e, f, g, h, 0x27b70a85, w[0], w[14], w[9], w[1]) -/
def Midstate.const_hash_small.line1_32 (cfg : Cfg) : Midstate.const_hash_small.State1 → Res Midstate.const_hash_small.State1 :=
  fun (w, a, b, c, d, e, f, g, h) => do
    let x_136 ← index w 0
    let x_137 ← index w 14
    let x_138 ← index w 9
    let x_139 ← index w 1
    let updates' := small_hash.later_round cfg a b c d e f g h 0x27b70a85#32 x_136 x_137 x_138 x_139
    let d := updates'.1
    let h := updates'.2.1
    let w ← indexSet w 0 updates'.2.2
    pure (w, a, b, c, d, e, f, g, h)

/-- round!(h, a, b, c, d, e, f, g, 0x2e1b2138, w[1], w[15], w[10], w[2]) -/
def Midstate.const_hash_small.line1_33 (cfg : Cfg) : Midstate.const_hash_small.State1 → Res Midstate.const_hash_small.State1 :=
  fun (w, a, b, c, d, e, f, g, h) => do
    let x_141 ← index w 1
    let x_142 ← index w 15
    let x_143 ← index w 10
    let x_144 ← index w 2
    let updates' := small_hash.later_round cfg h a b c d e f g 0x2e1b2138#32 x_141 x_142 x_143 x_144
    let c := updates'.1
    let g := updates'.2.1
    let w ← indexSet w 1 updates'.2.2
    pure (w, a, b, c, d, e, f, g, h)

/-- round!(g, h, a, b, c, d, e, f, 0x4d2c6dfc, w[2], w[0], w[11], w[3]) -/
def Midstate.const_hash_small.line1_34 (cfg : Cfg) : Midstate.const_hash_small.State1 → Res Midstate.const_hash_small.State1 :=
  fun (w, a, b, c, d, e, f, g, h) => do
    let x_146 ← index w 2
    let x_147 ← index w 0
    let x_148 ← index w 11
    let x_149 ← index w 3
    let updates' := small_hash.later_round cfg g h a b c d e f 0x4d2c6dfc#32 x_146 x_147 x_148 x_149
    let b := updates'.1
    let f := updates'.2.1
    let w ← indexSet w 2 updates'.2.2
    pure (w, a, b, c, d, e, f, g, h)

/-- round!(f, g, h, a, b, c, d, e, 0x53380d13, w[3], w[1], w[12], w[4]) -/
def Midstate.const_hash_small.line1_35 (cfg : Cfg) : Midstate.const_hash_small.State1 → Res Midstate.const_hash_small.State1 :=
  fun (w, a, b, c, d, e, f, g, h) => do
    let x_151 ← index w 3
    let x_152 ← index w 1
    let x_153 ← index w 12
    let x_154 ← index w 4
    let updates' := small_hash.later_round cfg f g h a b c d e 0x53380d13#32 x_151 x_152 x_153 x_154
    let a := updates'.1
    let e := updates'.2.1
    let w ← indexSet w 3 updates'.2.2
    pure (w, a, b, c, d, e, f, g, h)

/-- round!(e, f, g, h, a, b, c, d, 0x650a7354, w[4], w[2], w[13], w[5]) -/
def Midstate.const_hash_small.line1_36 (cfg : Cfg) : Midstate.const_hash_small.State1 → Res Midstate.const_hash_small.State1 :=
  fun (w, a, b, c, d, e, f, g, h) => do
    let x_156 ← index w 4
    let x_157 ← index w 2
    let x_158 ← index w 13
    let x_159 ← index w 5
    let updates' := small_hash.later_round cfg e f g h a b c d 0x650a7354#32 x_156 x_157 x_158 x_159
    let h := updates'.1
    let d := updates'.2.1
    let w ← indexSet w 4 updates'.2.2
    pure (w, a, b, c, d, e, f, g, h)

/-- round!(d, e, f, g, h, a, b, c, 0x766a0abb, w[5], w[3], w[14], w[6]) -/
def Midstate.const_hash_small.line1_37 (cfg : Cfg) : Midstate.const_hash_small.State1 → Res Midstate.const_hash_small.State1 :=
  fun (w, a, b, c, d, e, f, g, h) => do
    let x_161 ← index w 5
    let x_162 ← index w 3
    let x_163 ← index w 14
    let x_164 ← index w 6
    let updates' := small_hash.later_round cfg d e f g h a b c 0x766a0abb#32 x_161 x_162 x_163 x_164
    let g := updates'.1
    let c := updates'.2.1
    let w ← indexSet w 5 updates'.2.2
    pure (w, a, b, c, d, e, f, g, h)

/-- round!(c, d, e, f, g, h, a, b, 0x81c2c92e, w[6], w[4], w[15], w[7]) -/
def Midstate.const_hash_small.line1_38 (cfg : Cfg) : Midstate.const_hash_small.State1 → Res Midstate.const_hash_small.State1 :=
  fun (w, a, b, c, d, e, f, g, h) => do
    let x_166 ← index w 6
    let x_167 ← index w 4
    let x_168 ← index w 15
    let x_169 ← index w 7
    let updates' := small_hash.later_round cfg c d e f g h a b 0x81c2c92e#32 x_166 x_167 x_168 x_169
    let f := updates'.1
    let b := updates'.2.1
    let w ← indexSet w 6 updates'.2.2
    pure (w, a, b, c, d, e, f, g, h)

/-- round!(b, c, d, e, f, g, h, a, 0x92722c85, w[7], w[5], w[0], w[8]) -/
def Midstate.const_hash_small.line1_39 (cfg : Cfg) : Midstate.const_hash_small.State1 → Res Midstate.const_hash_small.State1 :=
  fun (w, a, b, c, d, e, f, g, h) => do
    let x_171 ← index w 7
    let x_172 ← index w 5
    let x_173 ← index w 0
    let x_174 ← index w 8
    let updates' := small_hash.later_round cfg b c d e f g h a 0x92722c85#32 x_171 x_172 x_173 x_174
    let e := updates'.1
    let a := updates'.2.1
    let w ← indexSet w 7 updates'.2.2
    pure (w, a, b, c, d, e, f, g, h)

/-- round!(a, b, c, d, e, f, g, h, 0xa2bfe8a1, w[8], w[6], w[1], w[9]) -/
def Midstate.const_hash_small.line1_40 (cfg : Cfg) : Midstate.const_hash_small.State1 → Res Midstate.const_hash_small.State1 :=
  fun (w, a, b, c, d, e, f, g, h) => do
    let x_176 ← index w 8
    let x_177 ← index w 6
    let x_178 ← index w 1
    let x_179 ← index w 9
    let updates' := small_hash.later_round cfg a b c d e f g h 0xa2bfe8a1#32 x_176 x_177 x_178 x_179
    let d := updates'.1
    let h := updates'.2.1
    let w ← indexSet w 8 updates'.2.2
    pure (w, a, b, c, d, e, f, g, h)

/-- round!(h, a, b, c, d, e, f, g, 0xa81a664b, w[9], w[7], w[2], w[10]) -/
def Midstate.const_hash_small.line1_41 (cfg : Cfg) : Midstate.const_hash_small.State1 → Res Midstate.const_hash_small.State1 :=
  fun (w, a, b, c, d, e, f, g, h) => do
    let x_181 ← index w 9
    let x_182 ← index w 7
    let x_183 ← index w 2
    let x_184 ← index w 10
    let updates' := small_hash.later_round cfg h a b c d e f g 0xa81a664b#32 x_181 x_182 x_183 x_184
    let c := updates'.1
    let g := updates'.2.1
    let w ← indexSet w 9 updates'.2.2
    pure (w, a, b, c, d, e, f, g, h)

/-- round!(g, h, a, b, c, d, e, f, 0xc24b8b70, w[10], w[8], w[3], w[11]) -/
def Midstate.const_hash_small.line1_42 (cfg : Cfg) : Midstate.const_hash_small.State1 → Res Midstate.const_hash_small.State1 :=
  fun (w, a, b, c, d, e, f, g, h) => do
    let x_186 ← index w 10
    let x_187 ← index w 8
    let x_188 ← index w 3
    let x_189 ← index w 11
    let updates' := small_hash.later_round cfg g h a b c d e f 0xc24b8b70#32 x_186 x_187 x_188 x_189
    let b := updates'.1
    let f := updates'.2.1
    let w ← indexSet w 10 updates'.2.2
    pure (w, a, b, c, d, e, f, g, h)

/-- round!(f, g, h, a, b, c, d, e, 0xc76c51a3, w[11], w[9], w[4], w[12]) -/
def Midstate.const_hash_small.line1_43 (cfg : Cfg) : Midstate.const_hash_small.State1 → Res Midstate.const_hash_small.State1 :=
  fun (w, a, b, c, d, e, f, g, h) => do
    let x_191 ← index w 11
    let x_192 ← index w 9
    let x_193 ← index w 4
    let x_194 ← index w 12
    let updates' := small_hash.later_round cfg f g h a b c d e 0xc76c51a3#32 x_191 x_192 x_193 x_194
    let a := updates'.1
    let e := updates'.2.1
    let w ← indexSet w 11 updates'.2.2
    pure (w, a, b, c, d, e, f, g, h)

/-- round!(e, f, g, h, a, b, c, d, 0xd192e819, w[12], w[10], w[5], w[13]) -/
def Midstate.const_hash_small.line1_44 (cfg : Cfg) : Midstate.const_hash_small.State1 → Res Midstate.const_hash_small.State1 :=
  fun (w, a, b, c, d, e, f, g, h) => do
    let x_196 ← index w 12
    let x_197 ← index w 10
    let x_198 ← index w 5
    let x_199 ← index w 13
    let updates' := small_hash.later_round cfg e f g h a b c d 0xd192e819#32 x_196 x_197 x_198 x_199
    let h := updates'.1
    let d := updates'.2.1
    let w ← indexSet w 12 updates'.2.2
    pure (w, a, b, c, d, e, f, g, h)

/-- round!(d, e, f, g, h, a, b, c, 0xd6990624, w[13], w[11], w[6], w[14]) -/
def Midstate.const_hash_small.line1_45 (cfg : Cfg) : Midstate.const_hash_small.State1 → Res Midstate.const_hash_small.State1 :=
  fun (w, a, b, c, d, e, f, g, h) => do
    let x_201 ← index w 13
    let x_202 ← index w 11
    let x_203 ← index w 6
    let x_204 ← index w 14
    let updates' := small_hash.later_round cfg d e f g h a b c 0xd6990624#32 x_201 x_202 x_203 x_204
    let g := updates'.1
    let c := updates'.2.1
    let w ← indexSet w 13 updates'.2.2
    pure (w, a, b, c, d, e, f, g, h)

/-- round!(c, d, e, f, g, h, a, b, 0xf40e3585, w[14], w[12], w[7], w[15]) -/
def Midstate.const_hash_small.line1_46 (cfg : Cfg) : Midstate.const_hash_small.State1 → Res Midstate.const_hash_small.State1 :=
  fun (w, a, b, c, d, e, f, g, h) => do
    let x_206 ← index w 14
    let x_207 ← index w 12
    let x_208 ← index w 7
    let x_209 ← index w 15
    let updates' := small_hash.later_round cfg c d e f g h a b 0xf40e3585#32 x_206 x_207 x_208 x_209
    let f := updates'.1
    let b := updates'.2.1
    let w ← indexSet w 14 updates'.2.2
    pure (w, a, b, c, d, e, f, g, h)

/-- round!(b, c, d, e, f, g, h, a, 0x106aa070, w[15], w[13], w[8], w[0]) -/
def Midstate.const_hash_small.line1_47 (cfg : Cfg) : Midstate.const_hash_small.State1 → Res Midstate.const_hash_small.State1 :=
  fun (w, a, b, c, d, e, f, g, h) => do
    let x_211 ← index w 15
    let x_212 ← index w 13
    let x_213 ← index w 8
    let x_214 ← index w 0
    let updates' := small_hash.later_round cfg b c d e f g h a 0x106aa070#32 x_211 x_212 x_213 x_214
    let e := updates'.1
    let a := updates'.2.1
    let w ← indexSet w 15 updates'.2.2
    pure (w, a, b, c, d, e, f, g, h)

/-- round!(a, b, c, d, e, f, g, h, 0x19a4c116, w[0], w[14], w[9], w[1]) -/
def Midstate.const_hash_small.line1_48 (cfg : Cfg) : Midstate.const_hash_small.State1 → Res Midstate.const_hash_small.State1 :=
  fun (w, a, b, c, d, e, f, g, h) => do
    let x_216 ← index w 0
    let x_217 ← index w 14
    let x_218 ← index w 9
    let x_219 ← index w 1
    let updates' := small_hash.later_round cfg a b c d e f g h 0x19a4c116#32 x_216 x_217 x_218 x_219
    let d := updates'.1
    let h := updates'.2.1
    let w ← indexSet w 0 updates'.2.2
    pure (w, a, b, c, d, e, f, g, h)

/-- round!(h, a, b, c, d, e, f, g, 0x1e376c08, w[1], w[15], w[10], w[2]) -/
def Midstate.const_hash_small.line1_49 (cfg : Cfg) : Midstate.const_hash_small.State1 → Res Midstate.const_hash_small.State1 :=
  fun (w, a, b, c, d, e, f, g, h) => do
    let x_221 ← index w 1
    let x_222 ← index w 15
    let x_223 ← index w 10
    let x_224 ← index w 2
    let updates' := small_hash.later_round cfg h a b c d e f g 0x1e376c08#32 x_221 x_222 x_223 x_224
    let c := updates'.1
    let g := updates'.2.1
    let w ← indexSet w 1 updates'.2.2
    pure (w, a, b, c, d, e, f, g, h)

/-- round!(g, h, a, b, c, d, e, f, 0x2748774c, w[2], w[0], w[11], w[3]) -/
def Midstate.const_hash_small.line1_50 (cfg : Cfg) : Midstate.const_hash_small.State1 → Res Midstate.const_hash_small.State1 :=
  fun (w, a, b, c, d, e, f, g, h) => do
    let x_226 ← index w 2
    let x_227 ← index w 0
    let x_228 ← index w 11
    let x_229 ← index w 3
    let updates' := small_hash.later_round cfg g h a b c d e f 0x2748774c#32 x_226 x_227 x_228 x_229
    let b := updates'.1
    let f := updates'.2.1
    let w ← indexSet w 2 updates'.2.2
    pure (w, a, b, c, d, e, f, g, h)

/-- round!(f, g, h, a, b, c, d, e, 0x34b0bcb5, w[3], w[1], w[12], w[4]) -/
def Midstate.const_hash_small.line1_51 (cfg : Cfg) : Midstate.const_hash_small.State1 → Res Midstate.const_hash_small.State1 :=
  fun (w, a, b, c, d, e, f, g, h) => do
    let x_231 ← index w 3
    let x_232 ← index w 1
    let x_233 ← index w 12
    let x_234 ← index w 4
    let updates' := small_hash.later_round cfg f g h a b c d e 0x34b0bcb5#32 x_231 x_232 x_233 x_234
    let a := updates'.1
    let e := updates'.2.1
    let w ← indexSet w 3 updates'.2.2
    pure (w, a, b, c, d, e, f, g, h)

/-- round!(e, f, g, h, a, b, c, d, 0x391c0cb3, w[4], w[2], w[13], w[5]) -/
def Midstate.const_hash_small.line1_52 (cfg : Cfg) : Midstate.const_hash_small.State1 → Res Midstate.const_hash_small.State1 :=
  fun (w, a, b, c, d, e, f, g, h) => do
    let x_236 ← index w 4
    let x_237 ← index w 2
    let x_238 ← index w 13
    let x_239 ← index w 5
    let updates' := small_hash.later_round cfg e f g h a b c d 0x391c0cb3#32 x_236 x_237 x_238 x_239
    let h := updates'.1
    let d := updates'.2.1
    let w ← indexSet w 4 updates'.2.2
    pure (w, a, b, c, d, e, f, g, h)

/-- round!(d, e, f, g, h, a, b, c, 0x4ed8aa4a, w[5], w[3], w[14], w[6]) -/
def Midstate.const_hash_small.line1_53 (cfg : Cfg) : Midstate.const_hash_small.State1 → Res Midstate.const_hash_small.State1 :=
  fun (w, a, b, c, d, e, f, g, h) => do
    let x_241 ← index w 5
    let x_242 ← index w 3
    let x_243 ← index w 14
    let x_244 ← index w 6
    let updates' := small_hash.later_round cfg d e f g h a b c 0x4ed8aa4a#32 x_241 x_242 x_243 x_244
    let g := updates'.1
    let c := updates'.2.1
    let w ← indexSet w 5 updates'.2.2
    pure (w, a, b, c, d, e, f, g, h)

/-- round!(c, d, e, f, g, h, a, b, 0x5b9cca4f, w[6], w[4], w[15], w[7]) -/
def Midstate.const_hash_small.line1_54 (cfg : Cfg) : Midstate.const_hash_small.State1 → Res Midstate.const_hash_small.State1 :=
  fun (w, a, b, c, d, e, f, g, h) => do
    let x_246 ← index w 6
    let x_247 ← index w 4
    let x_248 ← index w 15
    let x_249 ← index w 7
    let updates' := small_hash.later_round cfg c d e f g h a b 0x5b9cca4f#32 x_246 x_247 x_248 x_249
    let f := updates'.1
    let b := updates'.2.1
    let w ← indexSet w 6 updates'.2.2
    pure (w, a, b, c, d, e, f, g, h)

/-- round!(b, c, d, e, f, g, h, a, 0x682e6ff3, w[7], w[5], w[0], w[8]) -/
def Midstate.const_hash_small.line1_55 (cfg : Cfg) : Midstate.const_hash_small.State1 → Res Midstate.const_hash_small.State1 :=
  fun (w, a, b, c, d, e, f, g, h) => do
    let x_251 ← index w 7
    let x_252 ← index w 5
    let x_253 ← index w 0
    let x_254 ← index w 8
    let updates' := small_hash.later_round cfg b c d e f g h a 0x682e6ff3#32 x_251 x_252 x_253 x_254
    let e := updates'.1
    let a := updates'.2.1
    let w ← indexSet w 7 updates'.2.2
    pure (w, a, b, c, d, e, f, g, h)

/-- round!(a, b, c, d, e, f, g, h, 0x748f82ee, w[8], w[6], w[1], w[9]) -/
def Midstate.const_hash_small.line1_56 (cfg : Cfg) : Midstate.const_hash_small.State1 → Res Midstate.const_hash_small.State1 :=
  fun (w, a, b, c, d, e, f, g, h) => do
    let x_256 ← index w 8
    let x_257 ← index w 6
    let x_258 ← index w 1
    let x_259 ← index w 9
    let updates' := small_hash.later_round cfg a b c d e f g h 0x748f82ee#32 x_256 x_257 x_258 x_259
    let d := updates'.1
    let h := updates'.2.1
    let w ← indexSet w 8 updates'.2.2
    pure (w, a, b, c, d, e, f, g, h)

/-- round!(h, a, b, c, d, e, f, g, 0x78a5636f, w[9], w[7], w[2], w[10]) -/
def Midstate.const_hash_small.line1_57 (cfg : Cfg) : Midstate.const_hash_small.State1 → Res Midstate.const_hash_small.State1 :=
  fun (w, a, b, c, d, e, f, g, h) => do
    let x_261 ← index w 9
    let x_262 ← index w 7
    let x_263 ← index w 2
    let x_264 ← index w 10
    let updates' := small_hash.later_round cfg h a b c d e f g 0x78a5636f#32 x_261 x_262 x_263 x_264
    let c := updates'.1
    let g := updates'.2.1
    let w ← indexSet w 9 updates'.2.2
    pure (w, a, b, c, d, e, f, g, h)

/-- round!(g, h, a, b, c, d, e, f, 0x84c87814, w[10], w[8], w[3], w[11]) -/
def Midstate.const_hash_small.line1_58 (cfg : Cfg) : Midstate.const_hash_small.State1 → Res Midstate.const_hash_small.State1 :=
  fun (w, a, b, c, d, e, f, g, h) => do
    let x_266 ← index w 10
    let x_267 ← index w 8
    let x_268 ← index w 3
    let x_269 ← index w 11
    let updates' := small_hash.later_round cfg g h a b c d e f 0x84c87814#32 x_266 x_267 x_268 x_269
    let b := updates'.1
    let f := updates'.2.1
    let w ← indexSet w 10 updates'.2.2
    pure (w, a, b, c, d, e, f, g, h)

/-- round!(f, g, h, a, b, c, d, e, 0x8cc70208, w[11], w[9], w[4], w[12]) -/
def Midstate.const_hash_small.line1_59 (cfg : Cfg) : Midstate.const_hash_small.State1 → Res Midstate.const_hash_small.State1 :=
  fun (w, a, b, c, d, e, f, g, h) => do
    let x_271 ← index w 11
    let x_272 ← index w 9
    let x_273 ← index w 4
    let x_274 ← index w 12
    let updates' := small_hash.later_round cfg f g h a b c d e 0x8cc70208#32 x_271 x_272 x_273 x_274
    let a := updates'.1
    let e := updates'.2.1
    let w ← indexSet w 11 updates'.2.2
    pure (w, a, b, c, d, e, f, g, h)

/-- round!(e, f, g, h, a, b, c, d, 0x90befffa, w[12], w[10], w[5], w[13]) -/
def Midstate.const_hash_small.line1_60 (cfg : Cfg) : Midstate.const_hash_small.State1 → Res Midstate.const_hash_small.State1 :=
  fun (w, a, b, c, d, e, f, g, h) => do
    let x_276 ← index w 12
    let x_277 ← index w 10
    let x_278 ← index w 5
    let x_279 ← index w 13
    let updates' := small_hash.later_round cfg e f g h a b c d 0x90befffa#32 x_276 x_277 x_278 x_279
    let h := updates'.1
    let d := updates'.2.1
    let w ← indexSet w 12 updates'.2.2
    pure (w, a, b, c, d, e, f, g, h)

/-- round!(d, e, f, g, h, a, b, c, 0xa4506ceb, w[13], w[11], w[6], w[14]) -/
def Midstate.const_hash_small.line1_61 (cfg : Cfg) : Midstate.const_hash_small.State1 → Res Midstate.const_hash_small.State1 :=
  fun (w, a, b, c, d, e, f, g, h) => do
    let x_281 ← index w 13
    let x_282 ← index w 11
    let x_283 ← index w 6
    let x_284 ← index w 14
    let updates' := small_hash.later_round cfg d e f g h a b c 0xa4506ceb#32 x_281 x_282 x_283 x_284
    let g := updates'.1
    let c := updates'.2.1
    let w ← indexSet w 13 updates'.2.2
    pure (w, a, b, c, d, e, f, g, h)

/-- round!(c, d, e, f, g, h, a, b, 0xbef9a3f7, w[14], w[12], w[7], w[15]) -/
def Midstate.const_hash_small.line1_62 (cfg : Cfg) : Midstate.const_hash_small.State1 → Res Midstate.const_hash_small.State1 :=
  fun (w, a, b, c, d, e, f, g, h) => do
    let x_286 ← index w 14
    let x_287 ← index w 12
    let x_288 ← index w 7
    let x_289 ← index w 15
    let updates' := small_hash.later_round cfg c d e f g h a b 0xbef9a3f7#32 x_286 x_287 x_288 x_289
    let f := updates'.1
    let b := updates'.2.1
    let w ← indexSet w 14 updates'.2.2
    pure (w, a, b, c, d, e, f, g, h)

/-- round!(b, c, d, e, f, g, h, a, 0xc67178f2, w[15], w[13], w[8], w[0]) -/
def Midstate.const_hash_small.line1_63 (cfg : Cfg) : Midstate.const_hash_small.State1 → Res Midstate.const_hash_small.State1 :=
  fun (w, a, b, c, d, e, f, g, h) => do
    let x_291 ← index w 15
    let x_292 ← index w 13
    let x_293 ← index w 8
    let x_294 ← index w 0
    let updates' := small_hash.later_round cfg b c d e f g h a 0xc67178f2#32 x_291 x_292 x_293 x_294
    let e := updates'.1
    let a := updates'.2.1
    let w ← indexSet w 15 updates'.2.2
    pure (w, a, b, c, d, e, f, g, h)

/-- The 64 statements. -/
def Midstate.const_hash_small.lines1 (cfg : Cfg) : List (Midstate.const_hash_small.State1 → Res Midstate.const_hash_small.State1) := [
  Midstate.const_hash_small.line1_0 cfg,
  Midstate.const_hash_small.line1_1 cfg,
  Midstate.const_hash_small.line1_2 cfg,
  Midstate.const_hash_small.line1_3 cfg,
  Midstate.const_hash_small.line1_4 cfg,
  Midstate.const_hash_small.line1_5 cfg,
  Midstate.const_hash_small.line1_6 cfg,
  Midstate.const_hash_small.line1_7 cfg,
  Midstate.const_hash_small.line1_8 cfg,
  Midstate.const_hash_small.line1_9 cfg,
  Midstate.const_hash_small.line1_10 cfg,
  Midstate.const_hash_small.line1_11 cfg,
  Midstate.const_hash_small.line1_12 cfg,
  Midstate.const_hash_small.line1_13 cfg,
  Midstate.const_hash_small.line1_14 cfg,
  Midstate.const_hash_small.line1_15 cfg,
  Midstate.const_hash_small.line1_16 cfg,
  Midstate.const_hash_small.line1_17 cfg,
  Midstate.const_hash_small.line1_18 cfg,
  Midstate.const_hash_small.line1_19 cfg,
  Midstate.const_hash_small.line1_20 cfg,
  Midstate.const_hash_small.line1_21 cfg,
  Midstate.const_hash_small.line1_22 cfg,
  Midstate.const_hash_small.line1_23 cfg,
  Midstate.const_hash_small.line1_24 cfg,
  Midstate.const_hash_small.line1_25 cfg,
  Midstate.const_hash_small.line1_26 cfg,
  Midstate.const_hash_small.line1_27 cfg,
  Midstate.const_hash_small.line1_28 cfg,
  Midstate.const_hash_small.line1_29 cfg,
  Midstate.const_hash_small.line1_30 cfg,
  Midstate.const_hash_small.line1_31 cfg,
  Midstate.const_hash_small.line1_32 cfg,
  Midstate.const_hash_small.line1_33 cfg,
  Midstate.const_hash_small.line1_34 cfg,
  Midstate.const_hash_small.line1_35 cfg,
  Midstate.const_hash_small.line1_36 cfg,
  Midstate.const_hash_small.line1_37 cfg,
  Midstate.const_hash_small.line1_38 cfg,
  Midstate.const_hash_small.line1_39 cfg,
  Midstate.const_hash_small.line1_40 cfg,
  Midstate.const_hash_small.line1_41 cfg,
  Midstate.const_hash_small.line1_42 cfg,
  Midstate.const_hash_small.line1_43 cfg,
  Midstate.const_hash_small.line1_44 cfg,
  Midstate.const_hash_small.line1_45 cfg,
  Midstate.const_hash_small.line1_46 cfg,
  Midstate.const_hash_small.line1_47 cfg,
  Midstate.const_hash_small.line1_48 cfg,
  Midstate.const_hash_small.line1_49 cfg,
  Midstate.const_hash_small.line1_50 cfg,
  Midstate.const_hash_small.line1_51 cfg,
  Midstate.const_hash_small.line1_52 cfg,
  Midstate.const_hash_small.line1_53 cfg,
  Midstate.const_hash_small.line1_54 cfg,
  Midstate.const_hash_small.line1_55 cfg,
  Midstate.const_hash_small.line1_56 cfg,
  Midstate.const_hash_small.line1_57 cfg,
  Midstate.const_hash_small.line1_58 cfg,
  Midstate.const_hash_small.line1_59 cfg,
  Midstate.const_hash_small.line1_60 cfg,
  Midstate.const_hash_small.line1_61 cfg,
  Midstate.const_hash_small.line1_62 cfg,
  Midstate.const_hash_small.line1_63 cfg]

/-- `Midstate::const_hash`, sha256.rs 279-425, with feature `small-hash`. -/
def Midstate.const_hash_small (cfg : Cfg) (bytes : List Byte) (finalize : Bool) : Res Midstate := do
  let state : List (BitVec 32) := [0x6a09e667#32, 0xbb67ae85#32, 0x3c6ef372#32, 0xa54ff53a#32, 0x510e527f#32, 0x9b05688c#32, 0x1f83d9ab#32, 0x5be0cd19#32]
  let x_1 ← addUsize cfg bytes.length 9
  let x_2 ← addUsize cfg x_1 63
  let num_chunks : Nat := x_2 / 64
  let chunk : Nat := 0
  let (state, chunk) ← Rs.whileBreak cfg.usizeMod
    (fun (state, chunk) => pure (decide (chunk < num_chunks)))
    (fun (state, chunk) => do
      let x_4 ←
        if !finalize then do
          let x_3 ← addUsize cfg chunk 1
          pure (x_3 == num_chunks)
        else pure false
      let x_5 ←
        if x_4 then do
          pure (Rs.Flow.ret (state, chunk))
        else do
          pure (Rs.Flow.next ())
      match x_5 with
      | Rs.Flow.ret r => pure (Rs.Flow.ret r)
      | Rs.Flow.next _ => do
        let x_6 ← mulUsize cfg chunk 64
        let x_7 ← addUsize cfg x_6 64
        let x_30 ←
          if decide (x_7 ≤ bytes.length) then do
            let x_8 ← mulUsize cfg chunk 64
            let x_9 ← Midstate.copy_w cfg bytes x_8
            pure x_9
          else do
            let buf : List Byte := List.replicate 64 0#8
            let i : Nat := 0
            let offset ← mulUsize cfg chunk 64
            let (buf, i) ← Rs.whileR cfg.usizeMod
              (fun (buf, i) => do
                let x_11 ← addUsize cfg offset i
                pure (decide (x_11 < bytes.length)))
              (fun (buf, i) => do
                let x_12 ← addUsize cfg offset i
                let x_13 ← index bytes x_12
                let buf ← indexSet buf i x_13
                let i ← addUsize cfg i 1
                pure (buf, i)) (buf, i)
            let x_17 ←
              if !(decide ((bytes.length % 64) ≤ (64 - 9))) then do
                let x_16 ← addUsize cfg chunk 2
                pure (x_16 == num_chunks)
              else pure true
            let buf ←
              if x_17 then do
                let buf ← indexSet buf i 0x80#8
                pure buf
              else do
                pure buf
            let x_19 ← addUsize cfg chunk 1
            let buf ←
              if x_19 == num_chunks then do
                let bit_len ← Rs.mulU cfg (BitVec.ofNat 64 bytes.length) 8#64
                let buf ← indexSet buf (64 - 8) (BitVec.setWidth 8 ((bit_len >>> 56) &&& 0xFF#64))
                let buf ← indexSet buf (64 - 7) (BitVec.setWidth 8 ((bit_len >>> 48) &&& 0xFF#64))
                let buf ← indexSet buf (64 - 6) (BitVec.setWidth 8 ((bit_len >>> 40) &&& 0xFF#64))
                let buf ← indexSet buf (64 - 5) (BitVec.setWidth 8 ((bit_len >>> 32) &&& 0xFF#64))
                let buf ← indexSet buf (64 - 4) (BitVec.setWidth 8 ((bit_len >>> 24) &&& 0xFF#64))
                let buf ← indexSet buf (64 - 3) (BitVec.setWidth 8 ((bit_len >>> 16) &&& 0xFF#64))
                let buf ← indexSet buf (64 - 2) (BitVec.setWidth 8 ((bit_len >>> 8) &&& 0xFF#64))
                let buf ← indexSet buf (64 - 1) (BitVec.setWidth 8 ((bit_len >>> 0) &&& 0xFF#64))
                pure buf
              else do
                pure buf
            let x_29 ← Midstate.copy_w cfg buf 0
            pure x_29
        let w : List (BitVec 32) := x_30
        let chunk ← addUsize cfg chunk 1
        let a ← index state 0
        let b ← index state 1
        let c ← index state 2
        let d ← index state 3
        let e ← index state 4
        let f ← index state 5
        let g ← index state 6
        let h ← index state 7
        let (w, a, b, c, d, e, f, g, h) ← Rs.runLines (Midstate.const_hash_small.lines1 cfg) (w, a, b, c, d, e, f, g, h)
        let x_296 ← index state 0
        let state ← indexSet state 0 (x_296 + a)
        let x_298 ← index state 1
        let state ← indexSet state 1 (x_298 + b)
        let x_300 ← index state 2
        let state ← indexSet state 2 (x_300 + c)
        let x_302 ← index state 3
        let state ← indexSet state 3 (x_302 + d)
        let x_304 ← index state 4
        let state ← indexSet state 4 (x_304 + e)
        let x_306 ← index state 5
        let state ← indexSet state 5 (x_306 + f)
        let x_308 ← index state 6
        let state ← indexSet state 6 (x_308 + g)
        let x_310 ← index state 7
        let state ← indexSet state 7 (x_310 + h)
        pure (Rs.Flow.next (state, chunk))) (state, chunk)
  let output : List Byte := List.replicate 32 0#8
  let i : Nat := 0
  let (output, i) ← Rs.whileR cfg.usizeMod
    (fun (output, i) => pure (decide (i < 8)))
    (fun (output, i) => do
      let x_312 ← addUsize cfg i 0
      let x_313 ← index state x_312
      let x_314 ← mulUsize cfg i 4
      let x_315 ← addUsize cfg x_314 0
      let output ← indexSet output x_315 (BitVec.setWidth 8 (x_313 >>> 24))
      let x_317 ← addUsize cfg i 0
      let x_318 ← index state x_317
      let x_319 ← mulUsize cfg i 4
      let x_320 ← addUsize cfg x_319 1
      let output ← indexSet output x_320 (BitVec.setWidth 8 (x_318 >>> 16))
      let x_322 ← addUsize cfg i 0
      let x_323 ← index state x_322
      let x_324 ← mulUsize cfg i 4
      let x_325 ← addUsize cfg x_324 2
      let output ← indexSet output x_325 (BitVec.setWidth 8 (x_323 >>> 8))
      let x_327 ← addUsize cfg i 0
      let x_328 ← index state x_327
      let x_329 ← mulUsize cfg i 4
      let x_330 ← addUsize cfg x_329 3
      let output ← indexSet output x_330 (BitVec.setWidth 8 (x_328 >>> 0))
      let i ← addUsize cfg i 1
      pure (output, i)) (output, i)
  pure ({ f0 := output } : Midstate)

/-- `Midstate::const_hash`, sha256.rs 279-425. -/
def Midstate.const_hash (cfg : Cfg) (bytes : List Byte) (finalize : Bool) : Res Midstate :=
  if cfg.smallHash then Midstate.const_hash_small cfg bytes finalize else Midstate.const_hash_fast cfg bytes finalize

/-- `Hash::const_hash`, sha256.rs 120. -/
def Hash.const_hash (cfg : Cfg) (bytes : List Byte) : Res Hash := do
  let x_1 ← Midstate.const_hash cfg bytes true
  pure ({ f0 := x_1.f0 } : Hash)

/-- `Midstate::LowerHex::fmt`, internal_macros.rs 54-56. -/
def Midstate.LowerHex.fmt (cfg : Cfg) (self : Midstate) (f : Hex.Flags) : Res (List Byte) := do
  let x_1 ← Hex.fmtHexExact f 32 self.f0 .lower
  pure x_1

/-- `Midstate::UpperHex::fmt`, internal_macros.rs 61-63. -/
def Midstate.UpperHex.fmt (cfg : Cfg) (self : Midstate) (f : Hex.Flags) : Res (List Byte) := do
  let x_1 ← Hex.fmtHexExact f 32 self.f0 .upper
  pure x_1

/-- `Midstate::Display::fmt`, internal_macros.rs 68-70. -/
def Midstate.Display.fmt (cfg : Cfg) (self : Midstate) (f : Hex.Flags) : Res (List Byte) := do
  let x_1 ← Midstate.LowerHex.fmt cfg self f
  pure x_1

/-- `Midstate::Debug::fmt`, internal_macros.rs 75-77. -/
def Midstate.Debug.fmt (cfg : Cfg) (self : Midstate) (f : Hex.Flags) : Res (List Byte) := do
  let x_1 ← Midstate.Display.fmt cfg self ({ alternate := true })
  pure x_1

/-- `Midstate::from_slice`, sha256.rs 151-159. -/
def Midstate.from_slice (cfg : Cfg) (sl : List Byte) : Res (Except Lib.FromSliceError Midstate) := do
  let x_2 ←
    if sl.length != Midstate.LEN then do
      pure (Except.error ({ expected := Midstate.LEN, got := sl.length } : Lib.FromSliceError))
    else do
      let ret : List Byte := List.replicate 32 0#8
      let ret ← Rs.copyFromSlice ret sl
      pure (Except.ok ({ f0 := ret } : Midstate))
  pure x_2

/-- `Midstate::SerdeHash::from_slice_delegated`, serde_macros.rs 115-117. -/
def Midstate.SerdeHash.from_slice_delegated (cfg : Cfg) (sl : List Byte) : Res (Except Lib.FromSliceError Midstate) := do
  let x_1 ← Midstate.from_slice cfg sl
  pure x_1

/-- `Midstate::AsRef::as_ref`, internal_macros.rs 12. -/
def Midstate.AsRef.as_ref (cfg : Cfg) (self : Midstate) : (List Byte) :=
  self.f0

/-- `Midstate::Index::index`, sha256.rs 135. -/
def Midstate.Index.index (cfg : Cfg) (self : Midstate) (index_ : Rs.SliceIndex) : Res (List Byte) := do
  let x_1 ← Rs.SliceIndex.get index_ self.f0
  pure x_1

/-- `Midstate::FromHex::from_hex`, sha256.rs 184-187. -/
def Midstate.FromHex.from_hex (cfg : Cfg) (s : List Byte) : Res (Except Hex.Error Midstate) := do
  let x_1 ← Rs.fromHex 32 s
  Rs.tryOk x_1 fun bytes => do
    pure (Except.ok ({ f0 := bytes } : Midstate))

/-- `Midstate::FromStr::from_str`, sha256.rs 140. -/
def Midstate.FromStr.from_str (cfg : Cfg) (s : List Byte) : Res (Except Hex.Error Midstate) := do
  let x_1 ← Midstate.FromHex.from_hex cfg s
  pure x_1

/-- `Midstate::from_byte_array`, sha256.rs 148. -/
def Midstate.from_byte_array (cfg : Cfg) (inner : List Byte) : Midstate :=
  ({ f0 := inner } : Midstate)

/-- `Midstate::hash_tag`, sha256.rs 169-178. -/
def Midstate.hash_tag (cfg : Cfg) (tag : List Byte) : Res Midstate := do
  let hash ← Hash.const_hash cfg tag
  let buf : List Byte := List.replicate 64 0#8
  let i : Nat := 0
  let (buf, i) ← Rs.whileR cfg.usizeMod
    (fun (buf, i) => pure (decide (i < buf.length)))
    (fun (buf, i) => do
      let x_2 ← Rs.remUsize i hash.f0.length
      let x_3 ← index hash.f0 x_2
      let buf ← indexSet buf i x_3
      let i ← addUsize cfg i 1
      pure (buf, i)) (buf, i)
  let x_6 ← Midstate.const_hash cfg buf false
  pure x_6

/-- `Engine::HashEngine::from_midstate`, sha256.rs 104-113. -/
def Engine.HashEngine.from_midstate (cfg : Cfg) (midstate : Midstate) (length : Nat) : Res Engine := do
  assertR ((length % Sha256.BLOCK_SIZE) == 0)
  let ret : List (BitVec 32) := List.replicate 8 0#32
  let ret ← Rs.zipMut ret (chunksExact 4 midstate.f0) fun ret_val midstate_bytes => do
    let x_1 ← Rs.tryInto 4 midstate_bytes
    let ret_val := Rs.fromBeBytes 32 x_1
    pure ret_val
  pure ({ buffer := List.replicate 64 0#8, h := ret, length := length } : Engine)

/-- `impl SerdeHash for Hash`. -/
def Hash.serdeHash (cfg : Cfg) : SerdeMacros.SerdeHash where
  State := Hash
  from_slice_delegated sl := Hash.SerdeHash.from_slice_delegated cfg sl
  from_str s := Hash.FromStr.from_str cfg s
  fmt self f := Hash.Display.fmt cfg self f
  index self i := Hash.Index.index cfg self (.rangeFull i)

/-- `impl SerdeHash for Midstate`. -/
def Midstate.serdeHash (cfg : Cfg) : SerdeMacros.SerdeHash where
  State := Midstate
  from_slice_delegated sl := Midstate.SerdeHash.from_slice_delegated cfg sl
  from_str s := Midstate.FromStr.from_str cfg s
  fmt self f := Midstate.Display.fmt cfg self f
  index self i := Midstate.Index.index cfg self (.rangeFull i)

/-- `Hash::Serialize::serialize`, serde_macros.rs 121-123. -/
def Hash.Serialize.serialize (cfg : Cfg) (self : Hash) (s : Rs.Serializer) : Res Rs.Serialized := do
  let x_1 ← SerdeMacros.SerdeHash.serialize cfg (Hash.serdeHash cfg) self s
  pure x_1

/-- `Hash::Deserialize::deserialize`, serde_macros.rs 127-129. -/
def Hash.Deserialize.deserialize (cfg : Cfg) (d : Rs.Deserializer) : Res (Except Rs.DeError Hash) := do
  let x_1 ← SerdeMacros.SerdeHash.deserialize cfg (Hash.serdeHash cfg) d
  pure x_1

/-- `Midstate::Serialize::serialize`, serde_macros.rs 121-123. -/
def Midstate.Serialize.serialize (cfg : Cfg) (self : Midstate) (s : Rs.Serializer) : Res Rs.Serialized := do
  let x_1 ← SerdeMacros.SerdeHash.serialize cfg (Midstate.serdeHash cfg) self s
  pure x_1

/-- `Midstate::Deserialize::deserialize`, serde_macros.rs 127-129. -/
def Midstate.Deserialize.deserialize (cfg : Cfg) (d : Rs.Deserializer) : Res (Except Rs.DeError Midstate) := do
  let x_1 ← SerdeMacros.SerdeHash.deserialize cfg (Midstate.serdeHash cfg) d
  pure x_1

/-- `#[derive(PartialEq)]` of `Hash`, internal_macros.rs 144. -/
def Hash.PartialEq.eq (cfg : Cfg) (self : Hash) (other : Hash) : Bool :=
  self.f0 == other.f0

/-- `#[derive(PartialOrd)]` of `Hash`, internal_macros.rs 144. -/
def Hash.PartialOrd.partial_cmp (cfg : Cfg) (self : Hash) (other : Hash) : Option Ordering :=
  some (Rs.cmpSlice self.f0 other.f0)

/-- `#[derive(Ord)]` of `Hash`, internal_macros.rs 144. -/
def Hash.Ord.cmp (cfg : Cfg) (self : Hash) (other : Hash) : Ordering :=
  Rs.cmpSlice self.f0 other.f0

/-- `#[derive(Hash)]` of `Hash`, internal_macros.rs 144. -/
def Hash.Hash.hash (cfg : Cfg) (H : Rs.Hasher) (self : Hash) (h : H.State) : H.State :=
  H.hashSlice self.f0 h

/-- `#[derive(PartialEq)]` of `Midstate`, sha256.rs 124. -/
def Midstate.PartialEq.eq (cfg : Cfg) (self : Midstate) (other : Midstate) : Bool :=
  self.f0 == other.f0

/-- `#[derive(Default)]` of `Midstate`, sha256.rs 124. -/
def Midstate.Default.default (cfg : Cfg) : Midstate :=
  { f0 := List.replicate 32 0 }

/-- `#[derive(PartialOrd)]` of `Midstate`, sha256.rs 124. -/
def Midstate.PartialOrd.partial_cmp (cfg : Cfg) (self : Midstate) (other : Midstate) : Option Ordering :=
  some (Rs.cmpSlice self.f0 other.f0)

/-- `#[derive(Ord)]` of `Midstate`, sha256.rs 124. -/
def Midstate.Ord.cmp (cfg : Cfg) (self : Midstate) (other : Midstate) : Ordering :=
  Rs.cmpSlice self.f0 other.f0

/-- `#[derive(Hash)]` of `Midstate`, sha256.rs 124. -/
def Midstate.Hash.hash (cfg : Cfg) (H : Rs.Hasher) (self : Midstate) (h : H.State) : H.State :=
  H.hashSlice self.f0 h

/-- `impl HashEngine for Engine`, sha256.rs 44. -/
def engine (cfg : Cfg) : Chf.HashEngine where
  State := Engine
  Midstate := Midstate
  blockSize := Engine.BLOCK_SIZE
  default := pure (Engine.default cfg)
  new := pure (Engine.default cfg)
  input self data := Engine.input cfg self data
  nBytesHashed self := Engine.n_bytes_hashed cfg self
  finalize self := Engine.finalize cfg self
  midstate self := Engine.midstate cfg self
  fromMidstate midstate length := Engine.HashEngine.from_midstate cfg midstate length

end Chf.Source.Sha256
