/- Generated from the translation of /repo/src by tools/rust2lean.py; do not edit. -/
import Verif.Seen.Prelude
import Verif.Source.Sha256

namespace Chf.Seen.Sha256
open Chf
set_option linter.unusedVariables false

/-- line 500 -/
def Engine.process_block_simd_x86_intrinsics.line1_0 (cfg : Cfg) (self : Source.Sha256.Engine) (MASK : BitVec 128) (block_offset : Nat) : Source.Sha256.Engine.process_block_simd_x86_intrinsics.State1 → Tr Source.Sha256.Engine.process_block_simd_x86_intrinsics.State1 :=
  fun (state0, state1, msg, tmp, msg0, msg1, msg2, msg3, abef_save, cdgh_save) => do
    let abef_save : BitVec 128 := state0
    pure (state0, state1, msg, tmp, msg0, msg1, msg2, msg3, abef_save, cdgh_save)

/-- line 501 -/
def Engine.process_block_simd_x86_intrinsics.line1_1 (cfg : Cfg) (self : Source.Sha256.Engine) (MASK : BitVec 128) (block_offset : Nat) : Source.Sha256.Engine.process_block_simd_x86_intrinsics.State1 → Tr Source.Sha256.Engine.process_block_simd_x86_intrinsics.State1 :=
  fun (state0, state1, msg, tmp, msg0, msg1, msg2, msg3, abef_save, cdgh_save) => do
    let cdgh_save : BitVec 128 := state1
    pure (state0, state1, msg, tmp, msg0, msg1, msg2, msg3, abef_save, cdgh_save)

/-- line 504 -/
def Engine.process_block_simd_x86_intrinsics.line1_2 (cfg : Cfg) (self : Source.Sha256.Engine) (MASK : BitVec 128) (block_offset : Nat) : Source.Sha256.Engine.process_block_simd_x86_intrinsics.State1 → Tr Source.Sha256.Engine.process_block_simd_x86_intrinsics.State1 :=
  fun (state0, state1, msg, tmp, msg0, msg1, msg2, msg3, abef_save, cdgh_save) => do
    let msg ← Tr.loadu8 self.buffer block_offset
    pure (state0, state1, msg, tmp, msg0, msg1, msg2, msg3, abef_save, cdgh_save)

/-- line 505 -/
def Engine.process_block_simd_x86_intrinsics.line1_3 (cfg : Cfg) (self : Source.Sha256.Engine) (MASK : BitVec 128) (block_offset : Nat) : Source.Sha256.Engine.process_block_simd_x86_intrinsics.State1 → Tr Source.Sha256.Engine.process_block_simd_x86_intrinsics.State1 :=
  fun (state0, state1, msg, tmp, msg0, msg1, msg2, msg3, abef_save, cdgh_save) => do
    let msg0 : BitVec 128 := Sha256.Simd.mm_shuffle_epi8 msg MASK
    pure (state0, state1, msg, tmp, msg0, msg1, msg2, msg3, abef_save, cdgh_save)

/-- line 506 -/
def Engine.process_block_simd_x86_intrinsics.line1_4 (cfg : Cfg) (self : Source.Sha256.Engine) (MASK : BitVec 128) (block_offset : Nat) : Source.Sha256.Engine.process_block_simd_x86_intrinsics.State1 → Tr Source.Sha256.Engine.process_block_simd_x86_intrinsics.State1 :=
  fun (state0, state1, msg, tmp, msg0, msg1, msg2, msg3, abef_save, cdgh_save) => do
    let msg := Sha256.Simd.mm_add_epi32 msg0 (Sha256.Simd.mm_set_epi64x 0xE9B5DBA5B5C0FBCF#64 0x71374491428A2F98#64)
    pure (state0, state1, msg, tmp, msg0, msg1, msg2, msg3, abef_save, cdgh_save)

/-- line 510 -/
def Engine.process_block_simd_x86_intrinsics.line1_5 (cfg : Cfg) (self : Source.Sha256.Engine) (MASK : BitVec 128) (block_offset : Nat) : Source.Sha256.Engine.process_block_simd_x86_intrinsics.State1 → Tr Source.Sha256.Engine.process_block_simd_x86_intrinsics.State1 :=
  fun (state0, state1, msg, tmp, msg0, msg1, msg2, msg3, abef_save, cdgh_save) => do
    let state1 := Sha256.Simd.mm_sha256rnds2_epu32 state1 state0 msg
    pure (state0, state1, msg, tmp, msg0, msg1, msg2, msg3, abef_save, cdgh_save)

/-- line 511 -/
def Engine.process_block_simd_x86_intrinsics.line1_6 (cfg : Cfg) (self : Source.Sha256.Engine) (MASK : BitVec 128) (block_offset : Nat) : Source.Sha256.Engine.process_block_simd_x86_intrinsics.State1 → Tr Source.Sha256.Engine.process_block_simd_x86_intrinsics.State1 :=
  fun (state0, state1, msg, tmp, msg0, msg1, msg2, msg3, abef_save, cdgh_save) => do
    let msg := Sha256.Simd.mm_shuffle_epi32 msg 0x0E
    pure (state0, state1, msg, tmp, msg0, msg1, msg2, msg3, abef_save, cdgh_save)

/-- line 512 -/
def Engine.process_block_simd_x86_intrinsics.line1_7 (cfg : Cfg) (self : Source.Sha256.Engine) (MASK : BitVec 128) (block_offset : Nat) : Source.Sha256.Engine.process_block_simd_x86_intrinsics.State1 → Tr Source.Sha256.Engine.process_block_simd_x86_intrinsics.State1 :=
  fun (state0, state1, msg, tmp, msg0, msg1, msg2, msg3, abef_save, cdgh_save) => do
    let state0 := Sha256.Simd.mm_sha256rnds2_epu32 state0 state1 msg
    pure (state0, state1, msg, tmp, msg0, msg1, msg2, msg3, abef_save, cdgh_save)

/-- line 515 -/
def Engine.process_block_simd_x86_intrinsics.line1_8 (cfg : Cfg) (self : Source.Sha256.Engine) (MASK : BitVec 128) (block_offset : Nat) : Source.Sha256.Engine.process_block_simd_x86_intrinsics.State1 → Tr Source.Sha256.Engine.process_block_simd_x86_intrinsics.State1 :=
  fun (state0, state1, msg, tmp, msg0, msg1, msg2, msg3, abef_save, cdgh_save) => do
    let x_4 ← Tr.addUsize cfg block_offset 16
    let msg1 ← Tr.loadu8 self.buffer x_4
    pure (state0, state1, msg, tmp, msg0, msg1, msg2, msg3, abef_save, cdgh_save)

/-- line 516 -/
def Engine.process_block_simd_x86_intrinsics.line1_9 (cfg : Cfg) (self : Source.Sha256.Engine) (MASK : BitVec 128) (block_offset : Nat) : Source.Sha256.Engine.process_block_simd_x86_intrinsics.State1 → Tr Source.Sha256.Engine.process_block_simd_x86_intrinsics.State1 :=
  fun (state0, state1, msg, tmp, msg0, msg1, msg2, msg3, abef_save, cdgh_save) => do
    let msg1 := Sha256.Simd.mm_shuffle_epi8 msg1 MASK
    pure (state0, state1, msg, tmp, msg0, msg1, msg2, msg3, abef_save, cdgh_save)

/-- line 517 -/
def Engine.process_block_simd_x86_intrinsics.line1_10 (cfg : Cfg) (self : Source.Sha256.Engine) (MASK : BitVec 128) (block_offset : Nat) : Source.Sha256.Engine.process_block_simd_x86_intrinsics.State1 → Tr Source.Sha256.Engine.process_block_simd_x86_intrinsics.State1 :=
  fun (state0, state1, msg, tmp, msg0, msg1, msg2, msg3, abef_save, cdgh_save) => do
    let msg := Sha256.Simd.mm_add_epi32 msg1 (Sha256.Simd.mm_set_epi64x 0xAB1C5ED5923F82A4#64 0x59F111F13956C25B#64)
    pure (state0, state1, msg, tmp, msg0, msg1, msg2, msg3, abef_save, cdgh_save)

/-- line 521 -/
def Engine.process_block_simd_x86_intrinsics.line1_11 (cfg : Cfg) (self : Source.Sha256.Engine) (MASK : BitVec 128) (block_offset : Nat) : Source.Sha256.Engine.process_block_simd_x86_intrinsics.State1 → Tr Source.Sha256.Engine.process_block_simd_x86_intrinsics.State1 :=
  fun (state0, state1, msg, tmp, msg0, msg1, msg2, msg3, abef_save, cdgh_save) => do
    let state1 := Sha256.Simd.mm_sha256rnds2_epu32 state1 state0 msg
    pure (state0, state1, msg, tmp, msg0, msg1, msg2, msg3, abef_save, cdgh_save)

/-- line 522 -/
def Engine.process_block_simd_x86_intrinsics.line1_12 (cfg : Cfg) (self : Source.Sha256.Engine) (MASK : BitVec 128) (block_offset : Nat) : Source.Sha256.Engine.process_block_simd_x86_intrinsics.State1 → Tr Source.Sha256.Engine.process_block_simd_x86_intrinsics.State1 :=
  fun (state0, state1, msg, tmp, msg0, msg1, msg2, msg3, abef_save, cdgh_save) => do
    let msg := Sha256.Simd.mm_shuffle_epi32 msg 0x0E
    pure (state0, state1, msg, tmp, msg0, msg1, msg2, msg3, abef_save, cdgh_save)

/-- line 523 -/
def Engine.process_block_simd_x86_intrinsics.line1_13 (cfg : Cfg) (self : Source.Sha256.Engine) (MASK : BitVec 128) (block_offset : Nat) : Source.Sha256.Engine.process_block_simd_x86_intrinsics.State1 → Tr Source.Sha256.Engine.process_block_simd_x86_intrinsics.State1 :=
  fun (state0, state1, msg, tmp, msg0, msg1, msg2, msg3, abef_save, cdgh_save) => do
    let state0 := Sha256.Simd.mm_sha256rnds2_epu32 state0 state1 msg
    pure (state0, state1, msg, tmp, msg0, msg1, msg2, msg3, abef_save, cdgh_save)

/-- line 524 -/
def Engine.process_block_simd_x86_intrinsics.line1_14 (cfg : Cfg) (self : Source.Sha256.Engine) (MASK : BitVec 128) (block_offset : Nat) : Source.Sha256.Engine.process_block_simd_x86_intrinsics.State1 → Tr Source.Sha256.Engine.process_block_simd_x86_intrinsics.State1 :=
  fun (state0, state1, msg, tmp, msg0, msg1, msg2, msg3, abef_save, cdgh_save) => do
    let msg0 := Sha256.Simd.mm_sha256msg1_epu32 msg0 msg1
    pure (state0, state1, msg, tmp, msg0, msg1, msg2, msg3, abef_save, cdgh_save)

/-- line 527 -/
def Engine.process_block_simd_x86_intrinsics.line1_15 (cfg : Cfg) (self : Source.Sha256.Engine) (MASK : BitVec 128) (block_offset : Nat) : Source.Sha256.Engine.process_block_simd_x86_intrinsics.State1 → Tr Source.Sha256.Engine.process_block_simd_x86_intrinsics.State1 :=
  fun (state0, state1, msg, tmp, msg0, msg1, msg2, msg3, abef_save, cdgh_save) => do
    let x_6 ← Tr.addUsize cfg block_offset 32
    let msg2 ← Tr.loadu8 self.buffer x_6
    pure (state0, state1, msg, tmp, msg0, msg1, msg2, msg3, abef_save, cdgh_save)

/-- line 528 -/
def Engine.process_block_simd_x86_intrinsics.line1_16 (cfg : Cfg) (self : Source.Sha256.Engine) (MASK : BitVec 128) (block_offset : Nat) : Source.Sha256.Engine.process_block_simd_x86_intrinsics.State1 → Tr Source.Sha256.Engine.process_block_simd_x86_intrinsics.State1 :=
  fun (state0, state1, msg, tmp, msg0, msg1, msg2, msg3, abef_save, cdgh_save) => do
    let msg2 := Sha256.Simd.mm_shuffle_epi8 msg2 MASK
    pure (state0, state1, msg, tmp, msg0, msg1, msg2, msg3, abef_save, cdgh_save)

/-- line 529 -/
def Engine.process_block_simd_x86_intrinsics.line1_17 (cfg : Cfg) (self : Source.Sha256.Engine) (MASK : BitVec 128) (block_offset : Nat) : Source.Sha256.Engine.process_block_simd_x86_intrinsics.State1 → Tr Source.Sha256.Engine.process_block_simd_x86_intrinsics.State1 :=
  fun (state0, state1, msg, tmp, msg0, msg1, msg2, msg3, abef_save, cdgh_save) => do
    let msg := Sha256.Simd.mm_add_epi32 msg2 (Sha256.Simd.mm_set_epi64x 0x550C7DC3243185BE#64 0x12835B01D807AA98#64)
    pure (state0, state1, msg, tmp, msg0, msg1, msg2, msg3, abef_save, cdgh_save)

/-- line 533 -/
def Engine.process_block_simd_x86_intrinsics.line1_18 (cfg : Cfg) (self : Source.Sha256.Engine) (MASK : BitVec 128) (block_offset : Nat) : Source.Sha256.Engine.process_block_simd_x86_intrinsics.State1 → Tr Source.Sha256.Engine.process_block_simd_x86_intrinsics.State1 :=
  fun (state0, state1, msg, tmp, msg0, msg1, msg2, msg3, abef_save, cdgh_save) => do
    let state1 := Sha256.Simd.mm_sha256rnds2_epu32 state1 state0 msg
    pure (state0, state1, msg, tmp, msg0, msg1, msg2, msg3, abef_save, cdgh_save)

/-- line 534 -/
def Engine.process_block_simd_x86_intrinsics.line1_19 (cfg : Cfg) (self : Source.Sha256.Engine) (MASK : BitVec 128) (block_offset : Nat) : Source.Sha256.Engine.process_block_simd_x86_intrinsics.State1 → Tr Source.Sha256.Engine.process_block_simd_x86_intrinsics.State1 :=
  fun (state0, state1, msg, tmp, msg0, msg1, msg2, msg3, abef_save, cdgh_save) => do
    let msg := Sha256.Simd.mm_shuffle_epi32 msg 0x0E
    pure (state0, state1, msg, tmp, msg0, msg1, msg2, msg3, abef_save, cdgh_save)

/-- line 535 -/
def Engine.process_block_simd_x86_intrinsics.line1_20 (cfg : Cfg) (self : Source.Sha256.Engine) (MASK : BitVec 128) (block_offset : Nat) : Source.Sha256.Engine.process_block_simd_x86_intrinsics.State1 → Tr Source.Sha256.Engine.process_block_simd_x86_intrinsics.State1 :=
  fun (state0, state1, msg, tmp, msg0, msg1, msg2, msg3, abef_save, cdgh_save) => do
    let state0 := Sha256.Simd.mm_sha256rnds2_epu32 state0 state1 msg
    pure (state0, state1, msg, tmp, msg0, msg1, msg2, msg3, abef_save, cdgh_save)

/-- line 536 -/
def Engine.process_block_simd_x86_intrinsics.line1_21 (cfg : Cfg) (self : Source.Sha256.Engine) (MASK : BitVec 128) (block_offset : Nat) : Source.Sha256.Engine.process_block_simd_x86_intrinsics.State1 → Tr Source.Sha256.Engine.process_block_simd_x86_intrinsics.State1 :=
  fun (state0, state1, msg, tmp, msg0, msg1, msg2, msg3, abef_save, cdgh_save) => do
    let msg1 := Sha256.Simd.mm_sha256msg1_epu32 msg1 msg2
    pure (state0, state1, msg, tmp, msg0, msg1, msg2, msg3, abef_save, cdgh_save)

/-- line 539 -/
def Engine.process_block_simd_x86_intrinsics.line1_22 (cfg : Cfg) (self : Source.Sha256.Engine) (MASK : BitVec 128) (block_offset : Nat) : Source.Sha256.Engine.process_block_simd_x86_intrinsics.State1 → Tr Source.Sha256.Engine.process_block_simd_x86_intrinsics.State1 :=
  fun (state0, state1, msg, tmp, msg0, msg1, msg2, msg3, abef_save, cdgh_save) => do
    let x_8 ← Tr.addUsize cfg block_offset 48
    let msg3 ← Tr.loadu8 self.buffer x_8
    pure (state0, state1, msg, tmp, msg0, msg1, msg2, msg3, abef_save, cdgh_save)

/-- line 540 -/
def Engine.process_block_simd_x86_intrinsics.line1_23 (cfg : Cfg) (self : Source.Sha256.Engine) (MASK : BitVec 128) (block_offset : Nat) : Source.Sha256.Engine.process_block_simd_x86_intrinsics.State1 → Tr Source.Sha256.Engine.process_block_simd_x86_intrinsics.State1 :=
  fun (state0, state1, msg, tmp, msg0, msg1, msg2, msg3, abef_save, cdgh_save) => do
    let msg3 := Sha256.Simd.mm_shuffle_epi8 msg3 MASK
    pure (state0, state1, msg, tmp, msg0, msg1, msg2, msg3, abef_save, cdgh_save)

/-- line 541 -/
def Engine.process_block_simd_x86_intrinsics.line1_24 (cfg : Cfg) (self : Source.Sha256.Engine) (MASK : BitVec 128) (block_offset : Nat) : Source.Sha256.Engine.process_block_simd_x86_intrinsics.State1 → Tr Source.Sha256.Engine.process_block_simd_x86_intrinsics.State1 :=
  fun (state0, state1, msg, tmp, msg0, msg1, msg2, msg3, abef_save, cdgh_save) => do
    let msg := Sha256.Simd.mm_add_epi32 msg3 (Sha256.Simd.mm_set_epi64x 0xC19BF1749BDC06A7#64 0x80DEB1FE72BE5D74#64)
    pure (state0, state1, msg, tmp, msg0, msg1, msg2, msg3, abef_save, cdgh_save)

/-- line 545 -/
def Engine.process_block_simd_x86_intrinsics.line1_25 (cfg : Cfg) (self : Source.Sha256.Engine) (MASK : BitVec 128) (block_offset : Nat) : Source.Sha256.Engine.process_block_simd_x86_intrinsics.State1 → Tr Source.Sha256.Engine.process_block_simd_x86_intrinsics.State1 :=
  fun (state0, state1, msg, tmp, msg0, msg1, msg2, msg3, abef_save, cdgh_save) => do
    let state1 := Sha256.Simd.mm_sha256rnds2_epu32 state1 state0 msg
    pure (state0, state1, msg, tmp, msg0, msg1, msg2, msg3, abef_save, cdgh_save)

/-- line 546 -/
def Engine.process_block_simd_x86_intrinsics.line1_26 (cfg : Cfg) (self : Source.Sha256.Engine) (MASK : BitVec 128) (block_offset : Nat) : Source.Sha256.Engine.process_block_simd_x86_intrinsics.State1 → Tr Source.Sha256.Engine.process_block_simd_x86_intrinsics.State1 :=
  fun (state0, state1, msg, tmp, msg0, msg1, msg2, msg3, abef_save, cdgh_save) => do
    let tmp := Sha256.Simd.mm_alignr_epi8 msg3 msg2 4
    pure (state0, state1, msg, tmp, msg0, msg1, msg2, msg3, abef_save, cdgh_save)

/-- line 547 -/
def Engine.process_block_simd_x86_intrinsics.line1_27 (cfg : Cfg) (self : Source.Sha256.Engine) (MASK : BitVec 128) (block_offset : Nat) : Source.Sha256.Engine.process_block_simd_x86_intrinsics.State1 → Tr Source.Sha256.Engine.process_block_simd_x86_intrinsics.State1 :=
  fun (state0, state1, msg, tmp, msg0, msg1, msg2, msg3, abef_save, cdgh_save) => do
    let msg0 := Sha256.Simd.mm_add_epi32 msg0 tmp
    pure (state0, state1, msg, tmp, msg0, msg1, msg2, msg3, abef_save, cdgh_save)

/-- line 548 -/
def Engine.process_block_simd_x86_intrinsics.line1_28 (cfg : Cfg) (self : Source.Sha256.Engine) (MASK : BitVec 128) (block_offset : Nat) : Source.Sha256.Engine.process_block_simd_x86_intrinsics.State1 → Tr Source.Sha256.Engine.process_block_simd_x86_intrinsics.State1 :=
  fun (state0, state1, msg, tmp, msg0, msg1, msg2, msg3, abef_save, cdgh_save) => do
    let msg0 := Sha256.Simd.mm_sha256msg2_epu32 msg0 msg3
    pure (state0, state1, msg, tmp, msg0, msg1, msg2, msg3, abef_save, cdgh_save)

/-- line 549 -/
def Engine.process_block_simd_x86_intrinsics.line1_29 (cfg : Cfg) (self : Source.Sha256.Engine) (MASK : BitVec 128) (block_offset : Nat) : Source.Sha256.Engine.process_block_simd_x86_intrinsics.State1 → Tr Source.Sha256.Engine.process_block_simd_x86_intrinsics.State1 :=
  fun (state0, state1, msg, tmp, msg0, msg1, msg2, msg3, abef_save, cdgh_save) => do
    let msg := Sha256.Simd.mm_shuffle_epi32 msg 0x0E
    pure (state0, state1, msg, tmp, msg0, msg1, msg2, msg3, abef_save, cdgh_save)

/-- line 550 -/
def Engine.process_block_simd_x86_intrinsics.line1_30 (cfg : Cfg) (self : Source.Sha256.Engine) (MASK : BitVec 128) (block_offset : Nat) : Source.Sha256.Engine.process_block_simd_x86_intrinsics.State1 → Tr Source.Sha256.Engine.process_block_simd_x86_intrinsics.State1 :=
  fun (state0, state1, msg, tmp, msg0, msg1, msg2, msg3, abef_save, cdgh_save) => do
    let state0 := Sha256.Simd.mm_sha256rnds2_epu32 state0 state1 msg
    pure (state0, state1, msg, tmp, msg0, msg1, msg2, msg3, abef_save, cdgh_save)

/-- line 551 -/
def Engine.process_block_simd_x86_intrinsics.line1_31 (cfg : Cfg) (self : Source.Sha256.Engine) (MASK : BitVec 128) (block_offset : Nat) : Source.Sha256.Engine.process_block_simd_x86_intrinsics.State1 → Tr Source.Sha256.Engine.process_block_simd_x86_intrinsics.State1 :=
  fun (state0, state1, msg, tmp, msg0, msg1, msg2, msg3, abef_save, cdgh_save) => do
    let msg2 := Sha256.Simd.mm_sha256msg1_epu32 msg2 msg3
    pure (state0, state1, msg, tmp, msg0, msg1, msg2, msg3, abef_save, cdgh_save)

/-- line 554 -/
def Engine.process_block_simd_x86_intrinsics.line1_32 (cfg : Cfg) (self : Source.Sha256.Engine) (MASK : BitVec 128) (block_offset : Nat) : Source.Sha256.Engine.process_block_simd_x86_intrinsics.State1 → Tr Source.Sha256.Engine.process_block_simd_x86_intrinsics.State1 :=
  fun (state0, state1, msg, tmp, msg0, msg1, msg2, msg3, abef_save, cdgh_save) => do
    let msg := Sha256.Simd.mm_add_epi32 msg0 (Sha256.Simd.mm_set_epi64x 0x240CA1CC0FC19DC6#64 0xEFBE4786E49B69C1#64)
    pure (state0, state1, msg, tmp, msg0, msg1, msg2, msg3, abef_save, cdgh_save)

/-- line 558 -/
def Engine.process_block_simd_x86_intrinsics.line1_33 (cfg : Cfg) (self : Source.Sha256.Engine) (MASK : BitVec 128) (block_offset : Nat) : Source.Sha256.Engine.process_block_simd_x86_intrinsics.State1 → Tr Source.Sha256.Engine.process_block_simd_x86_intrinsics.State1 :=
  fun (state0, state1, msg, tmp, msg0, msg1, msg2, msg3, abef_save, cdgh_save) => do
    let state1 := Sha256.Simd.mm_sha256rnds2_epu32 state1 state0 msg
    pure (state0, state1, msg, tmp, msg0, msg1, msg2, msg3, abef_save, cdgh_save)

/-- line 559 -/
def Engine.process_block_simd_x86_intrinsics.line1_34 (cfg : Cfg) (self : Source.Sha256.Engine) (MASK : BitVec 128) (block_offset : Nat) : Source.Sha256.Engine.process_block_simd_x86_intrinsics.State1 → Tr Source.Sha256.Engine.process_block_simd_x86_intrinsics.State1 :=
  fun (state0, state1, msg, tmp, msg0, msg1, msg2, msg3, abef_save, cdgh_save) => do
    let tmp := Sha256.Simd.mm_alignr_epi8 msg0 msg3 4
    pure (state0, state1, msg, tmp, msg0, msg1, msg2, msg3, abef_save, cdgh_save)

/-- line 560 -/
def Engine.process_block_simd_x86_intrinsics.line1_35 (cfg : Cfg) (self : Source.Sha256.Engine) (MASK : BitVec 128) (block_offset : Nat) : Source.Sha256.Engine.process_block_simd_x86_intrinsics.State1 → Tr Source.Sha256.Engine.process_block_simd_x86_intrinsics.State1 :=
  fun (state0, state1, msg, tmp, msg0, msg1, msg2, msg3, abef_save, cdgh_save) => do
    let msg1 := Sha256.Simd.mm_add_epi32 msg1 tmp
    pure (state0, state1, msg, tmp, msg0, msg1, msg2, msg3, abef_save, cdgh_save)

/-- line 561 -/
def Engine.process_block_simd_x86_intrinsics.line1_36 (cfg : Cfg) (self : Source.Sha256.Engine) (MASK : BitVec 128) (block_offset : Nat) : Source.Sha256.Engine.process_block_simd_x86_intrinsics.State1 → Tr Source.Sha256.Engine.process_block_simd_x86_intrinsics.State1 :=
  fun (state0, state1, msg, tmp, msg0, msg1, msg2, msg3, abef_save, cdgh_save) => do
    let msg1 := Sha256.Simd.mm_sha256msg2_epu32 msg1 msg0
    pure (state0, state1, msg, tmp, msg0, msg1, msg2, msg3, abef_save, cdgh_save)

/-- line 562 -/
def Engine.process_block_simd_x86_intrinsics.line1_37 (cfg : Cfg) (self : Source.Sha256.Engine) (MASK : BitVec 128) (block_offset : Nat) : Source.Sha256.Engine.process_block_simd_x86_intrinsics.State1 → Tr Source.Sha256.Engine.process_block_simd_x86_intrinsics.State1 :=
  fun (state0, state1, msg, tmp, msg0, msg1, msg2, msg3, abef_save, cdgh_save) => do
    let msg := Sha256.Simd.mm_shuffle_epi32 msg 0x0E
    pure (state0, state1, msg, tmp, msg0, msg1, msg2, msg3, abef_save, cdgh_save)

/-- line 563 -/
def Engine.process_block_simd_x86_intrinsics.line1_38 (cfg : Cfg) (self : Source.Sha256.Engine) (MASK : BitVec 128) (block_offset : Nat) : Source.Sha256.Engine.process_block_simd_x86_intrinsics.State1 → Tr Source.Sha256.Engine.process_block_simd_x86_intrinsics.State1 :=
  fun (state0, state1, msg, tmp, msg0, msg1, msg2, msg3, abef_save, cdgh_save) => do
    let state0 := Sha256.Simd.mm_sha256rnds2_epu32 state0 state1 msg
    pure (state0, state1, msg, tmp, msg0, msg1, msg2, msg3, abef_save, cdgh_save)

/-- line 564 -/
def Engine.process_block_simd_x86_intrinsics.line1_39 (cfg : Cfg) (self : Source.Sha256.Engine) (MASK : BitVec 128) (block_offset : Nat) : Source.Sha256.Engine.process_block_simd_x86_intrinsics.State1 → Tr Source.Sha256.Engine.process_block_simd_x86_intrinsics.State1 :=
  fun (state0, state1, msg, tmp, msg0, msg1, msg2, msg3, abef_save, cdgh_save) => do
    let msg3 := Sha256.Simd.mm_sha256msg1_epu32 msg3 msg0
    pure (state0, state1, msg, tmp, msg0, msg1, msg2, msg3, abef_save, cdgh_save)

/-- line 567 -/
def Engine.process_block_simd_x86_intrinsics.line1_40 (cfg : Cfg) (self : Source.Sha256.Engine) (MASK : BitVec 128) (block_offset : Nat) : Source.Sha256.Engine.process_block_simd_x86_intrinsics.State1 → Tr Source.Sha256.Engine.process_block_simd_x86_intrinsics.State1 :=
  fun (state0, state1, msg, tmp, msg0, msg1, msg2, msg3, abef_save, cdgh_save) => do
    let msg := Sha256.Simd.mm_add_epi32 msg1 (Sha256.Simd.mm_set_epi64x 0x76F988DA5CB0A9DC#64 0x4A7484AA2DE92C6F#64)
    pure (state0, state1, msg, tmp, msg0, msg1, msg2, msg3, abef_save, cdgh_save)

/-- line 571 -/
def Engine.process_block_simd_x86_intrinsics.line1_41 (cfg : Cfg) (self : Source.Sha256.Engine) (MASK : BitVec 128) (block_offset : Nat) : Source.Sha256.Engine.process_block_simd_x86_intrinsics.State1 → Tr Source.Sha256.Engine.process_block_simd_x86_intrinsics.State1 :=
  fun (state0, state1, msg, tmp, msg0, msg1, msg2, msg3, abef_save, cdgh_save) => do
    let state1 := Sha256.Simd.mm_sha256rnds2_epu32 state1 state0 msg
    pure (state0, state1, msg, tmp, msg0, msg1, msg2, msg3, abef_save, cdgh_save)

/-- line 572 -/
def Engine.process_block_simd_x86_intrinsics.line1_42 (cfg : Cfg) (self : Source.Sha256.Engine) (MASK : BitVec 128) (block_offset : Nat) : Source.Sha256.Engine.process_block_simd_x86_intrinsics.State1 → Tr Source.Sha256.Engine.process_block_simd_x86_intrinsics.State1 :=
  fun (state0, state1, msg, tmp, msg0, msg1, msg2, msg3, abef_save, cdgh_save) => do
    let tmp := Sha256.Simd.mm_alignr_epi8 msg1 msg0 4
    pure (state0, state1, msg, tmp, msg0, msg1, msg2, msg3, abef_save, cdgh_save)

/-- line 573 -/
def Engine.process_block_simd_x86_intrinsics.line1_43 (cfg : Cfg) (self : Source.Sha256.Engine) (MASK : BitVec 128) (block_offset : Nat) : Source.Sha256.Engine.process_block_simd_x86_intrinsics.State1 → Tr Source.Sha256.Engine.process_block_simd_x86_intrinsics.State1 :=
  fun (state0, state1, msg, tmp, msg0, msg1, msg2, msg3, abef_save, cdgh_save) => do
    let msg2 := Sha256.Simd.mm_add_epi32 msg2 tmp
    pure (state0, state1, msg, tmp, msg0, msg1, msg2, msg3, abef_save, cdgh_save)

/-- line 574 -/
def Engine.process_block_simd_x86_intrinsics.line1_44 (cfg : Cfg) (self : Source.Sha256.Engine) (MASK : BitVec 128) (block_offset : Nat) : Source.Sha256.Engine.process_block_simd_x86_intrinsics.State1 → Tr Source.Sha256.Engine.process_block_simd_x86_intrinsics.State1 :=
  fun (state0, state1, msg, tmp, msg0, msg1, msg2, msg3, abef_save, cdgh_save) => do
    let msg2 := Sha256.Simd.mm_sha256msg2_epu32 msg2 msg1
    pure (state0, state1, msg, tmp, msg0, msg1, msg2, msg3, abef_save, cdgh_save)

/-- line 575 -/
def Engine.process_block_simd_x86_intrinsics.line1_45 (cfg : Cfg) (self : Source.Sha256.Engine) (MASK : BitVec 128) (block_offset : Nat) : Source.Sha256.Engine.process_block_simd_x86_intrinsics.State1 → Tr Source.Sha256.Engine.process_block_simd_x86_intrinsics.State1 :=
  fun (state0, state1, msg, tmp, msg0, msg1, msg2, msg3, abef_save, cdgh_save) => do
    let msg := Sha256.Simd.mm_shuffle_epi32 msg 0x0E
    pure (state0, state1, msg, tmp, msg0, msg1, msg2, msg3, abef_save, cdgh_save)

/-- line 576 -/
def Engine.process_block_simd_x86_intrinsics.line1_46 (cfg : Cfg) (self : Source.Sha256.Engine) (MASK : BitVec 128) (block_offset : Nat) : Source.Sha256.Engine.process_block_simd_x86_intrinsics.State1 → Tr Source.Sha256.Engine.process_block_simd_x86_intrinsics.State1 :=
  fun (state0, state1, msg, tmp, msg0, msg1, msg2, msg3, abef_save, cdgh_save) => do
    let state0 := Sha256.Simd.mm_sha256rnds2_epu32 state0 state1 msg
    pure (state0, state1, msg, tmp, msg0, msg1, msg2, msg3, abef_save, cdgh_save)

/-- line 577 -/
def Engine.process_block_simd_x86_intrinsics.line1_47 (cfg : Cfg) (self : Source.Sha256.Engine) (MASK : BitVec 128) (block_offset : Nat) : Source.Sha256.Engine.process_block_simd_x86_intrinsics.State1 → Tr Source.Sha256.Engine.process_block_simd_x86_intrinsics.State1 :=
  fun (state0, state1, msg, tmp, msg0, msg1, msg2, msg3, abef_save, cdgh_save) => do
    let msg0 := Sha256.Simd.mm_sha256msg1_epu32 msg0 msg1
    pure (state0, state1, msg, tmp, msg0, msg1, msg2, msg3, abef_save, cdgh_save)

/-- line 580 -/
def Engine.process_block_simd_x86_intrinsics.line1_48 (cfg : Cfg) (self : Source.Sha256.Engine) (MASK : BitVec 128) (block_offset : Nat) : Source.Sha256.Engine.process_block_simd_x86_intrinsics.State1 → Tr Source.Sha256.Engine.process_block_simd_x86_intrinsics.State1 :=
  fun (state0, state1, msg, tmp, msg0, msg1, msg2, msg3, abef_save, cdgh_save) => do
    let msg := Sha256.Simd.mm_add_epi32 msg2 (Sha256.Simd.mm_set_epi64x 0xBF597FC7B00327C8#64 0xA831C66D983E5152#64)
    pure (state0, state1, msg, tmp, msg0, msg1, msg2, msg3, abef_save, cdgh_save)

/-- line 584 -/
def Engine.process_block_simd_x86_intrinsics.line1_49 (cfg : Cfg) (self : Source.Sha256.Engine) (MASK : BitVec 128) (block_offset : Nat) : Source.Sha256.Engine.process_block_simd_x86_intrinsics.State1 → Tr Source.Sha256.Engine.process_block_simd_x86_intrinsics.State1 :=
  fun (state0, state1, msg, tmp, msg0, msg1, msg2, msg3, abef_save, cdgh_save) => do
    let state1 := Sha256.Simd.mm_sha256rnds2_epu32 state1 state0 msg
    pure (state0, state1, msg, tmp, msg0, msg1, msg2, msg3, abef_save, cdgh_save)

/-- line 585 -/
def Engine.process_block_simd_x86_intrinsics.line1_50 (cfg : Cfg) (self : Source.Sha256.Engine) (MASK : BitVec 128) (block_offset : Nat) : Source.Sha256.Engine.process_block_simd_x86_intrinsics.State1 → Tr Source.Sha256.Engine.process_block_simd_x86_intrinsics.State1 :=
  fun (state0, state1, msg, tmp, msg0, msg1, msg2, msg3, abef_save, cdgh_save) => do
    let tmp := Sha256.Simd.mm_alignr_epi8 msg2 msg1 4
    pure (state0, state1, msg, tmp, msg0, msg1, msg2, msg3, abef_save, cdgh_save)

/-- line 586 -/
def Engine.process_block_simd_x86_intrinsics.line1_51 (cfg : Cfg) (self : Source.Sha256.Engine) (MASK : BitVec 128) (block_offset : Nat) : Source.Sha256.Engine.process_block_simd_x86_intrinsics.State1 → Tr Source.Sha256.Engine.process_block_simd_x86_intrinsics.State1 :=
  fun (state0, state1, msg, tmp, msg0, msg1, msg2, msg3, abef_save, cdgh_save) => do
    let msg3 := Sha256.Simd.mm_add_epi32 msg3 tmp
    pure (state0, state1, msg, tmp, msg0, msg1, msg2, msg3, abef_save, cdgh_save)

/-- line 587 -/
def Engine.process_block_simd_x86_intrinsics.line1_52 (cfg : Cfg) (self : Source.Sha256.Engine) (MASK : BitVec 128) (block_offset : Nat) : Source.Sha256.Engine.process_block_simd_x86_intrinsics.State1 → Tr Source.Sha256.Engine.process_block_simd_x86_intrinsics.State1 :=
  fun (state0, state1, msg, tmp, msg0, msg1, msg2, msg3, abef_save, cdgh_save) => do
    let msg3 := Sha256.Simd.mm_sha256msg2_epu32 msg3 msg2
    pure (state0, state1, msg, tmp, msg0, msg1, msg2, msg3, abef_save, cdgh_save)

/-- line 588 -/
def Engine.process_block_simd_x86_intrinsics.line1_53 (cfg : Cfg) (self : Source.Sha256.Engine) (MASK : BitVec 128) (block_offset : Nat) : Source.Sha256.Engine.process_block_simd_x86_intrinsics.State1 → Tr Source.Sha256.Engine.process_block_simd_x86_intrinsics.State1 :=
  fun (state0, state1, msg, tmp, msg0, msg1, msg2, msg3, abef_save, cdgh_save) => do
    let msg := Sha256.Simd.mm_shuffle_epi32 msg 0x0E
    pure (state0, state1, msg, tmp, msg0, msg1, msg2, msg3, abef_save, cdgh_save)

/-- line 589 -/
def Engine.process_block_simd_x86_intrinsics.line1_54 (cfg : Cfg) (self : Source.Sha256.Engine) (MASK : BitVec 128) (block_offset : Nat) : Source.Sha256.Engine.process_block_simd_x86_intrinsics.State1 → Tr Source.Sha256.Engine.process_block_simd_x86_intrinsics.State1 :=
  fun (state0, state1, msg, tmp, msg0, msg1, msg2, msg3, abef_save, cdgh_save) => do
    let state0 := Sha256.Simd.mm_sha256rnds2_epu32 state0 state1 msg
    pure (state0, state1, msg, tmp, msg0, msg1, msg2, msg3, abef_save, cdgh_save)

/-- line 590 -/
def Engine.process_block_simd_x86_intrinsics.line1_55 (cfg : Cfg) (self : Source.Sha256.Engine) (MASK : BitVec 128) (block_offset : Nat) : Source.Sha256.Engine.process_block_simd_x86_intrinsics.State1 → Tr Source.Sha256.Engine.process_block_simd_x86_intrinsics.State1 :=
  fun (state0, state1, msg, tmp, msg0, msg1, msg2, msg3, abef_save, cdgh_save) => do
    let msg1 := Sha256.Simd.mm_sha256msg1_epu32 msg1 msg2
    pure (state0, state1, msg, tmp, msg0, msg1, msg2, msg3, abef_save, cdgh_save)

/-- line 593 -/
def Engine.process_block_simd_x86_intrinsics.line1_56 (cfg : Cfg) (self : Source.Sha256.Engine) (MASK : BitVec 128) (block_offset : Nat) : Source.Sha256.Engine.process_block_simd_x86_intrinsics.State1 → Tr Source.Sha256.Engine.process_block_simd_x86_intrinsics.State1 :=
  fun (state0, state1, msg, tmp, msg0, msg1, msg2, msg3, abef_save, cdgh_save) => do
    let msg := Sha256.Simd.mm_add_epi32 msg3 (Sha256.Simd.mm_set_epi64x 0x1429296706CA6351#64 0xD5A79147C6E00BF3#64)
    pure (state0, state1, msg, tmp, msg0, msg1, msg2, msg3, abef_save, cdgh_save)

/-- line 597 -/
def Engine.process_block_simd_x86_intrinsics.line1_57 (cfg : Cfg) (self : Source.Sha256.Engine) (MASK : BitVec 128) (block_offset : Nat) : Source.Sha256.Engine.process_block_simd_x86_intrinsics.State1 → Tr Source.Sha256.Engine.process_block_simd_x86_intrinsics.State1 :=
  fun (state0, state1, msg, tmp, msg0, msg1, msg2, msg3, abef_save, cdgh_save) => do
    let state1 := Sha256.Simd.mm_sha256rnds2_epu32 state1 state0 msg
    pure (state0, state1, msg, tmp, msg0, msg1, msg2, msg3, abef_save, cdgh_save)

/-- line 598 -/
def Engine.process_block_simd_x86_intrinsics.line1_58 (cfg : Cfg) (self : Source.Sha256.Engine) (MASK : BitVec 128) (block_offset : Nat) : Source.Sha256.Engine.process_block_simd_x86_intrinsics.State1 → Tr Source.Sha256.Engine.process_block_simd_x86_intrinsics.State1 :=
  fun (state0, state1, msg, tmp, msg0, msg1, msg2, msg3, abef_save, cdgh_save) => do
    let tmp := Sha256.Simd.mm_alignr_epi8 msg3 msg2 4
    pure (state0, state1, msg, tmp, msg0, msg1, msg2, msg3, abef_save, cdgh_save)

/-- line 599 -/
def Engine.process_block_simd_x86_intrinsics.line1_59 (cfg : Cfg) (self : Source.Sha256.Engine) (MASK : BitVec 128) (block_offset : Nat) : Source.Sha256.Engine.process_block_simd_x86_intrinsics.State1 → Tr Source.Sha256.Engine.process_block_simd_x86_intrinsics.State1 :=
  fun (state0, state1, msg, tmp, msg0, msg1, msg2, msg3, abef_save, cdgh_save) => do
    let msg0 := Sha256.Simd.mm_add_epi32 msg0 tmp
    pure (state0, state1, msg, tmp, msg0, msg1, msg2, msg3, abef_save, cdgh_save)

/-- line 600 -/
def Engine.process_block_simd_x86_intrinsics.line1_60 (cfg : Cfg) (self : Source.Sha256.Engine) (MASK : BitVec 128) (block_offset : Nat) : Source.Sha256.Engine.process_block_simd_x86_intrinsics.State1 → Tr Source.Sha256.Engine.process_block_simd_x86_intrinsics.State1 :=
  fun (state0, state1, msg, tmp, msg0, msg1, msg2, msg3, abef_save, cdgh_save) => do
    let msg0 := Sha256.Simd.mm_sha256msg2_epu32 msg0 msg3
    pure (state0, state1, msg, tmp, msg0, msg1, msg2, msg3, abef_save, cdgh_save)

/-- line 601 -/
def Engine.process_block_simd_x86_intrinsics.line1_61 (cfg : Cfg) (self : Source.Sha256.Engine) (MASK : BitVec 128) (block_offset : Nat) : Source.Sha256.Engine.process_block_simd_x86_intrinsics.State1 → Tr Source.Sha256.Engine.process_block_simd_x86_intrinsics.State1 :=
  fun (state0, state1, msg, tmp, msg0, msg1, msg2, msg3, abef_save, cdgh_save) => do
    let msg := Sha256.Simd.mm_shuffle_epi32 msg 0x0E
    pure (state0, state1, msg, tmp, msg0, msg1, msg2, msg3, abef_save, cdgh_save)

/-- line 602 -/
def Engine.process_block_simd_x86_intrinsics.line1_62 (cfg : Cfg) (self : Source.Sha256.Engine) (MASK : BitVec 128) (block_offset : Nat) : Source.Sha256.Engine.process_block_simd_x86_intrinsics.State1 → Tr Source.Sha256.Engine.process_block_simd_x86_intrinsics.State1 :=
  fun (state0, state1, msg, tmp, msg0, msg1, msg2, msg3, abef_save, cdgh_save) => do
    let state0 := Sha256.Simd.mm_sha256rnds2_epu32 state0 state1 msg
    pure (state0, state1, msg, tmp, msg0, msg1, msg2, msg3, abef_save, cdgh_save)

/-- line 603 -/
def Engine.process_block_simd_x86_intrinsics.line1_63 (cfg : Cfg) (self : Source.Sha256.Engine) (MASK : BitVec 128) (block_offset : Nat) : Source.Sha256.Engine.process_block_simd_x86_intrinsics.State1 → Tr Source.Sha256.Engine.process_block_simd_x86_intrinsics.State1 :=
  fun (state0, state1, msg, tmp, msg0, msg1, msg2, msg3, abef_save, cdgh_save) => do
    let msg2 := Sha256.Simd.mm_sha256msg1_epu32 msg2 msg3
    pure (state0, state1, msg, tmp, msg0, msg1, msg2, msg3, abef_save, cdgh_save)

/-- line 606 -/
def Engine.process_block_simd_x86_intrinsics.line1_64 (cfg : Cfg) (self : Source.Sha256.Engine) (MASK : BitVec 128) (block_offset : Nat) : Source.Sha256.Engine.process_block_simd_x86_intrinsics.State1 → Tr Source.Sha256.Engine.process_block_simd_x86_intrinsics.State1 :=
  fun (state0, state1, msg, tmp, msg0, msg1, msg2, msg3, abef_save, cdgh_save) => do
    let msg := Sha256.Simd.mm_add_epi32 msg0 (Sha256.Simd.mm_set_epi64x 0x53380D134D2C6DFC#64 0x2E1B213827B70A85#64)
    pure (state0, state1, msg, tmp, msg0, msg1, msg2, msg3, abef_save, cdgh_save)

/-- line 610 -/
def Engine.process_block_simd_x86_intrinsics.line1_65 (cfg : Cfg) (self : Source.Sha256.Engine) (MASK : BitVec 128) (block_offset : Nat) : Source.Sha256.Engine.process_block_simd_x86_intrinsics.State1 → Tr Source.Sha256.Engine.process_block_simd_x86_intrinsics.State1 :=
  fun (state0, state1, msg, tmp, msg0, msg1, msg2, msg3, abef_save, cdgh_save) => do
    let state1 := Sha256.Simd.mm_sha256rnds2_epu32 state1 state0 msg
    pure (state0, state1, msg, tmp, msg0, msg1, msg2, msg3, abef_save, cdgh_save)

/-- line 611 -/
def Engine.process_block_simd_x86_intrinsics.line1_66 (cfg : Cfg) (self : Source.Sha256.Engine) (MASK : BitVec 128) (block_offset : Nat) : Source.Sha256.Engine.process_block_simd_x86_intrinsics.State1 → Tr Source.Sha256.Engine.process_block_simd_x86_intrinsics.State1 :=
  fun (state0, state1, msg, tmp, msg0, msg1, msg2, msg3, abef_save, cdgh_save) => do
    let tmp := Sha256.Simd.mm_alignr_epi8 msg0 msg3 4
    pure (state0, state1, msg, tmp, msg0, msg1, msg2, msg3, abef_save, cdgh_save)

/-- line 612 -/
def Engine.process_block_simd_x86_intrinsics.line1_67 (cfg : Cfg) (self : Source.Sha256.Engine) (MASK : BitVec 128) (block_offset : Nat) : Source.Sha256.Engine.process_block_simd_x86_intrinsics.State1 → Tr Source.Sha256.Engine.process_block_simd_x86_intrinsics.State1 :=
  fun (state0, state1, msg, tmp, msg0, msg1, msg2, msg3, abef_save, cdgh_save) => do
    let msg1 := Sha256.Simd.mm_add_epi32 msg1 tmp
    pure (state0, state1, msg, tmp, msg0, msg1, msg2, msg3, abef_save, cdgh_save)

/-- line 613 -/
def Engine.process_block_simd_x86_intrinsics.line1_68 (cfg : Cfg) (self : Source.Sha256.Engine) (MASK : BitVec 128) (block_offset : Nat) : Source.Sha256.Engine.process_block_simd_x86_intrinsics.State1 → Tr Source.Sha256.Engine.process_block_simd_x86_intrinsics.State1 :=
  fun (state0, state1, msg, tmp, msg0, msg1, msg2, msg3, abef_save, cdgh_save) => do
    let msg1 := Sha256.Simd.mm_sha256msg2_epu32 msg1 msg0
    pure (state0, state1, msg, tmp, msg0, msg1, msg2, msg3, abef_save, cdgh_save)

/-- line 614 -/
def Engine.process_block_simd_x86_intrinsics.line1_69 (cfg : Cfg) (self : Source.Sha256.Engine) (MASK : BitVec 128) (block_offset : Nat) : Source.Sha256.Engine.process_block_simd_x86_intrinsics.State1 → Tr Source.Sha256.Engine.process_block_simd_x86_intrinsics.State1 :=
  fun (state0, state1, msg, tmp, msg0, msg1, msg2, msg3, abef_save, cdgh_save) => do
    let msg := Sha256.Simd.mm_shuffle_epi32 msg 0x0E
    pure (state0, state1, msg, tmp, msg0, msg1, msg2, msg3, abef_save, cdgh_save)

/-- line 615 -/
def Engine.process_block_simd_x86_intrinsics.line1_70 (cfg : Cfg) (self : Source.Sha256.Engine) (MASK : BitVec 128) (block_offset : Nat) : Source.Sha256.Engine.process_block_simd_x86_intrinsics.State1 → Tr Source.Sha256.Engine.process_block_simd_x86_intrinsics.State1 :=
  fun (state0, state1, msg, tmp, msg0, msg1, msg2, msg3, abef_save, cdgh_save) => do
    let state0 := Sha256.Simd.mm_sha256rnds2_epu32 state0 state1 msg
    pure (state0, state1, msg, tmp, msg0, msg1, msg2, msg3, abef_save, cdgh_save)

/-- line 616 -/
def Engine.process_block_simd_x86_intrinsics.line1_71 (cfg : Cfg) (self : Source.Sha256.Engine) (MASK : BitVec 128) (block_offset : Nat) : Source.Sha256.Engine.process_block_simd_x86_intrinsics.State1 → Tr Source.Sha256.Engine.process_block_simd_x86_intrinsics.State1 :=
  fun (state0, state1, msg, tmp, msg0, msg1, msg2, msg3, abef_save, cdgh_save) => do
    let msg3 := Sha256.Simd.mm_sha256msg1_epu32 msg3 msg0
    pure (state0, state1, msg, tmp, msg0, msg1, msg2, msg3, abef_save, cdgh_save)

/-- line 619 -/
def Engine.process_block_simd_x86_intrinsics.line1_72 (cfg : Cfg) (self : Source.Sha256.Engine) (MASK : BitVec 128) (block_offset : Nat) : Source.Sha256.Engine.process_block_simd_x86_intrinsics.State1 → Tr Source.Sha256.Engine.process_block_simd_x86_intrinsics.State1 :=
  fun (state0, state1, msg, tmp, msg0, msg1, msg2, msg3, abef_save, cdgh_save) => do
    let msg := Sha256.Simd.mm_add_epi32 msg1 (Sha256.Simd.mm_set_epi64x 0x92722C8581C2C92E#64 0x766A0ABB650A7354#64)
    pure (state0, state1, msg, tmp, msg0, msg1, msg2, msg3, abef_save, cdgh_save)

/-- line 623 -/
def Engine.process_block_simd_x86_intrinsics.line1_73 (cfg : Cfg) (self : Source.Sha256.Engine) (MASK : BitVec 128) (block_offset : Nat) : Source.Sha256.Engine.process_block_simd_x86_intrinsics.State1 → Tr Source.Sha256.Engine.process_block_simd_x86_intrinsics.State1 :=
  fun (state0, state1, msg, tmp, msg0, msg1, msg2, msg3, abef_save, cdgh_save) => do
    let state1 := Sha256.Simd.mm_sha256rnds2_epu32 state1 state0 msg
    pure (state0, state1, msg, tmp, msg0, msg1, msg2, msg3, abef_save, cdgh_save)

/-- line 624 -/
def Engine.process_block_simd_x86_intrinsics.line1_74 (cfg : Cfg) (self : Source.Sha256.Engine) (MASK : BitVec 128) (block_offset : Nat) : Source.Sha256.Engine.process_block_simd_x86_intrinsics.State1 → Tr Source.Sha256.Engine.process_block_simd_x86_intrinsics.State1 :=
  fun (state0, state1, msg, tmp, msg0, msg1, msg2, msg3, abef_save, cdgh_save) => do
    let tmp := Sha256.Simd.mm_alignr_epi8 msg1 msg0 4
    pure (state0, state1, msg, tmp, msg0, msg1, msg2, msg3, abef_save, cdgh_save)

/-- line 625 -/
def Engine.process_block_simd_x86_intrinsics.line1_75 (cfg : Cfg) (self : Source.Sha256.Engine) (MASK : BitVec 128) (block_offset : Nat) : Source.Sha256.Engine.process_block_simd_x86_intrinsics.State1 → Tr Source.Sha256.Engine.process_block_simd_x86_intrinsics.State1 :=
  fun (state0, state1, msg, tmp, msg0, msg1, msg2, msg3, abef_save, cdgh_save) => do
    let msg2 := Sha256.Simd.mm_add_epi32 msg2 tmp
    pure (state0, state1, msg, tmp, msg0, msg1, msg2, msg3, abef_save, cdgh_save)

/-- line 626 -/
def Engine.process_block_simd_x86_intrinsics.line1_76 (cfg : Cfg) (self : Source.Sha256.Engine) (MASK : BitVec 128) (block_offset : Nat) : Source.Sha256.Engine.process_block_simd_x86_intrinsics.State1 → Tr Source.Sha256.Engine.process_block_simd_x86_intrinsics.State1 :=
  fun (state0, state1, msg, tmp, msg0, msg1, msg2, msg3, abef_save, cdgh_save) => do
    let msg2 := Sha256.Simd.mm_sha256msg2_epu32 msg2 msg1
    pure (state0, state1, msg, tmp, msg0, msg1, msg2, msg3, abef_save, cdgh_save)

/-- line 627 -/
def Engine.process_block_simd_x86_intrinsics.line1_77 (cfg : Cfg) (self : Source.Sha256.Engine) (MASK : BitVec 128) (block_offset : Nat) : Source.Sha256.Engine.process_block_simd_x86_intrinsics.State1 → Tr Source.Sha256.Engine.process_block_simd_x86_intrinsics.State1 :=
  fun (state0, state1, msg, tmp, msg0, msg1, msg2, msg3, abef_save, cdgh_save) => do
    let msg := Sha256.Simd.mm_shuffle_epi32 msg 0x0E
    pure (state0, state1, msg, tmp, msg0, msg1, msg2, msg3, abef_save, cdgh_save)

/-- line 628 -/
def Engine.process_block_simd_x86_intrinsics.line1_78 (cfg : Cfg) (self : Source.Sha256.Engine) (MASK : BitVec 128) (block_offset : Nat) : Source.Sha256.Engine.process_block_simd_x86_intrinsics.State1 → Tr Source.Sha256.Engine.process_block_simd_x86_intrinsics.State1 :=
  fun (state0, state1, msg, tmp, msg0, msg1, msg2, msg3, abef_save, cdgh_save) => do
    let state0 := Sha256.Simd.mm_sha256rnds2_epu32 state0 state1 msg
    pure (state0, state1, msg, tmp, msg0, msg1, msg2, msg3, abef_save, cdgh_save)

/-- line 629 -/
def Engine.process_block_simd_x86_intrinsics.line1_79 (cfg : Cfg) (self : Source.Sha256.Engine) (MASK : BitVec 128) (block_offset : Nat) : Source.Sha256.Engine.process_block_simd_x86_intrinsics.State1 → Tr Source.Sha256.Engine.process_block_simd_x86_intrinsics.State1 :=
  fun (state0, state1, msg, tmp, msg0, msg1, msg2, msg3, abef_save, cdgh_save) => do
    let msg0 := Sha256.Simd.mm_sha256msg1_epu32 msg0 msg1
    pure (state0, state1, msg, tmp, msg0, msg1, msg2, msg3, abef_save, cdgh_save)

/-- line 632 -/
def Engine.process_block_simd_x86_intrinsics.line1_80 (cfg : Cfg) (self : Source.Sha256.Engine) (MASK : BitVec 128) (block_offset : Nat) : Source.Sha256.Engine.process_block_simd_x86_intrinsics.State1 → Tr Source.Sha256.Engine.process_block_simd_x86_intrinsics.State1 :=
  fun (state0, state1, msg, tmp, msg0, msg1, msg2, msg3, abef_save, cdgh_save) => do
    let msg := Sha256.Simd.mm_add_epi32 msg2 (Sha256.Simd.mm_set_epi64x 0xC76C51A3C24B8B70#64 0xA81A664BA2BFE8A1#64)
    pure (state0, state1, msg, tmp, msg0, msg1, msg2, msg3, abef_save, cdgh_save)

/-- line 636 -/
def Engine.process_block_simd_x86_intrinsics.line1_81 (cfg : Cfg) (self : Source.Sha256.Engine) (MASK : BitVec 128) (block_offset : Nat) : Source.Sha256.Engine.process_block_simd_x86_intrinsics.State1 → Tr Source.Sha256.Engine.process_block_simd_x86_intrinsics.State1 :=
  fun (state0, state1, msg, tmp, msg0, msg1, msg2, msg3, abef_save, cdgh_save) => do
    let state1 := Sha256.Simd.mm_sha256rnds2_epu32 state1 state0 msg
    pure (state0, state1, msg, tmp, msg0, msg1, msg2, msg3, abef_save, cdgh_save)

/-- line 637 -/
def Engine.process_block_simd_x86_intrinsics.line1_82 (cfg : Cfg) (self : Source.Sha256.Engine) (MASK : BitVec 128) (block_offset : Nat) : Source.Sha256.Engine.process_block_simd_x86_intrinsics.State1 → Tr Source.Sha256.Engine.process_block_simd_x86_intrinsics.State1 :=
  fun (state0, state1, msg, tmp, msg0, msg1, msg2, msg3, abef_save, cdgh_save) => do
    let tmp := Sha256.Simd.mm_alignr_epi8 msg2 msg1 4
    pure (state0, state1, msg, tmp, msg0, msg1, msg2, msg3, abef_save, cdgh_save)

/-- line 638 -/
def Engine.process_block_simd_x86_intrinsics.line1_83 (cfg : Cfg) (self : Source.Sha256.Engine) (MASK : BitVec 128) (block_offset : Nat) : Source.Sha256.Engine.process_block_simd_x86_intrinsics.State1 → Tr Source.Sha256.Engine.process_block_simd_x86_intrinsics.State1 :=
  fun (state0, state1, msg, tmp, msg0, msg1, msg2, msg3, abef_save, cdgh_save) => do
    let msg3 := Sha256.Simd.mm_add_epi32 msg3 tmp
    pure (state0, state1, msg, tmp, msg0, msg1, msg2, msg3, abef_save, cdgh_save)

/-- line 639 -/
def Engine.process_block_simd_x86_intrinsics.line1_84 (cfg : Cfg) (self : Source.Sha256.Engine) (MASK : BitVec 128) (block_offset : Nat) : Source.Sha256.Engine.process_block_simd_x86_intrinsics.State1 → Tr Source.Sha256.Engine.process_block_simd_x86_intrinsics.State1 :=
  fun (state0, state1, msg, tmp, msg0, msg1, msg2, msg3, abef_save, cdgh_save) => do
    let msg3 := Sha256.Simd.mm_sha256msg2_epu32 msg3 msg2
    pure (state0, state1, msg, tmp, msg0, msg1, msg2, msg3, abef_save, cdgh_save)

/-- line 640 -/
def Engine.process_block_simd_x86_intrinsics.line1_85 (cfg : Cfg) (self : Source.Sha256.Engine) (MASK : BitVec 128) (block_offset : Nat) : Source.Sha256.Engine.process_block_simd_x86_intrinsics.State1 → Tr Source.Sha256.Engine.process_block_simd_x86_intrinsics.State1 :=
  fun (state0, state1, msg, tmp, msg0, msg1, msg2, msg3, abef_save, cdgh_save) => do
    let msg := Sha256.Simd.mm_shuffle_epi32 msg 0x0E
    pure (state0, state1, msg, tmp, msg0, msg1, msg2, msg3, abef_save, cdgh_save)

/-- line 641 -/
def Engine.process_block_simd_x86_intrinsics.line1_86 (cfg : Cfg) (self : Source.Sha256.Engine) (MASK : BitVec 128) (block_offset : Nat) : Source.Sha256.Engine.process_block_simd_x86_intrinsics.State1 → Tr Source.Sha256.Engine.process_block_simd_x86_intrinsics.State1 :=
  fun (state0, state1, msg, tmp, msg0, msg1, msg2, msg3, abef_save, cdgh_save) => do
    let state0 := Sha256.Simd.mm_sha256rnds2_epu32 state0 state1 msg
    pure (state0, state1, msg, tmp, msg0, msg1, msg2, msg3, abef_save, cdgh_save)

/-- line 642 -/
def Engine.process_block_simd_x86_intrinsics.line1_87 (cfg : Cfg) (self : Source.Sha256.Engine) (MASK : BitVec 128) (block_offset : Nat) : Source.Sha256.Engine.process_block_simd_x86_intrinsics.State1 → Tr Source.Sha256.Engine.process_block_simd_x86_intrinsics.State1 :=
  fun (state0, state1, msg, tmp, msg0, msg1, msg2, msg3, abef_save, cdgh_save) => do
    let msg1 := Sha256.Simd.mm_sha256msg1_epu32 msg1 msg2
    pure (state0, state1, msg, tmp, msg0, msg1, msg2, msg3, abef_save, cdgh_save)

/-- line 645 -/
def Engine.process_block_simd_x86_intrinsics.line1_88 (cfg : Cfg) (self : Source.Sha256.Engine) (MASK : BitVec 128) (block_offset : Nat) : Source.Sha256.Engine.process_block_simd_x86_intrinsics.State1 → Tr Source.Sha256.Engine.process_block_simd_x86_intrinsics.State1 :=
  fun (state0, state1, msg, tmp, msg0, msg1, msg2, msg3, abef_save, cdgh_save) => do
    let msg := Sha256.Simd.mm_add_epi32 msg3 (Sha256.Simd.mm_set_epi64x 0x106AA070F40E3585#64 0xD6990624D192E819#64)
    pure (state0, state1, msg, tmp, msg0, msg1, msg2, msg3, abef_save, cdgh_save)

/-- line 649 -/
def Engine.process_block_simd_x86_intrinsics.line1_89 (cfg : Cfg) (self : Source.Sha256.Engine) (MASK : BitVec 128) (block_offset : Nat) : Source.Sha256.Engine.process_block_simd_x86_intrinsics.State1 → Tr Source.Sha256.Engine.process_block_simd_x86_intrinsics.State1 :=
  fun (state0, state1, msg, tmp, msg0, msg1, msg2, msg3, abef_save, cdgh_save) => do
    let state1 := Sha256.Simd.mm_sha256rnds2_epu32 state1 state0 msg
    pure (state0, state1, msg, tmp, msg0, msg1, msg2, msg3, abef_save, cdgh_save)

/-- line 650 -/
def Engine.process_block_simd_x86_intrinsics.line1_90 (cfg : Cfg) (self : Source.Sha256.Engine) (MASK : BitVec 128) (block_offset : Nat) : Source.Sha256.Engine.process_block_simd_x86_intrinsics.State1 → Tr Source.Sha256.Engine.process_block_simd_x86_intrinsics.State1 :=
  fun (state0, state1, msg, tmp, msg0, msg1, msg2, msg3, abef_save, cdgh_save) => do
    let tmp := Sha256.Simd.mm_alignr_epi8 msg3 msg2 4
    pure (state0, state1, msg, tmp, msg0, msg1, msg2, msg3, abef_save, cdgh_save)

/-- line 651 -/
def Engine.process_block_simd_x86_intrinsics.line1_91 (cfg : Cfg) (self : Source.Sha256.Engine) (MASK : BitVec 128) (block_offset : Nat) : Source.Sha256.Engine.process_block_simd_x86_intrinsics.State1 → Tr Source.Sha256.Engine.process_block_simd_x86_intrinsics.State1 :=
  fun (state0, state1, msg, tmp, msg0, msg1, msg2, msg3, abef_save, cdgh_save) => do
    let msg0 := Sha256.Simd.mm_add_epi32 msg0 tmp
    pure (state0, state1, msg, tmp, msg0, msg1, msg2, msg3, abef_save, cdgh_save)

/-- line 652 -/
def Engine.process_block_simd_x86_intrinsics.line1_92 (cfg : Cfg) (self : Source.Sha256.Engine) (MASK : BitVec 128) (block_offset : Nat) : Source.Sha256.Engine.process_block_simd_x86_intrinsics.State1 → Tr Source.Sha256.Engine.process_block_simd_x86_intrinsics.State1 :=
  fun (state0, state1, msg, tmp, msg0, msg1, msg2, msg3, abef_save, cdgh_save) => do
    let msg0 := Sha256.Simd.mm_sha256msg2_epu32 msg0 msg3
    pure (state0, state1, msg, tmp, msg0, msg1, msg2, msg3, abef_save, cdgh_save)

/-- line 653 -/
def Engine.process_block_simd_x86_intrinsics.line1_93 (cfg : Cfg) (self : Source.Sha256.Engine) (MASK : BitVec 128) (block_offset : Nat) : Source.Sha256.Engine.process_block_simd_x86_intrinsics.State1 → Tr Source.Sha256.Engine.process_block_simd_x86_intrinsics.State1 :=
  fun (state0, state1, msg, tmp, msg0, msg1, msg2, msg3, abef_save, cdgh_save) => do
    let msg := Sha256.Simd.mm_shuffle_epi32 msg 0x0E
    pure (state0, state1, msg, tmp, msg0, msg1, msg2, msg3, abef_save, cdgh_save)

/-- line 654 -/
def Engine.process_block_simd_x86_intrinsics.line1_94 (cfg : Cfg) (self : Source.Sha256.Engine) (MASK : BitVec 128) (block_offset : Nat) : Source.Sha256.Engine.process_block_simd_x86_intrinsics.State1 → Tr Source.Sha256.Engine.process_block_simd_x86_intrinsics.State1 :=
  fun (state0, state1, msg, tmp, msg0, msg1, msg2, msg3, abef_save, cdgh_save) => do
    let state0 := Sha256.Simd.mm_sha256rnds2_epu32 state0 state1 msg
    pure (state0, state1, msg, tmp, msg0, msg1, msg2, msg3, abef_save, cdgh_save)

/-- line 655 -/
def Engine.process_block_simd_x86_intrinsics.line1_95 (cfg : Cfg) (self : Source.Sha256.Engine) (MASK : BitVec 128) (block_offset : Nat) : Source.Sha256.Engine.process_block_simd_x86_intrinsics.State1 → Tr Source.Sha256.Engine.process_block_simd_x86_intrinsics.State1 :=
  fun (state0, state1, msg, tmp, msg0, msg1, msg2, msg3, abef_save, cdgh_save) => do
    let msg2 := Sha256.Simd.mm_sha256msg1_epu32 msg2 msg3
    pure (state0, state1, msg, tmp, msg0, msg1, msg2, msg3, abef_save, cdgh_save)

/-- line 658 -/
def Engine.process_block_simd_x86_intrinsics.line1_96 (cfg : Cfg) (self : Source.Sha256.Engine) (MASK : BitVec 128) (block_offset : Nat) : Source.Sha256.Engine.process_block_simd_x86_intrinsics.State1 → Tr Source.Sha256.Engine.process_block_simd_x86_intrinsics.State1 :=
  fun (state0, state1, msg, tmp, msg0, msg1, msg2, msg3, abef_save, cdgh_save) => do
    let msg := Sha256.Simd.mm_add_epi32 msg0 (Sha256.Simd.mm_set_epi64x 0x34B0BCB52748774C#64 0x1E376C0819A4C116#64)
    pure (state0, state1, msg, tmp, msg0, msg1, msg2, msg3, abef_save, cdgh_save)

/-- line 662 -/
def Engine.process_block_simd_x86_intrinsics.line1_97 (cfg : Cfg) (self : Source.Sha256.Engine) (MASK : BitVec 128) (block_offset : Nat) : Source.Sha256.Engine.process_block_simd_x86_intrinsics.State1 → Tr Source.Sha256.Engine.process_block_simd_x86_intrinsics.State1 :=
  fun (state0, state1, msg, tmp, msg0, msg1, msg2, msg3, abef_save, cdgh_save) => do
    let state1 := Sha256.Simd.mm_sha256rnds2_epu32 state1 state0 msg
    pure (state0, state1, msg, tmp, msg0, msg1, msg2, msg3, abef_save, cdgh_save)

/-- line 663 -/
def Engine.process_block_simd_x86_intrinsics.line1_98 (cfg : Cfg) (self : Source.Sha256.Engine) (MASK : BitVec 128) (block_offset : Nat) : Source.Sha256.Engine.process_block_simd_x86_intrinsics.State1 → Tr Source.Sha256.Engine.process_block_simd_x86_intrinsics.State1 :=
  fun (state0, state1, msg, tmp, msg0, msg1, msg2, msg3, abef_save, cdgh_save) => do
    let tmp := Sha256.Simd.mm_alignr_epi8 msg0 msg3 4
    pure (state0, state1, msg, tmp, msg0, msg1, msg2, msg3, abef_save, cdgh_save)

/-- line 664 -/
def Engine.process_block_simd_x86_intrinsics.line1_99 (cfg : Cfg) (self : Source.Sha256.Engine) (MASK : BitVec 128) (block_offset : Nat) : Source.Sha256.Engine.process_block_simd_x86_intrinsics.State1 → Tr Source.Sha256.Engine.process_block_simd_x86_intrinsics.State1 :=
  fun (state0, state1, msg, tmp, msg0, msg1, msg2, msg3, abef_save, cdgh_save) => do
    let msg1 := Sha256.Simd.mm_add_epi32 msg1 tmp
    pure (state0, state1, msg, tmp, msg0, msg1, msg2, msg3, abef_save, cdgh_save)

/-- line 665 -/
def Engine.process_block_simd_x86_intrinsics.line1_100 (cfg : Cfg) (self : Source.Sha256.Engine) (MASK : BitVec 128) (block_offset : Nat) : Source.Sha256.Engine.process_block_simd_x86_intrinsics.State1 → Tr Source.Sha256.Engine.process_block_simd_x86_intrinsics.State1 :=
  fun (state0, state1, msg, tmp, msg0, msg1, msg2, msg3, abef_save, cdgh_save) => do
    let msg1 := Sha256.Simd.mm_sha256msg2_epu32 msg1 msg0
    pure (state0, state1, msg, tmp, msg0, msg1, msg2, msg3, abef_save, cdgh_save)

/-- line 666 -/
def Engine.process_block_simd_x86_intrinsics.line1_101 (cfg : Cfg) (self : Source.Sha256.Engine) (MASK : BitVec 128) (block_offset : Nat) : Source.Sha256.Engine.process_block_simd_x86_intrinsics.State1 → Tr Source.Sha256.Engine.process_block_simd_x86_intrinsics.State1 :=
  fun (state0, state1, msg, tmp, msg0, msg1, msg2, msg3, abef_save, cdgh_save) => do
    let msg := Sha256.Simd.mm_shuffle_epi32 msg 0x0E
    pure (state0, state1, msg, tmp, msg0, msg1, msg2, msg3, abef_save, cdgh_save)

/-- line 667 -/
def Engine.process_block_simd_x86_intrinsics.line1_102 (cfg : Cfg) (self : Source.Sha256.Engine) (MASK : BitVec 128) (block_offset : Nat) : Source.Sha256.Engine.process_block_simd_x86_intrinsics.State1 → Tr Source.Sha256.Engine.process_block_simd_x86_intrinsics.State1 :=
  fun (state0, state1, msg, tmp, msg0, msg1, msg2, msg3, abef_save, cdgh_save) => do
    let state0 := Sha256.Simd.mm_sha256rnds2_epu32 state0 state1 msg
    pure (state0, state1, msg, tmp, msg0, msg1, msg2, msg3, abef_save, cdgh_save)

/-- line 668 -/
def Engine.process_block_simd_x86_intrinsics.line1_103 (cfg : Cfg) (self : Source.Sha256.Engine) (MASK : BitVec 128) (block_offset : Nat) : Source.Sha256.Engine.process_block_simd_x86_intrinsics.State1 → Tr Source.Sha256.Engine.process_block_simd_x86_intrinsics.State1 :=
  fun (state0, state1, msg, tmp, msg0, msg1, msg2, msg3, abef_save, cdgh_save) => do
    let msg3 := Sha256.Simd.mm_sha256msg1_epu32 msg3 msg0
    pure (state0, state1, msg, tmp, msg0, msg1, msg2, msg3, abef_save, cdgh_save)

/-- line 671 -/
def Engine.process_block_simd_x86_intrinsics.line1_104 (cfg : Cfg) (self : Source.Sha256.Engine) (MASK : BitVec 128) (block_offset : Nat) : Source.Sha256.Engine.process_block_simd_x86_intrinsics.State1 → Tr Source.Sha256.Engine.process_block_simd_x86_intrinsics.State1 :=
  fun (state0, state1, msg, tmp, msg0, msg1, msg2, msg3, abef_save, cdgh_save) => do
    let msg := Sha256.Simd.mm_add_epi32 msg1 (Sha256.Simd.mm_set_epi64x 0x682E6FF35B9CCA4F#64 0x4ED8AA4A391C0CB3#64)
    pure (state0, state1, msg, tmp, msg0, msg1, msg2, msg3, abef_save, cdgh_save)

/-- line 675 -/
def Engine.process_block_simd_x86_intrinsics.line1_105 (cfg : Cfg) (self : Source.Sha256.Engine) (MASK : BitVec 128) (block_offset : Nat) : Source.Sha256.Engine.process_block_simd_x86_intrinsics.State1 → Tr Source.Sha256.Engine.process_block_simd_x86_intrinsics.State1 :=
  fun (state0, state1, msg, tmp, msg0, msg1, msg2, msg3, abef_save, cdgh_save) => do
    let state1 := Sha256.Simd.mm_sha256rnds2_epu32 state1 state0 msg
    pure (state0, state1, msg, tmp, msg0, msg1, msg2, msg3, abef_save, cdgh_save)

/-- line 676 -/
def Engine.process_block_simd_x86_intrinsics.line1_106 (cfg : Cfg) (self : Source.Sha256.Engine) (MASK : BitVec 128) (block_offset : Nat) : Source.Sha256.Engine.process_block_simd_x86_intrinsics.State1 → Tr Source.Sha256.Engine.process_block_simd_x86_intrinsics.State1 :=
  fun (state0, state1, msg, tmp, msg0, msg1, msg2, msg3, abef_save, cdgh_save) => do
    let tmp := Sha256.Simd.mm_alignr_epi8 msg1 msg0 4
    pure (state0, state1, msg, tmp, msg0, msg1, msg2, msg3, abef_save, cdgh_save)

/-- line 677 -/
def Engine.process_block_simd_x86_intrinsics.line1_107 (cfg : Cfg) (self : Source.Sha256.Engine) (MASK : BitVec 128) (block_offset : Nat) : Source.Sha256.Engine.process_block_simd_x86_intrinsics.State1 → Tr Source.Sha256.Engine.process_block_simd_x86_intrinsics.State1 :=
  fun (state0, state1, msg, tmp, msg0, msg1, msg2, msg3, abef_save, cdgh_save) => do
    let msg2 := Sha256.Simd.mm_add_epi32 msg2 tmp
    pure (state0, state1, msg, tmp, msg0, msg1, msg2, msg3, abef_save, cdgh_save)

/-- line 678 -/
def Engine.process_block_simd_x86_intrinsics.line1_108 (cfg : Cfg) (self : Source.Sha256.Engine) (MASK : BitVec 128) (block_offset : Nat) : Source.Sha256.Engine.process_block_simd_x86_intrinsics.State1 → Tr Source.Sha256.Engine.process_block_simd_x86_intrinsics.State1 :=
  fun (state0, state1, msg, tmp, msg0, msg1, msg2, msg3, abef_save, cdgh_save) => do
    let msg2 := Sha256.Simd.mm_sha256msg2_epu32 msg2 msg1
    pure (state0, state1, msg, tmp, msg0, msg1, msg2, msg3, abef_save, cdgh_save)

/-- line 679 -/
def Engine.process_block_simd_x86_intrinsics.line1_109 (cfg : Cfg) (self : Source.Sha256.Engine) (MASK : BitVec 128) (block_offset : Nat) : Source.Sha256.Engine.process_block_simd_x86_intrinsics.State1 → Tr Source.Sha256.Engine.process_block_simd_x86_intrinsics.State1 :=
  fun (state0, state1, msg, tmp, msg0, msg1, msg2, msg3, abef_save, cdgh_save) => do
    let msg := Sha256.Simd.mm_shuffle_epi32 msg 0x0E
    pure (state0, state1, msg, tmp, msg0, msg1, msg2, msg3, abef_save, cdgh_save)

/-- line 680 -/
def Engine.process_block_simd_x86_intrinsics.line1_110 (cfg : Cfg) (self : Source.Sha256.Engine) (MASK : BitVec 128) (block_offset : Nat) : Source.Sha256.Engine.process_block_simd_x86_intrinsics.State1 → Tr Source.Sha256.Engine.process_block_simd_x86_intrinsics.State1 :=
  fun (state0, state1, msg, tmp, msg0, msg1, msg2, msg3, abef_save, cdgh_save) => do
    let state0 := Sha256.Simd.mm_sha256rnds2_epu32 state0 state1 msg
    pure (state0, state1, msg, tmp, msg0, msg1, msg2, msg3, abef_save, cdgh_save)

/-- line 683 -/
def Engine.process_block_simd_x86_intrinsics.line1_111 (cfg : Cfg) (self : Source.Sha256.Engine) (MASK : BitVec 128) (block_offset : Nat) : Source.Sha256.Engine.process_block_simd_x86_intrinsics.State1 → Tr Source.Sha256.Engine.process_block_simd_x86_intrinsics.State1 :=
  fun (state0, state1, msg, tmp, msg0, msg1, msg2, msg3, abef_save, cdgh_save) => do
    let msg := Sha256.Simd.mm_add_epi32 msg2 (Sha256.Simd.mm_set_epi64x 0x8CC7020884C87814#64 0x78A5636F748F82EE#64)
    pure (state0, state1, msg, tmp, msg0, msg1, msg2, msg3, abef_save, cdgh_save)

/-- line 687 -/
def Engine.process_block_simd_x86_intrinsics.line1_112 (cfg : Cfg) (self : Source.Sha256.Engine) (MASK : BitVec 128) (block_offset : Nat) : Source.Sha256.Engine.process_block_simd_x86_intrinsics.State1 → Tr Source.Sha256.Engine.process_block_simd_x86_intrinsics.State1 :=
  fun (state0, state1, msg, tmp, msg0, msg1, msg2, msg3, abef_save, cdgh_save) => do
    let state1 := Sha256.Simd.mm_sha256rnds2_epu32 state1 state0 msg
    pure (state0, state1, msg, tmp, msg0, msg1, msg2, msg3, abef_save, cdgh_save)

/-- line 688 -/
def Engine.process_block_simd_x86_intrinsics.line1_113 (cfg : Cfg) (self : Source.Sha256.Engine) (MASK : BitVec 128) (block_offset : Nat) : Source.Sha256.Engine.process_block_simd_x86_intrinsics.State1 → Tr Source.Sha256.Engine.process_block_simd_x86_intrinsics.State1 :=
  fun (state0, state1, msg, tmp, msg0, msg1, msg2, msg3, abef_save, cdgh_save) => do
    let tmp := Sha256.Simd.mm_alignr_epi8 msg2 msg1 4
    pure (state0, state1, msg, tmp, msg0, msg1, msg2, msg3, abef_save, cdgh_save)

/-- line 689 -/
def Engine.process_block_simd_x86_intrinsics.line1_114 (cfg : Cfg) (self : Source.Sha256.Engine) (MASK : BitVec 128) (block_offset : Nat) : Source.Sha256.Engine.process_block_simd_x86_intrinsics.State1 → Tr Source.Sha256.Engine.process_block_simd_x86_intrinsics.State1 :=
  fun (state0, state1, msg, tmp, msg0, msg1, msg2, msg3, abef_save, cdgh_save) => do
    let msg3 := Sha256.Simd.mm_add_epi32 msg3 tmp
    pure (state0, state1, msg, tmp, msg0, msg1, msg2, msg3, abef_save, cdgh_save)

/-- line 690 -/
def Engine.process_block_simd_x86_intrinsics.line1_115 (cfg : Cfg) (self : Source.Sha256.Engine) (MASK : BitVec 128) (block_offset : Nat) : Source.Sha256.Engine.process_block_simd_x86_intrinsics.State1 → Tr Source.Sha256.Engine.process_block_simd_x86_intrinsics.State1 :=
  fun (state0, state1, msg, tmp, msg0, msg1, msg2, msg3, abef_save, cdgh_save) => do
    let msg3 := Sha256.Simd.mm_sha256msg2_epu32 msg3 msg2
    pure (state0, state1, msg, tmp, msg0, msg1, msg2, msg3, abef_save, cdgh_save)

/-- line 691 -/
def Engine.process_block_simd_x86_intrinsics.line1_116 (cfg : Cfg) (self : Source.Sha256.Engine) (MASK : BitVec 128) (block_offset : Nat) : Source.Sha256.Engine.process_block_simd_x86_intrinsics.State1 → Tr Source.Sha256.Engine.process_block_simd_x86_intrinsics.State1 :=
  fun (state0, state1, msg, tmp, msg0, msg1, msg2, msg3, abef_save, cdgh_save) => do
    let msg := Sha256.Simd.mm_shuffle_epi32 msg 0x0E
    pure (state0, state1, msg, tmp, msg0, msg1, msg2, msg3, abef_save, cdgh_save)

/-- line 692 -/
def Engine.process_block_simd_x86_intrinsics.line1_117 (cfg : Cfg) (self : Source.Sha256.Engine) (MASK : BitVec 128) (block_offset : Nat) : Source.Sha256.Engine.process_block_simd_x86_intrinsics.State1 → Tr Source.Sha256.Engine.process_block_simd_x86_intrinsics.State1 :=
  fun (state0, state1, msg, tmp, msg0, msg1, msg2, msg3, abef_save, cdgh_save) => do
    let state0 := Sha256.Simd.mm_sha256rnds2_epu32 state0 state1 msg
    pure (state0, state1, msg, tmp, msg0, msg1, msg2, msg3, abef_save, cdgh_save)

/-- line 695 -/
def Engine.process_block_simd_x86_intrinsics.line1_118 (cfg : Cfg) (self : Source.Sha256.Engine) (MASK : BitVec 128) (block_offset : Nat) : Source.Sha256.Engine.process_block_simd_x86_intrinsics.State1 → Tr Source.Sha256.Engine.process_block_simd_x86_intrinsics.State1 :=
  fun (state0, state1, msg, tmp, msg0, msg1, msg2, msg3, abef_save, cdgh_save) => do
    let msg := Sha256.Simd.mm_add_epi32 msg3 (Sha256.Simd.mm_set_epi64x 0xC67178F2BEF9A3F7#64 0xA4506CEB90BEFFFA#64)
    pure (state0, state1, msg, tmp, msg0, msg1, msg2, msg3, abef_save, cdgh_save)

/-- line 699 -/
def Engine.process_block_simd_x86_intrinsics.line1_119 (cfg : Cfg) (self : Source.Sha256.Engine) (MASK : BitVec 128) (block_offset : Nat) : Source.Sha256.Engine.process_block_simd_x86_intrinsics.State1 → Tr Source.Sha256.Engine.process_block_simd_x86_intrinsics.State1 :=
  fun (state0, state1, msg, tmp, msg0, msg1, msg2, msg3, abef_save, cdgh_save) => do
    let state1 := Sha256.Simd.mm_sha256rnds2_epu32 state1 state0 msg
    pure (state0, state1, msg, tmp, msg0, msg1, msg2, msg3, abef_save, cdgh_save)

/-- line 700 -/
def Engine.process_block_simd_x86_intrinsics.line1_120 (cfg : Cfg) (self : Source.Sha256.Engine) (MASK : BitVec 128) (block_offset : Nat) : Source.Sha256.Engine.process_block_simd_x86_intrinsics.State1 → Tr Source.Sha256.Engine.process_block_simd_x86_intrinsics.State1 :=
  fun (state0, state1, msg, tmp, msg0, msg1, msg2, msg3, abef_save, cdgh_save) => do
    let msg := Sha256.Simd.mm_shuffle_epi32 msg 0x0E
    pure (state0, state1, msg, tmp, msg0, msg1, msg2, msg3, abef_save, cdgh_save)

/-- line 701 -/
def Engine.process_block_simd_x86_intrinsics.line1_121 (cfg : Cfg) (self : Source.Sha256.Engine) (MASK : BitVec 128) (block_offset : Nat) : Source.Sha256.Engine.process_block_simd_x86_intrinsics.State1 → Tr Source.Sha256.Engine.process_block_simd_x86_intrinsics.State1 :=
  fun (state0, state1, msg, tmp, msg0, msg1, msg2, msg3, abef_save, cdgh_save) => do
    let state0 := Sha256.Simd.mm_sha256rnds2_epu32 state0 state1 msg
    pure (state0, state1, msg, tmp, msg0, msg1, msg2, msg3, abef_save, cdgh_save)

/-- line 704 -/
def Engine.process_block_simd_x86_intrinsics.line1_122 (cfg : Cfg) (self : Source.Sha256.Engine) (MASK : BitVec 128) (block_offset : Nat) : Source.Sha256.Engine.process_block_simd_x86_intrinsics.State1 → Tr Source.Sha256.Engine.process_block_simd_x86_intrinsics.State1 :=
  fun (state0, state1, msg, tmp, msg0, msg1, msg2, msg3, abef_save, cdgh_save) => do
    let state0 := Sha256.Simd.mm_add_epi32 state0 abef_save
    pure (state0, state1, msg, tmp, msg0, msg1, msg2, msg3, abef_save, cdgh_save)

/-- line 705 -/
def Engine.process_block_simd_x86_intrinsics.line1_123 (cfg : Cfg) (self : Source.Sha256.Engine) (MASK : BitVec 128) (block_offset : Nat) : Source.Sha256.Engine.process_block_simd_x86_intrinsics.State1 → Tr Source.Sha256.Engine.process_block_simd_x86_intrinsics.State1 :=
  fun (state0, state1, msg, tmp, msg0, msg1, msg2, msg3, abef_save, cdgh_save) => do
    let state1 := Sha256.Simd.mm_add_epi32 state1 cdgh_save
    pure (state0, state1, msg, tmp, msg0, msg1, msg2, msg3, abef_save, cdgh_save)

/-- The 124 statements. -/
def Engine.process_block_simd_x86_intrinsics.lines1 (cfg : Cfg) (self : Source.Sha256.Engine) (MASK : BitVec 128) (block_offset : Nat) : List (Source.Sha256.Engine.process_block_simd_x86_intrinsics.State1 → Tr Source.Sha256.Engine.process_block_simd_x86_intrinsics.State1) := [
  Seen.Sha256.Engine.process_block_simd_x86_intrinsics.line1_0 cfg self MASK block_offset,
  Seen.Sha256.Engine.process_block_simd_x86_intrinsics.line1_1 cfg self MASK block_offset,
  Seen.Sha256.Engine.process_block_simd_x86_intrinsics.line1_2 cfg self MASK block_offset,
  Seen.Sha256.Engine.process_block_simd_x86_intrinsics.line1_3 cfg self MASK block_offset,
  Seen.Sha256.Engine.process_block_simd_x86_intrinsics.line1_4 cfg self MASK block_offset,
  Seen.Sha256.Engine.process_block_simd_x86_intrinsics.line1_5 cfg self MASK block_offset,
  Seen.Sha256.Engine.process_block_simd_x86_intrinsics.line1_6 cfg self MASK block_offset,
  Seen.Sha256.Engine.process_block_simd_x86_intrinsics.line1_7 cfg self MASK block_offset,
  Seen.Sha256.Engine.process_block_simd_x86_intrinsics.line1_8 cfg self MASK block_offset,
  Seen.Sha256.Engine.process_block_simd_x86_intrinsics.line1_9 cfg self MASK block_offset,
  Seen.Sha256.Engine.process_block_simd_x86_intrinsics.line1_10 cfg self MASK block_offset,
  Seen.Sha256.Engine.process_block_simd_x86_intrinsics.line1_11 cfg self MASK block_offset,
  Seen.Sha256.Engine.process_block_simd_x86_intrinsics.line1_12 cfg self MASK block_offset,
  Seen.Sha256.Engine.process_block_simd_x86_intrinsics.line1_13 cfg self MASK block_offset,
  Seen.Sha256.Engine.process_block_simd_x86_intrinsics.line1_14 cfg self MASK block_offset,
  Seen.Sha256.Engine.process_block_simd_x86_intrinsics.line1_15 cfg self MASK block_offset,
  Seen.Sha256.Engine.process_block_simd_x86_intrinsics.line1_16 cfg self MASK block_offset,
  Seen.Sha256.Engine.process_block_simd_x86_intrinsics.line1_17 cfg self MASK block_offset,
  Seen.Sha256.Engine.process_block_simd_x86_intrinsics.line1_18 cfg self MASK block_offset,
  Seen.Sha256.Engine.process_block_simd_x86_intrinsics.line1_19 cfg self MASK block_offset,
  Seen.Sha256.Engine.process_block_simd_x86_intrinsics.line1_20 cfg self MASK block_offset,
  Seen.Sha256.Engine.process_block_simd_x86_intrinsics.line1_21 cfg self MASK block_offset,
  Seen.Sha256.Engine.process_block_simd_x86_intrinsics.line1_22 cfg self MASK block_offset,
  Seen.Sha256.Engine.process_block_simd_x86_intrinsics.line1_23 cfg self MASK block_offset,
  Seen.Sha256.Engine.process_block_simd_x86_intrinsics.line1_24 cfg self MASK block_offset,
  Seen.Sha256.Engine.process_block_simd_x86_intrinsics.line1_25 cfg self MASK block_offset,
  Seen.Sha256.Engine.process_block_simd_x86_intrinsics.line1_26 cfg self MASK block_offset,
  Seen.Sha256.Engine.process_block_simd_x86_intrinsics.line1_27 cfg self MASK block_offset,
  Seen.Sha256.Engine.process_block_simd_x86_intrinsics.line1_28 cfg self MASK block_offset,
  Seen.Sha256.Engine.process_block_simd_x86_intrinsics.line1_29 cfg self MASK block_offset,
  Seen.Sha256.Engine.process_block_simd_x86_intrinsics.line1_30 cfg self MASK block_offset,
  Seen.Sha256.Engine.process_block_simd_x86_intrinsics.line1_31 cfg self MASK block_offset,
  Seen.Sha256.Engine.process_block_simd_x86_intrinsics.line1_32 cfg self MASK block_offset,
  Seen.Sha256.Engine.process_block_simd_x86_intrinsics.line1_33 cfg self MASK block_offset,
  Seen.Sha256.Engine.process_block_simd_x86_intrinsics.line1_34 cfg self MASK block_offset,
  Seen.Sha256.Engine.process_block_simd_x86_intrinsics.line1_35 cfg self MASK block_offset,
  Seen.Sha256.Engine.process_block_simd_x86_intrinsics.line1_36 cfg self MASK block_offset,
  Seen.Sha256.Engine.process_block_simd_x86_intrinsics.line1_37 cfg self MASK block_offset,
  Seen.Sha256.Engine.process_block_simd_x86_intrinsics.line1_38 cfg self MASK block_offset,
  Seen.Sha256.Engine.process_block_simd_x86_intrinsics.line1_39 cfg self MASK block_offset,
  Seen.Sha256.Engine.process_block_simd_x86_intrinsics.line1_40 cfg self MASK block_offset,
  Seen.Sha256.Engine.process_block_simd_x86_intrinsics.line1_41 cfg self MASK block_offset,
  Seen.Sha256.Engine.process_block_simd_x86_intrinsics.line1_42 cfg self MASK block_offset,
  Seen.Sha256.Engine.process_block_simd_x86_intrinsics.line1_43 cfg self MASK block_offset,
  Seen.Sha256.Engine.process_block_simd_x86_intrinsics.line1_44 cfg self MASK block_offset,
  Seen.Sha256.Engine.process_block_simd_x86_intrinsics.line1_45 cfg self MASK block_offset,
  Seen.Sha256.Engine.process_block_simd_x86_intrinsics.line1_46 cfg self MASK block_offset,
  Seen.Sha256.Engine.process_block_simd_x86_intrinsics.line1_47 cfg self MASK block_offset,
  Seen.Sha256.Engine.process_block_simd_x86_intrinsics.line1_48 cfg self MASK block_offset,
  Seen.Sha256.Engine.process_block_simd_x86_intrinsics.line1_49 cfg self MASK block_offset,
  Seen.Sha256.Engine.process_block_simd_x86_intrinsics.line1_50 cfg self MASK block_offset,
  Seen.Sha256.Engine.process_block_simd_x86_intrinsics.line1_51 cfg self MASK block_offset,
  Seen.Sha256.Engine.process_block_simd_x86_intrinsics.line1_52 cfg self MASK block_offset,
  Seen.Sha256.Engine.process_block_simd_x86_intrinsics.line1_53 cfg self MASK block_offset,
  Seen.Sha256.Engine.process_block_simd_x86_intrinsics.line1_54 cfg self MASK block_offset,
  Seen.Sha256.Engine.process_block_simd_x86_intrinsics.line1_55 cfg self MASK block_offset,
  Seen.Sha256.Engine.process_block_simd_x86_intrinsics.line1_56 cfg self MASK block_offset,
  Seen.Sha256.Engine.process_block_simd_x86_intrinsics.line1_57 cfg self MASK block_offset,
  Seen.Sha256.Engine.process_block_simd_x86_intrinsics.line1_58 cfg self MASK block_offset,
  Seen.Sha256.Engine.process_block_simd_x86_intrinsics.line1_59 cfg self MASK block_offset,
  Seen.Sha256.Engine.process_block_simd_x86_intrinsics.line1_60 cfg self MASK block_offset,
  Seen.Sha256.Engine.process_block_simd_x86_intrinsics.line1_61 cfg self MASK block_offset,
  Seen.Sha256.Engine.process_block_simd_x86_intrinsics.line1_62 cfg self MASK block_offset,
  Seen.Sha256.Engine.process_block_simd_x86_intrinsics.line1_63 cfg self MASK block_offset,
  Seen.Sha256.Engine.process_block_simd_x86_intrinsics.line1_64 cfg self MASK block_offset,
  Seen.Sha256.Engine.process_block_simd_x86_intrinsics.line1_65 cfg self MASK block_offset,
  Seen.Sha256.Engine.process_block_simd_x86_intrinsics.line1_66 cfg self MASK block_offset,
  Seen.Sha256.Engine.process_block_simd_x86_intrinsics.line1_67 cfg self MASK block_offset,
  Seen.Sha256.Engine.process_block_simd_x86_intrinsics.line1_68 cfg self MASK block_offset,
  Seen.Sha256.Engine.process_block_simd_x86_intrinsics.line1_69 cfg self MASK block_offset,
  Seen.Sha256.Engine.process_block_simd_x86_intrinsics.line1_70 cfg self MASK block_offset,
  Seen.Sha256.Engine.process_block_simd_x86_intrinsics.line1_71 cfg self MASK block_offset,
  Seen.Sha256.Engine.process_block_simd_x86_intrinsics.line1_72 cfg self MASK block_offset,
  Seen.Sha256.Engine.process_block_simd_x86_intrinsics.line1_73 cfg self MASK block_offset,
  Seen.Sha256.Engine.process_block_simd_x86_intrinsics.line1_74 cfg self MASK block_offset,
  Seen.Sha256.Engine.process_block_simd_x86_intrinsics.line1_75 cfg self MASK block_offset,
  Seen.Sha256.Engine.process_block_simd_x86_intrinsics.line1_76 cfg self MASK block_offset,
  Seen.Sha256.Engine.process_block_simd_x86_intrinsics.line1_77 cfg self MASK block_offset,
  Seen.Sha256.Engine.process_block_simd_x86_intrinsics.line1_78 cfg self MASK block_offset,
  Seen.Sha256.Engine.process_block_simd_x86_intrinsics.line1_79 cfg self MASK block_offset,
  Seen.Sha256.Engine.process_block_simd_x86_intrinsics.line1_80 cfg self MASK block_offset,
  Seen.Sha256.Engine.process_block_simd_x86_intrinsics.line1_81 cfg self MASK block_offset,
  Seen.Sha256.Engine.process_block_simd_x86_intrinsics.line1_82 cfg self MASK block_offset,
  Seen.Sha256.Engine.process_block_simd_x86_intrinsics.line1_83 cfg self MASK block_offset,
  Seen.Sha256.Engine.process_block_simd_x86_intrinsics.line1_84 cfg self MASK block_offset,
  Seen.Sha256.Engine.process_block_simd_x86_intrinsics.line1_85 cfg self MASK block_offset,
  Seen.Sha256.Engine.process_block_simd_x86_intrinsics.line1_86 cfg self MASK block_offset,
  Seen.Sha256.Engine.process_block_simd_x86_intrinsics.line1_87 cfg self MASK block_offset,
  Seen.Sha256.Engine.process_block_simd_x86_intrinsics.line1_88 cfg self MASK block_offset,
  Seen.Sha256.Engine.process_block_simd_x86_intrinsics.line1_89 cfg self MASK block_offset,
  Seen.Sha256.Engine.process_block_simd_x86_intrinsics.line1_90 cfg self MASK block_offset,
  Seen.Sha256.Engine.process_block_simd_x86_intrinsics.line1_91 cfg self MASK block_offset,
  Seen.Sha256.Engine.process_block_simd_x86_intrinsics.line1_92 cfg self MASK block_offset,
  Seen.Sha256.Engine.process_block_simd_x86_intrinsics.line1_93 cfg self MASK block_offset,
  Seen.Sha256.Engine.process_block_simd_x86_intrinsics.line1_94 cfg self MASK block_offset,
  Seen.Sha256.Engine.process_block_simd_x86_intrinsics.line1_95 cfg self MASK block_offset,
  Seen.Sha256.Engine.process_block_simd_x86_intrinsics.line1_96 cfg self MASK block_offset,
  Seen.Sha256.Engine.process_block_simd_x86_intrinsics.line1_97 cfg self MASK block_offset,
  Seen.Sha256.Engine.process_block_simd_x86_intrinsics.line1_98 cfg self MASK block_offset,
  Seen.Sha256.Engine.process_block_simd_x86_intrinsics.line1_99 cfg self MASK block_offset,
  Seen.Sha256.Engine.process_block_simd_x86_intrinsics.line1_100 cfg self MASK block_offset,
  Seen.Sha256.Engine.process_block_simd_x86_intrinsics.line1_101 cfg self MASK block_offset,
  Seen.Sha256.Engine.process_block_simd_x86_intrinsics.line1_102 cfg self MASK block_offset,
  Seen.Sha256.Engine.process_block_simd_x86_intrinsics.line1_103 cfg self MASK block_offset,
  Seen.Sha256.Engine.process_block_simd_x86_intrinsics.line1_104 cfg self MASK block_offset,
  Seen.Sha256.Engine.process_block_simd_x86_intrinsics.line1_105 cfg self MASK block_offset,
  Seen.Sha256.Engine.process_block_simd_x86_intrinsics.line1_106 cfg self MASK block_offset,
  Seen.Sha256.Engine.process_block_simd_x86_intrinsics.line1_107 cfg self MASK block_offset,
  Seen.Sha256.Engine.process_block_simd_x86_intrinsics.line1_108 cfg self MASK block_offset,
  Seen.Sha256.Engine.process_block_simd_x86_intrinsics.line1_109 cfg self MASK block_offset,
  Seen.Sha256.Engine.process_block_simd_x86_intrinsics.line1_110 cfg self MASK block_offset,
  Seen.Sha256.Engine.process_block_simd_x86_intrinsics.line1_111 cfg self MASK block_offset,
  Seen.Sha256.Engine.process_block_simd_x86_intrinsics.line1_112 cfg self MASK block_offset,
  Seen.Sha256.Engine.process_block_simd_x86_intrinsics.line1_113 cfg self MASK block_offset,
  Seen.Sha256.Engine.process_block_simd_x86_intrinsics.line1_114 cfg self MASK block_offset,
  Seen.Sha256.Engine.process_block_simd_x86_intrinsics.line1_115 cfg self MASK block_offset,
  Seen.Sha256.Engine.process_block_simd_x86_intrinsics.line1_116 cfg self MASK block_offset,
  Seen.Sha256.Engine.process_block_simd_x86_intrinsics.line1_117 cfg self MASK block_offset,
  Seen.Sha256.Engine.process_block_simd_x86_intrinsics.line1_118 cfg self MASK block_offset,
  Seen.Sha256.Engine.process_block_simd_x86_intrinsics.line1_119 cfg self MASK block_offset,
  Seen.Sha256.Engine.process_block_simd_x86_intrinsics.line1_120 cfg self MASK block_offset,
  Seen.Sha256.Engine.process_block_simd_x86_intrinsics.line1_121 cfg self MASK block_offset,
  Seen.Sha256.Engine.process_block_simd_x86_intrinsics.line1_122 cfg self MASK block_offset,
  Seen.Sha256.Engine.process_block_simd_x86_intrinsics.line1_123 cfg self MASK block_offset]

/-- `Engine::process_block_simd_x86_intrinsics`, sha256.rs 463-718. -/
def Engine.process_block_simd_x86_intrinsics (cfg : Cfg) (self : Source.Sha256.Engine) : Tr Source.Sha256.Engine := do
  let MASK := Sha256.Simd.mm_set_epi64x 0x0c0d0e0f08090a0b#64 0x0405060700010203#64
  let block_offset : Nat := 0
  let tmp ← Tr.loadu32 self.h 0
  let state1 ← Tr.loadu32 self.h 4
  let tmp := Sha256.Simd.mm_shuffle_epi32 tmp 0xB1
  let state1 := Sha256.Simd.mm_shuffle_epi32 state1 0x1B
  let state0 : BitVec 128 := Sha256.Simd.mm_alignr_epi8 tmp state1 8
  let state1 := Sha256.Simd.mm_blend_epi16 state1 tmp 0xF0
  let msg : BitVec 128 := Rs.uninit
  let msg0 : BitVec 128 := Rs.uninit
  let msg1 : BitVec 128 := Rs.uninit
  let msg2 : BitVec 128 := Rs.uninit
  let msg3 : BitVec 128 := Rs.uninit
  let abef_save : BitVec 128 := Rs.uninit
  let cdgh_save : BitVec 128 := Rs.uninit
  let (state0, state1, msg, tmp, msg0, msg1, msg2, msg3, abef_save, cdgh_save) ← Tr.runLines (Seen.Sha256.Engine.process_block_simd_x86_intrinsics.lines1 cfg self MASK block_offset) (state0, state1, msg, tmp, msg0, msg1, msg2, msg3, abef_save, cdgh_save)
  let tmp := Sha256.Simd.mm_shuffle_epi32 state0 0x1B
  let state1 := Sha256.Simd.mm_shuffle_epi32 state1 0xB1
  let state0 := Sha256.Simd.mm_blend_epi16 tmp state1 0xF0
  let state1 := Sha256.Simd.mm_alignr_epi8 state1 tmp 8
  let x_10 ← Tr.storeu32 self.h 0 state0
  let self := { self with h := x_10 }
  let x_11 ← Tr.storeu32 self.h 4 state1
  let self := { self with h := x_11 }
  pure self

/-- round!(a, b, c, d, e, f, g, h, 0x428a2f98, w[0]) -/
def Engine.software_process_block_fast.line1_0 (cfg : Cfg) : Source.Sha256.Engine.software_process_block_fast.State1 → Tr Source.Sha256.Engine.software_process_block_fast.State1 :=
  fun (w, a, b, c, d, e, f, g, h) => do
    let x_10 ← Tr.index w 0
    let t1' : BitVec 32 := (((h + (Source.Sha256.Sigma1 cfg e)) + (Source.Sha256.Ch cfg e f g)) + 0x428a2f98#32) + x_10
    let t2' : BitVec 32 := (Source.Sha256.Sigma0 cfg a) + (Source.Sha256.Maj cfg a b c)
    let d := d + t1'
    let h := t1' + t2'
    pure (w, a, b, c, d, e, f, g, h)

/-- round!(h, a, b, c, d, e, f, g, 0x71374491, w[1]) -/
def Engine.software_process_block_fast.line1_1 (cfg : Cfg) : Source.Sha256.Engine.software_process_block_fast.State1 → Tr Source.Sha256.Engine.software_process_block_fast.State1 :=
  fun (w, a, b, c, d, e, f, g, h) => do
    let x_11 ← Tr.index w 1
    let t1' : BitVec 32 := (((g + (Source.Sha256.Sigma1 cfg d)) + (Source.Sha256.Ch cfg d e f)) + 0x71374491#32) + x_11
    let t2' : BitVec 32 := (Source.Sha256.Sigma0 cfg h) + (Source.Sha256.Maj cfg h a b)
    let c := c + t1'
    let g := t1' + t2'
    pure (w, a, b, c, d, e, f, g, h)

/-- round!(g, h, a, b, c, d, e, f, 0xb5c0fbcf, w[2]) -/
def Engine.software_process_block_fast.line1_2 (cfg : Cfg) : Source.Sha256.Engine.software_process_block_fast.State1 → Tr Source.Sha256.Engine.software_process_block_fast.State1 :=
  fun (w, a, b, c, d, e, f, g, h) => do
    let x_12 ← Tr.index w 2
    let t1' : BitVec 32 := (((f + (Source.Sha256.Sigma1 cfg c)) + (Source.Sha256.Ch cfg c d e)) + 0xb5c0fbcf#32) + x_12
    let t2' : BitVec 32 := (Source.Sha256.Sigma0 cfg g) + (Source.Sha256.Maj cfg g h a)
    let b := b + t1'
    let f := t1' + t2'
    pure (w, a, b, c, d, e, f, g, h)

/-- round!(f, g, h, a, b, c, d, e, 0xe9b5dba5, w[3]) -/
def Engine.software_process_block_fast.line1_3 (cfg : Cfg) : Source.Sha256.Engine.software_process_block_fast.State1 → Tr Source.Sha256.Engine.software_process_block_fast.State1 :=
  fun (w, a, b, c, d, e, f, g, h) => do
    let x_13 ← Tr.index w 3
    let t1' : BitVec 32 := (((e + (Source.Sha256.Sigma1 cfg b)) + (Source.Sha256.Ch cfg b c d)) + 0xe9b5dba5#32) + x_13
    let t2' : BitVec 32 := (Source.Sha256.Sigma0 cfg f) + (Source.Sha256.Maj cfg f g h)
    let a := a + t1'
    let e := t1' + t2'
    pure (w, a, b, c, d, e, f, g, h)

/-- round!(e, f, g, h, a, b, c, d, 0x3956c25b, w[4]) -/
def Engine.software_process_block_fast.line1_4 (cfg : Cfg) : Source.Sha256.Engine.software_process_block_fast.State1 → Tr Source.Sha256.Engine.software_process_block_fast.State1 :=
  fun (w, a, b, c, d, e, f, g, h) => do
    let x_14 ← Tr.index w 4
    let t1' : BitVec 32 := (((d + (Source.Sha256.Sigma1 cfg a)) + (Source.Sha256.Ch cfg a b c)) + 0x3956c25b#32) + x_14
    let t2' : BitVec 32 := (Source.Sha256.Sigma0 cfg e) + (Source.Sha256.Maj cfg e f g)
    let h := h + t1'
    let d := t1' + t2'
    pure (w, a, b, c, d, e, f, g, h)

/-- round!(d, e, f, g, h, a, b, c, 0x59f111f1, w[5]) -/
def Engine.software_process_block_fast.line1_5 (cfg : Cfg) : Source.Sha256.Engine.software_process_block_fast.State1 → Tr Source.Sha256.Engine.software_process_block_fast.State1 :=
  fun (w, a, b, c, d, e, f, g, h) => do
    let x_15 ← Tr.index w 5
    let t1' : BitVec 32 := (((c + (Source.Sha256.Sigma1 cfg h)) + (Source.Sha256.Ch cfg h a b)) + 0x59f111f1#32) + x_15
    let t2' : BitVec 32 := (Source.Sha256.Sigma0 cfg d) + (Source.Sha256.Maj cfg d e f)
    let g := g + t1'
    let c := t1' + t2'
    pure (w, a, b, c, d, e, f, g, h)

/-- round!(c, d, e, f, g, h, a, b, 0x923f82a4, w[6]) -/
def Engine.software_process_block_fast.line1_6 (cfg : Cfg) : Source.Sha256.Engine.software_process_block_fast.State1 → Tr Source.Sha256.Engine.software_process_block_fast.State1 :=
  fun (w, a, b, c, d, e, f, g, h) => do
    let x_16 ← Tr.index w 6
    let t1' : BitVec 32 := (((b + (Source.Sha256.Sigma1 cfg g)) + (Source.Sha256.Ch cfg g h a)) + 0x923f82a4#32) + x_16
    let t2' : BitVec 32 := (Source.Sha256.Sigma0 cfg c) + (Source.Sha256.Maj cfg c d e)
    let f := f + t1'
    let b := t1' + t2'
    pure (w, a, b, c, d, e, f, g, h)

/-- round!(b, c, d, e, f, g, h, a, 0xab1c5ed5, w[7]) -/
def Engine.software_process_block_fast.line1_7 (cfg : Cfg) : Source.Sha256.Engine.software_process_block_fast.State1 → Tr Source.Sha256.Engine.software_process_block_fast.State1 :=
  fun (w, a, b, c, d, e, f, g, h) => do
    let x_17 ← Tr.index w 7
    let t1' : BitVec 32 := (((a + (Source.Sha256.Sigma1 cfg f)) + (Source.Sha256.Ch cfg f g h)) + 0xab1c5ed5#32) + x_17
    let t2' : BitVec 32 := (Source.Sha256.Sigma0 cfg b) + (Source.Sha256.Maj cfg b c d)
    let e := e + t1'
    let a := t1' + t2'
    pure (w, a, b, c, d, e, f, g, h)

/-- round!(a, b, c, d, e, f, g, h, 0xd807aa98, w[8]) -/
def Engine.software_process_block_fast.line1_8 (cfg : Cfg) : Source.Sha256.Engine.software_process_block_fast.State1 → Tr Source.Sha256.Engine.software_process_block_fast.State1 :=
  fun (w, a, b, c, d, e, f, g, h) => do
    let x_18 ← Tr.index w 8
    let t1' : BitVec 32 := (((h + (Source.Sha256.Sigma1 cfg e)) + (Source.Sha256.Ch cfg e f g)) + 0xd807aa98#32) + x_18
    let t2' : BitVec 32 := (Source.Sha256.Sigma0 cfg a) + (Source.Sha256.Maj cfg a b c)
    let d := d + t1'
    let h := t1' + t2'
    pure (w, a, b, c, d, e, f, g, h)

/-- round!(h, a, b, c, d, e, f, g, 0x12835b01, w[9]) -/
def Engine.software_process_block_fast.line1_9 (cfg : Cfg) : Source.Sha256.Engine.software_process_block_fast.State1 → Tr Source.Sha256.Engine.software_process_block_fast.State1 :=
  fun (w, a, b, c, d, e, f, g, h) => do
    let x_19 ← Tr.index w 9
    let t1' : BitVec 32 := (((g + (Source.Sha256.Sigma1 cfg d)) + (Source.Sha256.Ch cfg d e f)) + 0x12835b01#32) + x_19
    let t2' : BitVec 32 := (Source.Sha256.Sigma0 cfg h) + (Source.Sha256.Maj cfg h a b)
    let c := c + t1'
    let g := t1' + t2'
    pure (w, a, b, c, d, e, f, g, h)

/-- round!(g, h, a, b, c, d, e, f, 0x243185be, w[10]) -/
def Engine.software_process_block_fast.line1_10 (cfg : Cfg) : Source.Sha256.Engine.software_process_block_fast.State1 → Tr Source.Sha256.Engine.software_process_block_fast.State1 :=
  fun (w, a, b, c, d, e, f, g, h) => do
    let x_20 ← Tr.index w 10
    let t1' : BitVec 32 := (((f + (Source.Sha256.Sigma1 cfg c)) + (Source.Sha256.Ch cfg c d e)) + 0x243185be#32) + x_20
    let t2' : BitVec 32 := (Source.Sha256.Sigma0 cfg g) + (Source.Sha256.Maj cfg g h a)
    let b := b + t1'
    let f := t1' + t2'
    pure (w, a, b, c, d, e, f, g, h)

/-- round!(f, g, h, a, b, c, d, e, 0x550c7dc3, w[11]) -/
def Engine.software_process_block_fast.line1_11 (cfg : Cfg) : Source.Sha256.Engine.software_process_block_fast.State1 → Tr Source.Sha256.Engine.software_process_block_fast.State1 :=
  fun (w, a, b, c, d, e, f, g, h) => do
    let x_21 ← Tr.index w 11
    let t1' : BitVec 32 := (((e + (Source.Sha256.Sigma1 cfg b)) + (Source.Sha256.Ch cfg b c d)) + 0x550c7dc3#32) + x_21
    let t2' : BitVec 32 := (Source.Sha256.Sigma0 cfg f) + (Source.Sha256.Maj cfg f g h)
    let a := a + t1'
    let e := t1' + t2'
    pure (w, a, b, c, d, e, f, g, h)

/-- round!(e, f, g, h, a, b, c, d, 0x72be5d74, w[12]) -/
def Engine.software_process_block_fast.line1_12 (cfg : Cfg) : Source.Sha256.Engine.software_process_block_fast.State1 → Tr Source.Sha256.Engine.software_process_block_fast.State1 :=
  fun (w, a, b, c, d, e, f, g, h) => do
    let x_22 ← Tr.index w 12
    let t1' : BitVec 32 := (((d + (Source.Sha256.Sigma1 cfg a)) + (Source.Sha256.Ch cfg a b c)) + 0x72be5d74#32) + x_22
    let t2' : BitVec 32 := (Source.Sha256.Sigma0 cfg e) + (Source.Sha256.Maj cfg e f g)
    let h := h + t1'
    let d := t1' + t2'
    pure (w, a, b, c, d, e, f, g, h)

/-- round!(d, e, f, g, h, a, b, c, 0x80deb1fe, w[13]) -/
def Engine.software_process_block_fast.line1_13 (cfg : Cfg) : Source.Sha256.Engine.software_process_block_fast.State1 → Tr Source.Sha256.Engine.software_process_block_fast.State1 :=
  fun (w, a, b, c, d, e, f, g, h) => do
    let x_23 ← Tr.index w 13
    let t1' : BitVec 32 := (((c + (Source.Sha256.Sigma1 cfg h)) + (Source.Sha256.Ch cfg h a b)) + 0x80deb1fe#32) + x_23
    let t2' : BitVec 32 := (Source.Sha256.Sigma0 cfg d) + (Source.Sha256.Maj cfg d e f)
    let g := g + t1'
    let c := t1' + t2'
    pure (w, a, b, c, d, e, f, g, h)

/-- round!(c, d, e, f, g, h, a, b, 0x9bdc06a7, w[14]) -/
def Engine.software_process_block_fast.line1_14 (cfg : Cfg) : Source.Sha256.Engine.software_process_block_fast.State1 → Tr Source.Sha256.Engine.software_process_block_fast.State1 :=
  fun (w, a, b, c, d, e, f, g, h) => do
    let x_24 ← Tr.index w 14
    let t1' : BitVec 32 := (((b + (Source.Sha256.Sigma1 cfg g)) + (Source.Sha256.Ch cfg g h a)) + 0x9bdc06a7#32) + x_24
    let t2' : BitVec 32 := (Source.Sha256.Sigma0 cfg c) + (Source.Sha256.Maj cfg c d e)
    let f := f + t1'
    let b := t1' + t2'
    pure (w, a, b, c, d, e, f, g, h)

/-- round!(b, c, d, e, f, g, h, a, 0xc19bf174, w[15]) -/
def Engine.software_process_block_fast.line1_15 (cfg : Cfg) : Source.Sha256.Engine.software_process_block_fast.State1 → Tr Source.Sha256.Engine.software_process_block_fast.State1 :=
  fun (w, a, b, c, d, e, f, g, h) => do
    let x_25 ← Tr.index w 15
    let t1' : BitVec 32 := (((a + (Source.Sha256.Sigma1 cfg f)) + (Source.Sha256.Ch cfg f g h)) + 0xc19bf174#32) + x_25
    let t2' : BitVec 32 := (Source.Sha256.Sigma0 cfg b) + (Source.Sha256.Maj cfg b c d)
    let e := e + t1'
    let a := t1' + t2'
    pure (w, a, b, c, d, e, f, g, h)

/-- round!(a, b, c, d, e, f, g, h, 0xe49b69c1, w[0], w[14], w[9], w[1]) -/
def Engine.software_process_block_fast.line1_16 (cfg : Cfg) : Source.Sha256.Engine.software_process_block_fast.State1 → Tr Source.Sha256.Engine.software_process_block_fast.State1 :=
  fun (w, a, b, c, d, e, f, g, h) => do
    let x_26 ← Tr.index w 0
    let x_27 ← Tr.index w 14
    let x_28 ← Tr.index w 9
    let x_29 ← Tr.index w 1
    let w ← Tr.indexSet w 0 (((x_26 + (Source.Sha256.sigma1 cfg x_27)) + x_28) + (Source.Sha256.sigma0 cfg x_29))
    let x_31 ← Tr.index w 0
    let t1' : BitVec 32 := (((h + (Source.Sha256.Sigma1 cfg e)) + (Source.Sha256.Ch cfg e f g)) + 0xe49b69c1#32) + x_31
    let t2' : BitVec 32 := (Source.Sha256.Sigma0 cfg a) + (Source.Sha256.Maj cfg a b c)
    let d := d + t1'
    let h := t1' + t2'
    pure (w, a, b, c, d, e, f, g, h)

/-- round!(h, a, b, c, d, e, f, g, 0xefbe4786, w[1], w[15], w[10], w[2]) -/
def Engine.software_process_block_fast.line1_17 (cfg : Cfg) : Source.Sha256.Engine.software_process_block_fast.State1 → Tr Source.Sha256.Engine.software_process_block_fast.State1 :=
  fun (w, a, b, c, d, e, f, g, h) => do
    let x_32 ← Tr.index w 1
    let x_33 ← Tr.index w 15
    let x_34 ← Tr.index w 10
    let x_35 ← Tr.index w 2
    let w ← Tr.indexSet w 1 (((x_32 + (Source.Sha256.sigma1 cfg x_33)) + x_34) + (Source.Sha256.sigma0 cfg x_35))
    let x_37 ← Tr.index w 1
    let t1' : BitVec 32 := (((g + (Source.Sha256.Sigma1 cfg d)) + (Source.Sha256.Ch cfg d e f)) + 0xefbe4786#32) + x_37
    let t2' : BitVec 32 := (Source.Sha256.Sigma0 cfg h) + (Source.Sha256.Maj cfg h a b)
    let c := c + t1'
    let g := t1' + t2'
    pure (w, a, b, c, d, e, f, g, h)

/-- round!(g, h, a, b, c, d, e, f, 0x0fc19dc6, w[2], w[0], w[11], w[3]) -/
def Engine.software_process_block_fast.line1_18 (cfg : Cfg) : Source.Sha256.Engine.software_process_block_fast.State1 → Tr Source.Sha256.Engine.software_process_block_fast.State1 :=
  fun (w, a, b, c, d, e, f, g, h) => do
    let x_38 ← Tr.index w 2
    let x_39 ← Tr.index w 0
    let x_40 ← Tr.index w 11
    let x_41 ← Tr.index w 3
    let w ← Tr.indexSet w 2 (((x_38 + (Source.Sha256.sigma1 cfg x_39)) + x_40) + (Source.Sha256.sigma0 cfg x_41))
    let x_43 ← Tr.index w 2
    let t1' : BitVec 32 := (((f + (Source.Sha256.Sigma1 cfg c)) + (Source.Sha256.Ch cfg c d e)) + 0x0fc19dc6#32) + x_43
    let t2' : BitVec 32 := (Source.Sha256.Sigma0 cfg g) + (Source.Sha256.Maj cfg g h a)
    let b := b + t1'
    let f := t1' + t2'
    pure (w, a, b, c, d, e, f, g, h)

/-- round!(f, g, h, a, b, c, d, e, 0x240ca1cc, w[3], w[1], w[12], w[4]) -/
def Engine.software_process_block_fast.line1_19 (cfg : Cfg) : Source.Sha256.Engine.software_process_block_fast.State1 → Tr Source.Sha256.Engine.software_process_block_fast.State1 :=
  fun (w, a, b, c, d, e, f, g, h) => do
    let x_44 ← Tr.index w 3
    let x_45 ← Tr.index w 1
    let x_46 ← Tr.index w 12
    let x_47 ← Tr.index w 4
    let w ← Tr.indexSet w 3 (((x_44 + (Source.Sha256.sigma1 cfg x_45)) + x_46) + (Source.Sha256.sigma0 cfg x_47))
    let x_49 ← Tr.index w 3
    let t1' : BitVec 32 := (((e + (Source.Sha256.Sigma1 cfg b)) + (Source.Sha256.Ch cfg b c d)) + 0x240ca1cc#32) + x_49
    let t2' : BitVec 32 := (Source.Sha256.Sigma0 cfg f) + (Source.Sha256.Maj cfg f g h)
    let a := a + t1'
    let e := t1' + t2'
    pure (w, a, b, c, d, e, f, g, h)

/-- round!(e, f, g, h, a, b, c, d, 0x2de92c6f, w[4], w[2], w[13], w[5]) -/
def Engine.software_process_block_fast.line1_20 (cfg : Cfg) : Source.Sha256.Engine.software_process_block_fast.State1 → Tr Source.Sha256.Engine.software_process_block_fast.State1 :=
  fun (w, a, b, c, d, e, f, g, h) => do
    let x_50 ← Tr.index w 4
    let x_51 ← Tr.index w 2
    let x_52 ← Tr.index w 13
    let x_53 ← Tr.index w 5
    let w ← Tr.indexSet w 4 (((x_50 + (Source.Sha256.sigma1 cfg x_51)) + x_52) + (Source.Sha256.sigma0 cfg x_53))
    let x_55 ← Tr.index w 4
    let t1' : BitVec 32 := (((d + (Source.Sha256.Sigma1 cfg a)) + (Source.Sha256.Ch cfg a b c)) + 0x2de92c6f#32) + x_55
    let t2' : BitVec 32 := (Source.Sha256.Sigma0 cfg e) + (Source.Sha256.Maj cfg e f g)
    let h := h + t1'
    let d := t1' + t2'
    pure (w, a, b, c, d, e, f, g, h)

/-- round!(d, e, f, g, h, a, b, c, 0x4a7484aa, w[5], w[3], w[14], w[6]) -/
def Engine.software_process_block_fast.line1_21 (cfg : Cfg) : Source.Sha256.Engine.software_process_block_fast.State1 → Tr Source.Sha256.Engine.software_process_block_fast.State1 :=
  fun (w, a, b, c, d, e, f, g, h) => do
    let x_56 ← Tr.index w 5
    let x_57 ← Tr.index w 3
    let x_58 ← Tr.index w 14
    let x_59 ← Tr.index w 6
    let w ← Tr.indexSet w 5 (((x_56 + (Source.Sha256.sigma1 cfg x_57)) + x_58) + (Source.Sha256.sigma0 cfg x_59))
    let x_61 ← Tr.index w 5
    let t1' : BitVec 32 := (((c + (Source.Sha256.Sigma1 cfg h)) + (Source.Sha256.Ch cfg h a b)) + 0x4a7484aa#32) + x_61
    let t2' : BitVec 32 := (Source.Sha256.Sigma0 cfg d) + (Source.Sha256.Maj cfg d e f)
    let g := g + t1'
    let c := t1' + t2'
    pure (w, a, b, c, d, e, f, g, h)

/-- round!(c, d, e, f, g, h, a, b, 0x5cb0a9dc, w[6], w[4], w[15], w[7]) -/
def Engine.software_process_block_fast.line1_22 (cfg : Cfg) : Source.Sha256.Engine.software_process_block_fast.State1 → Tr Source.Sha256.Engine.software_process_block_fast.State1 :=
  fun (w, a, b, c, d, e, f, g, h) => do
    let x_62 ← Tr.index w 6
    let x_63 ← Tr.index w 4
    let x_64 ← Tr.index w 15
    let x_65 ← Tr.index w 7
    let w ← Tr.indexSet w 6 (((x_62 + (Source.Sha256.sigma1 cfg x_63)) + x_64) + (Source.Sha256.sigma0 cfg x_65))
    let x_67 ← Tr.index w 6
    let t1' : BitVec 32 := (((b + (Source.Sha256.Sigma1 cfg g)) + (Source.Sha256.Ch cfg g h a)) + 0x5cb0a9dc#32) + x_67
    let t2' : BitVec 32 := (Source.Sha256.Sigma0 cfg c) + (Source.Sha256.Maj cfg c d e)
    let f := f + t1'
    let b := t1' + t2'
    pure (w, a, b, c, d, e, f, g, h)

/-- round!(b, c, d, e, f, g, h, a, 0x76f988da, w[7], w[5], w[0], w[8]) -/
def Engine.software_process_block_fast.line1_23 (cfg : Cfg) : Source.Sha256.Engine.software_process_block_fast.State1 → Tr Source.Sha256.Engine.software_process_block_fast.State1 :=
  fun (w, a, b, c, d, e, f, g, h) => do
    let x_68 ← Tr.index w 7
    let x_69 ← Tr.index w 5
    let x_70 ← Tr.index w 0
    let x_71 ← Tr.index w 8
    let w ← Tr.indexSet w 7 (((x_68 + (Source.Sha256.sigma1 cfg x_69)) + x_70) + (Source.Sha256.sigma0 cfg x_71))
    let x_73 ← Tr.index w 7
    let t1' : BitVec 32 := (((a + (Source.Sha256.Sigma1 cfg f)) + (Source.Sha256.Ch cfg f g h)) + 0x76f988da#32) + x_73
    let t2' : BitVec 32 := (Source.Sha256.Sigma0 cfg b) + (Source.Sha256.Maj cfg b c d)
    let e := e + t1'
    let a := t1' + t2'
    pure (w, a, b, c, d, e, f, g, h)

/-- round!(a, b, c, d, e, f, g, h, 0x983e5152, w[8], w[6], w[1], w[9]) -/
def Engine.software_process_block_fast.line1_24 (cfg : Cfg) : Source.Sha256.Engine.software_process_block_fast.State1 → Tr Source.Sha256.Engine.software_process_block_fast.State1 :=
  fun (w, a, b, c, d, e, f, g, h) => do
    let x_74 ← Tr.index w 8
    let x_75 ← Tr.index w 6
    let x_76 ← Tr.index w 1
    let x_77 ← Tr.index w 9
    let w ← Tr.indexSet w 8 (((x_74 + (Source.Sha256.sigma1 cfg x_75)) + x_76) + (Source.Sha256.sigma0 cfg x_77))
    let x_79 ← Tr.index w 8
    let t1' : BitVec 32 := (((h + (Source.Sha256.Sigma1 cfg e)) + (Source.Sha256.Ch cfg e f g)) + 0x983e5152#32) + x_79
    let t2' : BitVec 32 := (Source.Sha256.Sigma0 cfg a) + (Source.Sha256.Maj cfg a b c)
    let d := d + t1'
    let h := t1' + t2'
    pure (w, a, b, c, d, e, f, g, h)

/-- round!(h, a, b, c, d, e, f, g, 0xa831c66d, w[9], w[7], w[2], w[10]) -/
def Engine.software_process_block_fast.line1_25 (cfg : Cfg) : Source.Sha256.Engine.software_process_block_fast.State1 → Tr Source.Sha256.Engine.software_process_block_fast.State1 :=
  fun (w, a, b, c, d, e, f, g, h) => do
    let x_80 ← Tr.index w 9
    let x_81 ← Tr.index w 7
    let x_82 ← Tr.index w 2
    let x_83 ← Tr.index w 10
    let w ← Tr.indexSet w 9 (((x_80 + (Source.Sha256.sigma1 cfg x_81)) + x_82) + (Source.Sha256.sigma0 cfg x_83))
    let x_85 ← Tr.index w 9
    let t1' : BitVec 32 := (((g + (Source.Sha256.Sigma1 cfg d)) + (Source.Sha256.Ch cfg d e f)) + 0xa831c66d#32) + x_85
    let t2' : BitVec 32 := (Source.Sha256.Sigma0 cfg h) + (Source.Sha256.Maj cfg h a b)
    let c := c + t1'
    let g := t1' + t2'
    pure (w, a, b, c, d, e, f, g, h)

/-- round!(g, h, a, b, c, d, e, f, 0xb00327c8, w[10], w[8], w[3], w[11]) -/
def Engine.software_process_block_fast.line1_26 (cfg : Cfg) : Source.Sha256.Engine.software_process_block_fast.State1 → Tr Source.Sha256.Engine.software_process_block_fast.State1 :=
  fun (w, a, b, c, d, e, f, g, h) => do
    let x_86 ← Tr.index w 10
    let x_87 ← Tr.index w 8
    let x_88 ← Tr.index w 3
    let x_89 ← Tr.index w 11
    let w ← Tr.indexSet w 10 (((x_86 + (Source.Sha256.sigma1 cfg x_87)) + x_88) + (Source.Sha256.sigma0 cfg x_89))
    let x_91 ← Tr.index w 10
    let t1' : BitVec 32 := (((f + (Source.Sha256.Sigma1 cfg c)) + (Source.Sha256.Ch cfg c d e)) + 0xb00327c8#32) + x_91
    let t2' : BitVec 32 := (Source.Sha256.Sigma0 cfg g) + (Source.Sha256.Maj cfg g h a)
    let b := b + t1'
    let f := t1' + t2'
    pure (w, a, b, c, d, e, f, g, h)

/-- round!(f, g, h, a, b, c, d, e, 0xbf597fc7, w[11], w[9], w[4], w[12]) -/
def Engine.software_process_block_fast.line1_27 (cfg : Cfg) : Source.Sha256.Engine.software_process_block_fast.State1 → Tr Source.Sha256.Engine.software_process_block_fast.State1 :=
  fun (w, a, b, c, d, e, f, g, h) => do
    let x_92 ← Tr.index w 11
    let x_93 ← Tr.index w 9
    let x_94 ← Tr.index w 4
    let x_95 ← Tr.index w 12
    let w ← Tr.indexSet w 11 (((x_92 + (Source.Sha256.sigma1 cfg x_93)) + x_94) + (Source.Sha256.sigma0 cfg x_95))
    let x_97 ← Tr.index w 11
    let t1' : BitVec 32 := (((e + (Source.Sha256.Sigma1 cfg b)) + (Source.Sha256.Ch cfg b c d)) + 0xbf597fc7#32) + x_97
    let t2' : BitVec 32 := (Source.Sha256.Sigma0 cfg f) + (Source.Sha256.Maj cfg f g h)
    let a := a + t1'
    let e := t1' + t2'
    pure (w, a, b, c, d, e, f, g, h)

/-- round!(e, f, g, h, a, b, c, d, 0xc6e00bf3, w[12], w[10], w[5], w[13]) -/
def Engine.software_process_block_fast.line1_28 (cfg : Cfg) : Source.Sha256.Engine.software_process_block_fast.State1 → Tr Source.Sha256.Engine.software_process_block_fast.State1 :=
  fun (w, a, b, c, d, e, f, g, h) => do
    let x_98 ← Tr.index w 12
    let x_99 ← Tr.index w 10
    let x_100 ← Tr.index w 5
    let x_101 ← Tr.index w 13
    let w ← Tr.indexSet w 12 (((x_98 + (Source.Sha256.sigma1 cfg x_99)) + x_100) + (Source.Sha256.sigma0 cfg x_101))
    let x_103 ← Tr.index w 12
    let t1' : BitVec 32 := (((d + (Source.Sha256.Sigma1 cfg a)) + (Source.Sha256.Ch cfg a b c)) + 0xc6e00bf3#32) + x_103
    let t2' : BitVec 32 := (Source.Sha256.Sigma0 cfg e) + (Source.Sha256.Maj cfg e f g)
    let h := h + t1'
    let d := t1' + t2'
    pure (w, a, b, c, d, e, f, g, h)

/-- round!(d, e, f, g, h, a, b, c, 0xd5a79147, w[13], w[11], w[6], w[14]) -/
def Engine.software_process_block_fast.line1_29 (cfg : Cfg) : Source.Sha256.Engine.software_process_block_fast.State1 → Tr Source.Sha256.Engine.software_process_block_fast.State1 :=
  fun (w, a, b, c, d, e, f, g, h) => do
    let x_104 ← Tr.index w 13
    let x_105 ← Tr.index w 11
    let x_106 ← Tr.index w 6
    let x_107 ← Tr.index w 14
    let w ← Tr.indexSet w 13 (((x_104 + (Source.Sha256.sigma1 cfg x_105)) + x_106) + (Source.Sha256.sigma0 cfg x_107))
    let x_109 ← Tr.index w 13
    let t1' : BitVec 32 := (((c + (Source.Sha256.Sigma1 cfg h)) + (Source.Sha256.Ch cfg h a b)) + 0xd5a79147#32) + x_109
    let t2' : BitVec 32 := (Source.Sha256.Sigma0 cfg d) + (Source.Sha256.Maj cfg d e f)
    let g := g + t1'
    let c := t1' + t2'
    pure (w, a, b, c, d, e, f, g, h)

/-- round!(c, d, e, f, g, h, a, b, 0x06ca6351, w[14], w[12], w[7], w[15]) -/
def Engine.software_process_block_fast.line1_30 (cfg : Cfg) : Source.Sha256.Engine.software_process_block_fast.State1 → Tr Source.Sha256.Engine.software_process_block_fast.State1 :=
  fun (w, a, b, c, d, e, f, g, h) => do
    let x_110 ← Tr.index w 14
    let x_111 ← Tr.index w 12
    let x_112 ← Tr.index w 7
    let x_113 ← Tr.index w 15
    let w ← Tr.indexSet w 14 (((x_110 + (Source.Sha256.sigma1 cfg x_111)) + x_112) + (Source.Sha256.sigma0 cfg x_113))
    let x_115 ← Tr.index w 14
    let t1' : BitVec 32 := (((b + (Source.Sha256.Sigma1 cfg g)) + (Source.Sha256.Ch cfg g h a)) + 0x06ca6351#32) + x_115
    let t2' : BitVec 32 := (Source.Sha256.Sigma0 cfg c) + (Source.Sha256.Maj cfg c d e)
    let f := f + t1'
    let b := t1' + t2'
    pure (w, a, b, c, d, e, f, g, h)

/-- round!(b, c, d, e, f, g, h, a, 0x14292967, w[15], w[13], w[8], w[0]) -/
def Engine.software_process_block_fast.line1_31 (cfg : Cfg) : Source.Sha256.Engine.software_process_block_fast.State1 → Tr Source.Sha256.Engine.software_process_block_fast.State1 :=
  fun (w, a, b, c, d, e, f, g, h) => do
    let x_116 ← Tr.index w 15
    let x_117 ← Tr.index w 13
    let x_118 ← Tr.index w 8
    let x_119 ← Tr.index w 0
    let w ← Tr.indexSet w 15 (((x_116 + (Source.Sha256.sigma1 cfg x_117)) + x_118) + (Source.Sha256.sigma0 cfg x_119))
    let x_121 ← Tr.index w 15
    let t1' : BitVec 32 := (((a + (Source.Sha256.Sigma1 cfg f)) + (Source.Sha256.Ch cfg f g h)) + 0x14292967#32) + x_121
    let t2' : BitVec 32 := (Source.Sha256.Sigma0 cfg b) + (Source.Sha256.Maj cfg b c d)
    let e := e + t1'
    let a := t1' + t2'
    pure (w, a, b, c, d, e, f, g, h)

/-- round!(a, b, c, d, e, f, g, h, 0x27b70a85, w[0], w[14], w[9], w[1]) -/
def Engine.software_process_block_fast.line1_32 (cfg : Cfg) : Source.Sha256.Engine.software_process_block_fast.State1 → Tr Source.Sha256.Engine.software_process_block_fast.State1 :=
  fun (w, a, b, c, d, e, f, g, h) => do
    let x_122 ← Tr.index w 0
    let x_123 ← Tr.index w 14
    let x_124 ← Tr.index w 9
    let x_125 ← Tr.index w 1
    let w ← Tr.indexSet w 0 (((x_122 + (Source.Sha256.sigma1 cfg x_123)) + x_124) + (Source.Sha256.sigma0 cfg x_125))
    let x_127 ← Tr.index w 0
    let t1' : BitVec 32 := (((h + (Source.Sha256.Sigma1 cfg e)) + (Source.Sha256.Ch cfg e f g)) + 0x27b70a85#32) + x_127
    let t2' : BitVec 32 := (Source.Sha256.Sigma0 cfg a) + (Source.Sha256.Maj cfg a b c)
    let d := d + t1'
    let h := t1' + t2'
    pure (w, a, b, c, d, e, f, g, h)

/-- round!(h, a, b, c, d, e, f, g, 0x2e1b2138, w[1], w[15], w[10], w[2]) -/
def Engine.software_process_block_fast.line1_33 (cfg : Cfg) : Source.Sha256.Engine.software_process_block_fast.State1 → Tr Source.Sha256.Engine.software_process_block_fast.State1 :=
  fun (w, a, b, c, d, e, f, g, h) => do
    let x_128 ← Tr.index w 1
    let x_129 ← Tr.index w 15
    let x_130 ← Tr.index w 10
    let x_131 ← Tr.index w 2
    let w ← Tr.indexSet w 1 (((x_128 + (Source.Sha256.sigma1 cfg x_129)) + x_130) + (Source.Sha256.sigma0 cfg x_131))
    let x_133 ← Tr.index w 1
    let t1' : BitVec 32 := (((g + (Source.Sha256.Sigma1 cfg d)) + (Source.Sha256.Ch cfg d e f)) + 0x2e1b2138#32) + x_133
    let t2' : BitVec 32 := (Source.Sha256.Sigma0 cfg h) + (Source.Sha256.Maj cfg h a b)
    let c := c + t1'
    let g := t1' + t2'
    pure (w, a, b, c, d, e, f, g, h)

/-- round!(g, h, a, b, c, d, e, f, 0x4d2c6dfc, w[2], w[0], w[11], w[3]) -/
def Engine.software_process_block_fast.line1_34 (cfg : Cfg) : Source.Sha256.Engine.software_process_block_fast.State1 → Tr Source.Sha256.Engine.software_process_block_fast.State1 :=
  fun (w, a, b, c, d, e, f, g, h) => do
    let x_134 ← Tr.index w 2
    let x_135 ← Tr.index w 0
    let x_136 ← Tr.index w 11
    let x_137 ← Tr.index w 3
    let w ← Tr.indexSet w 2 (((x_134 + (Source.Sha256.sigma1 cfg x_135)) + x_136) + (Source.Sha256.sigma0 cfg x_137))
    let x_139 ← Tr.index w 2
    let t1' : BitVec 32 := (((f + (Source.Sha256.Sigma1 cfg c)) + (Source.Sha256.Ch cfg c d e)) + 0x4d2c6dfc#32) + x_139
    let t2' : BitVec 32 := (Source.Sha256.Sigma0 cfg g) + (Source.Sha256.Maj cfg g h a)
    let b := b + t1'
    let f := t1' + t2'
    pure (w, a, b, c, d, e, f, g, h)

/-- round!(f, g, h, a, b, c, d, e, 0x53380d13, w[3], w[1], w[12], w[4]) -/
def Engine.software_process_block_fast.line1_35 (cfg : Cfg) : Source.Sha256.Engine.software_process_block_fast.State1 → Tr Source.Sha256.Engine.software_process_block_fast.State1 :=
  fun (w, a, b, c, d, e, f, g, h) => do
    let x_140 ← Tr.index w 3
    let x_141 ← Tr.index w 1
    let x_142 ← Tr.index w 12
    let x_143 ← Tr.index w 4
    let w ← Tr.indexSet w 3 (((x_140 + (Source.Sha256.sigma1 cfg x_141)) + x_142) + (Source.Sha256.sigma0 cfg x_143))
    let x_145 ← Tr.index w 3
    let t1' : BitVec 32 := (((e + (Source.Sha256.Sigma1 cfg b)) + (Source.Sha256.Ch cfg b c d)) + 0x53380d13#32) + x_145
    let t2' : BitVec 32 := (Source.Sha256.Sigma0 cfg f) + (Source.Sha256.Maj cfg f g h)
    let a := a + t1'
    let e := t1' + t2'
    pure (w, a, b, c, d, e, f, g, h)

/-- round!(e, f, g, h, a, b, c, d, 0x650a7354, w[4], w[2], w[13], w[5]) -/
def Engine.software_process_block_fast.line1_36 (cfg : Cfg) : Source.Sha256.Engine.software_process_block_fast.State1 → Tr Source.Sha256.Engine.software_process_block_fast.State1 :=
  fun (w, a, b, c, d, e, f, g, h) => do
    let x_146 ← Tr.index w 4
    let x_147 ← Tr.index w 2
    let x_148 ← Tr.index w 13
    let x_149 ← Tr.index w 5
    let w ← Tr.indexSet w 4 (((x_146 + (Source.Sha256.sigma1 cfg x_147)) + x_148) + (Source.Sha256.sigma0 cfg x_149))
    let x_151 ← Tr.index w 4
    let t1' : BitVec 32 := (((d + (Source.Sha256.Sigma1 cfg a)) + (Source.Sha256.Ch cfg a b c)) + 0x650a7354#32) + x_151
    let t2' : BitVec 32 := (Source.Sha256.Sigma0 cfg e) + (Source.Sha256.Maj cfg e f g)
    let h := h + t1'
    let d := t1' + t2'
    pure (w, a, b, c, d, e, f, g, h)

/-- round!(d, e, f, g, h, a, b, c, 0x766a0abb, w[5], w[3], w[14], w[6]) -/
def Engine.software_process_block_fast.line1_37 (cfg : Cfg) : Source.Sha256.Engine.software_process_block_fast.State1 → Tr Source.Sha256.Engine.software_process_block_fast.State1 :=
  fun (w, a, b, c, d, e, f, g, h) => do
    let x_152 ← Tr.index w 5
    let x_153 ← Tr.index w 3
    let x_154 ← Tr.index w 14
    let x_155 ← Tr.index w 6
    let w ← Tr.indexSet w 5 (((x_152 + (Source.Sha256.sigma1 cfg x_153)) + x_154) + (Source.Sha256.sigma0 cfg x_155))
    let x_157 ← Tr.index w 5
    let t1' : BitVec 32 := (((c + (Source.Sha256.Sigma1 cfg h)) + (Source.Sha256.Ch cfg h a b)) + 0x766a0abb#32) + x_157
    let t2' : BitVec 32 := (Source.Sha256.Sigma0 cfg d) + (Source.Sha256.Maj cfg d e f)
    let g := g + t1'
    let c := t1' + t2'
    pure (w, a, b, c, d, e, f, g, h)

/-- round!(c, d, e, f, g, h, a, b, 0x81c2c92e, w[6], w[4], w[15], w[7]) -/
def Engine.software_process_block_fast.line1_38 (cfg : Cfg) : Source.Sha256.Engine.software_process_block_fast.State1 → Tr Source.Sha256.Engine.software_process_block_fast.State1 :=
  fun (w, a, b, c, d, e, f, g, h) => do
    let x_158 ← Tr.index w 6
    let x_159 ← Tr.index w 4
    let x_160 ← Tr.index w 15
    let x_161 ← Tr.index w 7
    let w ← Tr.indexSet w 6 (((x_158 + (Source.Sha256.sigma1 cfg x_159)) + x_160) + (Source.Sha256.sigma0 cfg x_161))
    let x_163 ← Tr.index w 6
    let t1' : BitVec 32 := (((b + (Source.Sha256.Sigma1 cfg g)) + (Source.Sha256.Ch cfg g h a)) + 0x81c2c92e#32) + x_163
    let t2' : BitVec 32 := (Source.Sha256.Sigma0 cfg c) + (Source.Sha256.Maj cfg c d e)
    let f := f + t1'
    let b := t1' + t2'
    pure (w, a, b, c, d, e, f, g, h)

/-- round!(b, c, d, e, f, g, h, a, 0x92722c85, w[7], w[5], w[0], w[8]) -/
def Engine.software_process_block_fast.line1_39 (cfg : Cfg) : Source.Sha256.Engine.software_process_block_fast.State1 → Tr Source.Sha256.Engine.software_process_block_fast.State1 :=
  fun (w, a, b, c, d, e, f, g, h) => do
    let x_164 ← Tr.index w 7
    let x_165 ← Tr.index w 5
    let x_166 ← Tr.index w 0
    let x_167 ← Tr.index w 8
    let w ← Tr.indexSet w 7 (((x_164 + (Source.Sha256.sigma1 cfg x_165)) + x_166) + (Source.Sha256.sigma0 cfg x_167))
    let x_169 ← Tr.index w 7
    let t1' : BitVec 32 := (((a + (Source.Sha256.Sigma1 cfg f)) + (Source.Sha256.Ch cfg f g h)) + 0x92722c85#32) + x_169
    let t2' : BitVec 32 := (Source.Sha256.Sigma0 cfg b) + (Source.Sha256.Maj cfg b c d)
    let e := e + t1'
    let a := t1' + t2'
    pure (w, a, b, c, d, e, f, g, h)

/-- round!(a, b, c, d, e, f, g, h, 0xa2bfe8a1, w[8], w[6], w[1], w[9]) -/
def Engine.software_process_block_fast.line1_40 (cfg : Cfg) : Source.Sha256.Engine.software_process_block_fast.State1 → Tr Source.Sha256.Engine.software_process_block_fast.State1 :=
  fun (w, a, b, c, d, e, f, g, h) => do
    let x_170 ← Tr.index w 8
    let x_171 ← Tr.index w 6
    let x_172 ← Tr.index w 1
    let x_173 ← Tr.index w 9
    let w ← Tr.indexSet w 8 (((x_170 + (Source.Sha256.sigma1 cfg x_171)) + x_172) + (Source.Sha256.sigma0 cfg x_173))
    let x_175 ← Tr.index w 8
    let t1' : BitVec 32 := (((h + (Source.Sha256.Sigma1 cfg e)) + (Source.Sha256.Ch cfg e f g)) + 0xa2bfe8a1#32) + x_175
    let t2' : BitVec 32 := (Source.Sha256.Sigma0 cfg a) + (Source.Sha256.Maj cfg a b c)
    let d := d + t1'
    let h := t1' + t2'
    pure (w, a, b, c, d, e, f, g, h)

/-- round!(h, a, b, c, d, e, f, g, 0xa81a664b, w[9], w[7], w[2], w[10]) -/
def Engine.software_process_block_fast.line1_41 (cfg : Cfg) : Source.Sha256.Engine.software_process_block_fast.State1 → Tr Source.Sha256.Engine.software_process_block_fast.State1 :=
  fun (w, a, b, c, d, e, f, g, h) => do
    let x_176 ← Tr.index w 9
    let x_177 ← Tr.index w 7
    let x_178 ← Tr.index w 2
    let x_179 ← Tr.index w 10
    let w ← Tr.indexSet w 9 (((x_176 + (Source.Sha256.sigma1 cfg x_177)) + x_178) + (Source.Sha256.sigma0 cfg x_179))
    let x_181 ← Tr.index w 9
    let t1' : BitVec 32 := (((g + (Source.Sha256.Sigma1 cfg d)) + (Source.Sha256.Ch cfg d e f)) + 0xa81a664b#32) + x_181
    let t2' : BitVec 32 := (Source.Sha256.Sigma0 cfg h) + (Source.Sha256.Maj cfg h a b)
    let c := c + t1'
    let g := t1' + t2'
    pure (w, a, b, c, d, e, f, g, h)

/-- round!(g, h, a, b, c, d, e, f, 0xc24b8b70, w[10], w[8], w[3], w[11]) -/
def Engine.software_process_block_fast.line1_42 (cfg : Cfg) : Source.Sha256.Engine.software_process_block_fast.State1 → Tr Source.Sha256.Engine.software_process_block_fast.State1 :=
  fun (w, a, b, c, d, e, f, g, h) => do
    let x_182 ← Tr.index w 10
    let x_183 ← Tr.index w 8
    let x_184 ← Tr.index w 3
    let x_185 ← Tr.index w 11
    let w ← Tr.indexSet w 10 (((x_182 + (Source.Sha256.sigma1 cfg x_183)) + x_184) + (Source.Sha256.sigma0 cfg x_185))
    let x_187 ← Tr.index w 10
    let t1' : BitVec 32 := (((f + (Source.Sha256.Sigma1 cfg c)) + (Source.Sha256.Ch cfg c d e)) + 0xc24b8b70#32) + x_187
    let t2' : BitVec 32 := (Source.Sha256.Sigma0 cfg g) + (Source.Sha256.Maj cfg g h a)
    let b := b + t1'
    let f := t1' + t2'
    pure (w, a, b, c, d, e, f, g, h)

/-- round!(f, g, h, a, b, c, d, e, 0xc76c51a3, w[11], w[9], w[4], w[12]) -/
def Engine.software_process_block_fast.line1_43 (cfg : Cfg) : Source.Sha256.Engine.software_process_block_fast.State1 → Tr Source.Sha256.Engine.software_process_block_fast.State1 :=
  fun (w, a, b, c, d, e, f, g, h) => do
    let x_188 ← Tr.index w 11
    let x_189 ← Tr.index w 9
    let x_190 ← Tr.index w 4
    let x_191 ← Tr.index w 12
    let w ← Tr.indexSet w 11 (((x_188 + (Source.Sha256.sigma1 cfg x_189)) + x_190) + (Source.Sha256.sigma0 cfg x_191))
    let x_193 ← Tr.index w 11
    let t1' : BitVec 32 := (((e + (Source.Sha256.Sigma1 cfg b)) + (Source.Sha256.Ch cfg b c d)) + 0xc76c51a3#32) + x_193
    let t2' : BitVec 32 := (Source.Sha256.Sigma0 cfg f) + (Source.Sha256.Maj cfg f g h)
    let a := a + t1'
    let e := t1' + t2'
    pure (w, a, b, c, d, e, f, g, h)

/-- round!(e, f, g, h, a, b, c, d, 0xd192e819, w[12], w[10], w[5], w[13]) -/
def Engine.software_process_block_fast.line1_44 (cfg : Cfg) : Source.Sha256.Engine.software_process_block_fast.State1 → Tr Source.Sha256.Engine.software_process_block_fast.State1 :=
  fun (w, a, b, c, d, e, f, g, h) => do
    let x_194 ← Tr.index w 12
    let x_195 ← Tr.index w 10
    let x_196 ← Tr.index w 5
    let x_197 ← Tr.index w 13
    let w ← Tr.indexSet w 12 (((x_194 + (Source.Sha256.sigma1 cfg x_195)) + x_196) + (Source.Sha256.sigma0 cfg x_197))
    let x_199 ← Tr.index w 12
    let t1' : BitVec 32 := (((d + (Source.Sha256.Sigma1 cfg a)) + (Source.Sha256.Ch cfg a b c)) + 0xd192e819#32) + x_199
    let t2' : BitVec 32 := (Source.Sha256.Sigma0 cfg e) + (Source.Sha256.Maj cfg e f g)
    let h := h + t1'
    let d := t1' + t2'
    pure (w, a, b, c, d, e, f, g, h)

/-- round!(d, e, f, g, h, a, b, c, 0xd6990624, w[13], w[11], w[6], w[14]) -/
def Engine.software_process_block_fast.line1_45 (cfg : Cfg) : Source.Sha256.Engine.software_process_block_fast.State1 → Tr Source.Sha256.Engine.software_process_block_fast.State1 :=
  fun (w, a, b, c, d, e, f, g, h) => do
    let x_200 ← Tr.index w 13
    let x_201 ← Tr.index w 11
    let x_202 ← Tr.index w 6
    let x_203 ← Tr.index w 14
    let w ← Tr.indexSet w 13 (((x_200 + (Source.Sha256.sigma1 cfg x_201)) + x_202) + (Source.Sha256.sigma0 cfg x_203))
    let x_205 ← Tr.index w 13
    let t1' : BitVec 32 := (((c + (Source.Sha256.Sigma1 cfg h)) + (Source.Sha256.Ch cfg h a b)) + 0xd6990624#32) + x_205
    let t2' : BitVec 32 := (Source.Sha256.Sigma0 cfg d) + (Source.Sha256.Maj cfg d e f)
    let g := g + t1'
    let c := t1' + t2'
    pure (w, a, b, c, d, e, f, g, h)

/-- round!(c, d, e, f, g, h, a, b, 0xf40e3585, w[14], w[12], w[7], w[15]) -/
def Engine.software_process_block_fast.line1_46 (cfg : Cfg) : Source.Sha256.Engine.software_process_block_fast.State1 → Tr Source.Sha256.Engine.software_process_block_fast.State1 :=
  fun (w, a, b, c, d, e, f, g, h) => do
    let x_206 ← Tr.index w 14
    let x_207 ← Tr.index w 12
    let x_208 ← Tr.index w 7
    let x_209 ← Tr.index w 15
    let w ← Tr.indexSet w 14 (((x_206 + (Source.Sha256.sigma1 cfg x_207)) + x_208) + (Source.Sha256.sigma0 cfg x_209))
    let x_211 ← Tr.index w 14
    let t1' : BitVec 32 := (((b + (Source.Sha256.Sigma1 cfg g)) + (Source.Sha256.Ch cfg g h a)) + 0xf40e3585#32) + x_211
    let t2' : BitVec 32 := (Source.Sha256.Sigma0 cfg c) + (Source.Sha256.Maj cfg c d e)
    let f := f + t1'
    let b := t1' + t2'
    pure (w, a, b, c, d, e, f, g, h)

/-- round!(b, c, d, e, f, g, h, a, 0x106aa070, w[15], w[13], w[8], w[0]) -/
def Engine.software_process_block_fast.line1_47 (cfg : Cfg) : Source.Sha256.Engine.software_process_block_fast.State1 → Tr Source.Sha256.Engine.software_process_block_fast.State1 :=
  fun (w, a, b, c, d, e, f, g, h) => do
    let x_212 ← Tr.index w 15
    let x_213 ← Tr.index w 13
    let x_214 ← Tr.index w 8
    let x_215 ← Tr.index w 0
    let w ← Tr.indexSet w 15 (((x_212 + (Source.Sha256.sigma1 cfg x_213)) + x_214) + (Source.Sha256.sigma0 cfg x_215))
    let x_217 ← Tr.index w 15
    let t1' : BitVec 32 := (((a + (Source.Sha256.Sigma1 cfg f)) + (Source.Sha256.Ch cfg f g h)) + 0x106aa070#32) + x_217
    let t2' : BitVec 32 := (Source.Sha256.Sigma0 cfg b) + (Source.Sha256.Maj cfg b c d)
    let e := e + t1'
    let a := t1' + t2'
    pure (w, a, b, c, d, e, f, g, h)

/-- round!(a, b, c, d, e, f, g, h, 0x19a4c116, w[0], w[14], w[9], w[1]) -/
def Engine.software_process_block_fast.line1_48 (cfg : Cfg) : Source.Sha256.Engine.software_process_block_fast.State1 → Tr Source.Sha256.Engine.software_process_block_fast.State1 :=
  fun (w, a, b, c, d, e, f, g, h) => do
    let x_218 ← Tr.index w 0
    let x_219 ← Tr.index w 14
    let x_220 ← Tr.index w 9
    let x_221 ← Tr.index w 1
    let w ← Tr.indexSet w 0 (((x_218 + (Source.Sha256.sigma1 cfg x_219)) + x_220) + (Source.Sha256.sigma0 cfg x_221))
    let x_223 ← Tr.index w 0
    let t1' : BitVec 32 := (((h + (Source.Sha256.Sigma1 cfg e)) + (Source.Sha256.Ch cfg e f g)) + 0x19a4c116#32) + x_223
    let t2' : BitVec 32 := (Source.Sha256.Sigma0 cfg a) + (Source.Sha256.Maj cfg a b c)
    let d := d + t1'
    let h := t1' + t2'
    pure (w, a, b, c, d, e, f, g, h)

/-- round!(h, a, b, c, d, e, f, g, 0x1e376c08, w[1], w[15], w[10], w[2]) -/
def Engine.software_process_block_fast.line1_49 (cfg : Cfg) : Source.Sha256.Engine.software_process_block_fast.State1 → Tr Source.Sha256.Engine.software_process_block_fast.State1 :=
  fun (w, a, b, c, d, e, f, g, h) => do
    let x_224 ← Tr.index w 1
    let x_225 ← Tr.index w 15
    let x_226 ← Tr.index w 10
    let x_227 ← Tr.index w 2
    let w ← Tr.indexSet w 1 (((x_224 + (Source.Sha256.sigma1 cfg x_225)) + x_226) + (Source.Sha256.sigma0 cfg x_227))
    let x_229 ← Tr.index w 1
    let t1' : BitVec 32 := (((g + (Source.Sha256.Sigma1 cfg d)) + (Source.Sha256.Ch cfg d e f)) + 0x1e376c08#32) + x_229
    let t2' : BitVec 32 := (Source.Sha256.Sigma0 cfg h) + (Source.Sha256.Maj cfg h a b)
    let c := c + t1'
    let g := t1' + t2'
    pure (w, a, b, c, d, e, f, g, h)

/-- round!(g, h, a, b, c, d, e, f, 0x2748774c, w[2], w[0], w[11], w[3]) -/
def Engine.software_process_block_fast.line1_50 (cfg : Cfg) : Source.Sha256.Engine.software_process_block_fast.State1 → Tr Source.Sha256.Engine.software_process_block_fast.State1 :=
  fun (w, a, b, c, d, e, f, g, h) => do
    let x_230 ← Tr.index w 2
    let x_231 ← Tr.index w 0
    let x_232 ← Tr.index w 11
    let x_233 ← Tr.index w 3
    let w ← Tr.indexSet w 2 (((x_230 + (Source.Sha256.sigma1 cfg x_231)) + x_232) + (Source.Sha256.sigma0 cfg x_233))
    let x_235 ← Tr.index w 2
    let t1' : BitVec 32 := (((f + (Source.Sha256.Sigma1 cfg c)) + (Source.Sha256.Ch cfg c d e)) + 0x2748774c#32) + x_235
    let t2' : BitVec 32 := (Source.Sha256.Sigma0 cfg g) + (Source.Sha256.Maj cfg g h a)
    let b := b + t1'
    let f := t1' + t2'
    pure (w, a, b, c, d, e, f, g, h)

/-- round!(f, g, h, a, b, c, d, e, 0x34b0bcb5, w[3], w[1], w[12], w[4]) -/
def Engine.software_process_block_fast.line1_51 (cfg : Cfg) : Source.Sha256.Engine.software_process_block_fast.State1 → Tr Source.Sha256.Engine.software_process_block_fast.State1 :=
  fun (w, a, b, c, d, e, f, g, h) => do
    let x_236 ← Tr.index w 3
    let x_237 ← Tr.index w 1
    let x_238 ← Tr.index w 12
    let x_239 ← Tr.index w 4
    let w ← Tr.indexSet w 3 (((x_236 + (Source.Sha256.sigma1 cfg x_237)) + x_238) + (Source.Sha256.sigma0 cfg x_239))
    let x_241 ← Tr.index w 3
    let t1' : BitVec 32 := (((e + (Source.Sha256.Sigma1 cfg b)) + (Source.Sha256.Ch cfg b c d)) + 0x34b0bcb5#32) + x_241
    let t2' : BitVec 32 := (Source.Sha256.Sigma0 cfg f) + (Source.Sha256.Maj cfg f g h)
    let a := a + t1'
    let e := t1' + t2'
    pure (w, a, b, c, d, e, f, g, h)

/-- round!(e, f, g, h, a, b, c, d, 0x391c0cb3, w[4], w[2], w[13], w[5]) -/
def Engine.software_process_block_fast.line1_52 (cfg : Cfg) : Source.Sha256.Engine.software_process_block_fast.State1 → Tr Source.Sha256.Engine.software_process_block_fast.State1 :=
  fun (w, a, b, c, d, e, f, g, h) => do
    let x_242 ← Tr.index w 4
    let x_243 ← Tr.index w 2
    let x_244 ← Tr.index w 13
    let x_245 ← Tr.index w 5
    let w ← Tr.indexSet w 4 (((x_242 + (Source.Sha256.sigma1 cfg x_243)) + x_244) + (Source.Sha256.sigma0 cfg x_245))
    let x_247 ← Tr.index w 4
    let t1' : BitVec 32 := (((d + (Source.Sha256.Sigma1 cfg a)) + (Source.Sha256.Ch cfg a b c)) + 0x391c0cb3#32) + x_247
    let t2' : BitVec 32 := (Source.Sha256.Sigma0 cfg e) + (Source.Sha256.Maj cfg e f g)
    let h := h + t1'
    let d := t1' + t2'
    pure (w, a, b, c, d, e, f, g, h)

/-- round!(d, e, f, g, h, a, b, c, 0x4ed8aa4a, w[5], w[3], w[14], w[6]) -/
def Engine.software_process_block_fast.line1_53 (cfg : Cfg) : Source.Sha256.Engine.software_process_block_fast.State1 → Tr Source.Sha256.Engine.software_process_block_fast.State1 :=
  fun (w, a, b, c, d, e, f, g, h) => do
    let x_248 ← Tr.index w 5
    let x_249 ← Tr.index w 3
    let x_250 ← Tr.index w 14
    let x_251 ← Tr.index w 6
    let w ← Tr.indexSet w 5 (((x_248 + (Source.Sha256.sigma1 cfg x_249)) + x_250) + (Source.Sha256.sigma0 cfg x_251))
    let x_253 ← Tr.index w 5
    let t1' : BitVec 32 := (((c + (Source.Sha256.Sigma1 cfg h)) + (Source.Sha256.Ch cfg h a b)) + 0x4ed8aa4a#32) + x_253
    let t2' : BitVec 32 := (Source.Sha256.Sigma0 cfg d) + (Source.Sha256.Maj cfg d e f)
    let g := g + t1'
    let c := t1' + t2'
    pure (w, a, b, c, d, e, f, g, h)

/-- round!(c, d, e, f, g, h, a, b, 0x5b9cca4f, w[6], w[4], w[15], w[7]) -/
def Engine.software_process_block_fast.line1_54 (cfg : Cfg) : Source.Sha256.Engine.software_process_block_fast.State1 → Tr Source.Sha256.Engine.software_process_block_fast.State1 :=
  fun (w, a, b, c, d, e, f, g, h) => do
    let x_254 ← Tr.index w 6
    let x_255 ← Tr.index w 4
    let x_256 ← Tr.index w 15
    let x_257 ← Tr.index w 7
    let w ← Tr.indexSet w 6 (((x_254 + (Source.Sha256.sigma1 cfg x_255)) + x_256) + (Source.Sha256.sigma0 cfg x_257))
    let x_259 ← Tr.index w 6
    let t1' : BitVec 32 := (((b + (Source.Sha256.Sigma1 cfg g)) + (Source.Sha256.Ch cfg g h a)) + 0x5b9cca4f#32) + x_259
    let t2' : BitVec 32 := (Source.Sha256.Sigma0 cfg c) + (Source.Sha256.Maj cfg c d e)
    let f := f + t1'
    let b := t1' + t2'
    pure (w, a, b, c, d, e, f, g, h)

/-- round!(b, c, d, e, f, g, h, a, 0x682e6ff3, w[7], w[5], w[0], w[8]) -/
def Engine.software_process_block_fast.line1_55 (cfg : Cfg) : Source.Sha256.Engine.software_process_block_fast.State1 → Tr Source.Sha256.Engine.software_process_block_fast.State1 :=
  fun (w, a, b, c, d, e, f, g, h) => do
    let x_260 ← Tr.index w 7
    let x_261 ← Tr.index w 5
    let x_262 ← Tr.index w 0
    let x_263 ← Tr.index w 8
    let w ← Tr.indexSet w 7 (((x_260 + (Source.Sha256.sigma1 cfg x_261)) + x_262) + (Source.Sha256.sigma0 cfg x_263))
    let x_265 ← Tr.index w 7
    let t1' : BitVec 32 := (((a + (Source.Sha256.Sigma1 cfg f)) + (Source.Sha256.Ch cfg f g h)) + 0x682e6ff3#32) + x_265
    let t2' : BitVec 32 := (Source.Sha256.Sigma0 cfg b) + (Source.Sha256.Maj cfg b c d)
    let e := e + t1'
    let a := t1' + t2'
    pure (w, a, b, c, d, e, f, g, h)

/-- round!(a, b, c, d, e, f, g, h, 0x748f82ee, w[8], w[6], w[1], w[9]) -/
def Engine.software_process_block_fast.line1_56 (cfg : Cfg) : Source.Sha256.Engine.software_process_block_fast.State1 → Tr Source.Sha256.Engine.software_process_block_fast.State1 :=
  fun (w, a, b, c, d, e, f, g, h) => do
    let x_266 ← Tr.index w 8
    let x_267 ← Tr.index w 6
    let x_268 ← Tr.index w 1
    let x_269 ← Tr.index w 9
    let w ← Tr.indexSet w 8 (((x_266 + (Source.Sha256.sigma1 cfg x_267)) + x_268) + (Source.Sha256.sigma0 cfg x_269))
    let x_271 ← Tr.index w 8
    let t1' : BitVec 32 := (((h + (Source.Sha256.Sigma1 cfg e)) + (Source.Sha256.Ch cfg e f g)) + 0x748f82ee#32) + x_271
    let t2' : BitVec 32 := (Source.Sha256.Sigma0 cfg a) + (Source.Sha256.Maj cfg a b c)
    let d := d + t1'
    let h := t1' + t2'
    pure (w, a, b, c, d, e, f, g, h)

/-- round!(h, a, b, c, d, e, f, g, 0x78a5636f, w[9], w[7], w[2], w[10]) -/
def Engine.software_process_block_fast.line1_57 (cfg : Cfg) : Source.Sha256.Engine.software_process_block_fast.State1 → Tr Source.Sha256.Engine.software_process_block_fast.State1 :=
  fun (w, a, b, c, d, e, f, g, h) => do
    let x_272 ← Tr.index w 9
    let x_273 ← Tr.index w 7
    let x_274 ← Tr.index w 2
    let x_275 ← Tr.index w 10
    let w ← Tr.indexSet w 9 (((x_272 + (Source.Sha256.sigma1 cfg x_273)) + x_274) + (Source.Sha256.sigma0 cfg x_275))
    let x_277 ← Tr.index w 9
    let t1' : BitVec 32 := (((g + (Source.Sha256.Sigma1 cfg d)) + (Source.Sha256.Ch cfg d e f)) + 0x78a5636f#32) + x_277
    let t2' : BitVec 32 := (Source.Sha256.Sigma0 cfg h) + (Source.Sha256.Maj cfg h a b)
    let c := c + t1'
    let g := t1' + t2'
    pure (w, a, b, c, d, e, f, g, h)

/-- round!(g, h, a, b, c, d, e, f, 0x84c87814, w[10], w[8], w[3], w[11]) -/
def Engine.software_process_block_fast.line1_58 (cfg : Cfg) : Source.Sha256.Engine.software_process_block_fast.State1 → Tr Source.Sha256.Engine.software_process_block_fast.State1 :=
  fun (w, a, b, c, d, e, f, g, h) => do
    let x_278 ← Tr.index w 10
    let x_279 ← Tr.index w 8
    let x_280 ← Tr.index w 3
    let x_281 ← Tr.index w 11
    let w ← Tr.indexSet w 10 (((x_278 + (Source.Sha256.sigma1 cfg x_279)) + x_280) + (Source.Sha256.sigma0 cfg x_281))
    let x_283 ← Tr.index w 10
    let t1' : BitVec 32 := (((f + (Source.Sha256.Sigma1 cfg c)) + (Source.Sha256.Ch cfg c d e)) + 0x84c87814#32) + x_283
    let t2' : BitVec 32 := (Source.Sha256.Sigma0 cfg g) + (Source.Sha256.Maj cfg g h a)
    let b := b + t1'
    let f := t1' + t2'
    pure (w, a, b, c, d, e, f, g, h)

/-- round!(f, g, h, a, b, c, d, e, 0x8cc70208, w[11], w[9], w[4], w[12]) -/
def Engine.software_process_block_fast.line1_59 (cfg : Cfg) : Source.Sha256.Engine.software_process_block_fast.State1 → Tr Source.Sha256.Engine.software_process_block_fast.State1 :=
  fun (w, a, b, c, d, e, f, g, h) => do
    let x_284 ← Tr.index w 11
    let x_285 ← Tr.index w 9
    let x_286 ← Tr.index w 4
    let x_287 ← Tr.index w 12
    let w ← Tr.indexSet w 11 (((x_284 + (Source.Sha256.sigma1 cfg x_285)) + x_286) + (Source.Sha256.sigma0 cfg x_287))
    let x_289 ← Tr.index w 11
    let t1' : BitVec 32 := (((e + (Source.Sha256.Sigma1 cfg b)) + (Source.Sha256.Ch cfg b c d)) + 0x8cc70208#32) + x_289
    let t2' : BitVec 32 := (Source.Sha256.Sigma0 cfg f) + (Source.Sha256.Maj cfg f g h)
    let a := a + t1'
    let e := t1' + t2'
    pure (w, a, b, c, d, e, f, g, h)

/-- round!(e, f, g, h, a, b, c, d, 0x90befffa, w[12], w[10], w[5], w[13]) -/
def Engine.software_process_block_fast.line1_60 (cfg : Cfg) : Source.Sha256.Engine.software_process_block_fast.State1 → Tr Source.Sha256.Engine.software_process_block_fast.State1 :=
  fun (w, a, b, c, d, e, f, g, h) => do
    let x_290 ← Tr.index w 12
    let x_291 ← Tr.index w 10
    let x_292 ← Tr.index w 5
    let x_293 ← Tr.index w 13
    let w ← Tr.indexSet w 12 (((x_290 + (Source.Sha256.sigma1 cfg x_291)) + x_292) + (Source.Sha256.sigma0 cfg x_293))
    let x_295 ← Tr.index w 12
    let t1' : BitVec 32 := (((d + (Source.Sha256.Sigma1 cfg a)) + (Source.Sha256.Ch cfg a b c)) + 0x90befffa#32) + x_295
    let t2' : BitVec 32 := (Source.Sha256.Sigma0 cfg e) + (Source.Sha256.Maj cfg e f g)
    let h := h + t1'
    let d := t1' + t2'
    pure (w, a, b, c, d, e, f, g, h)

/-- round!(d, e, f, g, h, a, b, c, 0xa4506ceb, w[13], w[11], w[6], w[14]) -/
def Engine.software_process_block_fast.line1_61 (cfg : Cfg) : Source.Sha256.Engine.software_process_block_fast.State1 → Tr Source.Sha256.Engine.software_process_block_fast.State1 :=
  fun (w, a, b, c, d, e, f, g, h) => do
    let x_296 ← Tr.index w 13
    let x_297 ← Tr.index w 11
    let x_298 ← Tr.index w 6
    let x_299 ← Tr.index w 14
    let w ← Tr.indexSet w 13 (((x_296 + (Source.Sha256.sigma1 cfg x_297)) + x_298) + (Source.Sha256.sigma0 cfg x_299))
    let x_301 ← Tr.index w 13
    let t1' : BitVec 32 := (((c + (Source.Sha256.Sigma1 cfg h)) + (Source.Sha256.Ch cfg h a b)) + 0xa4506ceb#32) + x_301
    let t2' : BitVec 32 := (Source.Sha256.Sigma0 cfg d) + (Source.Sha256.Maj cfg d e f)
    let g := g + t1'
    let c := t1' + t2'
    pure (w, a, b, c, d, e, f, g, h)

/-- round!(c, d, e, f, g, h, a, b, 0xbef9a3f7, w[14], w[12], w[7], w[15]) -/
def Engine.software_process_block_fast.line1_62 (cfg : Cfg) : Source.Sha256.Engine.software_process_block_fast.State1 → Tr Source.Sha256.Engine.software_process_block_fast.State1 :=
  fun (w, a, b, c, d, e, f, g, h) => do
    let x_302 ← Tr.index w 14
    let x_303 ← Tr.index w 12
    let x_304 ← Tr.index w 7
    let x_305 ← Tr.index w 15
    let w ← Tr.indexSet w 14 (((x_302 + (Source.Sha256.sigma1 cfg x_303)) + x_304) + (Source.Sha256.sigma0 cfg x_305))
    let x_307 ← Tr.index w 14
    let t1' : BitVec 32 := (((b + (Source.Sha256.Sigma1 cfg g)) + (Source.Sha256.Ch cfg g h a)) + 0xbef9a3f7#32) + x_307
    let t2' : BitVec 32 := (Source.Sha256.Sigma0 cfg c) + (Source.Sha256.Maj cfg c d e)
    let f := f + t1'
    let b := t1' + t2'
    pure (w, a, b, c, d, e, f, g, h)

/-- round!(b, c, d, e, f, g, h, a, 0xc67178f2, w[15], w[13], w[8], w[0]) -/
def Engine.software_process_block_fast.line1_63 (cfg : Cfg) : Source.Sha256.Engine.software_process_block_fast.State1 → Tr Source.Sha256.Engine.software_process_block_fast.State1 :=
  fun (w, a, b, c, d, e, f, g, h) => do
    let x_308 ← Tr.index w 15
    let x_309 ← Tr.index w 13
    let x_310 ← Tr.index w 8
    let x_311 ← Tr.index w 0
    let w ← Tr.indexSet w 15 (((x_308 + (Source.Sha256.sigma1 cfg x_309)) + x_310) + (Source.Sha256.sigma0 cfg x_311))
    let x_313 ← Tr.index w 15
    let t1' : BitVec 32 := (((a + (Source.Sha256.Sigma1 cfg f)) + (Source.Sha256.Ch cfg f g h)) + 0xc67178f2#32) + x_313
    let t2' : BitVec 32 := (Source.Sha256.Sigma0 cfg b) + (Source.Sha256.Maj cfg b c d)
    let e := e + t1'
    let a := t1' + t2'
    pure (w, a, b, c, d, e, f, g, h)

/-- The 64 statements. -/
def Engine.software_process_block_fast.lines1 (cfg : Cfg) : List (Source.Sha256.Engine.software_process_block_fast.State1 → Tr Source.Sha256.Engine.software_process_block_fast.State1) := [
  Seen.Sha256.Engine.software_process_block_fast.line1_0 cfg,
  Seen.Sha256.Engine.software_process_block_fast.line1_1 cfg,
  Seen.Sha256.Engine.software_process_block_fast.line1_2 cfg,
  Seen.Sha256.Engine.software_process_block_fast.line1_3 cfg,
  Seen.Sha256.Engine.software_process_block_fast.line1_4 cfg,
  Seen.Sha256.Engine.software_process_block_fast.line1_5 cfg,
  Seen.Sha256.Engine.software_process_block_fast.line1_6 cfg,
  Seen.Sha256.Engine.software_process_block_fast.line1_7 cfg,
  Seen.Sha256.Engine.software_process_block_fast.line1_8 cfg,
  Seen.Sha256.Engine.software_process_block_fast.line1_9 cfg,
  Seen.Sha256.Engine.software_process_block_fast.line1_10 cfg,
  Seen.Sha256.Engine.software_process_block_fast.line1_11 cfg,
  Seen.Sha256.Engine.software_process_block_fast.line1_12 cfg,
  Seen.Sha256.Engine.software_process_block_fast.line1_13 cfg,
  Seen.Sha256.Engine.software_process_block_fast.line1_14 cfg,
  Seen.Sha256.Engine.software_process_block_fast.line1_15 cfg,
  Seen.Sha256.Engine.software_process_block_fast.line1_16 cfg,
  Seen.Sha256.Engine.software_process_block_fast.line1_17 cfg,
  Seen.Sha256.Engine.software_process_block_fast.line1_18 cfg,
  Seen.Sha256.Engine.software_process_block_fast.line1_19 cfg,
  Seen.Sha256.Engine.software_process_block_fast.line1_20 cfg,
  Seen.Sha256.Engine.software_process_block_fast.line1_21 cfg,
  Seen.Sha256.Engine.software_process_block_fast.line1_22 cfg,
  Seen.Sha256.Engine.software_process_block_fast.line1_23 cfg,
  Seen.Sha256.Engine.software_process_block_fast.line1_24 cfg,
  Seen.Sha256.Engine.software_process_block_fast.line1_25 cfg,
  Seen.Sha256.Engine.software_process_block_fast.line1_26 cfg,
  Seen.Sha256.Engine.software_process_block_fast.line1_27 cfg,
  Seen.Sha256.Engine.software_process_block_fast.line1_28 cfg,
  Seen.Sha256.Engine.software_process_block_fast.line1_29 cfg,
  Seen.Sha256.Engine.software_process_block_fast.line1_30 cfg,
  Seen.Sha256.Engine.software_process_block_fast.line1_31 cfg,
  Seen.Sha256.Engine.software_process_block_fast.line1_32 cfg,
  Seen.Sha256.Engine.software_process_block_fast.line1_33 cfg,
  Seen.Sha256.Engine.software_process_block_fast.line1_34 cfg,
  Seen.Sha256.Engine.software_process_block_fast.line1_35 cfg,
  Seen.Sha256.Engine.software_process_block_fast.line1_36 cfg,
  Seen.Sha256.Engine.software_process_block_fast.line1_37 cfg,
  Seen.Sha256.Engine.software_process_block_fast.line1_38 cfg,
  Seen.Sha256.Engine.software_process_block_fast.line1_39 cfg,
  Seen.Sha256.Engine.software_process_block_fast.line1_40 cfg,
  Seen.Sha256.Engine.software_process_block_fast.line1_41 cfg,
  Seen.Sha256.Engine.software_process_block_fast.line1_42 cfg,
  Seen.Sha256.Engine.software_process_block_fast.line1_43 cfg,
  Seen.Sha256.Engine.software_process_block_fast.line1_44 cfg,
  Seen.Sha256.Engine.software_process_block_fast.line1_45 cfg,
  Seen.Sha256.Engine.software_process_block_fast.line1_46 cfg,
  Seen.Sha256.Engine.software_process_block_fast.line1_47 cfg,
  Seen.Sha256.Engine.software_process_block_fast.line1_48 cfg,
  Seen.Sha256.Engine.software_process_block_fast.line1_49 cfg,
  Seen.Sha256.Engine.software_process_block_fast.line1_50 cfg,
  Seen.Sha256.Engine.software_process_block_fast.line1_51 cfg,
  Seen.Sha256.Engine.software_process_block_fast.line1_52 cfg,
  Seen.Sha256.Engine.software_process_block_fast.line1_53 cfg,
  Seen.Sha256.Engine.software_process_block_fast.line1_54 cfg,
  Seen.Sha256.Engine.software_process_block_fast.line1_55 cfg,
  Seen.Sha256.Engine.software_process_block_fast.line1_56 cfg,
  Seen.Sha256.Engine.software_process_block_fast.line1_57 cfg,
  Seen.Sha256.Engine.software_process_block_fast.line1_58 cfg,
  Seen.Sha256.Engine.software_process_block_fast.line1_59 cfg,
  Seen.Sha256.Engine.software_process_block_fast.line1_60 cfg,
  Seen.Sha256.Engine.software_process_block_fast.line1_61 cfg,
  Seen.Sha256.Engine.software_process_block_fast.line1_62 cfg,
  Seen.Sha256.Engine.software_process_block_fast.line1_63 cfg]

/-- `Engine::software_process_block`, sha256.rs 721-814, without feature `small-hash`. -/
def Engine.software_process_block_fast (cfg : Cfg) (self : Source.Sha256.Engine) : Tr Source.Sha256.Engine := do
  Tr.debugAssert cfg (self.buffer.length == Source.Sha256.BLOCK_SIZE)
  let w : List (BitVec 32) := List.replicate 16 0#32
  let w ← Tr.zipMut w (chunksExact 4 self.buffer) fun w_val buff_bytes => do
    let x_1 ← Tr.tryInto 4 buff_bytes
    let w_val := Rs.fromBeBytes 32 x_1
    pure w_val
  let a ← Tr.index self.h 0
  let b ← Tr.index self.h 1
  let c ← Tr.index self.h 2
  let d ← Tr.index self.h 3
  let e ← Tr.index self.h 4
  let f ← Tr.index self.h 5
  let g ← Tr.index self.h 6
  let h ← Tr.index self.h 7
  let (w, a, b, c, d, e, f, g, h) ← Tr.runLines (Seen.Sha256.Engine.software_process_block_fast.lines1 cfg) (w, a, b, c, d, e, f, g, h)
  let x_314 ← Tr.index self.h 0
  let x_315 ← Tr.indexSet self.h 0 (x_314 + a)
  let self := { self with h := x_315 }
  let x_316 ← Tr.index self.h 1
  let x_317 ← Tr.indexSet self.h 1 (x_316 + b)
  let self := { self with h := x_317 }
  let x_318 ← Tr.index self.h 2
  let x_319 ← Tr.indexSet self.h 2 (x_318 + c)
  let self := { self with h := x_319 }
  let x_320 ← Tr.index self.h 3
  let x_321 ← Tr.indexSet self.h 3 (x_320 + d)
  let self := { self with h := x_321 }
  let x_322 ← Tr.index self.h 4
  let x_323 ← Tr.indexSet self.h 4 (x_322 + e)
  let self := { self with h := x_323 }
  let x_324 ← Tr.index self.h 5
  let x_325 ← Tr.indexSet self.h 5 (x_324 + f)
  let self := { self with h := x_325 }
  let x_326 ← Tr.index self.h 6
  let x_327 ← Tr.indexSet self.h 6 (x_326 + g)
  let self := { self with h := x_327 }
  let x_328 ← Tr.index self.h 7
  let x_329 ← Tr.indexSet self.h 7 (x_328 + h)
  let self := { self with h := x_329 }
  pure self

/-- round!(a, b, c, d, e, f, g, h, 0x428a2f98, w[0]) -/
def Engine.software_process_block_small.line1_0 (cfg : Cfg) : Source.Sha256.Engine.software_process_block_small.State1 → Tr Source.Sha256.Engine.software_process_block_small.State1 :=
  fun (w, a, b, c, d, e, f, g, h) => do
    let x_10 ← Tr.index w 0
    let updates' := Source.Sha256.small_hash.round cfg a b c d e f g h 0x428a2f98#32 x_10
    let d := updates'.1
    let h := updates'.2
    pure (w, a, b, c, d, e, f, g, h)

/-- round!(h, a, b, c, d, e, f, g, 0x71374491, w[1]) -/
def Engine.software_process_block_small.line1_1 (cfg : Cfg) : Source.Sha256.Engine.software_process_block_small.State1 → Tr Source.Sha256.Engine.software_process_block_small.State1 :=
  fun (w, a, b, c, d, e, f, g, h) => do
    let x_11 ← Tr.index w 1
    let updates' := Source.Sha256.small_hash.round cfg h a b c d e f g 0x71374491#32 x_11
    let c := updates'.1
    let g := updates'.2
    pure (w, a, b, c, d, e, f, g, h)

/-- round!(g, h, a, b, c, d, e, f, 0xb5c0fbcf, w[2]) -/
def Engine.software_process_block_small.line1_2 (cfg : Cfg) : Source.Sha256.Engine.software_process_block_small.State1 → Tr Source.Sha256.Engine.software_process_block_small.State1 :=
  fun (w, a, b, c, d, e, f, g, h) => do
    let x_12 ← Tr.index w 2
    let updates' := Source.Sha256.small_hash.round cfg g h a b c d e f 0xb5c0fbcf#32 x_12
    let b := updates'.1
    let f := updates'.2
    pure (w, a, b, c, d, e, f, g, h)

/-- round!(f, g, h, a, b, c, d, e, 0xe9b5dba5, w[3]) -/
def Engine.software_process_block_small.line1_3 (cfg : Cfg) : Source.Sha256.Engine.software_process_block_small.State1 → Tr Source.Sha256.Engine.software_process_block_small.State1 :=
  fun (w, a, b, c, d, e, f, g, h) => do
    let x_13 ← Tr.index w 3
    let updates' := Source.Sha256.small_hash.round cfg f g h a b c d e 0xe9b5dba5#32 x_13
    let a := updates'.1
    let e := updates'.2
    pure (w, a, b, c, d, e, f, g, h)

/-- round!(e, f, g, h, a, b, c, d, 0x3956c25b, w[4]) -/
def Engine.software_process_block_small.line1_4 (cfg : Cfg) : Source.Sha256.Engine.software_process_block_small.State1 → Tr Source.Sha256.Engine.software_process_block_small.State1 :=
  fun (w, a, b, c, d, e, f, g, h) => do
    let x_14 ← Tr.index w 4
    let updates' := Source.Sha256.small_hash.round cfg e f g h a b c d 0x3956c25b#32 x_14
    let h := updates'.1
    let d := updates'.2
    pure (w, a, b, c, d, e, f, g, h)

/-- round!(d, e, f, g, h, a, b, c, 0x59f111f1, w[5]) -/
def Engine.software_process_block_small.line1_5 (cfg : Cfg) : Source.Sha256.Engine.software_process_block_small.State1 → Tr Source.Sha256.Engine.software_process_block_small.State1 :=
  fun (w, a, b, c, d, e, f, g, h) => do
    let x_15 ← Tr.index w 5
    let updates' := Source.Sha256.small_hash.round cfg d e f g h a b c 0x59f111f1#32 x_15
    let g := updates'.1
    let c := updates'.2
    pure (w, a, b, c, d, e, f, g, h)

/-- round!(c, d, e, f, g, h, a, b, 0x923f82a4, w[6]) -/
def Engine.software_process_block_small.line1_6 (cfg : Cfg) : Source.Sha256.Engine.software_process_block_small.State1 → Tr Source.Sha256.Engine.software_process_block_small.State1 :=
  fun (w, a, b, c, d, e, f, g, h) => do
    let x_16 ← Tr.index w 6
    let updates' := Source.Sha256.small_hash.round cfg c d e f g h a b 0x923f82a4#32 x_16
    let f := updates'.1
    let b := updates'.2
    pure (w, a, b, c, d, e, f, g, h)

/-- round!(b, c, d, e, f, g, h, a, 0xab1c5ed5, w[7]) -/
def Engine.software_process_block_small.line1_7 (cfg : Cfg) : Source.Sha256.Engine.software_process_block_small.State1 → Tr Source.Sha256.Engine.software_process_block_small.State1 :=
  fun (w, a, b, c, d, e, f, g, h) => do
    let x_17 ← Tr.index w 7
    let updates' := Source.Sha256.small_hash.round cfg b c d e f g h a 0xab1c5ed5#32 x_17
    let e := updates'.1
    let a := updates'.2
    pure (w, a, b, c, d, e, f, g, h)

/-- round!(a, b, c, d, e, f, g, h, 0xd807aa98, w[8]) -/
def Engine.software_process_block_small.line1_8 (cfg : Cfg) : Source.Sha256.Engine.software_process_block_small.State1 → Tr Source.Sha256.Engine.software_process_block_small.State1 :=
  fun (w, a, b, c, d, e, f, g, h) => do
    let x_18 ← Tr.index w 8
    let updates' := Source.Sha256.small_hash.round cfg a b c d e f g h 0xd807aa98#32 x_18
    let d := updates'.1
    let h := updates'.2
    pure (w, a, b, c, d, e, f, g, h)

/-- round!(h, a, b, c, d, e, f, g, 0x12835b01, w[9]) -/
def Engine.software_process_block_small.line1_9 (cfg : Cfg) : Source.Sha256.Engine.software_process_block_small.State1 → Tr Source.Sha256.Engine.software_process_block_small.State1 :=
  fun (w, a, b, c, d, e, f, g, h) => do
    let x_19 ← Tr.index w 9
    let updates' := Source.Sha256.small_hash.round cfg h a b c d e f g 0x12835b01#32 x_19
    let c := updates'.1
    let g := updates'.2
    pure (w, a, b, c, d, e, f, g, h)

/-- round!(g, h, a, b, c, d, e, f, 0x243185be, w[10]) -/
def Engine.software_process_block_small.line1_10 (cfg : Cfg) : Source.Sha256.Engine.software_process_block_small.State1 → Tr Source.Sha256.Engine.software_process_block_small.State1 :=
  fun (w, a, b, c, d, e, f, g, h) => do
    let x_20 ← Tr.index w 10
    let updates' := Source.Sha256.small_hash.round cfg g h a b c d e f 0x243185be#32 x_20
    let b := updates'.1
    let f := updates'.2
    pure (w, a, b, c, d, e, f, g, h)

/-- round!(f, g, h, a, b, c, d, e, 0x550c7dc3, w[11]) -/
def Engine.software_process_block_small.line1_11 (cfg : Cfg) : Source.Sha256.Engine.software_process_block_small.State1 → Tr Source.Sha256.Engine.software_process_block_small.State1 :=
  fun (w, a, b, c, d, e, f, g, h) => do
    let x_21 ← Tr.index w 11
    let updates' := Source.Sha256.small_hash.round cfg f g h a b c d e 0x550c7dc3#32 x_21
    let a := updates'.1
    let e := updates'.2
    pure (w, a, b, c, d, e, f, g, h)

/-- round!(e, f, g, h, a, b, c, d, 0x72be5d74, w[12]) -/
def Engine.software_process_block_small.line1_12 (cfg : Cfg) : Source.Sha256.Engine.software_process_block_small.State1 → Tr Source.Sha256.Engine.software_process_block_small.State1 :=
  fun (w, a, b, c, d, e, f, g, h) => do
    let x_22 ← Tr.index w 12
    let updates' := Source.Sha256.small_hash.round cfg e f g h a b c d 0x72be5d74#32 x_22
    let h := updates'.1
    let d := updates'.2
    pure (w, a, b, c, d, e, f, g, h)

/-- round!(d, e, f, g, h, a, b, c, 0x80deb1fe, w[13]) -/
def Engine.software_process_block_small.line1_13 (cfg : Cfg) : Source.Sha256.Engine.software_process_block_small.State1 → Tr Source.Sha256.Engine.software_process_block_small.State1 :=
  fun (w, a, b, c, d, e, f, g, h) => do
    let x_23 ← Tr.index w 13
    let updates' := Source.Sha256.small_hash.round cfg d e f g h a b c 0x80deb1fe#32 x_23
    let g := updates'.1
    let c := updates'.2
    pure (w, a, b, c, d, e, f, g, h)

/-- round!(c, d, e, f, g, h, a, b, 0x9bdc06a7, w[14]) -/
def Engine.software_process_block_small.line1_14 (cfg : Cfg) : Source.Sha256.Engine.software_process_block_small.State1 → Tr Source.Sha256.Engine.software_process_block_small.State1 :=
  fun (w, a, b, c, d, e, f, g, h) => do
    let x_24 ← Tr.index w 14
    let updates' := Source.Sha256.small_hash.round cfg c d e f g h a b 0x9bdc06a7#32 x_24
    let f := updates'.1
    let b := updates'.2
    pure (w, a, b, c, d, e, f, g, h)

/-- round!(b, c, d, e, f, g, h, a, 0xc19bf174, w[15]) -/
def Engine.software_process_block_small.line1_15 (cfg : Cfg) : Source.Sha256.Engine.software_process_block_small.State1 → Tr Source.Sha256.Engine.software_process_block_small.State1 :=
  fun (w, a, b, c, d, e, f, g, h) => do
    let x_25 ← Tr.index w 15
    let updates' := Source.Sha256.small_hash.round cfg b c d e f g h a 0xc19bf174#32 x_25
    let e := updates'.1
    let a := updates'.2
    pure (w, a, b, c, d, e, f, g, h)

/-- round!(a, b, c, d, e, f, g, h, 0xe49b69c1, w[0], w[14], w[9], w[1]) -/
def Engine.software_process_block_small.line1_16 (cfg : Cfg) : Source.Sha256.Engine.software_process_block_small.State1 → Tr Source.Sha256.Engine.software_process_block_small.State1 :=
  fun (w, a, b, c, d, e, f, g, h) => do
    let x_26 ← Tr.index w 0
    let x_27 ← Tr.index w 14
    let x_28 ← Tr.index w 9
    let x_29 ← Tr.index w 1
    let updates' := Source.Sha256.small_hash.later_round cfg a b c d e f g h 0xe49b69c1#32 x_26 x_27 x_28 x_29
    let d := updates'.1
    let h := updates'.2.1
    let w ← Tr.indexSet w 0 updates'.2.2
    pure (w, a, b, c, d, e, f, g, h)

/-- round!(h, a, b, c, d, e, f, g, 0xefbe4786, w[1], w[15], w[10], w[2]) -/
def Engine.software_process_block_small.line1_17 (cfg : Cfg) : Source.Sha256.Engine.software_process_block_small.State1 → Tr Source.Sha256.Engine.software_process_block_small.State1 :=
  fun (w, a, b, c, d, e, f, g, h) => do
    let x_31 ← Tr.index w 1
    let x_32 ← Tr.index w 15
    let x_33 ← Tr.index w 10
    let x_34 ← Tr.index w 2
    let updates' := Source.Sha256.small_hash.later_round cfg h a b c d e f g 0xefbe4786#32 x_31 x_32 x_33 x_34
    let c := updates'.1
    let g := updates'.2.1
    let w ← Tr.indexSet w 1 updates'.2.2
    pure (w, a, b, c, d, e, f, g, h)

/-- round!(g, h, a, b, c, d, e, f, 0x0fc19dc6, w[2], w[0], w[11], w[3]) -/
def Engine.software_process_block_small.line1_18 (cfg : Cfg) : Source.Sha256.Engine.software_process_block_small.State1 → Tr Source.Sha256.Engine.software_process_block_small.State1 :=
  fun (w, a, b, c, d, e, f, g, h) => do
    let x_36 ← Tr.index w 2
    let x_37 ← Tr.index w 0
    let x_38 ← Tr.index w 11
    let x_39 ← Tr.index w 3
    let updates' := Source.Sha256.small_hash.later_round cfg g h a b c d e f 0x0fc19dc6#32 x_36 x_37 x_38 x_39
    let b := updates'.1
    let f := updates'.2.1
    let w ← Tr.indexSet w 2 updates'.2.2
    pure (w, a, b, c, d, e, f, g, h)

/-- round!(f, g, h, a, b, c, d, e, 0x240ca1cc, w[3], w[1], w[12], w[4]) -/
def Engine.software_process_block_small.line1_19 (cfg : Cfg) : Source.Sha256.Engine.software_process_block_small.State1 → Tr Source.Sha256.Engine.software_process_block_small.State1 :=
  fun (w, a, b, c, d, e, f, g, h) => do
    let x_41 ← Tr.index w 3
    let x_42 ← Tr.index w 1
    let x_43 ← Tr.index w 12
    let x_44 ← Tr.index w 4
    let updates' := Source.Sha256.small_hash.later_round cfg f g h a b c d e 0x240ca1cc#32 x_41 x_42 x_43 x_44
    let a := updates'.1
    let e := updates'.2.1
    let w ← Tr.indexSet w 3 updates'.2.2
    pure (w, a, b, c, d, e, f, g, h)

/-- round!(e, f, g, h, a, b, c, d, 0x2de92c6f, w[4], w[2], w[13], w[5]) -/
def Engine.software_process_block_small.line1_20 (cfg : Cfg) : Source.Sha256.Engine.software_process_block_small.State1 → Tr Source.Sha256.Engine.software_process_block_small.State1 :=
  fun (w, a, b, c, d, e, f, g, h) => do
    let x_46 ← Tr.index w 4
    let x_47 ← Tr.index w 2
    let x_48 ← Tr.index w 13
    let x_49 ← Tr.index w 5
    let updates' := Source.Sha256.small_hash.later_round cfg e f g h a b c d 0x2de92c6f#32 x_46 x_47 x_48 x_49
    let h := updates'.1
    let d := updates'.2.1
    let w ← Tr.indexSet w 4 updates'.2.2
    pure (w, a, b, c, d, e, f, g, h)

/-- round!(d, e, f, g, h, a, b, c, 0x4a7484aa, w[5], w[3], w[14], w[6]) -/
def Engine.software_process_block_small.line1_21 (cfg : Cfg) : Source.Sha256.Engine.software_process_block_small.State1 → Tr Source.Sha256.Engine.software_process_block_small.State1 :=
  fun (w, a, b, c, d, e, f, g, h) => do
    let x_51 ← Tr.index w 5
    let x_52 ← Tr.index w 3
    let x_53 ← Tr.index w 14
    let x_54 ← Tr.index w 6
    let updates' := Source.Sha256.small_hash.later_round cfg d e f g h a b c 0x4a7484aa#32 x_51 x_52 x_53 x_54
    let g := updates'.1
    let c := updates'.2.1
    let w ← Tr.indexSet w 5 updates'.2.2
    pure (w, a, b, c, d, e, f, g, h)

/-- round!(c, d, e, f, g, h, a, b, 0x5cb0a9dc, w[6], w[4], w[15], w[7]) -/
def Engine.software_process_block_small.line1_22 (cfg : Cfg) : Source.Sha256.Engine.software_process_block_small.State1 → Tr Source.Sha256.Engine.software_process_block_small.State1 :=
  fun (w, a, b, c, d, e, f, g, h) => do
    let x_56 ← Tr.index w 6
    let x_57 ← Tr.index w 4
    let x_58 ← Tr.index w 15
    let x_59 ← Tr.index w 7
    let updates' := Source.Sha256.small_hash.later_round cfg c d e f g h a b 0x5cb0a9dc#32 x_56 x_57 x_58 x_59
    let f := updates'.1
    let b := updates'.2.1
    let w ← Tr.indexSet w 6 updates'.2.2
    pure (w, a, b, c, d, e, f, g, h)

/-- round!(b, c, d, e, f, g, h, a, 0x76f988da, w[7], w[5], w[0], w[8]) -/
def Engine.software_process_block_small.line1_23 (cfg : Cfg) : Source.Sha256.Engine.software_process_block_small.State1 → Tr Source.Sha256.Engine.software_process_block_small.State1 :=
  fun (w, a, b, c, d, e, f, g, h) => do
    let x_61 ← Tr.index w 7
    let x_62 ← Tr.index w 5
    let x_63 ← Tr.index w 0
    let x_64 ← Tr.index w 8
    let updates' := Source.Sha256.small_hash.later_round cfg b c d e f g h a 0x76f988da#32 x_61 x_62 x_63 x_64
    let e := updates'.1
    let a := updates'.2.1
    let w ← Tr.indexSet w 7 updates'.2.2
    pure (w, a, b, c, d, e, f, g, h)

/-- round!(a, b, c, d, e, f, g, h, 0x983e5152, w[8], w[6], w[1], w[9]) -/
def Engine.software_process_block_small.line1_24 (cfg : Cfg) : Source.Sha256.Engine.software_process_block_small.State1 → Tr Source.Sha256.Engine.software_process_block_small.State1 :=
  fun (w, a, b, c, d, e, f, g, h) => do
    let x_66 ← Tr.index w 8
    let x_67 ← Tr.index w 6
    let x_68 ← Tr.index w 1
    let x_69 ← Tr.index w 9
    let updates' := Source.Sha256.small_hash.later_round cfg a b c d e f g h 0x983e5152#32 x_66 x_67 x_68 x_69
    let d := updates'.1
    let h := updates'.2.1
    let w ← Tr.indexSet w 8 updates'.2.2
    pure (w, a, b, c, d, e, f, g, h)

/-- round!(h, a, b, c, d, e, f, g, 0xa831c66d, w[9], w[7], w[2], w[10]) -/
def Engine.software_process_block_small.line1_25 (cfg : Cfg) : Source.Sha256.Engine.software_process_block_small.State1 → Tr Source.Sha256.Engine.software_process_block_small.State1 :=
  fun (w, a, b, c, d, e, f, g, h) => do
    let x_71 ← Tr.index w 9
    let x_72 ← Tr.index w 7
    let x_73 ← Tr.index w 2
    let x_74 ← Tr.index w 10
    let updates' := Source.Sha256.small_hash.later_round cfg h a b c d e f g 0xa831c66d#32 x_71 x_72 x_73 x_74
    let c := updates'.1
    let g := updates'.2.1
    let w ← Tr.indexSet w 9 updates'.2.2
    pure (w, a, b, c, d, e, f, g, h)

/-- round!(g, h, a, b, c, d, e, f, 0xb00327c8, w[10], w[8], w[3], w[11]) -/
def Engine.software_process_block_small.line1_26 (cfg : Cfg) : Source.Sha256.Engine.software_process_block_small.State1 → Tr Source.Sha256.Engine.software_process_block_small.State1 :=
  fun (w, a, b, c, d, e, f, g, h) => do
    let x_76 ← Tr.index w 10
    let x_77 ← Tr.index w 8
    let x_78 ← Tr.index w 3
    let x_79 ← Tr.index w 11
    let updates' := Source.Sha256.small_hash.later_round cfg g h a b c d e f 0xb00327c8#32 x_76 x_77 x_78 x_79
    let b := updates'.1
    let f := updates'.2.1
    let w ← Tr.indexSet w 10 updates'.2.2
    pure (w, a, b, c, d, e, f, g, h)

/-- round!(f, g, h, a, b, c, d, e, 0xbf597fc7, w[11], w[9], w[4], w[12]) -/
def Engine.software_process_block_small.line1_27 (cfg : Cfg) : Source.Sha256.Engine.software_process_block_small.State1 → Tr Source.Sha256.Engine.software_process_block_small.State1 :=
  fun (w, a, b, c, d, e, f, g, h) => do
    let x_81 ← Tr.index w 11
    let x_82 ← Tr.index w 9
    let x_83 ← Tr.index w 4
    let x_84 ← Tr.index w 12
    let updates' := Source.Sha256.small_hash.later_round cfg f g h a b c d e 0xbf597fc7#32 x_81 x_82 x_83 x_84
    let a := updates'.1
    let e := updates'.2.1
    let w ← Tr.indexSet w 11 updates'.2.2
    pure (w, a, b, c, d, e, f, g, h)

/-- round!(e, f, g, h, a, b, c, d, 0xc6e00bf3, w[12], w[10], w[5], w[13]) -/
def Engine.software_process_block_small.line1_28 (cfg : Cfg) : Source.Sha256.Engine.software_process_block_small.State1 → Tr Source.Sha256.Engine.software_process_block_small.State1 :=
  fun (w, a, b, c, d, e, f, g, h) => do
    let x_86 ← Tr.index w 12
    let x_87 ← Tr.index w 10
    let x_88 ← Tr.index w 5
    let x_89 ← Tr.index w 13
    let updates' := Source.Sha256.small_hash.later_round cfg e f g h a b c d 0xc6e00bf3#32 x_86 x_87 x_88 x_89
    let h := updates'.1
    let d := updates'.2.1
    let w ← Tr.indexSet w 12 updates'.2.2
    pure (w, a, b, c, d, e, f, g, h)

/-- round!(d, e, f, g, h, a, b, c, 0xd5a79147, w[13], w[11], w[6], w[14]) -/
def Engine.software_process_block_small.line1_29 (cfg : Cfg) : Source.Sha256.Engine.software_process_block_small.State1 → Tr Source.Sha256.Engine.software_process_block_small.State1 :=
  fun (w, a, b, c, d, e, f, g, h) => do
    let x_91 ← Tr.index w 13
    let x_92 ← Tr.index w 11
    let x_93 ← Tr.index w 6
    let x_94 ← Tr.index w 14
    let updates' := Source.Sha256.small_hash.later_round cfg d e f g h a b c 0xd5a79147#32 x_91 x_92 x_93 x_94
    let g := updates'.1
    let c := updates'.2.1
    let w ← Tr.indexSet w 13 updates'.2.2
    pure (w, a, b, c, d, e, f, g, h)

/-- round!(c, d, e, f, g, h, a, b, 0x06ca6351, w[14], w[12], w[7], w[15]) -/
def Engine.software_process_block_small.line1_30 (cfg : Cfg) : Source.Sha256.Engine.software_process_block_small.State1 → Tr Source.Sha256.Engine.software_process_block_small.State1 :=
  fun (w, a, b, c, d, e, f, g, h) => do
    let x_96 ← Tr.index w 14
    let x_97 ← Tr.index w 12
    let x_98 ← Tr.index w 7
    let x_99 ← Tr.index w 15
    let updates' := Source.Sha256.small_hash.later_round cfg c d e f g h a b 0x06ca6351#32 x_96 x_97 x_98 x_99
    let f := updates'.1
    let b := updates'.2.1
    let w ← Tr.indexSet w 14 updates'.2.2
    pure (w, a, b, c, d, e, f, g, h)

/-- round!(b, c, d, e, f, g, h, a, 0x14292967, w[15], w[13], w[8], w[0]) -/
def Engine.software_process_block_small.line1_31 (cfg : Cfg) : Source.Sha256.Engine.software_process_block_small.State1 → Tr Source.Sha256.Engine.software_process_block_small.State1 :=
  fun (w, a, b, c, d, e, f, g, h) => do
    let x_101 ← Tr.index w 15
    let x_102 ← Tr.index w 13
    let x_103 ← Tr.index w 8
    let x_104 ← Tr.index w 0
    let updates' := Source.Sha256.small_hash.later_round cfg b c d e f g h a 0x14292967#32 x_101 x_102 x_103 x_104
    let e := updates'.1
    let a := updates'.2.1
    let w ← Tr.indexSet w 15 updates'.2.2
    pure (w, a, b, c, d, e, f, g, h)

/-- round!(a, b, c, d, e, f, g, h, 0x27b70a85, w[0], w[14], w[9], w[1]) -/
def Engine.software_process_block_small.line1_32 (cfg : Cfg) : Source.Sha256.Engine.software_process_block_small.State1 → Tr Source.Sha256.Engine.software_process_block_small.State1 :=
  fun (w, a, b, c, d, e, f, g, h) => do
    let x_106 ← Tr.index w 0
    let x_107 ← Tr.index w 14
    let x_108 ← Tr.index w 9
    let x_109 ← Tr.index w 1
    let updates' := Source.Sha256.small_hash.later_round cfg a b c d e f g h 0x27b70a85#32 x_106 x_107 x_108 x_109
    let d := updates'.1
    let h := updates'.2.1
    let w ← Tr.indexSet w 0 updates'.2.2
    pure (w, a, b, c, d, e, f, g, h)

/-- round!(h, a, b, c, d, e, f, g, 0x2e1b2138, w[1], w[15], w[10], w[2]) -/
def Engine.software_process_block_small.line1_33 (cfg : Cfg) : Source.Sha256.Engine.software_process_block_small.State1 → Tr Source.Sha256.Engine.software_process_block_small.State1 :=
  fun (w, a, b, c, d, e, f, g, h) => do
    let x_111 ← Tr.index w 1
    let x_112 ← Tr.index w 15
    let x_113 ← Tr.index w 10
    let x_114 ← Tr.index w 2
    let updates' := Source.Sha256.small_hash.later_round cfg h a b c d e f g 0x2e1b2138#32 x_111 x_112 x_113 x_114
    let c := updates'.1
    let g := updates'.2.1
    let w ← Tr.indexSet w 1 updates'.2.2
    pure (w, a, b, c, d, e, f, g, h)

/-- round!(g, h, a, b, c, d, e, f, 0x4d2c6dfc, w[2], w[0], w[11], w[3]) -/
def Engine.software_process_block_small.line1_34 (cfg : Cfg) : Source.Sha256.Engine.software_process_block_small.State1 → Tr Source.Sha256.Engine.software_process_block_small.State1 :=
  fun (w, a, b, c, d, e, f, g, h) => do
    let x_116 ← Tr.index w 2
    let x_117 ← Tr.index w 0
    let x_118 ← Tr.index w 11
    let x_119 ← Tr.index w 3
    let updates' := Source.Sha256.small_hash.later_round cfg g h a b c d e f 0x4d2c6dfc#32 x_116 x_117 x_118 x_119
    let b := updates'.1
    let f := updates'.2.1
    let w ← Tr.indexSet w 2 updates'.2.2
    pure (w, a, b, c, d, e, f, g, h)

/-- round!(f, g, h, a, b, c, d, e, 0x53380d13, w[3], w[1], w[12], w[4]) -/
def Engine.software_process_block_small.line1_35 (cfg : Cfg) : Source.Sha256.Engine.software_process_block_small.State1 → Tr Source.Sha256.Engine.software_process_block_small.State1 :=
  fun (w, a, b, c, d, e, f, g, h) => do
    let x_121 ← Tr.index w 3
    let x_122 ← Tr.index w 1
    let x_123 ← Tr.index w 12
    let x_124 ← Tr.index w 4
    let updates' := Source.Sha256.small_hash.later_round cfg f g h a b c d e 0x53380d13#32 x_121 x_122 x_123 x_124
    let a := updates'.1
    let e := updates'.2.1
    let w ← Tr.indexSet w 3 updates'.2.2
    pure (w, a, b, c, d, e, f, g, h)

/-- round!(e, f, g, h, a, b, c, d, 0x650a7354, w[4], w[2], w[13], w[5]) -/
def Engine.software_process_block_small.line1_36 (cfg : Cfg) : Source.Sha256.Engine.software_process_block_small.State1 → Tr Source.Sha256.Engine.software_process_block_small.State1 :=
  fun (w, a, b, c, d, e, f, g, h) => do
    let x_126 ← Tr.index w 4
    let x_127 ← Tr.index w 2
    let x_128 ← Tr.index w 13
    let x_129 ← Tr.index w 5
    let updates' := Source.Sha256.small_hash.later_round cfg e f g h a b c d 0x650a7354#32 x_126 x_127 x_128 x_129
    let h := updates'.1
    let d := updates'.2.1
    let w ← Tr.indexSet w 4 updates'.2.2
    pure (w, a, b, c, d, e, f, g, h)

/-- round!(d, e, f, g, h, a, b, c, 0x766a0abb, w[5], w[3], w[14], w[6]) -/
def Engine.software_process_block_small.line1_37 (cfg : Cfg) : Source.Sha256.Engine.software_process_block_small.State1 → Tr Source.Sha256.Engine.software_process_block_small.State1 :=
  fun (w, a, b, c, d, e, f, g, h) => do
    let x_131 ← Tr.index w 5
    let x_132 ← Tr.index w 3
    let x_133 ← Tr.index w 14
    let x_134 ← Tr.index w 6
    let updates' := Source.Sha256.small_hash.later_round cfg d e f g h a b c 0x766a0abb#32 x_131 x_132 x_133 x_134
    let g := updates'.1
    let c := updates'.2.1
    let w ← Tr.indexSet w 5 updates'.2.2
    pure (w, a, b, c, d, e, f, g, h)

/-- round!(c, d, e, f, g, h, a, b, 0x81c2c92e, w[6], w[4], w[15], w[7]) -/
def Engine.software_process_block_small.line1_38 (cfg : Cfg) : Source.Sha256.Engine.software_process_block_small.State1 → Tr Source.Sha256.Engine.software_process_block_small.State1 :=
  fun (w, a, b, c, d, e, f, g, h) => do
    let x_136 ← Tr.index w 6
    let x_137 ← Tr.index w 4
    let x_138 ← Tr.index w 15
    let x_139 ← Tr.index w 7
    let updates' := Source.Sha256.small_hash.later_round cfg c d e f g h a b 0x81c2c92e#32 x_136 x_137 x_138 x_139
    let f := updates'.1
    let b := updates'.2.1
    let w ← Tr.indexSet w 6 updates'.2.2
    pure (w, a, b, c, d, e, f, g, h)

/-- round!(b, c, d, e, f, g, h, a, 0x92722c85, w[7], w[5], w[0], w[8]) -/
def Engine.software_process_block_small.line1_39 (cfg : Cfg) : Source.Sha256.Engine.software_process_block_small.State1 → Tr Source.Sha256.Engine.software_process_block_small.State1 :=
  fun (w, a, b, c, d, e, f, g, h) => do
    let x_141 ← Tr.index w 7
    let x_142 ← Tr.index w 5
    let x_143 ← Tr.index w 0
    let x_144 ← Tr.index w 8
    let updates' := Source.Sha256.small_hash.later_round cfg b c d e f g h a 0x92722c85#32 x_141 x_142 x_143 x_144
    let e := updates'.1
    let a := updates'.2.1
    let w ← Tr.indexSet w 7 updates'.2.2
    pure (w, a, b, c, d, e, f, g, h)

/-- round!(a, b, c, d, e, f, g, h, 0xa2bfe8a1, w[8], w[6], w[1], w[9]) -/
def Engine.software_process_block_small.line1_40 (cfg : Cfg) : Source.Sha256.Engine.software_process_block_small.State1 → Tr Source.Sha256.Engine.software_process_block_small.State1 :=
  fun (w, a, b, c, d, e, f, g, h) => do
    let x_146 ← Tr.index w 8
    let x_147 ← Tr.index w 6
    let x_148 ← Tr.index w 1
    let x_149 ← Tr.index w 9
    let updates' := Source.Sha256.small_hash.later_round cfg a b c d e f g h 0xa2bfe8a1#32 x_146 x_147 x_148 x_149
    let d := updates'.1
    let h := updates'.2.1
    let w ← Tr.indexSet w 8 updates'.2.2
    pure (w, a, b, c, d, e, f, g, h)

/-- round!(h, a, b, c, d, e, f, g, 0xa81a664b, w[9], w[7], w[2], w[10]) -/
def Engine.software_process_block_small.line1_41 (cfg : Cfg) : Source.Sha256.Engine.software_process_block_small.State1 → Tr Source.Sha256.Engine.software_process_block_small.State1 :=
  fun (w, a, b, c, d, e, f, g, h) => do
    let x_151 ← Tr.index w 9
    let x_152 ← Tr.index w 7
    let x_153 ← Tr.index w 2
    let x_154 ← Tr.index w 10
    let updates' := Source.Sha256.small_hash.later_round cfg h a b c d e f g 0xa81a664b#32 x_151 x_152 x_153 x_154
    let c := updates'.1
    let g := updates'.2.1
    let w ← Tr.indexSet w 9 updates'.2.2
    pure (w, a, b, c, d, e, f, g, h)

/-- round!(g, h, a, b, c, d, e, f, 0xc24b8b70, w[10], w[8], w[3], w[11]) -/
def Engine.software_process_block_small.line1_42 (cfg : Cfg) : Source.Sha256.Engine.software_process_block_small.State1 → Tr Source.Sha256.Engine.software_process_block_small.State1 :=
  fun (w, a, b, c, d, e, f, g, h) => do
    let x_156 ← Tr.index w 10
    let x_157 ← Tr.index w 8
    let x_158 ← Tr.index w 3
    let x_159 ← Tr.index w 11
    let updates' := Source.Sha256.small_hash.later_round cfg g h a b c d e f 0xc24b8b70#32 x_156 x_157 x_158 x_159
    let b := updates'.1
    let f := updates'.2.1
    let w ← Tr.indexSet w 10 updates'.2.2
    pure (w, a, b, c, d, e, f, g, h)

/-- round!(f, g, h, a, b, c, d, e, 0xc76c51a3, w[11], w[9], w[4], w[12]) -/
def Engine.software_process_block_small.line1_43 (cfg : Cfg) : Source.Sha256.Engine.software_process_block_small.State1 → Tr Source.Sha256.Engine.software_process_block_small.State1 :=
  fun (w, a, b, c, d, e, f, g, h) => do
    let x_161 ← Tr.index w 11
    let x_162 ← Tr.index w 9
    let x_163 ← Tr.index w 4
    let x_164 ← Tr.index w 12
    let updates' := Source.Sha256.small_hash.later_round cfg f g h a b c d e 0xc76c51a3#32 x_161 x_162 x_163 x_164
    let a := updates'.1
    let e := updates'.2.1
    let w ← Tr.indexSet w 11 updates'.2.2
    pure (w, a, b, c, d, e, f, g, h)

/-- round!(e, f, g, h, a, b, c, d, 0xd192e819, w[12], w[10], w[5], w[13]) -/
def Engine.software_process_block_small.line1_44 (cfg : Cfg) : Source.Sha256.Engine.software_process_block_small.State1 → Tr Source.Sha256.Engine.software_process_block_small.State1 :=
  fun (w, a, b, c, d, e, f, g, h) => do
    let x_166 ← Tr.index w 12
    let x_167 ← Tr.index w 10
    let x_168 ← Tr.index w 5
    let x_169 ← Tr.index w 13
    let updates' := Source.Sha256.small_hash.later_round cfg e f g h a b c d 0xd192e819#32 x_166 x_167 x_168 x_169
    let h := updates'.1
    let d := updates'.2.1
    let w ← Tr.indexSet w 12 updates'.2.2
    pure (w, a, b, c, d, e, f, g, h)

/-- round!(d, e, f, g, h, a, b, c, 0xd6990624, w[13], w[11], w[6], w[14]) -/
def Engine.software_process_block_small.line1_45 (cfg : Cfg) : Source.Sha256.Engine.software_process_block_small.State1 → Tr Source.Sha256.Engine.software_process_block_small.State1 :=
  fun (w, a, b, c, d, e, f, g, h) => do
    let x_171 ← Tr.index w 13
    let x_172 ← Tr.index w 11
    let x_173 ← Tr.index w 6
    let x_174 ← Tr.index w 14
    let updates' := Source.Sha256.small_hash.later_round cfg d e f g h a b c 0xd6990624#32 x_171 x_172 x_173 x_174
    let g := updates'.1
    let c := updates'.2.1
    let w ← Tr.indexSet w 13 updates'.2.2
    pure (w, a, b, c, d, e, f, g, h)

/-- round!(c, d, e, f, g, h, a, b, 0xf40e3585, w[14], w[12], w[7], w[15]) -/
def Engine.software_process_block_small.line1_46 (cfg : Cfg) : Source.Sha256.Engine.software_process_block_small.State1 → Tr Source.Sha256.Engine.software_process_block_small.State1 :=
  fun (w, a, b, c, d, e, f, g, h) => do
    let x_176 ← Tr.index w 14
    let x_177 ← Tr.index w 12
    let x_178 ← Tr.index w 7
    let x_179 ← Tr.index w 15
    let updates' := Source.Sha256.small_hash.later_round cfg c d e f g h a b 0xf40e3585#32 x_176 x_177 x_178 x_179
    let f := updates'.1
    let b := updates'.2.1
    let w ← Tr.indexSet w 14 updates'.2.2
    pure (w, a, b, c, d, e, f, g, h)

/-- round!(b, c, d, e, f, g, h, a, 0x106aa070, w[15], w[13], w[8], w[0]) -/
def Engine.software_process_block_small.line1_47 (cfg : Cfg) : Source.Sha256.Engine.software_process_block_small.State1 → Tr Source.Sha256.Engine.software_process_block_small.State1 :=
  fun (w, a, b, c, d, e, f, g, h) => do
    let x_181 ← Tr.index w 15
    let x_182 ← Tr.index w 13
    let x_183 ← Tr.index w 8
    let x_184 ← Tr.index w 0
    let updates' := Source.Sha256.small_hash.later_round cfg b c d e f g h a 0x106aa070#32 x_181 x_182 x_183 x_184
    let e := updates'.1
    let a := updates'.2.1
    let w ← Tr.indexSet w 15 updates'.2.2
    pure (w, a, b, c, d, e, f, g, h)

/-- round!(a, b, c, d, e, f, g, h, 0x19a4c116, w[0], w[14], w[9], w[1]) -/
def Engine.software_process_block_small.line1_48 (cfg : Cfg) : Source.Sha256.Engine.software_process_block_small.State1 → Tr Source.Sha256.Engine.software_process_block_small.State1 :=
  fun (w, a, b, c, d, e, f, g, h) => do
    let x_186 ← Tr.index w 0
    let x_187 ← Tr.index w 14
    let x_188 ← Tr.index w 9
    let x_189 ← Tr.index w 1
    let updates' := Source.Sha256.small_hash.later_round cfg a b c d e f g h 0x19a4c116#32 x_186 x_187 x_188 x_189
    let d := updates'.1
    let h := updates'.2.1
    let w ← Tr.indexSet w 0 updates'.2.2
    pure (w, a, b, c, d, e, f, g, h)

/-- round!(h, a, b, c, d, e, f, g, 0x1e376c08, w[1], w[15], w[10], w[2]) -/
def Engine.software_process_block_small.line1_49 (cfg : Cfg) : Source.Sha256.Engine.software_process_block_small.State1 → Tr Source.Sha256.Engine.software_process_block_small.State1 :=
  fun (w, a, b, c, d, e, f, g, h) => do
    let x_191 ← Tr.index w 1
    let x_192 ← Tr.index w 15
    let x_193 ← Tr.index w 10
    let x_194 ← Tr.index w 2
    let updates' := Source.Sha256.small_hash.later_round cfg h a b c d e f g 0x1e376c08#32 x_191 x_192 x_193 x_194
    let c := updates'.1
    let g := updates'.2.1
    let w ← Tr.indexSet w 1 updates'.2.2
    pure (w, a, b, c, d, e, f, g, h)

/-- round!(g, h, a, b, c, d, e, f, 0x2748774c, w[2], w[0], w[11], w[3]) -/
def Engine.software_process_block_small.line1_50 (cfg : Cfg) : Source.Sha256.Engine.software_process_block_small.State1 → Tr Source.Sha256.Engine.software_process_block_small.State1 :=
  fun (w, a, b, c, d, e, f, g, h) => do
    let x_196 ← Tr.index w 2
    let x_197 ← Tr.index w 0
    let x_198 ← Tr.index w 11
    let x_199 ← Tr.index w 3
    let updates' := Source.Sha256.small_hash.later_round cfg g h a b c d e f 0x2748774c#32 x_196 x_197 x_198 x_199
    let b := updates'.1
    let f := updates'.2.1
    let w ← Tr.indexSet w 2 updates'.2.2
    pure (w, a, b, c, d, e, f, g, h)

/-- round!(f, g, h, a, b, c, d, e, 0x34b0bcb5, w[3], w[1], w[12], w[4]) -/
def Engine.software_process_block_small.line1_51 (cfg : Cfg) : Source.Sha256.Engine.software_process_block_small.State1 → Tr Source.Sha256.Engine.software_process_block_small.State1 :=
  fun (w, a, b, c, d, e, f, g, h) => do
    let x_201 ← Tr.index w 3
    let x_202 ← Tr.index w 1
    let x_203 ← Tr.index w 12
    let x_204 ← Tr.index w 4
    let updates' := Source.Sha256.small_hash.later_round cfg f g h a b c d e 0x34b0bcb5#32 x_201 x_202 x_203 x_204
    let a := updates'.1
    let e := updates'.2.1
    let w ← Tr.indexSet w 3 updates'.2.2
    pure (w, a, b, c, d, e, f, g, h)

/-- round!(e, f, g, h, a, b, c, d, 0x391c0cb3, w[4], w[2], w[13], w[5]) -/
def Engine.software_process_block_small.line1_52 (cfg : Cfg) : Source.Sha256.Engine.software_process_block_small.State1 → Tr Source.Sha256.Engine.software_process_block_small.State1 :=
  fun (w, a, b, c, d, e, f, g, h) => do
    let x_206 ← Tr.index w 4
    let x_207 ← Tr.index w 2
    let x_208 ← Tr.index w 13
    let x_209 ← Tr.index w 5
    let updates' := Source.Sha256.small_hash.later_round cfg e f g h a b c d 0x391c0cb3#32 x_206 x_207 x_208 x_209
    let h := updates'.1
    let d := updates'.2.1
    let w ← Tr.indexSet w 4 updates'.2.2
    pure (w, a, b, c, d, e, f, g, h)

/-- round!(d, e, f, g, h, a, b, c, 0x4ed8aa4a, w[5], w[3], w[14], w[6]) -/
def Engine.software_process_block_small.line1_53 (cfg : Cfg) : Source.Sha256.Engine.software_process_block_small.State1 → Tr Source.Sha256.Engine.software_process_block_small.State1 :=
  fun (w, a, b, c, d, e, f, g, h) => do
    let x_211 ← Tr.index w 5
    let x_212 ← Tr.index w 3
    let x_213 ← Tr.index w 14
    let x_214 ← Tr.index w 6
    let updates' := Source.Sha256.small_hash.later_round cfg d e f g h a b c 0x4ed8aa4a#32 x_211 x_212 x_213 x_214
    let g := updates'.1
    let c := updates'.2.1
    let w ← Tr.indexSet w 5 updates'.2.2
    pure (w, a, b, c, d, e, f, g, h)

/-- round!(c, d, e, f, g, h, a, b, 0x5b9cca4f, w[6], w[4], w[15], w[7]) -/
def Engine.software_process_block_small.line1_54 (cfg : Cfg) : Source.Sha256.Engine.software_process_block_small.State1 → Tr Source.Sha256.Engine.software_process_block_small.State1 :=
  fun (w, a, b, c, d, e, f, g, h) => do
    let x_216 ← Tr.index w 6
    let x_217 ← Tr.index w 4
    let x_218 ← Tr.index w 15
    let x_219 ← Tr.index w 7
    let updates' := Source.Sha256.small_hash.later_round cfg c d e f g h a b 0x5b9cca4f#32 x_216 x_217 x_218 x_219
    let f := updates'.1
    let b := updates'.2.1
    let w ← Tr.indexSet w 6 updates'.2.2
    pure (w, a, b, c, d, e, f, g, h)

/-- round!(b, c, d, e, f, g, h, a, 0x682e6ff3, w[7], w[5], w[0], w[8]) -/
def Engine.software_process_block_small.line1_55 (cfg : Cfg) : Source.Sha256.Engine.software_process_block_small.State1 → Tr Source.Sha256.Engine.software_process_block_small.State1 :=
  fun (w, a, b, c, d, e, f, g, h) => do
    let x_221 ← Tr.index w 7
    let x_222 ← Tr.index w 5
    let x_223 ← Tr.index w 0
    let x_224 ← Tr.index w 8
    let updates' := Source.Sha256.small_hash.later_round cfg b c d e f g h a 0x682e6ff3#32 x_221 x_222 x_223 x_224
    let e := updates'.1
    let a := updates'.2.1
    let w ← Tr.indexSet w 7 updates'.2.2
    pure (w, a, b, c, d, e, f, g, h)

/-- round!(a, b, c, d, e, f, g, h, 0x748f82ee, w[8], w[6], w[1], w[9]) -/
def Engine.software_process_block_small.line1_56 (cfg : Cfg) : Source.Sha256.Engine.software_process_block_small.State1 → Tr Source.Sha256.Engine.software_process_block_small.State1 :=
  fun (w, a, b, c, d, e, f, g, h) => do
    let x_226 ← Tr.index w 8
    let x_227 ← Tr.index w 6
    let x_228 ← Tr.index w 1
    let x_229 ← Tr.index w 9
    let updates' := Source.Sha256.small_hash.later_round cfg a b c d e f g h 0x748f82ee#32 x_226 x_227 x_228 x_229
    let d := updates'.1
    let h := updates'.2.1
    let w ← Tr.indexSet w 8 updates'.2.2
    pure (w, a, b, c, d, e, f, g, h)

/-- round!(h, a, b, c, d, e, f, g, 0x78a5636f, w[9], w[7], w[2], w[10]) -/
def Engine.software_process_block_small.line1_57 (cfg : Cfg) : Source.Sha256.Engine.software_process_block_small.State1 → Tr Source.Sha256.Engine.software_process_block_small.State1 :=
  fun (w, a, b, c, d, e, f, g, h) => do
    let x_231 ← Tr.index w 9
    let x_232 ← Tr.index w 7
    let x_233 ← Tr.index w 2
    let x_234 ← Tr.index w 10
    let updates' := Source.Sha256.small_hash.later_round cfg h a b c d e f g 0x78a5636f#32 x_231 x_232 x_233 x_234
    let c := updates'.1
    let g := updates'.2.1
    let w ← Tr.indexSet w 9 updates'.2.2
    pure (w, a, b, c, d, e, f, g, h)

/-- round!(g, h, a, b, c, d, e, f, 0x84c87814, w[10], w[8], w[3], w[11]) -/
def Engine.software_process_block_small.line1_58 (cfg : Cfg) : Source.Sha256.Engine.software_process_block_small.State1 → Tr Source.Sha256.Engine.software_process_block_small.State1 :=
  fun (w, a, b, c, d, e, f, g, h) => do
    let x_236 ← Tr.index w 10
    let x_237 ← Tr.index w 8
    let x_238 ← Tr.index w 3
    let x_239 ← Tr.index w 11
    let updates' := Source.Sha256.small_hash.later_round cfg g h a b c d e f 0x84c87814#32 x_236 x_237 x_238 x_239
    let b := updates'.1
    let f := updates'.2.1
    let w ← Tr.indexSet w 10 updates'.2.2
    pure (w, a, b, c, d, e, f, g, h)

/-- round!(f, g, h, a, b, c, d, e, 0x8cc70208, w[11], w[9], w[4], w[12]) -/
def Engine.software_process_block_small.line1_59 (cfg : Cfg) : Source.Sha256.Engine.software_process_block_small.State1 → Tr Source.Sha256.Engine.software_process_block_small.State1 :=
  fun (w, a, b, c, d, e, f, g, h) => do
    let x_241 ← Tr.index w 11
    let x_242 ← Tr.index w 9
    let x_243 ← Tr.index w 4
    let x_244 ← Tr.index w 12
    let updates' := Source.Sha256.small_hash.later_round cfg f g h a b c d e 0x8cc70208#32 x_241 x_242 x_243 x_244
    let a := updates'.1
    let e := updates'.2.1
    let w ← Tr.indexSet w 11 updates'.2.2
    pure (w, a, b, c, d, e, f, g, h)

/-- round!(e, f, g, h, a, b, c, d, 0x90befffa, w[12], w[10], w[5], w[13]) -/
def Engine.software_process_block_small.line1_60 (cfg : Cfg) : Source.Sha256.Engine.software_process_block_small.State1 → Tr Source.Sha256.Engine.software_process_block_small.State1 :=
  fun (w, a, b, c, d, e, f, g, h) => do
    let x_246 ← Tr.index w 12
    let x_247 ← Tr.index w 10
    let x_248 ← Tr.index w 5
    let x_249 ← Tr.index w 13
    let updates' := Source.Sha256.small_hash.later_round cfg e f g h a b c d 0x90befffa#32 x_246 x_247 x_248 x_249
    let h := updates'.1
    let d := updates'.2.1
    let w ← Tr.indexSet w 12 updates'.2.2
    pure (w, a, b, c, d, e, f, g, h)

/-- round!(d, e, f, g, h, a, b, c, 0xa4506ceb, w[13], w[11], w[6], w[14]) -/
def Engine.software_process_block_small.line1_61 (cfg : Cfg) : Source.Sha256.Engine.software_process_block_small.State1 → Tr Source.Sha256.Engine.software_process_block_small.State1 :=
  fun (w, a, b, c, d, e, f, g, h) => do
    let x_251 ← Tr.index w 13
    let x_252 ← Tr.index w 11
    let x_253 ← Tr.index w 6
    let x_254 ← Tr.index w 14
    let updates' := Source.Sha256.small_hash.later_round cfg d e f g h a b c 0xa4506ceb#32 x_251 x_252 x_253 x_254
    let g := updates'.1
    let c := updates'.2.1
    let w ← Tr.indexSet w 13 updates'.2.2
    pure (w, a, b, c, d, e, f, g, h)

/-- round!(c, d, e, f, g, h, a, b, 0xbef9a3f7, w[14], w[12], w[7], w[15]) -/
def Engine.software_process_block_small.line1_62 (cfg : Cfg) : Source.Sha256.Engine.software_process_block_small.State1 → Tr Source.Sha256.Engine.software_process_block_small.State1 :=
  fun (w, a, b, c, d, e, f, g, h) => do
    let x_256 ← Tr.index w 14
    let x_257 ← Tr.index w 12
    let x_258 ← Tr.index w 7
    let x_259 ← Tr.index w 15
    let updates' := Source.Sha256.small_hash.later_round cfg c d e f g h a b 0xbef9a3f7#32 x_256 x_257 x_258 x_259
    let f := updates'.1
    let b := updates'.2.1
    let w ← Tr.indexSet w 14 updates'.2.2
    pure (w, a, b, c, d, e, f, g, h)

/-- round!(b, c, d, e, f, g, h, a, 0xc67178f2, w[15], w[13], w[8], w[0]) -/
def Engine.software_process_block_small.line1_63 (cfg : Cfg) : Source.Sha256.Engine.software_process_block_small.State1 → Tr Source.Sha256.Engine.software_process_block_small.State1 :=
  fun (w, a, b, c, d, e, f, g, h) => do
    let x_261 ← Tr.index w 15
    let x_262 ← Tr.index w 13
    let x_263 ← Tr.index w 8
    let x_264 ← Tr.index w 0
    let updates' := Source.Sha256.small_hash.later_round cfg b c d e f g h a 0xc67178f2#32 x_261 x_262 x_263 x_264
    let e := updates'.1
    let a := updates'.2.1
    let w ← Tr.indexSet w 15 updates'.2.2
    pure (w, a, b, c, d, e, f, g, h)

/-- The 64 statements. -/
def Engine.software_process_block_small.lines1 (cfg : Cfg) : List (Source.Sha256.Engine.software_process_block_small.State1 → Tr Source.Sha256.Engine.software_process_block_small.State1) := [
  Seen.Sha256.Engine.software_process_block_small.line1_0 cfg,
  Seen.Sha256.Engine.software_process_block_small.line1_1 cfg,
  Seen.Sha256.Engine.software_process_block_small.line1_2 cfg,
  Seen.Sha256.Engine.software_process_block_small.line1_3 cfg,
  Seen.Sha256.Engine.software_process_block_small.line1_4 cfg,
  Seen.Sha256.Engine.software_process_block_small.line1_5 cfg,
  Seen.Sha256.Engine.software_process_block_small.line1_6 cfg,
  Seen.Sha256.Engine.software_process_block_small.line1_7 cfg,
  Seen.Sha256.Engine.software_process_block_small.line1_8 cfg,
  Seen.Sha256.Engine.software_process_block_small.line1_9 cfg,
  Seen.Sha256.Engine.software_process_block_small.line1_10 cfg,
  Seen.Sha256.Engine.software_process_block_small.line1_11 cfg,
  Seen.Sha256.Engine.software_process_block_small.line1_12 cfg,
  Seen.Sha256.Engine.software_process_block_small.line1_13 cfg,
  Seen.Sha256.Engine.software_process_block_small.line1_14 cfg,
  Seen.Sha256.Engine.software_process_block_small.line1_15 cfg,
  Seen.Sha256.Engine.software_process_block_small.line1_16 cfg,
  Seen.Sha256.Engine.software_process_block_small.line1_17 cfg,
  Seen.Sha256.Engine.software_process_block_small.line1_18 cfg,
  Seen.Sha256.Engine.software_process_block_small.line1_19 cfg,
  Seen.Sha256.Engine.software_process_block_small.line1_20 cfg,
  Seen.Sha256.Engine.software_process_block_small.line1_21 cfg,
  Seen.Sha256.Engine.software_process_block_small.line1_22 cfg,
  Seen.Sha256.Engine.software_process_block_small.line1_23 cfg,
  Seen.Sha256.Engine.software_process_block_small.line1_24 cfg,
  Seen.Sha256.Engine.software_process_block_small.line1_25 cfg,
  Seen.Sha256.Engine.software_process_block_small.line1_26 cfg,
  Seen.Sha256.Engine.software_process_block_small.line1_27 cfg,
  Seen.Sha256.Engine.software_process_block_small.line1_28 cfg,
  Seen.Sha256.Engine.software_process_block_small.line1_29 cfg,
  Seen.Sha256.Engine.software_process_block_small.line1_30 cfg,
  Seen.Sha256.Engine.software_process_block_small.line1_31 cfg,
  Seen.Sha256.Engine.software_process_block_small.line1_32 cfg,
  Seen.Sha256.Engine.software_process_block_small.line1_33 cfg,
  Seen.Sha256.Engine.software_process_block_small.line1_34 cfg,
  Seen.Sha256.Engine.software_process_block_small.line1_35 cfg,
  Seen.Sha256.Engine.software_process_block_small.line1_36 cfg,
  Seen.Sha256.Engine.software_process_block_small.line1_37 cfg,
  Seen.Sha256.Engine.software_process_block_small.line1_38 cfg,
  Seen.Sha256.Engine.software_process_block_small.line1_39 cfg,
  Seen.Sha256.Engine.software_process_block_small.line1_40 cfg,
  Seen.Sha256.Engine.software_process_block_small.line1_41 cfg,
  Seen.Sha256.Engine.software_process_block_small.line1_42 cfg,
  Seen.Sha256.Engine.software_process_block_small.line1_43 cfg,
  Seen.Sha256.Engine.software_process_block_small.line1_44 cfg,
  Seen.Sha256.Engine.software_process_block_small.line1_45 cfg,
  Seen.Sha256.Engine.software_process_block_small.line1_46 cfg,
  Seen.Sha256.Engine.software_process_block_small.line1_47 cfg,
  Seen.Sha256.Engine.software_process_block_small.line1_48 cfg,
  Seen.Sha256.Engine.software_process_block_small.line1_49 cfg,
  Seen.Sha256.Engine.software_process_block_small.line1_50 cfg,
  Seen.Sha256.Engine.software_process_block_small.line1_51 cfg,
  Seen.Sha256.Engine.software_process_block_small.line1_52 cfg,
  Seen.Sha256.Engine.software_process_block_small.line1_53 cfg,
  Seen.Sha256.Engine.software_process_block_small.line1_54 cfg,
  Seen.Sha256.Engine.software_process_block_small.line1_55 cfg,
  Seen.Sha256.Engine.software_process_block_small.line1_56 cfg,
  Seen.Sha256.Engine.software_process_block_small.line1_57 cfg,
  Seen.Sha256.Engine.software_process_block_small.line1_58 cfg,
  Seen.Sha256.Engine.software_process_block_small.line1_59 cfg,
  Seen.Sha256.Engine.software_process_block_small.line1_60 cfg,
  Seen.Sha256.Engine.software_process_block_small.line1_61 cfg,
  Seen.Sha256.Engine.software_process_block_small.line1_62 cfg,
  Seen.Sha256.Engine.software_process_block_small.line1_63 cfg]

/-- `Engine::software_process_block`, sha256.rs 721-814, with feature `small-hash`. -/
def Engine.software_process_block_small (cfg : Cfg) (self : Source.Sha256.Engine) : Tr Source.Sha256.Engine := do
  Tr.debugAssert cfg (self.buffer.length == Source.Sha256.BLOCK_SIZE)
  let w : List (BitVec 32) := List.replicate 16 0#32
  let w ← Tr.zipMut w (chunksExact 4 self.buffer) fun w_val buff_bytes => do
    let x_1 ← Tr.tryInto 4 buff_bytes
    let w_val := Rs.fromBeBytes 32 x_1
    pure w_val
  let a ← Tr.index self.h 0
  let b ← Tr.index self.h 1
  let c ← Tr.index self.h 2
  let d ← Tr.index self.h 3
  let e ← Tr.index self.h 4
  let f ← Tr.index self.h 5
  let g ← Tr.index self.h 6
  let h ← Tr.index self.h 7
  let (w, a, b, c, d, e, f, g, h) ← Tr.runLines (Seen.Sha256.Engine.software_process_block_small.lines1 cfg) (w, a, b, c, d, e, f, g, h)
  let x_266 ← Tr.index self.h 0
  let x_267 ← Tr.indexSet self.h 0 (x_266 + a)
  let self := { self with h := x_267 }
  let x_268 ← Tr.index self.h 1
  let x_269 ← Tr.indexSet self.h 1 (x_268 + b)
  let self := { self with h := x_269 }
  let x_270 ← Tr.index self.h 2
  let x_271 ← Tr.indexSet self.h 2 (x_270 + c)
  let self := { self with h := x_271 }
  let x_272 ← Tr.index self.h 3
  let x_273 ← Tr.indexSet self.h 3 (x_272 + d)
  let self := { self with h := x_273 }
  let x_274 ← Tr.index self.h 4
  let x_275 ← Tr.indexSet self.h 4 (x_274 + e)
  let self := { self with h := x_275 }
  let x_276 ← Tr.index self.h 5
  let x_277 ← Tr.indexSet self.h 5 (x_276 + f)
  let self := { self with h := x_277 }
  let x_278 ← Tr.index self.h 6
  let x_279 ← Tr.indexSet self.h 6 (x_278 + g)
  let self := { self with h := x_279 }
  let x_280 ← Tr.index self.h 7
  let x_281 ← Tr.indexSet self.h 7 (x_280 + h)
  let self := { self with h := x_281 }
  pure self

/-- `Engine::software_process_block`, sha256.rs 721-814. -/
def Engine.software_process_block (cfg : Cfg) (self : Source.Sha256.Engine) : Tr Source.Sha256.Engine :=
  if cfg.smallHash then Seen.Sha256.Engine.software_process_block_small cfg self else Seen.Sha256.Engine.software_process_block_fast cfg self

/-- `Engine::process_block`, sha256.rs 445-459. -/
def Engine.process_block (cfg : Cfg) (self : Source.Sha256.Engine) : Tr Source.Sha256.Engine := do
  let x_2 ←
    if ((cfg.shaNi && cfg.shaNi) && cfg.shaNi) && cfg.shaNi then do
      let self ← Seen.Sha256.Engine.process_block_simd_x86_intrinsics cfg self
      pure (Rs.Flow.ret self)
    else do
      pure (Rs.Flow.next self)
  match x_2 with
  | Rs.Flow.ret r => pure r
  | Rs.Flow.next self => do
    let self ← Seen.Sha256.Engine.software_process_block cfg self
    pure self

/-- `Engine::input`, internal_macros.rs 22-36. -/
def Engine.input (cfg : Cfg) (self : Source.Sha256.Engine) (inp : List Byte) : Tr Source.Sha256.Engine := do
  let (self, inp) ← Tr.whileR cfg.usizeMod
    (fun (self, inp) => pure (!inp.isEmpty))
    (fun (self, inp) => do
      let buf_idx : Nat := self.length % Source.Sha256.Engine.BLOCK_SIZE
      let rem_len ← Tr.subUsize cfg Source.Sha256.Engine.BLOCK_SIZE buf_idx
      let write_len : Nat := min rem_len inp.length
      let x_2 ← Tr.addUsize cfg buf_idx write_len
      Tr.checkRange self.buffer buf_idx x_2
      let x_3 ← Tr.sliceTo inp write_len
      let x_4 ← Tr.copyIntoRange self.buffer buf_idx x_2 x_3
      let self := { self with buffer := x_4 }
      let x_5 ← Tr.addUsize cfg self.length write_len
      let self := { self with length := x_5 }
      let self ←
        Tr.test ((self.length % Source.Sha256.Engine.BLOCK_SIZE) == 0) >>= fun b_1 => if b_1 then do
          let self ← Seen.Sha256.Engine.process_block cfg self
          pure self
        else do
          pure self
      let inp ← Tr.sliceFrom inp write_len
      pure (self, inp)) (self, inp)
  pure self

/-- `Engine::midstate`, sha256.rs 88-94. -/
def Engine.midstate (cfg : Cfg) (self : Source.Sha256.Engine) : Tr Source.Sha256.Midstate := do
  let ret : List Byte := List.replicate 32 0#8
  let ret ← Tr.zipChunksMut 4 self.h ret fun val ret_bytes => do
    let ret_bytes ← Tr.copyFromSlice ret_bytes (Rs.toBeBytes val)
    pure ret_bytes
  pure ({ f0 := ret } : Source.Sha256.Midstate)

/-- `Engine::finalize`, sha256.rs 56-73. -/
def Engine.finalize (cfg : Cfg) (self : Source.Sha256.Engine) : Tr (List Byte) := do
  let data_len : BitVec 64 := BitVec.ofNat 64 self.length
  let zeroes : List Byte := List.replicate 56 0#8
  let self ← Seen.Sha256.Engine.input cfg self [0x80#8]
  let self ←
    Tr.test (decide ((self.length % Source.Sha256.BLOCK_SIZE) > zeroes.length)) >>= fun b_1 => if b_1 then do
      let self ← Seen.Sha256.Engine.input cfg self zeroes
      pure self
    else do
      pure self
  let pad_length ← Tr.subUsize cfg zeroes.length (self.length % Source.Sha256.BLOCK_SIZE)
  let x_4 ← Tr.sliceTo zeroes pad_length
  let self ← Seen.Sha256.Engine.input cfg self x_4
  Tr.debugAssert cfg ((self.length % Source.Sha256.BLOCK_SIZE) == zeroes.length)
  let x_6 ← Tr.mulU cfg 8#64 data_len
  let self ← Seen.Sha256.Engine.input cfg self (Rs.toBeBytes x_6)
  Tr.debugAssert cfg ((self.length % Source.Sha256.BLOCK_SIZE) == 0)
  let x_8 ← Seen.Sha256.Engine.midstate cfg self
  pure (Source.Sha256.Midstate.to_byte_array cfg x_8)

/-- `Hash::hash`, internal_macros.rs 158-162. -/
def Hash.hash (cfg : Cfg) (bytes : List Byte) : Tr Source.Sha256.Hash := do
  let engine := Source.Sha256.Hash.engine cfg
  let engine ← Seen.Sha256.Engine.input cfg engine bytes
  let x_2 ← Seen.Sha256.Engine.finalize cfg engine
  pure ({ f0 := x_2 } : Source.Sha256.Hash)

/-- `Engine::from_midstate`, sha256.rs 434-443. -/
def Engine.from_midstate (cfg : Cfg) (midstate : Source.Sha256.Midstate) (length : Nat) : Tr Source.Sha256.Engine := do
  Tr.assertR ((length % Source.Sha256.BLOCK_SIZE) == 0)
  let ret : List (BitVec 32) := List.replicate 8 0#32
  let ret ← Tr.zipMut ret (chunksExact 4 midstate.f0) fun ret_val midstate_bytes => do
    let x_1 ← Tr.tryInto 4 midstate_bytes
    let ret_val := Rs.fromBeBytes 32 x_1
    pure ret_val
  pure ({ buffer := List.replicate 64 0#8, h := ret, length := length } : Source.Sha256.Engine)

/-- `Midstate::read_u32`, sha256.rs 262-267. -/
def Midstate.read_u32 (cfg : Cfg) (bytes : List Byte) (index_ : Nat) : Tr (BitVec 32) := do
  let x_1 ← Tr.addUsize cfg index_ 0
  let x_2 ← Tr.index bytes x_1
  let x_3 ← Tr.addUsize cfg index_ 1
  let x_4 ← Tr.index bytes x_3
  let x_5 ← Tr.addUsize cfg index_ 2
  let x_6 ← Tr.index bytes x_5
  let x_7 ← Tr.addUsize cfg index_ 3
  let x_8 ← Tr.index bytes x_7
  pure (((((BitVec.setWidth 32 x_2) <<< 24) ||| ((BitVec.setWidth 32 x_4) <<< 16)) ||| ((BitVec.setWidth 32 x_6) <<< 8)) ||| ((BitVec.setWidth 32 x_8) <<< 0))

/-- `Midstate::copy_w`, sha256.rs 269-277. -/
def Midstate.copy_w (cfg : Cfg) (bytes : List Byte) (index_ : Nat) : Tr (List (BitVec 32)) := do
  let w : List (BitVec 32) := List.replicate 16 0#32
  let i : Nat := 0
  let (w, i) ← Tr.whileR cfg.usizeMod
    (fun (w, i) => pure (decide (i < 16)))
    (fun (w, i) => do
      let x_1 ← Tr.mulUsize cfg i 4
      let x_2 ← Tr.addUsize cfg index_ x_1
      let x_3 ← Seen.Sha256.Midstate.read_u32 cfg bytes x_2
      let w ← Tr.indexSet w i x_3
      let i ← Tr.addUsize cfg i 1
      pure (w, i)) (w, i)
  pure w

/-- round!(a, b, c, d, e, f, g, h, 0x428a2f98, w[0]) -/
def Midstate.const_hash_fast.line1_0 (cfg : Cfg) : Source.Sha256.Midstate.const_hash_fast.State1 → Tr Source.Sha256.Midstate.const_hash_fast.State1 :=
  fun (w, a, b, c, d, e, f, g, h) => do
    let x_40 ← Tr.index w 0
    let t1' : BitVec 32 := (((h + (Source.Sha256.Sigma1 cfg e)) + (Source.Sha256.Ch cfg e f g)) + 0x428a2f98#32) + x_40
    let t2' : BitVec 32 := (Source.Sha256.Sigma0 cfg a) + (Source.Sha256.Maj cfg a b c)
    let d := d + t1'
    let h := t1' + t2'
    pure (w, a, b, c, d, e, f, g, h)

/-- round!(h, a, b, c, d, e, f, g, 0x71374491, w[1]) -/
def Midstate.const_hash_fast.line1_1 (cfg : Cfg) : Source.Sha256.Midstate.const_hash_fast.State1 → Tr Source.Sha256.Midstate.const_hash_fast.State1 :=
  fun (w, a, b, c, d, e, f, g, h) => do
    let x_41 ← Tr.index w 1
    let t1' : BitVec 32 := (((g + (Source.Sha256.Sigma1 cfg d)) + (Source.Sha256.Ch cfg d e f)) + 0x71374491#32) + x_41
    let t2' : BitVec 32 := (Source.Sha256.Sigma0 cfg h) + (Source.Sha256.Maj cfg h a b)
    let c := c + t1'
    let g := t1' + t2'
    pure (w, a, b, c, d, e, f, g, h)

/-- round!(g, h, a, b, c, d, e, f, 0xb5c0fbcf, w[2]) -/
def Midstate.const_hash_fast.line1_2 (cfg : Cfg) : Source.Sha256.Midstate.const_hash_fast.State1 → Tr Source.Sha256.Midstate.const_hash_fast.State1 :=
  fun (w, a, b, c, d, e, f, g, h) => do
    let x_42 ← Tr.index w 2
    let t1' : BitVec 32 := (((f + (Source.Sha256.Sigma1 cfg c)) + (Source.Sha256.Ch cfg c d e)) + 0xb5c0fbcf#32) + x_42
    let t2' : BitVec 32 := (Source.Sha256.Sigma0 cfg g) + (Source.Sha256.Maj cfg g h a)
    let b := b + t1'
    let f := t1' + t2'
    pure (w, a, b, c, d, e, f, g, h)

/-- round!(f, g, h, a, b, c, d, e, 0xe9b5dba5, w[3]) -/
def Midstate.const_hash_fast.line1_3 (cfg : Cfg) : Source.Sha256.Midstate.const_hash_fast.State1 → Tr Source.Sha256.Midstate.const_hash_fast.State1 :=
  fun (w, a, b, c, d, e, f, g, h) => do
    let x_43 ← Tr.index w 3
    let t1' : BitVec 32 := (((e + (Source.Sha256.Sigma1 cfg b)) + (Source.Sha256.Ch cfg b c d)) + 0xe9b5dba5#32) + x_43
    let t2' : BitVec 32 := (Source.Sha256.Sigma0 cfg f) + (Source.Sha256.Maj cfg f g h)
    let a := a + t1'
    let e := t1' + t2'
    pure (w, a, b, c, d, e, f, g, h)

/-- round!(e, f, g, h, a, b, c, d, 0x3956c25b, w[4]) -/
def Midstate.const_hash_fast.line1_4 (cfg : Cfg) : Source.Sha256.Midstate.const_hash_fast.State1 → Tr Source.Sha256.Midstate.const_hash_fast.State1 :=
  fun (w, a, b, c, d, e, f, g, h) => do
    let x_44 ← Tr.index w 4
    let t1' : BitVec 32 := (((d + (Source.Sha256.Sigma1 cfg a)) + (Source.Sha256.Ch cfg a b c)) + 0x3956c25b#32) + x_44
    let t2' : BitVec 32 := (Source.Sha256.Sigma0 cfg e) + (Source.Sha256.Maj cfg e f g)
    let h := h + t1'
    let d := t1' + t2'
    pure (w, a, b, c, d, e, f, g, h)

/-- round!(d, e, f, g, h, a, b, c, 0x59f111f1, w[5]) -/
def Midstate.const_hash_fast.line1_5 (cfg : Cfg) : Source.Sha256.Midstate.const_hash_fast.State1 → Tr Source.Sha256.Midstate.const_hash_fast.State1 :=
  fun (w, a, b, c, d, e, f, g, h) => do
    let x_45 ← Tr.index w 5
    let t1' : BitVec 32 := (((c + (Source.Sha256.Sigma1 cfg h)) + (Source.Sha256.Ch cfg h a b)) + 0x59f111f1#32) + x_45
    let t2' : BitVec 32 := (Source.Sha256.Sigma0 cfg d) + (Source.Sha256.Maj cfg d e f)
    let g := g + t1'
    let c := t1' + t2'
    pure (w, a, b, c, d, e, f, g, h)

/-- round!(c, d, e, f, g, h, a, b, 0x923f82a4, w[6]) -/
def Midstate.const_hash_fast.line1_6 (cfg : Cfg) : Source.Sha256.Midstate.const_hash_fast.State1 → Tr Source.Sha256.Midstate.const_hash_fast.State1 :=
  fun (w, a, b, c, d, e, f, g, h) => do
    let x_46 ← Tr.index w 6
    let t1' : BitVec 32 := (((b + (Source.Sha256.Sigma1 cfg g)) + (Source.Sha256.Ch cfg g h a)) + 0x923f82a4#32) + x_46
    let t2' : BitVec 32 := (Source.Sha256.Sigma0 cfg c) + (Source.Sha256.Maj cfg c d e)
    let f := f + t1'
    let b := t1' + t2'
    pure (w, a, b, c, d, e, f, g, h)

/-- round!(b, c, d, e, f, g, h, a, 0xab1c5ed5, w[7]) -/
def Midstate.const_hash_fast.line1_7 (cfg : Cfg) : Source.Sha256.Midstate.const_hash_fast.State1 → Tr Source.Sha256.Midstate.const_hash_fast.State1 :=
  fun (w, a, b, c, d, e, f, g, h) => do
    let x_47 ← Tr.index w 7
    let t1' : BitVec 32 := (((a + (Source.Sha256.Sigma1 cfg f)) + (Source.Sha256.Ch cfg f g h)) + 0xab1c5ed5#32) + x_47
    let t2' : BitVec 32 := (Source.Sha256.Sigma0 cfg b) + (Source.Sha256.Maj cfg b c d)
    let e := e + t1'
    let a := t1' + t2'
    pure (w, a, b, c, d, e, f, g, h)

/-- round!(a, b, c, d, e, f, g, h, 0xd807aa98, w[8]) -/
def Midstate.const_hash_fast.line1_8 (cfg : Cfg) : Source.Sha256.Midstate.const_hash_fast.State1 → Tr Source.Sha256.Midstate.const_hash_fast.State1 :=
  fun (w, a, b, c, d, e, f, g, h) => do
    let x_48 ← Tr.index w 8
    let t1' : BitVec 32 := (((h + (Source.Sha256.Sigma1 cfg e)) + (Source.Sha256.Ch cfg e f g)) + 0xd807aa98#32) + x_48
    let t2' : BitVec 32 := (Source.Sha256.Sigma0 cfg a) + (Source.Sha256.Maj cfg a b c)
    let d := d + t1'
    let h := t1' + t2'
    pure (w, a, b, c, d, e, f, g, h)

/-- round!(h, a, b, c, d, e, f, g, 0x12835b01, w[9]) -/
def Midstate.const_hash_fast.line1_9 (cfg : Cfg) : Source.Sha256.Midstate.const_hash_fast.State1 → Tr Source.Sha256.Midstate.const_hash_fast.State1 :=
  fun (w, a, b, c, d, e, f, g, h) => do
    let x_49 ← Tr.index w 9
    let t1' : BitVec 32 := (((g + (Source.Sha256.Sigma1 cfg d)) + (Source.Sha256.Ch cfg d e f)) + 0x12835b01#32) + x_49
    let t2' : BitVec 32 := (Source.Sha256.Sigma0 cfg h) + (Source.Sha256.Maj cfg h a b)
    let c := c + t1'
    let g := t1' + t2'
    pure (w, a, b, c, d, e, f, g, h)

/-- round!(g, h, a, b, c, d, e, f, 0x243185be, w[10]) -/
def Midstate.const_hash_fast.line1_10 (cfg : Cfg) : Source.Sha256.Midstate.const_hash_fast.State1 → Tr Source.Sha256.Midstate.const_hash_fast.State1 :=
  fun (w, a, b, c, d, e, f, g, h) => do
    let x_50 ← Tr.index w 10
    let t1' : BitVec 32 := (((f + (Source.Sha256.Sigma1 cfg c)) + (Source.Sha256.Ch cfg c d e)) + 0x243185be#32) + x_50
    let t2' : BitVec 32 := (Source.Sha256.Sigma0 cfg g) + (Source.Sha256.Maj cfg g h a)
    let b := b + t1'
    let f := t1' + t2'
    pure (w, a, b, c, d, e, f, g, h)

/-- round!(f, g, h, a, b, c, d, e, 0x550c7dc3, w[11]) -/
def Midstate.const_hash_fast.line1_11 (cfg : Cfg) : Source.Sha256.Midstate.const_hash_fast.State1 → Tr Source.Sha256.Midstate.const_hash_fast.State1 :=
  fun (w, a, b, c, d, e, f, g, h) => do
    let x_51 ← Tr.index w 11
    let t1' : BitVec 32 := (((e + (Source.Sha256.Sigma1 cfg b)) + (Source.Sha256.Ch cfg b c d)) + 0x550c7dc3#32) + x_51
    let t2' : BitVec 32 := (Source.Sha256.Sigma0 cfg f) + (Source.Sha256.Maj cfg f g h)
    let a := a + t1'
    let e := t1' + t2'
    pure (w, a, b, c, d, e, f, g, h)

/-- round!(e, f, g, h, a, b, c, d, 0x72be5d74, w[12]) -/
def Midstate.const_hash_fast.line1_12 (cfg : Cfg) : Source.Sha256.Midstate.const_hash_fast.State1 → Tr Source.Sha256.Midstate.const_hash_fast.State1 :=
  fun (w, a, b, c, d, e, f, g, h) => do
    let x_52 ← Tr.index w 12
    let t1' : BitVec 32 := (((d + (Source.Sha256.Sigma1 cfg a)) + (Source.Sha256.Ch cfg a b c)) + 0x72be5d74#32) + x_52
    let t2' : BitVec 32 := (Source.Sha256.Sigma0 cfg e) + (Source.Sha256.Maj cfg e f g)
    let h := h + t1'
    let d := t1' + t2'
    pure (w, a, b, c, d, e, f, g, h)

/-- round!(d, e, f, g, h, a, b, c, 0x80deb1fe, w[13]) -/
def Midstate.const_hash_fast.line1_13 (cfg : Cfg) : Source.Sha256.Midstate.const_hash_fast.State1 → Tr Source.Sha256.Midstate.const_hash_fast.State1 :=
  fun (w, a, b, c, d, e, f, g, h) => do
    let x_53 ← Tr.index w 13
    let t1' : BitVec 32 := (((c + (Source.Sha256.Sigma1 cfg h)) + (Source.Sha256.Ch cfg h a b)) + 0x80deb1fe#32) + x_53
    let t2' : BitVec 32 := (Source.Sha256.Sigma0 cfg d) + (Source.Sha256.Maj cfg d e f)
    let g := g + t1'
    let c := t1' + t2'
    pure (w, a, b, c, d, e, f, g, h)

/-- round!(c, d, e, f, g, h, a, b, 0x9bdc06a7, w[14]) -/
def Midstate.const_hash_fast.line1_14 (cfg : Cfg) : Source.Sha256.Midstate.const_hash_fast.State1 → Tr Source.Sha256.Midstate.const_hash_fast.State1 :=
  fun (w, a, b, c, d, e, f, g, h) => do
    let x_54 ← Tr.index w 14
    let t1' : BitVec 32 := (((b + (Source.Sha256.Sigma1 cfg g)) + (Source.Sha256.Ch cfg g h a)) + 0x9bdc06a7#32) + x_54
    let t2' : BitVec 32 := (Source.Sha256.Sigma0 cfg c) + (Source.Sha256.Maj cfg c d e)
    let f := f + t1'
    let b := t1' + t2'
    pure (w, a, b, c, d, e, f, g, h)

/-- round!(b, c, d, e, f, g, h, a, 0xc19bf174, w[15]) -/
def Midstate.const_hash_fast.line1_15 (cfg : Cfg) : Source.Sha256.Midstate.const_hash_fast.State1 → Tr Source.Sha256.Midstate.const_hash_fast.State1 :=
  fun (w, a, b, c, d, e, f, g, h) => do
    let x_55 ← Tr.index w 15
    let t1' : BitVec 32 := (((a + (Source.Sha256.Sigma1 cfg f)) + (Source.Sha256.Ch cfg f g h)) + 0xc19bf174#32) + x_55
    let t2' : BitVec 32 := (Source.Sha256.Sigma0 cfg b) + (Source.Sha256.Maj cfg b c d)
    let e := e + t1'
    let a := t1' + t2'
    pure (w, a, b, c, d, e, f, g, h)

/-- round!(a, b, c, d, e, f, g, h, 0xe49b69c1, w[0], w[14], w[9], w[1]) -/
def Midstate.const_hash_fast.line1_16 (cfg : Cfg) : Source.Sha256.Midstate.const_hash_fast.State1 → Tr Source.Sha256.Midstate.const_hash_fast.State1 :=
  fun (w, a, b, c, d, e, f, g, h) => do
    let x_56 ← Tr.index w 0
    let x_57 ← Tr.index w 14
    let x_58 ← Tr.index w 9
    let x_59 ← Tr.index w 1
    let w ← Tr.indexSet w 0 (((x_56 + (Source.Sha256.sigma1 cfg x_57)) + x_58) + (Source.Sha256.sigma0 cfg x_59))
    let x_61 ← Tr.index w 0
    let t1' : BitVec 32 := (((h + (Source.Sha256.Sigma1 cfg e)) + (Source.Sha256.Ch cfg e f g)) + 0xe49b69c1#32) + x_61
    let t2' : BitVec 32 := (Source.Sha256.Sigma0 cfg a) + (Source.Sha256.Maj cfg a b c)
    let d := d + t1'
    let h := t1' + t2'
    pure (w, a, b, c, d, e, f, g, h)

/-- round!(h, a, b, c, d, e, f, g, 0xefbe4786, w[1], w[15], w[10], w[2]) -/
def Midstate.const_hash_fast.line1_17 (cfg : Cfg) : Source.Sha256.Midstate.const_hash_fast.State1 → Tr Source.Sha256.Midstate.const_hash_fast.State1 :=
  fun (w, a, b, c, d, e, f, g, h) => do
    let x_62 ← Tr.index w 1
    let x_63 ← Tr.index w 15
    let x_64 ← Tr.index w 10
    let x_65 ← Tr.index w 2
    let w ← Tr.indexSet w 1 (((x_62 + (Source.Sha256.sigma1 cfg x_63)) + x_64) + (Source.Sha256.sigma0 cfg x_65))
    let x_67 ← Tr.index w 1
    let t1' : BitVec 32 := (((g + (Source.Sha256.Sigma1 cfg d)) + (Source.Sha256.Ch cfg d e f)) + 0xefbe4786#32) + x_67
    let t2' : BitVec 32 := (Source.Sha256.Sigma0 cfg h) + (Source.Sha256.Maj cfg h a b)
    let c := c + t1'
    let g := t1' + t2'
    pure (w, a, b, c, d, e, f, g, h)

/-- round!(g, h, a, b, c, d, e, f, 0x0fc19dc6, w[2], w[0], w[11], w[3]) -/
def Midstate.const_hash_fast.line1_18 (cfg : Cfg) : Source.Sha256.Midstate.const_hash_fast.State1 → Tr Source.Sha256.Midstate.const_hash_fast.State1 :=
  fun (w, a, b, c, d, e, f, g, h) => do
    let x_68 ← Tr.index w 2
    let x_69 ← Tr.index w 0
    let x_70 ← Tr.index w 11
    let x_71 ← Tr.index w 3
    let w ← Tr.indexSet w 2 (((x_68 + (Source.Sha256.sigma1 cfg x_69)) + x_70) + (Source.Sha256.sigma0 cfg x_71))
    let x_73 ← Tr.index w 2
    let t1' : BitVec 32 := (((f + (Source.Sha256.Sigma1 cfg c)) + (Source.Sha256.Ch cfg c d e)) + 0x0fc19dc6#32) + x_73
    let t2' : BitVec 32 := (Source.Sha256.Sigma0 cfg g) + (Source.Sha256.Maj cfg g h a)
    let b := b + t1'
    let f := t1' + t2'
    pure (w, a, b, c, d, e, f, g, h)

/-- round!(f, g, h, a, b, c, d, e, 0x240ca1cc, w[3], w[1], w[12], w[4]) -/
def Midstate.const_hash_fast.line1_19 (cfg : Cfg) : Source.Sha256.Midstate.const_hash_fast.State1 → Tr Source.Sha256.Midstate.const_hash_fast.State1 :=
  fun (w, a, b, c, d, e, f, g, h) => do
    let x_74 ← Tr.index w 3
    let x_75 ← Tr.index w 1
    let x_76 ← Tr.index w 12
    let x_77 ← Tr.index w 4
    let w ← Tr.indexSet w 3 (((x_74 + (Source.Sha256.sigma1 cfg x_75)) + x_76) + (Source.Sha256.sigma0 cfg x_77))
    let x_79 ← Tr.index w 3
    let t1' : BitVec 32 := (((e + (Source.Sha256.Sigma1 cfg b)) + (Source.Sha256.Ch cfg b c d)) + 0x240ca1cc#32) + x_79
    let t2' : BitVec 32 := (Source.Sha256.Sigma0 cfg f) + (Source.Sha256.Maj cfg f g h)
    let a := a + t1'
    let e := t1' + t2'
    pure (w, a, b, c, d, e, f, g, h)

/-- round!(e, f, g, h, a, b, c, d, 0x2de92c6f, w[4], w[2], w[13], w[5]) -/
def Midstate.const_hash_fast.line1_20 (cfg : Cfg) : Source.Sha256.Midstate.const_hash_fast.State1 → Tr Source.Sha256.Midstate.const_hash_fast.State1 :=
  fun (w, a, b, c, d, e, f, g, h) => do
    let x_80 ← Tr.index w 4
    let x_81 ← Tr.index w 2
    let x_82 ← Tr.index w 13
    let x_83 ← Tr.index w 5
    let w ← Tr.indexSet w 4 (((x_80 + (Source.Sha256.sigma1 cfg x_81)) + x_82) + (Source.Sha256.sigma0 cfg x_83))
    let x_85 ← Tr.index w 4
    let t1' : BitVec 32 := (((d + (Source.Sha256.Sigma1 cfg a)) + (Source.Sha256.Ch cfg a b c)) + 0x2de92c6f#32) + x_85
    let t2' : BitVec 32 := (Source.Sha256.Sigma0 cfg e) + (Source.Sha256.Maj cfg e f g)
    let h := h + t1'
    let d := t1' + t2'
    pure (w, a, b, c, d, e, f, g, h)

/-- round!(d, e, f, g, h, a, b, c, 0x4a7484aa, w[5], w[3], w[14], w[6]) -/
def Midstate.const_hash_fast.line1_21 (cfg : Cfg) : Source.Sha256.Midstate.const_hash_fast.State1 → Tr Source.Sha256.Midstate.const_hash_fast.State1 :=
  fun (w, a, b, c, d, e, f, g, h) => do
    let x_86 ← Tr.index w 5
    let x_87 ← Tr.index w 3
    let x_88 ← Tr.index w 14
    let x_89 ← Tr.index w 6
    let w ← Tr.indexSet w 5 (((x_86 + (Source.Sha256.sigma1 cfg x_87)) + x_88) + (Source.Sha256.sigma0 cfg x_89))
    let x_91 ← Tr.index w 5
    let t1' : BitVec 32 := (((c + (Source.Sha256.Sigma1 cfg h)) + (Source.Sha256.Ch cfg h a b)) + 0x4a7484aa#32) + x_91
    let t2' : BitVec 32 := (Source.Sha256.Sigma0 cfg d) + (Source.Sha256.Maj cfg d e f)
    let g := g + t1'
    let c := t1' + t2'
    pure (w, a, b, c, d, e, f, g, h)

/-- round!(c, d, e, f, g, h, a, b, 0x5cb0a9dc, w[6], w[4], w[15], w[7]) -/
def Midstate.const_hash_fast.line1_22 (cfg : Cfg) : Source.Sha256.Midstate.const_hash_fast.State1 → Tr Source.Sha256.Midstate.const_hash_fast.State1 :=
  fun (w, a, b, c, d, e, f, g, h) => do
    let x_92 ← Tr.index w 6
    let x_93 ← Tr.index w 4
    let x_94 ← Tr.index w 15
    let x_95 ← Tr.index w 7
    let w ← Tr.indexSet w 6 (((x_92 + (Source.Sha256.sigma1 cfg x_93)) + x_94) + (Source.Sha256.sigma0 cfg x_95))
    let x_97 ← Tr.index w 6
    let t1' : BitVec 32 := (((b + (Source.Sha256.Sigma1 cfg g)) + (Source.Sha256.Ch cfg g h a)) + 0x5cb0a9dc#32) + x_97
    let t2' : BitVec 32 := (Source.Sha256.Sigma0 cfg c) + (Source.Sha256.Maj cfg c d e)
    let f := f + t1'
    let b := t1' + t2'
    pure (w, a, b, c, d, e, f, g, h)

/-- round!(b, c, d, e, f, g, h, a, 0x76f988da, w[7], w[5], w[0], w[8]) -/
def Midstate.const_hash_fast.line1_23 (cfg : Cfg) : Source.Sha256.Midstate.const_hash_fast.State1 → Tr Source.Sha256.Midstate.const_hash_fast.State1 :=
  fun (w, a, b, c, d, e, f, g, h) => do
    let x_98 ← Tr.index w 7
    let x_99 ← Tr.index w 5
    let x_100 ← Tr.index w 0
    let x_101 ← Tr.index w 8
    let w ← Tr.indexSet w 7 (((x_98 + (Source.Sha256.sigma1 cfg x_99)) + x_100) + (Source.Sha256.sigma0 cfg x_101))
    let x_103 ← Tr.index w 7
    let t1' : BitVec 32 := (((a + (Source.Sha256.Sigma1 cfg f)) + (Source.Sha256.Ch cfg f g h)) + 0x76f988da#32) + x_103
    let t2' : BitVec 32 := (Source.Sha256.Sigma0 cfg b) + (Source.Sha256.Maj cfg b c d)
    let e := e + t1'
    let a := t1' + t2'
    pure (w, a, b, c, d, e, f, g, h)

/-- round!(a, b, c, d, e, f, g, h, 0x983e5152, w[8], w[6], w[1], w[9]) -/
def Midstate.const_hash_fast.line1_24 (cfg : Cfg) : Source.Sha256.Midstate.const_hash_fast.State1 → Tr Source.Sha256.Midstate.const_hash_fast.State1 :=
  fun (w, a, b, c, d, e, f, g, h) => do
    let x_104 ← Tr.index w 8
    let x_105 ← Tr.index w 6
    let x_106 ← Tr.index w 1
    let x_107 ← Tr.index w 9
    let w ← Tr.indexSet w 8 (((x_104 + (Source.Sha256.sigma1 cfg x_105)) + x_106) + (Source.Sha256.sigma0 cfg x_107))
    let x_109 ← Tr.index w 8
    let t1' : BitVec 32 := (((h + (Source.Sha256.Sigma1 cfg e)) + (Source.Sha256.Ch cfg e f g)) + 0x983e5152#32) + x_109
    let t2' : BitVec 32 := (Source.Sha256.Sigma0 cfg a) + (Source.Sha256.Maj cfg a b c)
    let d := d + t1'
    let h := t1' + t2'
    pure (w, a, b, c, d, e, f, g, h)

/-- round!(h, a, b, c, d, e, f, g, 0xa831c66d, w[9], w[7], w[2], w[10]) -/
def Midstate.const_hash_fast.line1_25 (cfg : Cfg) : Source.Sha256.Midstate.const_hash_fast.State1 → Tr Source.Sha256.Midstate.const_hash_fast.State1 :=
  fun (w, a, b, c, d, e, f, g, h) => do
    let x_110 ← Tr.index w 9
    let x_111 ← Tr.index w 7
    let x_112 ← Tr.index w 2
    let x_113 ← Tr.index w 10
    let w ← Tr.indexSet w 9 (((x_110 + (Source.Sha256.sigma1 cfg x_111)) + x_112) + (Source.Sha256.sigma0 cfg x_113))
    let x_115 ← Tr.index w 9
    let t1' : BitVec 32 := (((g + (Source.Sha256.Sigma1 cfg d)) + (Source.Sha256.Ch cfg d e f)) + 0xa831c66d#32) + x_115
    let t2' : BitVec 32 := (Source.Sha256.Sigma0 cfg h) + (Source.Sha256.Maj cfg h a b)
    let c := c + t1'
    let g := t1' + t2'
    pure (w, a, b, c, d, e, f, g, h)

/-- round!(g, h, a, b, c, d, e, f, 0xb00327c8, w[10], w[8], w[3], w[11]) -/
def Midstate.const_hash_fast.line1_26 (cfg : Cfg) : Source.Sha256.Midstate.const_hash_fast.State1 → Tr Source.Sha256.Midstate.const_hash_fast.State1 :=
  fun (w, a, b, c, d, e, f, g, h) => do
    let x_116 ← Tr.index w 10
    let x_117 ← Tr.index w 8
    let x_118 ← Tr.index w 3
    let x_119 ← Tr.index w 11
    let w ← Tr.indexSet w 10 (((x_116 + (Source.Sha256.sigma1 cfg x_117)) + x_118) + (Source.Sha256.sigma0 cfg x_119))
    let x_121 ← Tr.index w 10
    let t1' : BitVec 32 := (((f + (Source.Sha256.Sigma1 cfg c)) + (Source.Sha256.Ch cfg c d e)) + 0xb00327c8#32) + x_121
    let t2' : BitVec 32 := (Source.Sha256.Sigma0 cfg g) + (Source.Sha256.Maj cfg g h a)
    let b := b + t1'
    let f := t1' + t2'
    pure (w, a, b, c, d, e, f, g, h)

/-- round!(f, g, h, a, b, c, d, e, 0xbf597fc7, w[11], w[9], w[4], w[12]) -/
def Midstate.const_hash_fast.line1_27 (cfg : Cfg) : Source.Sha256.Midstate.const_hash_fast.State1 → Tr Source.Sha256.Midstate.const_hash_fast.State1 :=
  fun (w, a, b, c, d, e, f, g, h) => do
    let x_122 ← Tr.index w 11
    let x_123 ← Tr.index w 9
    let x_124 ← Tr.index w 4
    let x_125 ← Tr.index w 12
    let w ← Tr.indexSet w 11 (((x_122 + (Source.Sha256.sigma1 cfg x_123)) + x_124) + (Source.Sha256.sigma0 cfg x_125))
    let x_127 ← Tr.index w 11
    let t1' : BitVec 32 := (((e + (Source.Sha256.Sigma1 cfg b)) + (Source.Sha256.Ch cfg b c d)) + 0xbf597fc7#32) + x_127
    let t2' : BitVec 32 := (Source.Sha256.Sigma0 cfg f) + (Source.Sha256.Maj cfg f g h)
    let a := a + t1'
    let e := t1' + t2'
    pure (w, a, b, c, d, e, f, g, h)

/-- round!(e, f, g, h, a, b, c, d, 0xc6e00bf3, w[12], w[10], w[5], w[13]) -/
def Midstate.const_hash_fast.line1_28 (cfg : Cfg) : Source.Sha256.Midstate.const_hash_fast.State1 → Tr Source.Sha256.Midstate.const_hash_fast.State1 :=
  fun (w, a, b, c, d, e, f, g, h) => do
    let x_128 ← Tr.index w 12
    let x_129 ← Tr.index w 10
    let x_130 ← Tr.index w 5
    let x_131 ← Tr.index w 13
    let w ← Tr.indexSet w 12 (((x_128 + (Source.Sha256.sigma1 cfg x_129)) + x_130) + (Source.Sha256.sigma0 cfg x_131))
    let x_133 ← Tr.index w 12
    let t1' : BitVec 32 := (((d + (Source.Sha256.Sigma1 cfg a)) + (Source.Sha256.Ch cfg a b c)) + 0xc6e00bf3#32) + x_133
    let t2' : BitVec 32 := (Source.Sha256.Sigma0 cfg e) + (Source.Sha256.Maj cfg e f g)
    let h := h + t1'
    let d := t1' + t2'
    pure (w, a, b, c, d, e, f, g, h)

/-- round!(d, e, f, g, h, a, b, c, 0xd5a79147, w[13], w[11], w[6], w[14]) -/
def Midstate.const_hash_fast.line1_29 (cfg : Cfg) : Source.Sha256.Midstate.const_hash_fast.State1 → Tr Source.Sha256.Midstate.const_hash_fast.State1 :=
  fun (w, a, b, c, d, e, f, g, h) => do
    let x_134 ← Tr.index w 13
    let x_135 ← Tr.index w 11
    let x_136 ← Tr.index w 6
    let x_137 ← Tr.index w 14
    let w ← Tr.indexSet w 13 (((x_134 + (Source.Sha256.sigma1 cfg x_135)) + x_136) + (Source.Sha256.sigma0 cfg x_137))
    let x_139 ← Tr.index w 13
    let t1' : BitVec 32 := (((c + (Source.Sha256.Sigma1 cfg h)) + (Source.Sha256.Ch cfg h a b)) + 0xd5a79147#32) + x_139
    let t2' : BitVec 32 := (Source.Sha256.Sigma0 cfg d) + (Source.Sha256.Maj cfg d e f)
    let g := g + t1'
    let c := t1' + t2'
    pure (w, a, b, c, d, e, f, g, h)

/-- round!(c, d, e, f, g, h, a, b, 0x06ca6351, w[14], w[12], w[7], w[15]) -/
def Midstate.const_hash_fast.line1_30 (cfg : Cfg) : Source.Sha256.Midstate.const_hash_fast.State1 → Tr Source.Sha256.Midstate.const_hash_fast.State1 :=
  fun (w, a, b, c, d, e, f, g, h) => do
    let x_140 ← Tr.index w 14
    let x_141 ← Tr.index w 12
    let x_142 ← Tr.index w 7
    let x_143 ← Tr.index w 15
    let w ← Tr.indexSet w 14 (((x_140 + (Source.Sha256.sigma1 cfg x_141)) + x_142) + (Source.Sha256.sigma0 cfg x_143))
    let x_145 ← Tr.index w 14
    let t1' : BitVec 32 := (((b + (Source.Sha256.Sigma1 cfg g)) + (Source.Sha256.Ch cfg g h a)) + 0x06ca6351#32) + x_145
    let t2' : BitVec 32 := (Source.Sha256.Sigma0 cfg c) + (Source.Sha256.Maj cfg c d e)
    let f := f + t1'
    let b := t1' + t2'
    pure (w, a, b, c, d, e, f, g, h)

/-- round!(b, c, d, e, f, g, h, a, 0x14292967, w[15], w[13], w[8], w[0]) -/
def Midstate.const_hash_fast.line1_31 (cfg : Cfg) : Source.Sha256.Midstate.const_hash_fast.State1 → Tr Source.Sha256.Midstate.const_hash_fast.State1 :=
  fun (w, a, b, c, d, e, f, g, h) => do
    let x_146 ← Tr.index w 15
    let x_147 ← Tr.index w 13
    let x_148 ← Tr.index w 8
    let x_149 ← Tr.index w 0
    let w ← Tr.indexSet w 15 (((x_146 + (Source.Sha256.sigma1 cfg x_147)) + x_148) + (Source.Sha256.sigma0 cfg x_149))
    let x_151 ← Tr.index w 15
    let t1' : BitVec 32 := (((a + (Source.Sha256.Sigma1 cfg f)) + (Source.Sha256.Ch cfg f g h)) + 0x14292967#32) + x_151
    let t2' : BitVec 32 := (Source.Sha256.Sigma0 cfg b) + (Source.Sha256.Maj cfg b c d)
    let e := e + t1'
    let a := t1' + t2'
    pure (w, a, b, c, d, e, f, g, h)

/-- round!(a, b, c, d, e, f, g, h, 0x27b70a85, w[0], w[14], w[9], w[1]) -/
def Midstate.const_hash_fast.line1_32 (cfg : Cfg) : Source.Sha256.Midstate.const_hash_fast.State1 → Tr Source.Sha256.Midstate.const_hash_fast.State1 :=
  fun (w, a, b, c, d, e, f, g, h) => do
    let x_152 ← Tr.index w 0
    let x_153 ← Tr.index w 14
    let x_154 ← Tr.index w 9
    let x_155 ← Tr.index w 1
    let w ← Tr.indexSet w 0 (((x_152 + (Source.Sha256.sigma1 cfg x_153)) + x_154) + (Source.Sha256.sigma0 cfg x_155))
    let x_157 ← Tr.index w 0
    let t1' : BitVec 32 := (((h + (Source.Sha256.Sigma1 cfg e)) + (Source.Sha256.Ch cfg e f g)) + 0x27b70a85#32) + x_157
    let t2' : BitVec 32 := (Source.Sha256.Sigma0 cfg a) + (Source.Sha256.Maj cfg a b c)
    let d := d + t1'
    let h := t1' + t2'
    pure (w, a, b, c, d, e, f, g, h)

/-- round!(h, a, b, c, d, e, f, g, 0x2e1b2138, w[1], w[15], w[10], w[2]) -/
def Midstate.const_hash_fast.line1_33 (cfg : Cfg) : Source.Sha256.Midstate.const_hash_fast.State1 → Tr Source.Sha256.Midstate.const_hash_fast.State1 :=
  fun (w, a, b, c, d, e, f, g, h) => do
    let x_158 ← Tr.index w 1
    let x_159 ← Tr.index w 15
    let x_160 ← Tr.index w 10
    let x_161 ← Tr.index w 2
    let w ← Tr.indexSet w 1 (((x_158 + (Source.Sha256.sigma1 cfg x_159)) + x_160) + (Source.Sha256.sigma0 cfg x_161))
    let x_163 ← Tr.index w 1
    let t1' : BitVec 32 := (((g + (Source.Sha256.Sigma1 cfg d)) + (Source.Sha256.Ch cfg d e f)) + 0x2e1b2138#32) + x_163
    let t2' : BitVec 32 := (Source.Sha256.Sigma0 cfg h) + (Source.Sha256.Maj cfg h a b)
    let c := c + t1'
    let g := t1' + t2'
    pure (w, a, b, c, d, e, f, g, h)

/-- round!(g, h, a, b, c, d, e, f, 0x4d2c6dfc, w[2], w[0], w[11], w[3]) -/
def Midstate.const_hash_fast.line1_34 (cfg : Cfg) : Source.Sha256.Midstate.const_hash_fast.State1 → Tr Source.Sha256.Midstate.const_hash_fast.State1 :=
  fun (w, a, b, c, d, e, f, g, h) => do
    let x_164 ← Tr.index w 2
    let x_165 ← Tr.index w 0
    let x_166 ← Tr.index w 11
    let x_167 ← Tr.index w 3
    let w ← Tr.indexSet w 2 (((x_164 + (Source.Sha256.sigma1 cfg x_165)) + x_166) + (Source.Sha256.sigma0 cfg x_167))
    let x_169 ← Tr.index w 2
    let t1' : BitVec 32 := (((f + (Source.Sha256.Sigma1 cfg c)) + (Source.Sha256.Ch cfg c d e)) + 0x4d2c6dfc#32) + x_169
    let t2' : BitVec 32 := (Source.Sha256.Sigma0 cfg g) + (Source.Sha256.Maj cfg g h a)
    let b := b + t1'
    let f := t1' + t2'
    pure (w, a, b, c, d, e, f, g, h)

/-- round!(f, g, h, a, b, c, d, e, 0x53380d13, w[3], w[1], w[12], w[4]) -/
def Midstate.const_hash_fast.line1_35 (cfg : Cfg) : Source.Sha256.Midstate.const_hash_fast.State1 → Tr Source.Sha256.Midstate.const_hash_fast.State1 :=
  fun (w, a, b, c, d, e, f, g, h) => do
    let x_170 ← Tr.index w 3
    let x_171 ← Tr.index w 1
    let x_172 ← Tr.index w 12
    let x_173 ← Tr.index w 4
    let w ← Tr.indexSet w 3 (((x_170 + (Source.Sha256.sigma1 cfg x_171)) + x_172) + (Source.Sha256.sigma0 cfg x_173))
    let x_175 ← Tr.index w 3
    let t1' : BitVec 32 := (((e + (Source.Sha256.Sigma1 cfg b)) + (Source.Sha256.Ch cfg b c d)) + 0x53380d13#32) + x_175
    let t2' : BitVec 32 := (Source.Sha256.Sigma0 cfg f) + (Source.Sha256.Maj cfg f g h)
    let a := a + t1'
    let e := t1' + t2'
    pure (w, a, b, c, d, e, f, g, h)

/-- round!(e, f, g, h, a, b, c, d, 0x650a7354, w[4], w[2], w[13], w[5]) -/
def Midstate.const_hash_fast.line1_36 (cfg : Cfg) : Source.Sha256.Midstate.const_hash_fast.State1 → Tr Source.Sha256.Midstate.const_hash_fast.State1 :=
  fun (w, a, b, c, d, e, f, g, h) => do
    let x_176 ← Tr.index w 4
    let x_177 ← Tr.index w 2
    let x_178 ← Tr.index w 13
    let x_179 ← Tr.index w 5
    let w ← Tr.indexSet w 4 (((x_176 + (Source.Sha256.sigma1 cfg x_177)) + x_178) + (Source.Sha256.sigma0 cfg x_179))
    let x_181 ← Tr.index w 4
    let t1' : BitVec 32 := (((d + (Source.Sha256.Sigma1 cfg a)) + (Source.Sha256.Ch cfg a b c)) + 0x650a7354#32) + x_181
    let t2' : BitVec 32 := (Source.Sha256.Sigma0 cfg e) + (Source.Sha256.Maj cfg e f g)
    let h := h + t1'
    let d := t1' + t2'
    pure (w, a, b, c, d, e, f, g, h)

/-- round!(d, e, f, g, h, a, b, c, 0x766a0abb, w[5], w[3], w[14], w[6]) -/
def Midstate.const_hash_fast.line1_37 (cfg : Cfg) : Source.Sha256.Midstate.const_hash_fast.State1 → Tr Source.Sha256.Midstate.const_hash_fast.State1 :=
  fun (w, a, b, c, d, e, f, g, h) => do
    let x_182 ← Tr.index w 5
    let x_183 ← Tr.index w 3
    let x_184 ← Tr.index w 14
    let x_185 ← Tr.index w 6
    let w ← Tr.indexSet w 5 (((x_182 + (Source.Sha256.sigma1 cfg x_183)) + x_184) + (Source.Sha256.sigma0 cfg x_185))
    let x_187 ← Tr.index w 5
    let t1' : BitVec 32 := (((c + (Source.Sha256.Sigma1 cfg h)) + (Source.Sha256.Ch cfg h a b)) + 0x766a0abb#32) + x_187
    let t2' : BitVec 32 := (Source.Sha256.Sigma0 cfg d) + (Source.Sha256.Maj cfg d e f)
    let g := g + t1'
    let c := t1' + t2'
    pure (w, a, b, c, d, e, f, g, h)

/-- round!(c, d, e, f, g, h, a, b, 0x81c2c92e, w[6], w[4], w[15], w[7]) -/
def Midstate.const_hash_fast.line1_38 (cfg : Cfg) : Source.Sha256.Midstate.const_hash_fast.State1 → Tr Source.Sha256.Midstate.const_hash_fast.State1 :=
  fun (w, a, b, c, d, e, f, g, h) => do
    let x_188 ← Tr.index w 6
    let x_189 ← Tr.index w 4
    let x_190 ← Tr.index w 15
    let x_191 ← Tr.index w 7
    let w ← Tr.indexSet w 6 (((x_188 + (Source.Sha256.sigma1 cfg x_189)) + x_190) + (Source.Sha256.sigma0 cfg x_191))
    let x_193 ← Tr.index w 6
    let t1' : BitVec 32 := (((b + (Source.Sha256.Sigma1 cfg g)) + (Source.Sha256.Ch cfg g h a)) + 0x81c2c92e#32) + x_193
    let t2' : BitVec 32 := (Source.Sha256.Sigma0 cfg c) + (Source.Sha256.Maj cfg c d e)
    let f := f + t1'
    let b := t1' + t2'
    pure (w, a, b, c, d, e, f, g, h)

/-- round!(b, c, d, e, f, g, h, a, 0x92722c85, w[7], w[5], w[0], w[8]) -/
def Midstate.const_hash_fast.line1_39 (cfg : Cfg) : Source.Sha256.Midstate.const_hash_fast.State1 → Tr Source.Sha256.Midstate.const_hash_fast.State1 :=
  fun (w, a, b, c, d, e, f, g, h) => do
    let x_194 ← Tr.index w 7
    let x_195 ← Tr.index w 5
    let x_196 ← Tr.index w 0
    let x_197 ← Tr.index w 8
    let w ← Tr.indexSet w 7 (((x_194 + (Source.Sha256.sigma1 cfg x_195)) + x_196) + (Source.Sha256.sigma0 cfg x_197))
    let x_199 ← Tr.index w 7
    let t1' : BitVec 32 := (((a + (Source.Sha256.Sigma1 cfg f)) + (Source.Sha256.Ch cfg f g h)) + 0x92722c85#32) + x_199
    let t2' : BitVec 32 := (Source.Sha256.Sigma0 cfg b) + (Source.Sha256.Maj cfg b c d)
    let e := e + t1'
    let a := t1' + t2'
    pure (w, a, b, c, d, e, f, g, h)

/-- round!(a, b, c, d, e, f, g, h, 0xa2bfe8a1, w[8], w[6], w[1], w[9]) -/
def Midstate.const_hash_fast.line1_40 (cfg : Cfg) : Source.Sha256.Midstate.const_hash_fast.State1 → Tr Source.Sha256.Midstate.const_hash_fast.State1 :=
  fun (w, a, b, c, d, e, f, g, h) => do
    let x_200 ← Tr.index w 8
    let x_201 ← Tr.index w 6
    let x_202 ← Tr.index w 1
    let x_203 ← Tr.index w 9
    let w ← Tr.indexSet w 8 (((x_200 + (Source.Sha256.sigma1 cfg x_201)) + x_202) + (Source.Sha256.sigma0 cfg x_203))
    let x_205 ← Tr.index w 8
    let t1' : BitVec 32 := (((h + (Source.Sha256.Sigma1 cfg e)) + (Source.Sha256.Ch cfg e f g)) + 0xa2bfe8a1#32) + x_205
    let t2' : BitVec 32 := (Source.Sha256.Sigma0 cfg a) + (Source.Sha256.Maj cfg a b c)
    let d := d + t1'
    let h := t1' + t2'
    pure (w, a, b, c, d, e, f, g, h)

/-- round!(h, a, b, c, d, e, f, g, 0xa81a664b, w[9], w[7], w[2], w[10]) -/
def Midstate.const_hash_fast.line1_41 (cfg : Cfg) : Source.Sha256.Midstate.const_hash_fast.State1 → Tr Source.Sha256.Midstate.const_hash_fast.State1 :=
  fun (w, a, b, c, d, e, f, g, h) => do
    let x_206 ← Tr.index w 9
    let x_207 ← Tr.index w 7
    let x_208 ← Tr.index w 2
    let x_209 ← Tr.index w 10
    let w ← Tr.indexSet w 9 (((x_206 + (Source.Sha256.sigma1 cfg x_207)) + x_208) + (Source.Sha256.sigma0 cfg x_209))
    let x_211 ← Tr.index w 9
    let t1' : BitVec 32 := (((g + (Source.Sha256.Sigma1 cfg d)) + (Source.Sha256.Ch cfg d e f)) + 0xa81a664b#32) + x_211
    let t2' : BitVec 32 := (Source.Sha256.Sigma0 cfg h) + (Source.Sha256.Maj cfg h a b)
    let c := c + t1'
    let g := t1' + t2'
    pure (w, a, b, c, d, e, f, g, h)

/-- round!(g, h, a, b, c, d, e, f, 0xc24b8b70, w[10], w[8], w[3], w[11]) -/
def Midstate.const_hash_fast.line1_42 (cfg : Cfg) : Source.Sha256.Midstate.const_hash_fast.State1 → Tr Source.Sha256.Midstate.const_hash_fast.State1 :=
  fun (w, a, b, c, d, e, f, g, h) => do
    let x_212 ← Tr.index w 10
    let x_213 ← Tr.index w 8
    let x_214 ← Tr.index w 3
    let x_215 ← Tr.index w 11
    let w ← Tr.indexSet w 10 (((x_212 + (Source.Sha256.sigma1 cfg x_213)) + x_214) + (Source.Sha256.sigma0 cfg x_215))
    let x_217 ← Tr.index w 10
    let t1' : BitVec 32 := (((f + (Source.Sha256.Sigma1 cfg c)) + (Source.Sha256.Ch cfg c d e)) + 0xc24b8b70#32) + x_217
    let t2' : BitVec 32 := (Source.Sha256.Sigma0 cfg g) + (Source.Sha256.Maj cfg g h a)
    let b := b + t1'
    let f := t1' + t2'
    pure (w, a, b, c, d, e, f, g, h)

/-- round!(f, g, h, a, b, c, d, e, 0xc76c51a3, w[11], w[9], w[4], w[12]) -/
def Midstate.const_hash_fast.line1_43 (cfg : Cfg) : Source.Sha256.Midstate.const_hash_fast.State1 → Tr Source.Sha256.Midstate.const_hash_fast.State1 :=
  fun (w, a, b, c, d, e, f, g, h) => do
    let x_218 ← Tr.index w 11
    let x_219 ← Tr.index w 9
    let x_220 ← Tr.index w 4
    let x_221 ← Tr.index w 12
    let w ← Tr.indexSet w 11 (((x_218 + (Source.Sha256.sigma1 cfg x_219)) + x_220) + (Source.Sha256.sigma0 cfg x_221))
    let x_223 ← Tr.index w 11
    let t1' : BitVec 32 := (((e + (Source.Sha256.Sigma1 cfg b)) + (Source.Sha256.Ch cfg b c d)) + 0xc76c51a3#32) + x_223
    let t2' : BitVec 32 := (Source.Sha256.Sigma0 cfg f) + (Source.Sha256.Maj cfg f g h)
    let a := a + t1'
    let e := t1' + t2'
    pure (w, a, b, c, d, e, f, g, h)

/-- round!(e, f, g, h, a, b, c, d, 0xd192e819, w[12], w[10], w[5], w[13]) -/
def Midstate.const_hash_fast.line1_44 (cfg : Cfg) : Source.Sha256.Midstate.const_hash_fast.State1 → Tr Source.Sha256.Midstate.const_hash_fast.State1 :=
  fun (w, a, b, c, d, e, f, g, h) => do
    let x_224 ← Tr.index w 12
    let x_225 ← Tr.index w 10
    let x_226 ← Tr.index w 5
    let x_227 ← Tr.index w 13
    let w ← Tr.indexSet w 12 (((x_224 + (Source.Sha256.sigma1 cfg x_225)) + x_226) + (Source.Sha256.sigma0 cfg x_227))
    let x_229 ← Tr.index w 12
    let t1' : BitVec 32 := (((d + (Source.Sha256.Sigma1 cfg a)) + (Source.Sha256.Ch cfg a b c)) + 0xd192e819#32) + x_229
    let t2' : BitVec 32 := (Source.Sha256.Sigma0 cfg e) + (Source.Sha256.Maj cfg e f g)
    let h := h + t1'
    let d := t1' + t2'
    pure (w, a, b, c, d, e, f, g, h)

/-- round!(d, e, f, g, h, a, b, c, 0xd6990624, w[13], w[11], w[6], w[14]) -/
def Midstate.const_hash_fast.line1_45 (cfg : Cfg) : Source.Sha256.Midstate.const_hash_fast.State1 → Tr Source.Sha256.Midstate.const_hash_fast.State1 :=
  fun (w, a, b, c, d, e, f, g, h) => do
    let x_230 ← Tr.index w 13
    let x_231 ← Tr.index w 11
    let x_232 ← Tr.index w 6
    let x_233 ← Tr.index w 14
    let w ← Tr.indexSet w 13 (((x_230 + (Source.Sha256.sigma1 cfg x_231)) + x_232) + (Source.Sha256.sigma0 cfg x_233))
    let x_235 ← Tr.index w 13
    let t1' : BitVec 32 := (((c + (Source.Sha256.Sigma1 cfg h)) + (Source.Sha256.Ch cfg h a b)) + 0xd6990624#32) + x_235
    let t2' : BitVec 32 := (Source.Sha256.Sigma0 cfg d) + (Source.Sha256.Maj cfg d e f)
    let g := g + t1'
    let c := t1' + t2'
    pure (w, a, b, c, d, e, f, g, h)

/-- round!(c, d, e, f, g, h, a, b, 0xf40e3585, w[14], w[12], w[7], w[15]) -/
def Midstate.const_hash_fast.line1_46 (cfg : Cfg) : Source.Sha256.Midstate.const_hash_fast.State1 → Tr Source.Sha256.Midstate.const_hash_fast.State1 :=
  fun (w, a, b, c, d, e, f, g, h) => do
    let x_236 ← Tr.index w 14
    let x_237 ← Tr.index w 12
    let x_238 ← Tr.index w 7
    let x_239 ← Tr.index w 15
    let w ← Tr.indexSet w 14 (((x_236 + (Source.Sha256.sigma1 cfg x_237)) + x_238) + (Source.Sha256.sigma0 cfg x_239))
    let x_241 ← Tr.index w 14
    let t1' : BitVec 32 := (((b + (Source.Sha256.Sigma1 cfg g)) + (Source.Sha256.Ch cfg g h a)) + 0xf40e3585#32) + x_241
    let t2' : BitVec 32 := (Source.Sha256.Sigma0 cfg c) + (Source.Sha256.Maj cfg c d e)
    let f := f + t1'
    let b := t1' + t2'
    pure (w, a, b, c, d, e, f, g, h)

/-- round!(b, c, d, e, f, g, h, a, 0x106aa070, w[15], w[13], w[8], w[0]) -/
def Midstate.const_hash_fast.line1_47 (cfg : Cfg) : Source.Sha256.Midstate.const_hash_fast.State1 → Tr Source.Sha256.Midstate.const_hash_fast.State1 :=
  fun (w, a, b, c, d, e, f, g, h) => do
    let x_242 ← Tr.index w 15
    let x_243 ← Tr.index w 13
    let x_244 ← Tr.index w 8
    let x_245 ← Tr.index w 0
    let w ← Tr.indexSet w 15 (((x_242 + (Source.Sha256.sigma1 cfg x_243)) + x_244) + (Source.Sha256.sigma0 cfg x_245))
    let x_247 ← Tr.index w 15
    let t1' : BitVec 32 := (((a + (Source.Sha256.Sigma1 cfg f)) + (Source.Sha256.Ch cfg f g h)) + 0x106aa070#32) + x_247
    let t2' : BitVec 32 := (Source.Sha256.Sigma0 cfg b) + (Source.Sha256.Maj cfg b c d)
    let e := e + t1'
    let a := t1' + t2'
    pure (w, a, b, c, d, e, f, g, h)

/-- round!(a, b, c, d, e, f, g, h, 0x19a4c116, w[0], w[14], w[9], w[1]) -/
def Midstate.const_hash_fast.line1_48 (cfg : Cfg) : Source.Sha256.Midstate.const_hash_fast.State1 → Tr Source.Sha256.Midstate.const_hash_fast.State1 :=
  fun (w, a, b, c, d, e, f, g, h) => do
    let x_248 ← Tr.index w 0
    let x_249 ← Tr.index w 14
    let x_250 ← Tr.index w 9
    let x_251 ← Tr.index w 1
    let w ← Tr.indexSet w 0 (((x_248 + (Source.Sha256.sigma1 cfg x_249)) + x_250) + (Source.Sha256.sigma0 cfg x_251))
    let x_253 ← Tr.index w 0
    let t1' : BitVec 32 := (((h + (Source.Sha256.Sigma1 cfg e)) + (Source.Sha256.Ch cfg e f g)) + 0x19a4c116#32) + x_253
    let t2' : BitVec 32 := (Source.Sha256.Sigma0 cfg a) + (Source.Sha256.Maj cfg a b c)
    let d := d + t1'
    let h := t1' + t2'
    pure (w, a, b, c, d, e, f, g, h)

/-- round!(h, a, b, c, d, e, f, g, 0x1e376c08, w[1], w[15], w[10], w[2]) -/
def Midstate.const_hash_fast.line1_49 (cfg : Cfg) : Source.Sha256.Midstate.const_hash_fast.State1 → Tr Source.Sha256.Midstate.const_hash_fast.State1 :=
  fun (w, a, b, c, d, e, f, g, h) => do
    let x_254 ← Tr.index w 1
    let x_255 ← Tr.index w 15
    let x_256 ← Tr.index w 10
    let x_257 ← Tr.index w 2
    let w ← Tr.indexSet w 1 (((x_254 + (Source.Sha256.sigma1 cfg x_255)) + x_256) + (Source.Sha256.sigma0 cfg x_257))
    let x_259 ← Tr.index w 1
    let t1' : BitVec 32 := (((g + (Source.Sha256.Sigma1 cfg d)) + (Source.Sha256.Ch cfg d e f)) + 0x1e376c08#32) + x_259
    let t2' : BitVec 32 := (Source.Sha256.Sigma0 cfg h) + (Source.Sha256.Maj cfg h a b)
    let c := c + t1'
    let g := t1' + t2'
    pure (w, a, b, c, d, e, f, g, h)

/-- round!(g, h, a, b, c, d, e, f, 0x2748774c, w[2], w[0], w[11], w[3]) -/
def Midstate.const_hash_fast.line1_50 (cfg : Cfg) : Source.Sha256.Midstate.const_hash_fast.State1 → Tr Source.Sha256.Midstate.const_hash_fast.State1 :=
  fun (w, a, b, c, d, e, f, g, h) => do
    let x_260 ← Tr.index w 2
    let x_261 ← Tr.index w 0
    let x_262 ← Tr.index w 11
    let x_263 ← Tr.index w 3
    let w ← Tr.indexSet w 2 (((x_260 + (Source.Sha256.sigma1 cfg x_261)) + x_262) + (Source.Sha256.sigma0 cfg x_263))
    let x_265 ← Tr.index w 2
    let t1' : BitVec 32 := (((f + (Source.Sha256.Sigma1 cfg c)) + (Source.Sha256.Ch cfg c d e)) + 0x2748774c#32) + x_265
    let t2' : BitVec 32 := (Source.Sha256.Sigma0 cfg g) + (Source.Sha256.Maj cfg g h a)
    let b := b + t1'
    let f := t1' + t2'
    pure (w, a, b, c, d, e, f, g, h)

/-- round!(f, g, h, a, b, c, d, e, 0x34b0bcb5, w[3], w[1], w[12], w[4]) -/
def Midstate.const_hash_fast.line1_51 (cfg : Cfg) : Source.Sha256.Midstate.const_hash_fast.State1 → Tr Source.Sha256.Midstate.const_hash_fast.State1 :=
  fun (w, a, b, c, d, e, f, g, h) => do
    let x_266 ← Tr.index w 3
    let x_267 ← Tr.index w 1
    let x_268 ← Tr.index w 12
    let x_269 ← Tr.index w 4
    let w ← Tr.indexSet w 3 (((x_266 + (Source.Sha256.sigma1 cfg x_267)) + x_268) + (Source.Sha256.sigma0 cfg x_269))
    let x_271 ← Tr.index w 3
    let t1' : BitVec 32 := (((e + (Source.Sha256.Sigma1 cfg b)) + (Source.Sha256.Ch cfg b c d)) + 0x34b0bcb5#32) + x_271
    let t2' : BitVec 32 := (Source.Sha256.Sigma0 cfg f) + (Source.Sha256.Maj cfg f g h)
    let a := a + t1'
    let e := t1' + t2'
    pure (w, a, b, c, d, e, f, g, h)

/-- round!(e, f, g, h, a, b, c, d, 0x391c0cb3, w[4], w[2], w[13], w[5]) -/
def Midstate.const_hash_fast.line1_52 (cfg : Cfg) : Source.Sha256.Midstate.const_hash_fast.State1 → Tr Source.Sha256.Midstate.const_hash_fast.State1 :=
  fun (w, a, b, c, d, e, f, g, h) => do
    let x_272 ← Tr.index w 4
    let x_273 ← Tr.index w 2
    let x_274 ← Tr.index w 13
    let x_275 ← Tr.index w 5
    let w ← Tr.indexSet w 4 (((x_272 + (Source.Sha256.sigma1 cfg x_273)) + x_274) + (Source.Sha256.sigma0 cfg x_275))
    let x_277 ← Tr.index w 4
    let t1' : BitVec 32 := (((d + (Source.Sha256.Sigma1 cfg a)) + (Source.Sha256.Ch cfg a b c)) + 0x391c0cb3#32) + x_277
    let t2' : BitVec 32 := (Source.Sha256.Sigma0 cfg e) + (Source.Sha256.Maj cfg e f g)
    let h := h + t1'
    let d := t1' + t2'
    pure (w, a, b, c, d, e, f, g, h)

/-- round!(d, e, f, g, h, a, b, c, 0x4ed8aa4a, w[5], w[3], w[14], w[6]) -/
def Midstate.const_hash_fast.line1_53 (cfg : Cfg) : Source.Sha256.Midstate.const_hash_fast.State1 → Tr Source.Sha256.Midstate.const_hash_fast.State1 :=
  fun (w, a, b, c, d, e, f, g, h) => do
    let x_278 ← Tr.index w 5
    let x_279 ← Tr.index w 3
    let x_280 ← Tr.index w 14
    let x_281 ← Tr.index w 6
    let w ← Tr.indexSet w 5 (((x_278 + (Source.Sha256.sigma1 cfg x_279)) + x_280) + (Source.Sha256.sigma0 cfg x_281))
    let x_283 ← Tr.index w 5
    let t1' : BitVec 32 := (((c + (Source.Sha256.Sigma1 cfg h)) + (Source.Sha256.Ch cfg h a b)) + 0x4ed8aa4a#32) + x_283
    let t2' : BitVec 32 := (Source.Sha256.Sigma0 cfg d) + (Source.Sha256.Maj cfg d e f)
    let g := g + t1'
    let c := t1' + t2'
    pure (w, a, b, c, d, e, f, g, h)

/-- round!(c, d, e, f, g, h, a, b, 0x5b9cca4f, w[6], w[4], w[15], w[7]) -/
def Midstate.const_hash_fast.line1_54 (cfg : Cfg) : Source.Sha256.Midstate.const_hash_fast.State1 → Tr Source.Sha256.Midstate.const_hash_fast.State1 :=
  fun (w, a, b, c, d, e, f, g, h) => do
    let x_284 ← Tr.index w 6
    let x_285 ← Tr.index w 4
    let x_286 ← Tr.index w 15
    let x_287 ← Tr.index w 7
    let w ← Tr.indexSet w 6 (((x_284 + (Source.Sha256.sigma1 cfg x_285)) + x_286) + (Source.Sha256.sigma0 cfg x_287))
    let x_289 ← Tr.index w 6
    let t1' : BitVec 32 := (((b + (Source.Sha256.Sigma1 cfg g)) + (Source.Sha256.Ch cfg g h a)) + 0x5b9cca4f#32) + x_289
    let t2' : BitVec 32 := (Source.Sha256.Sigma0 cfg c) + (Source.Sha256.Maj cfg c d e)
    let f := f + t1'
    let b := t1' + t2'
    pure (w, a, b, c, d, e, f, g, h)

/-- round!(b, c, d, e, f, g, h, a, 0x682e6ff3, w[7], w[5], w[0], w[8]) -/
def Midstate.const_hash_fast.line1_55 (cfg : Cfg) : Source.Sha256.Midstate.const_hash_fast.State1 → Tr Source.Sha256.Midstate.const_hash_fast.State1 :=
  fun (w, a, b, c, d, e, f, g, h) => do
    let x_290 ← Tr.index w 7
    let x_291 ← Tr.index w 5
    let x_292 ← Tr.index w 0
    let x_293 ← Tr.index w 8
    let w ← Tr.indexSet w 7 (((x_290 + (Source.Sha256.sigma1 cfg x_291)) + x_292) + (Source.Sha256.sigma0 cfg x_293))
    let x_295 ← Tr.index w 7
    let t1' : BitVec 32 := (((a + (Source.Sha256.Sigma1 cfg f)) + (Source.Sha256.Ch cfg f g h)) + 0x682e6ff3#32) + x_295
    let t2' : BitVec 32 := (Source.Sha256.Sigma0 cfg b) + (Source.Sha256.Maj cfg b c d)
    let e := e + t1'
    let a := t1' + t2'
    pure (w, a, b, c, d, e, f, g, h)

/-- round!(a, b, c, d, e, f, g, h, 0x748f82ee, w[8], w[6], w[1], w[9]) -/
def Midstate.const_hash_fast.line1_56 (cfg : Cfg) : Source.Sha256.Midstate.const_hash_fast.State1 → Tr Source.Sha256.Midstate.const_hash_fast.State1 :=
  fun (w, a, b, c, d, e, f, g, h) => do
    let x_296 ← Tr.index w 8
    let x_297 ← Tr.index w 6
    let x_298 ← Tr.index w 1
    let x_299 ← Tr.index w 9
    let w ← Tr.indexSet w 8 (((x_296 + (Source.Sha256.sigma1 cfg x_297)) + x_298) + (Source.Sha256.sigma0 cfg x_299))
    let x_301 ← Tr.index w 8
    let t1' : BitVec 32 := (((h + (Source.Sha256.Sigma1 cfg e)) + (Source.Sha256.Ch cfg e f g)) + 0x748f82ee#32) + x_301
    let t2' : BitVec 32 := (Source.Sha256.Sigma0 cfg a) + (Source.Sha256.Maj cfg a b c)
    let d := d + t1'
    let h := t1' + t2'
    pure (w, a, b, c, d, e, f, g, h)

/-- round!(h, a, b, c, d, e, f, g, 0x78a5636f, w[9], w[7], w[2], w[10]) -/
def Midstate.const_hash_fast.line1_57 (cfg : Cfg) : Source.Sha256.Midstate.const_hash_fast.State1 → Tr Source.Sha256.Midstate.const_hash_fast.State1 :=
  fun (w, a, b, c, d, e, f, g, h) => do
    let x_302 ← Tr.index w 9
    let x_303 ← Tr.index w 7
    let x_304 ← Tr.index w 2
    let x_305 ← Tr.index w 10
    let w ← Tr.indexSet w 9 (((x_302 + (Source.Sha256.sigma1 cfg x_303)) + x_304) + (Source.Sha256.sigma0 cfg x_305))
    let x_307 ← Tr.index w 9
    let t1' : BitVec 32 := (((g + (Source.Sha256.Sigma1 cfg d)) + (Source.Sha256.Ch cfg d e f)) + 0x78a5636f#32) + x_307
    let t2' : BitVec 32 := (Source.Sha256.Sigma0 cfg h) + (Source.Sha256.Maj cfg h a b)
    let c := c + t1'
    let g := t1' + t2'
    pure (w, a, b, c, d, e, f, g, h)

/-- round!(g, h, a, b, c, d, e, f, 0x84c87814, w[10], w[8], w[3], w[11]) -/
def Midstate.const_hash_fast.line1_58 (cfg : Cfg) : Source.Sha256.Midstate.const_hash_fast.State1 → Tr Source.Sha256.Midstate.const_hash_fast.State1 :=
  fun (w, a, b, c, d, e, f, g, h) => do
    let x_308 ← Tr.index w 10
    let x_309 ← Tr.index w 8
    let x_310 ← Tr.index w 3
    let x_311 ← Tr.index w 11
    let w ← Tr.indexSet w 10 (((x_308 + (Source.Sha256.sigma1 cfg x_309)) + x_310) + (Source.Sha256.sigma0 cfg x_311))
    let x_313 ← Tr.index w 10
    let t1' : BitVec 32 := (((f + (Source.Sha256.Sigma1 cfg c)) + (Source.Sha256.Ch cfg c d e)) + 0x84c87814#32) + x_313
    let t2' : BitVec 32 := (Source.Sha256.Sigma0 cfg g) + (Source.Sha256.Maj cfg g h a)
    let b := b + t1'
    let f := t1' + t2'
    pure (w, a, b, c, d, e, f, g, h)

/-- round!(f, g, h, a, b, c, d, e, 0x8cc70208, w[11], w[9], w[4], w[12]) -/
def Midstate.const_hash_fast.line1_59 (cfg : Cfg) : Source.Sha256.Midstate.const_hash_fast.State1 → Tr Source.Sha256.Midstate.const_hash_fast.State1 :=
  fun (w, a, b, c, d, e, f, g, h) => do
    let x_314 ← Tr.index w 11
    let x_315 ← Tr.index w 9
    let x_316 ← Tr.index w 4
    let x_317 ← Tr.index w 12
    let w ← Tr.indexSet w 11 (((x_314 + (Source.Sha256.sigma1 cfg x_315)) + x_316) + (Source.Sha256.sigma0 cfg x_317))
    let x_319 ← Tr.index w 11
    let t1' : BitVec 32 := (((e + (Source.Sha256.Sigma1 cfg b)) + (Source.Sha256.Ch cfg b c d)) + 0x8cc70208#32) + x_319
    let t2' : BitVec 32 := (Source.Sha256.Sigma0 cfg f) + (Source.Sha256.Maj cfg f g h)
    let a := a + t1'
    let e := t1' + t2'
    pure (w, a, b, c, d, e, f, g, h)

/-- round!(e, f, g, h, a, b, c, d, 0x90befffa, w[12], w[10], w[5], w[13]) -/
def Midstate.const_hash_fast.line1_60 (cfg : Cfg) : Source.Sha256.Midstate.const_hash_fast.State1 → Tr Source.Sha256.Midstate.const_hash_fast.State1 :=
  fun (w, a, b, c, d, e, f, g, h) => do
    let x_320 ← Tr.index w 12
    let x_321 ← Tr.index w 10
    let x_322 ← Tr.index w 5
    let x_323 ← Tr.index w 13
    let w ← Tr.indexSet w 12 (((x_320 + (Source.Sha256.sigma1 cfg x_321)) + x_322) + (Source.Sha256.sigma0 cfg x_323))
    let x_325 ← Tr.index w 12
    let t1' : BitVec 32 := (((d + (Source.Sha256.Sigma1 cfg a)) + (Source.Sha256.Ch cfg a b c)) + 0x90befffa#32) + x_325
    let t2' : BitVec 32 := (Source.Sha256.Sigma0 cfg e) + (Source.Sha256.Maj cfg e f g)
    let h := h + t1'
    let d := t1' + t2'
    pure (w, a, b, c, d, e, f, g, h)

/-- round!(d, e, f, g, h, a, b, c, 0xa4506ceb, w[13], w[11], w[6], w[14]) -/
def Midstate.const_hash_fast.line1_61 (cfg : Cfg) : Source.Sha256.Midstate.const_hash_fast.State1 → Tr Source.Sha256.Midstate.const_hash_fast.State1 :=
  fun (w, a, b, c, d, e, f, g, h) => do
    let x_326 ← Tr.index w 13
    let x_327 ← Tr.index w 11
    let x_328 ← Tr.index w 6
    let x_329 ← Tr.index w 14
    let w ← Tr.indexSet w 13 (((x_326 + (Source.Sha256.sigma1 cfg x_327)) + x_328) + (Source.Sha256.sigma0 cfg x_329))
    let x_331 ← Tr.index w 13
    let t1' : BitVec 32 := (((c + (Source.Sha256.Sigma1 cfg h)) + (Source.Sha256.Ch cfg h a b)) + 0xa4506ceb#32) + x_331
    let t2' : BitVec 32 := (Source.Sha256.Sigma0 cfg d) + (Source.Sha256.Maj cfg d e f)
    let g := g + t1'
    let c := t1' + t2'
    pure (w, a, b, c, d, e, f, g, h)

/-- round!(c, d, e, f, g, h, a, b, 0xbef9a3f7, w[14], w[12], w[7], w[15]) -/
def Midstate.const_hash_fast.line1_62 (cfg : Cfg) : Source.Sha256.Midstate.const_hash_fast.State1 → Tr Source.Sha256.Midstate.const_hash_fast.State1 :=
  fun (w, a, b, c, d, e, f, g, h) => do
    let x_332 ← Tr.index w 14
    let x_333 ← Tr.index w 12
    let x_334 ← Tr.index w 7
    let x_335 ← Tr.index w 15
    let w ← Tr.indexSet w 14 (((x_332 + (Source.Sha256.sigma1 cfg x_333)) + x_334) + (Source.Sha256.sigma0 cfg x_335))
    let x_337 ← Tr.index w 14
    let t1' : BitVec 32 := (((b + (Source.Sha256.Sigma1 cfg g)) + (Source.Sha256.Ch cfg g h a)) + 0xbef9a3f7#32) + x_337
    let t2' : BitVec 32 := (Source.Sha256.Sigma0 cfg c) + (Source.Sha256.Maj cfg c d e)
    let f := f + t1'
    let b := t1' + t2'
    pure (w, a, b, c, d, e, f, g, h)

/-- round!(b, c, d, e, f, g, h, a, 0xc67178f2, w[15], w[13], w[8], w[0]) -/
def Midstate.const_hash_fast.line1_63 (cfg : Cfg) : Source.Sha256.Midstate.const_hash_fast.State1 → Tr Source.Sha256.Midstate.const_hash_fast.State1 :=
  fun (w, a, b, c, d, e, f, g, h) => do
    let x_338 ← Tr.index w 15
    let x_339 ← Tr.index w 13
    let x_340 ← Tr.index w 8
    let x_341 ← Tr.index w 0
    let w ← Tr.indexSet w 15 (((x_338 + (Source.Sha256.sigma1 cfg x_339)) + x_340) + (Source.Sha256.sigma0 cfg x_341))
    let x_343 ← Tr.index w 15
    let t1' : BitVec 32 := (((a + (Source.Sha256.Sigma1 cfg f)) + (Source.Sha256.Ch cfg f g h)) + 0xc67178f2#32) + x_343
    let t2' : BitVec 32 := (Source.Sha256.Sigma0 cfg b) + (Source.Sha256.Maj cfg b c d)
    let e := e + t1'
    let a := t1' + t2'
    pure (w, a, b, c, d, e, f, g, h)

/-- The 64 statements. -/
def Midstate.const_hash_fast.lines1 (cfg : Cfg) : List (Source.Sha256.Midstate.const_hash_fast.State1 → Tr Source.Sha256.Midstate.const_hash_fast.State1) := [
  Seen.Sha256.Midstate.const_hash_fast.line1_0 cfg,
  Seen.Sha256.Midstate.const_hash_fast.line1_1 cfg,
  Seen.Sha256.Midstate.const_hash_fast.line1_2 cfg,
  Seen.Sha256.Midstate.const_hash_fast.line1_3 cfg,
  Seen.Sha256.Midstate.const_hash_fast.line1_4 cfg,
  Seen.Sha256.Midstate.const_hash_fast.line1_5 cfg,
  Seen.Sha256.Midstate.const_hash_fast.line1_6 cfg,
  Seen.Sha256.Midstate.const_hash_fast.line1_7 cfg,
  Seen.Sha256.Midstate.const_hash_fast.line1_8 cfg,
  Seen.Sha256.Midstate.const_hash_fast.line1_9 cfg,
  Seen.Sha256.Midstate.const_hash_fast.line1_10 cfg,
  Seen.Sha256.Midstate.const_hash_fast.line1_11 cfg,
  Seen.Sha256.Midstate.const_hash_fast.line1_12 cfg,
  Seen.Sha256.Midstate.const_hash_fast.line1_13 cfg,
  Seen.Sha256.Midstate.const_hash_fast.line1_14 cfg,
  Seen.Sha256.Midstate.const_hash_fast.line1_15 cfg,
  Seen.Sha256.Midstate.const_hash_fast.line1_16 cfg,
  Seen.Sha256.Midstate.const_hash_fast.line1_17 cfg,
  Seen.Sha256.Midstate.const_hash_fast.line1_18 cfg,
  Seen.Sha256.Midstate.const_hash_fast.line1_19 cfg,
  Seen.Sha256.Midstate.const_hash_fast.line1_20 cfg,
  Seen.Sha256.Midstate.const_hash_fast.line1_21 cfg,
  Seen.Sha256.Midstate.const_hash_fast.line1_22 cfg,
  Seen.Sha256.Midstate.const_hash_fast.line1_23 cfg,
  Seen.Sha256.Midstate.const_hash_fast.line1_24 cfg,
  Seen.Sha256.Midstate.const_hash_fast.line1_25 cfg,
  Seen.Sha256.Midstate.const_hash_fast.line1_26 cfg,
  Seen.Sha256.Midstate.const_hash_fast.line1_27 cfg,
  Seen.Sha256.Midstate.const_hash_fast.line1_28 cfg,
  Seen.Sha256.Midstate.const_hash_fast.line1_29 cfg,
  Seen.Sha256.Midstate.const_hash_fast.line1_30 cfg,
  Seen.Sha256.Midstate.const_hash_fast.line1_31 cfg,
  Seen.Sha256.Midstate.const_hash_fast.line1_32 cfg,
  Seen.Sha256.Midstate.const_hash_fast.line1_33 cfg,
  Seen.Sha256.Midstate.const_hash_fast.line1_34 cfg,
  Seen.Sha256.Midstate.const_hash_fast.line1_35 cfg,
  Seen.Sha256.Midstate.const_hash_fast.line1_36 cfg,
  Seen.Sha256.Midstate.const_hash_fast.line1_37 cfg,
  Seen.Sha256.Midstate.const_hash_fast.line1_38 cfg,
  Seen.Sha256.Midstate.const_hash_fast.line1_39 cfg,
  Seen.Sha256.Midstate.const_hash_fast.line1_40 cfg,
  Seen.Sha256.Midstate.const_hash_fast.line1_41 cfg,
  Seen.Sha256.Midstate.const_hash_fast.line1_42 cfg,
  Seen.Sha256.Midstate.const_hash_fast.line1_43 cfg,
  Seen.Sha256.Midstate.const_hash_fast.line1_44 cfg,
  Seen.Sha256.Midstate.const_hash_fast.line1_45 cfg,
  Seen.Sha256.Midstate.const_hash_fast.line1_46 cfg,
  Seen.Sha256.Midstate.const_hash_fast.line1_47 cfg,
  Seen.Sha256.Midstate.const_hash_fast.line1_48 cfg,
  Seen.Sha256.Midstate.const_hash_fast.line1_49 cfg,
  Seen.Sha256.Midstate.const_hash_fast.line1_50 cfg,
  Seen.Sha256.Midstate.const_hash_fast.line1_51 cfg,
  Seen.Sha256.Midstate.const_hash_fast.line1_52 cfg,
  Seen.Sha256.Midstate.const_hash_fast.line1_53 cfg,
  Seen.Sha256.Midstate.const_hash_fast.line1_54 cfg,
  Seen.Sha256.Midstate.const_hash_fast.line1_55 cfg,
  Seen.Sha256.Midstate.const_hash_fast.line1_56 cfg,
  Seen.Sha256.Midstate.const_hash_fast.line1_57 cfg,
  Seen.Sha256.Midstate.const_hash_fast.line1_58 cfg,
  Seen.Sha256.Midstate.const_hash_fast.line1_59 cfg,
  Seen.Sha256.Midstate.const_hash_fast.line1_60 cfg,
  Seen.Sha256.Midstate.const_hash_fast.line1_61 cfg,
  Seen.Sha256.Midstate.const_hash_fast.line1_62 cfg,
  Seen.Sha256.Midstate.const_hash_fast.line1_63 cfg]

/-- `Midstate::const_hash`, sha256.rs 279-425, without feature `small-hash`. -/
def Midstate.const_hash_fast (cfg : Cfg) (bytes : List Byte) (finalize : Bool) : Tr Source.Sha256.Midstate := do
  let state : List (BitVec 32) := [0x6a09e667#32, 0xbb67ae85#32, 0x3c6ef372#32, 0xa54ff53a#32, 0x510e527f#32, 0x9b05688c#32, 0x1f83d9ab#32, 0x5be0cd19#32]
  let x_1 ← Tr.addUsize cfg bytes.length 9
  let x_2 ← Tr.addUsize cfg x_1 63
  let num_chunks : Nat := x_2 / 64
  let chunk : Nat := 0
  let (state, chunk) ← Tr.whileBreak cfg.usizeMod
    (fun (state, chunk) => pure (decide (chunk < num_chunks)))
    (fun (state, chunk) => do
      let x_4 ←
        Tr.test (!finalize) >>= fun b_1 => if b_1 then do
          let x_3 ← Tr.addUsize cfg chunk 1
          pure (x_3 == num_chunks)
        else pure false
      let x_5 ←
        Tr.test (x_4) >>= fun b_2 => if b_2 then do
          pure (Rs.Flow.ret (state, chunk))
        else do
          pure (Rs.Flow.next ())
      match x_5 with
      | Rs.Flow.ret r => pure (Rs.Flow.ret r)
      | Rs.Flow.next _ => do
        let x_6 ← Tr.mulUsize cfg chunk 64
        let x_7 ← Tr.addUsize cfg x_6 64
        let x_30 ←
          Tr.test (decide (x_7 ≤ bytes.length)) >>= fun b_3 => if b_3 then do
            let x_8 ← Tr.mulUsize cfg chunk 64
            let x_9 ← Seen.Sha256.Midstate.copy_w cfg bytes x_8
            pure x_9
          else do
            let buf : List Byte := List.replicate 64 0#8
            let i : Nat := 0
            let offset ← Tr.mulUsize cfg chunk 64
            let (buf, i) ← Tr.whileR cfg.usizeMod
              (fun (buf, i) => do
                let x_11 ← Tr.addUsize cfg offset i
                pure (decide (x_11 < bytes.length)))
              (fun (buf, i) => do
                let x_12 ← Tr.addUsize cfg offset i
                let x_13 ← Tr.index bytes x_12
                let buf ← Tr.indexSet buf i x_13
                let i ← Tr.addUsize cfg i 1
                pure (buf, i)) (buf, i)
            let x_17 ←
              Tr.test (!(decide ((bytes.length % 64) ≤ (64 - 9)))) >>= fun b_4 => if b_4 then do
                let x_16 ← Tr.addUsize cfg chunk 2
                pure (x_16 == num_chunks)
              else pure true
            let buf ←
              Tr.test (x_17) >>= fun b_5 => if b_5 then do
                let buf ← Tr.indexSet buf i 0x80#8
                pure buf
              else do
                pure buf
            let x_19 ← Tr.addUsize cfg chunk 1
            let buf ←
              Tr.test (x_19 == num_chunks) >>= fun b_6 => if b_6 then do
                let bit_len ← Tr.mulU cfg (BitVec.ofNat 64 bytes.length) 8#64
                let buf ← Tr.indexSet buf (64 - 8) (BitVec.setWidth 8 ((bit_len >>> 56) &&& 0xFF#64))
                let buf ← Tr.indexSet buf (64 - 7) (BitVec.setWidth 8 ((bit_len >>> 48) &&& 0xFF#64))
                let buf ← Tr.indexSet buf (64 - 6) (BitVec.setWidth 8 ((bit_len >>> 40) &&& 0xFF#64))
                let buf ← Tr.indexSet buf (64 - 5) (BitVec.setWidth 8 ((bit_len >>> 32) &&& 0xFF#64))
                let buf ← Tr.indexSet buf (64 - 4) (BitVec.setWidth 8 ((bit_len >>> 24) &&& 0xFF#64))
                let buf ← Tr.indexSet buf (64 - 3) (BitVec.setWidth 8 ((bit_len >>> 16) &&& 0xFF#64))
                let buf ← Tr.indexSet buf (64 - 2) (BitVec.setWidth 8 ((bit_len >>> 8) &&& 0xFF#64))
                let buf ← Tr.indexSet buf (64 - 1) (BitVec.setWidth 8 ((bit_len >>> 0) &&& 0xFF#64))
                pure buf
              else do
                pure buf
            let x_29 ← Seen.Sha256.Midstate.copy_w cfg buf 0
            pure x_29
        let w : List (BitVec 32) := x_30
        let chunk ← Tr.addUsize cfg chunk 1
        let a ← Tr.index state 0
        let b ← Tr.index state 1
        let c ← Tr.index state 2
        let d ← Tr.index state 3
        let e ← Tr.index state 4
        let f ← Tr.index state 5
        let g ← Tr.index state 6
        let h ← Tr.index state 7
        let (w, a, b, c, d, e, f, g, h) ← Tr.runLines (Seen.Sha256.Midstate.const_hash_fast.lines1 cfg) (w, a, b, c, d, e, f, g, h)
        let x_344 ← Tr.index state 0
        let state ← Tr.indexSet state 0 (x_344 + a)
        let x_346 ← Tr.index state 1
        let state ← Tr.indexSet state 1 (x_346 + b)
        let x_348 ← Tr.index state 2
        let state ← Tr.indexSet state 2 (x_348 + c)
        let x_350 ← Tr.index state 3
        let state ← Tr.indexSet state 3 (x_350 + d)
        let x_352 ← Tr.index state 4
        let state ← Tr.indexSet state 4 (x_352 + e)
        let x_354 ← Tr.index state 5
        let state ← Tr.indexSet state 5 (x_354 + f)
        let x_356 ← Tr.index state 6
        let state ← Tr.indexSet state 6 (x_356 + g)
        let x_358 ← Tr.index state 7
        let state ← Tr.indexSet state 7 (x_358 + h)
        pure (Rs.Flow.next (state, chunk))) (state, chunk)
  let output : List Byte := List.replicate 32 0#8
  let i : Nat := 0
  let (output, i) ← Tr.whileR cfg.usizeMod
    (fun (output, i) => pure (decide (i < 8)))
    (fun (output, i) => do
      let x_360 ← Tr.addUsize cfg i 0
      let x_361 ← Tr.index state x_360
      let x_362 ← Tr.mulUsize cfg i 4
      let x_363 ← Tr.addUsize cfg x_362 0
      let output ← Tr.indexSet output x_363 (BitVec.setWidth 8 (x_361 >>> 24))
      let x_365 ← Tr.addUsize cfg i 0
      let x_366 ← Tr.index state x_365
      let x_367 ← Tr.mulUsize cfg i 4
      let x_368 ← Tr.addUsize cfg x_367 1
      let output ← Tr.indexSet output x_368 (BitVec.setWidth 8 (x_366 >>> 16))
      let x_370 ← Tr.addUsize cfg i 0
      let x_371 ← Tr.index state x_370
      let x_372 ← Tr.mulUsize cfg i 4
      let x_373 ← Tr.addUsize cfg x_372 2
      let output ← Tr.indexSet output x_373 (BitVec.setWidth 8 (x_371 >>> 8))
      let x_375 ← Tr.addUsize cfg i 0
      let x_376 ← Tr.index state x_375
      let x_377 ← Tr.mulUsize cfg i 4
      let x_378 ← Tr.addUsize cfg x_377 3
      let output ← Tr.indexSet output x_378 (BitVec.setWidth 8 (x_376 >>> 0))
      let i ← Tr.addUsize cfg i 1
      pure (output, i)) (output, i)
  pure ({ f0 := output } : Source.Sha256.Midstate)

/-- round!(a, b, c, d, e, f, g, h, 0x428a2f98, w[0]) -/
def Midstate.const_hash_small.line1_0 (cfg : Cfg) : Source.Sha256.Midstate.const_hash_small.State1 → Tr Source.Sha256.Midstate.const_hash_small.State1 :=
  fun (w, a, b, c, d, e, f, g, h) => do
    let x_40 ← Tr.index w 0
    let updates' := Source.Sha256.small_hash.round cfg a b c d e f g h 0x428a2f98#32 x_40
    let d := updates'.1
    let h := updates'.2
    pure (w, a, b, c, d, e, f, g, h)

/-- round!(h, a, b, c, d, e, f, g, 0x71374491, w[1]) -/
def Midstate.const_hash_small.line1_1 (cfg : Cfg) : Source.Sha256.Midstate.const_hash_small.State1 → Tr Source.Sha256.Midstate.const_hash_small.State1 :=
  fun (w, a, b, c, d, e, f, g, h) => do
    let x_41 ← Tr.index w 1
    let updates' := Source.Sha256.small_hash.round cfg h a b c d e f g 0x71374491#32 x_41
    let c := updates'.1
    let g := updates'.2
    pure (w, a, b, c, d, e, f, g, h)

/-- round!(g, h, a, b, c, d, e, f, 0xb5c0fbcf, w[2]) -/
def Midstate.const_hash_small.line1_2 (cfg : Cfg) : Source.Sha256.Midstate.const_hash_small.State1 → Tr Source.Sha256.Midstate.const_hash_small.State1 :=
  fun (w, a, b, c, d, e, f, g, h) => do
    let x_42 ← Tr.index w 2
    let updates' := Source.Sha256.small_hash.round cfg g h a b c d e f 0xb5c0fbcf#32 x_42
    let b := updates'.1
    let f := updates'.2
    pure (w, a, b, c, d, e, f, g, h)

/-- round!(f, g, h, a, b, c, d, e, 0xe9b5dba5, w[3]) -/
def Midstate.const_hash_small.line1_3 (cfg : Cfg) : Source.Sha256.Midstate.const_hash_small.State1 → Tr Source.Sha256.Midstate.const_hash_small.State1 :=
  fun (w, a, b, c, d, e, f, g, h) => do
    let x_43 ← Tr.index w 3
    let updates' := Source.Sha256.small_hash.round cfg f g h a b c d e 0xe9b5dba5#32 x_43
    let a := updates'.1
    let e := updates'.2
    pure (w, a, b, c, d, e, f, g, h)

/-- round!(e, f, g, h, a, b, c, d, 0x3956c25b, w[4]) -/
def Midstate.const_hash_small.line1_4 (cfg : Cfg) : Source.Sha256.Midstate.const_hash_small.State1 → Tr Source.Sha256.Midstate.const_hash_small.State1 :=
  fun (w, a, b, c, d, e, f, g, h) => do
    let x_44 ← Tr.index w 4
    let updates' := Source.Sha256.small_hash.round cfg e f g h a b c d 0x3956c25b#32 x_44
    let h := updates'.1
    let d := updates'.2
    pure (w, a, b, c, d, e, f, g, h)

/-- round!(d, e, f, g, h, a, b, c, 0x59f111f1, w[5]) -/
def Midstate.const_hash_small.line1_5 (cfg : Cfg) : Source.Sha256.Midstate.const_hash_small.State1 → Tr Source.Sha256.Midstate.const_hash_small.State1 :=
  fun (w, a, b, c, d, e, f, g, h) => do
    let x_45 ← Tr.index w 5
    let updates' := Source.Sha256.small_hash.round cfg d e f g h a b c 0x59f111f1#32 x_45
    let g := updates'.1
    let c := updates'.2
    pure (w, a, b, c, d, e, f, g, h)

/-- round!(c, d, e, f, g, h, a, b, 0x923f82a4, w[6]) -/
def Midstate.const_hash_small.line1_6 (cfg : Cfg) : Source.Sha256.Midstate.const_hash_small.State1 → Tr Source.Sha256.Midstate.const_hash_small.State1 :=
  fun (w, a, b, c, d, e, f, g, h) => do
    let x_46 ← Tr.index w 6
    let updates' := Source.Sha256.small_hash.round cfg c d e f g h a b 0x923f82a4#32 x_46
    let f := updates'.1
    let b := updates'.2
    pure (w, a, b, c, d, e, f, g, h)

/-- round!(b, c, d, e, f, g, h, a, 0xab1c5ed5, w[7]) -/
def Midstate.const_hash_small.line1_7 (cfg : Cfg) : Source.Sha256.Midstate.const_hash_small.State1 → Tr Source.Sha256.Midstate.const_hash_small.State1 :=
  fun (w, a, b, c, d, e, f, g, h) => do
    let x_47 ← Tr.index w 7
    let updates' := Source.Sha256.small_hash.round cfg b c d e f g h a 0xab1c5ed5#32 x_47
    let e := updates'.1
    let a := updates'.2
    pure (w, a, b, c, d, e, f, g, h)

/-- round!(a, b, c, d, e, f, g, h, 0xd807aa98, w[8]) -/
def Midstate.const_hash_small.line1_8 (cfg : Cfg) : Source.Sha256.Midstate.const_hash_small.State1 → Tr Source.Sha256.Midstate.const_hash_small.State1 :=
  fun (w, a, b, c, d, e, f, g, h) => do
    let x_48 ← Tr.index w 8
    let updates' := Source.Sha256.small_hash.round cfg a b c d e f g h 0xd807aa98#32 x_48
    let d := updates'.1
    let h := updates'.2
    pure (w, a, b, c, d, e, f, g, h)

/-- round!(h, a, b, c, d, e, f, g, 0x12835b01, w[9]) -/
def Midstate.const_hash_small.line1_9 (cfg : Cfg) : Source.Sha256.Midstate.const_hash_small.State1 → Tr Source.Sha256.Midstate.const_hash_small.State1 :=
  fun (w, a, b, c, d, e, f, g, h) => do
    let x_49 ← Tr.index w 9
    let updates' := Source.Sha256.small_hash.round cfg h a b c d e f g 0x12835b01#32 x_49
    let c := updates'.1
    let g := updates'.2
    pure (w, a, b, c, d, e, f, g, h)

/-- round!(g, h, a, b, c, d, e, f, 0x243185be, w[10]) -/
def Midstate.const_hash_small.line1_10 (cfg : Cfg) : Source.Sha256.Midstate.const_hash_small.State1 → Tr Source.Sha256.Midstate.const_hash_small.State1 :=
  fun (w, a, b, c, d, e, f, g, h) => do
    let x_50 ← Tr.index w 10
    let updates' := Source.Sha256.small_hash.round cfg g h a b c d e f 0x243185be#32 x_50
    let b := updates'.1
    let f := updates'.2
    pure (w, a, b, c, d, e, f, g, h)

/-- round!(f, g, h, a, b, c, d, e, 0x550c7dc3, w[11]) -/
def Midstate.const_hash_small.line1_11 (cfg : Cfg) : Source.Sha256.Midstate.const_hash_small.State1 → Tr Source.Sha256.Midstate.const_hash_small.State1 :=
  fun (w, a, b, c, d, e, f, g, h) => do
    let x_51 ← Tr.index w 11
    let updates' := Source.Sha256.small_hash.round cfg f g h a b c d e 0x550c7dc3#32 x_51
    let a := updates'.1
    let e := updates'.2
    pure (w, a, b, c, d, e, f, g, h)

/-- round!(e, f, g, h, a, b, c, d, 0x72be5d74, w[12]) -/
def Midstate.const_hash_small.line1_12 (cfg : Cfg) : Source.Sha256.Midstate.const_hash_small.State1 → Tr Source.Sha256.Midstate.const_hash_small.State1 :=
  fun (w, a, b, c, d, e, f, g, h) => do
    let x_52 ← Tr.index w 12
    let updates' := Source.Sha256.small_hash.round cfg e f g h a b c d 0x72be5d74#32 x_52
    let h := updates'.1
    let d := updates'.2
    pure (w, a, b, c, d, e, f, g, h)

/-- round!(d, e, f, g, h, a, b, c, 0x80deb1fe, w[13]) -/
def Midstate.const_hash_small.line1_13 (cfg : Cfg) : Source.Sha256.Midstate.const_hash_small.State1 → Tr Source.Sha256.Midstate.const_hash_small.State1 :=
  fun (w, a, b, c, d, e, f, g, h) => do
    let x_53 ← Tr.index w 13
    let updates' := Source.Sha256.small_hash.round cfg d e f g h a b c 0x80deb1fe#32 x_53
    let g := updates'.1
    let c := updates'.2
    pure (w, a, b, c, d, e, f, g, h)

/-- round!(c, d, e, f, g, h, a, b, 0x9bdc06a7, w[14]) -/
def Midstate.const_hash_small.line1_14 (cfg : Cfg) : Source.Sha256.Midstate.const_hash_small.State1 → Tr Source.Sha256.Midstate.const_hash_small.State1 :=
  fun (w, a, b, c, d, e, f, g, h) => do
    let x_54 ← Tr.index w 14
    let updates' := Source.Sha256.small_hash.round cfg c d e f g h a b 0x9bdc06a7#32 x_54
    let f := updates'.1
    let b := updates'.2
    pure (w, a, b, c, d, e, f, g, h)

/-- round!(b, c, d, e, f, g, h, a, 0xc19bf174, w[15]) -/
def Midstate.const_hash_small.line1_15 (cfg : Cfg) : Source.Sha256.Midstate.const_hash_small.State1 → Tr Source.Sha256.Midstate.const_hash_small.State1 :=
  fun (w, a, b, c, d, e, f, g, h) => do
    let x_55 ← Tr.index w 15
    let updates' := Source.Sha256.small_hash.round cfg b c d e f g h a 0xc19bf174#32 x_55
    let e := updates'.1
    let a := updates'.2
    pure (w, a, b, c, d, e, f, g, h)

/-- round!(a, b, c, d, e, f, g, h, 0xe49b69c1, w[0], w[14], w[9], w[1]) -/
def Midstate.const_hash_small.line1_16 (cfg : Cfg) : Source.Sha256.Midstate.const_hash_small.State1 → Tr Source.Sha256.Midstate.const_hash_small.State1 :=
  fun (w, a, b, c, d, e, f, g, h) => do
    let x_56 ← Tr.index w 0
    let x_57 ← Tr.index w 14
    let x_58 ← Tr.index w 9
    let x_59 ← Tr.index w 1
    let updates' := Source.Sha256.small_hash.later_round cfg a b c d e f g h 0xe49b69c1#32 x_56 x_57 x_58 x_59
    let d := updates'.1
    let h := updates'.2.1
    let w ← Tr.indexSet w 0 updates'.2.2
    pure (w, a, b, c, d, e, f, g, h)

/-- round!(h, a, b, c, d, e, f, g, 0xefbe4786, w[1], w[15], w[10], w[2]) -/
def Midstate.const_hash_small.line1_17 (cfg : Cfg) : Source.Sha256.Midstate.const_hash_small.State1 → Tr Source.Sha256.Midstate.const_hash_small.State1 :=
  fun (w, a, b, c, d, e, f, g, h) => do
    let x_61 ← Tr.index w 1
    let x_62 ← Tr.index w 15
    let x_63 ← Tr.index w 10
    let x_64 ← Tr.index w 2
    let updates' := Source.Sha256.small_hash.later_round cfg h a b c d e f g 0xefbe4786#32 x_61 x_62 x_63 x_64
    let c := updates'.1
    let g := updates'.2.1
    let w ← Tr.indexSet w 1 updates'.2.2
    pure (w, a, b, c, d, e, f, g, h)

/-- round!(g, h, a, b, c, d, e, f, 0x0fc19dc6, w[2], w[0], w[11], w[3]) -/
def Midstate.const_hash_small.line1_18 (cfg : Cfg) : Source.Sha256.Midstate.const_hash_small.State1 → Tr Source.Sha256.Midstate.const_hash_small.State1 :=
  fun (w, a, b, c, d, e, f, g, h) => do
    let x_66 ← Tr.index w 2
    let x_67 ← Tr.index w 0
    let x_68 ← Tr.index w 11
    let x_69 ← Tr.index w 3
    let updates' := Source.Sha256.small_hash.later_round cfg g h a b c d e f 0x0fc19dc6#32 x_66 x_67 x_68 x_69
    let b := updates'.1
    let f := updates'.2.1
    let w ← Tr.indexSet w 2 updates'.2.2
    pure (w, a, b, c, d, e, f, g, h)

/-- round!(f, g, h, a, b, c, d, e, 0x240ca1cc, w[3], w[1], w[12], w[4]) -/
def Midstate.const_hash_small.line1_19 (cfg : Cfg) : Source.Sha256.Midstate.const_hash_small.State1 → Tr Source.Sha256.Midstate.const_hash_small.State1 :=
  fun (w, a, b, c, d, e, f, g, h) => do
    let x_71 ← Tr.index w 3
    let x_72 ← Tr.index w 1
    let x_73 ← Tr.index w 12
    let x_74 ← Tr.index w 4
    let updates' := Source.Sha256.small_hash.later_round cfg f g h a b c d e 0x240ca1cc#32 x_71 x_72 x_73 x_74
    let a := updates'.1
    let e := updates'.2.1
    let w ← Tr.indexSet w 3 updates'.2.2
    pure (w, a, b, c, d, e, f, g, h)

/-- round!(e, f, g, h, a, b, c, d, 0x2de92c6f, w[4], w[2], w[13], w[5]) -/
def Midstate.const_hash_small.line1_20 (cfg : Cfg) : Source.Sha256.Midstate.const_hash_small.State1 → Tr Source.Sha256.Midstate.const_hash_small.State1 :=
  fun (w, a, b, c, d, e, f, g, h) => do
    let x_76 ← Tr.index w 4
    let x_77 ← Tr.index w 2
    let x_78 ← Tr.index w 13
    let x_79 ← Tr.index w 5
    let updates' := Source.Sha256.small_hash.later_round cfg e f g h a b c d 0x2de92c6f#32 x_76 x_77 x_78 x_79
    let h := updates'.1
    let d := updates'.2.1
    let w ← Tr.indexSet w 4 updates'.2.2
    pure (w, a, b, c, d, e, f, g, h)

/-- round!(d, e, f, g, h, a, b, c, 0x4a7484aa, w[5], w[3], w[14], w[6]) -/
def Midstate.const_hash_small.line1_21 (cfg : Cfg) : Source.Sha256.Midstate.const_hash_small.State1 → Tr Source.Sha256.Midstate.const_hash_small.State1 :=
  fun (w, a, b, c, d, e, f, g, h) => do
    let x_81 ← Tr.index w 5
    let x_82 ← Tr.index w 3
    let x_83 ← Tr.index w 14
    let x_84 ← Tr.index w 6
    let updates' := Source.Sha256.small_hash.later_round cfg d e f g h a b c 0x4a7484aa#32 x_81 x_82 x_83 x_84
    let g := updates'.1
    let c := updates'.2.1
    let w ← Tr.indexSet w 5 updates'.2.2
    pure (w, a, b, c, d, e, f, g, h)

/-- round!(c, d, e, f, g, h, a, b, 0x5cb0a9dc, w[6], w[4], w[15], w[7]) -/
def Midstate.const_hash_small.line1_22 (cfg : Cfg) : Source.Sha256.Midstate.const_hash_small.State1 → Tr Source.Sha256.Midstate.const_hash_small.State1 :=
  fun (w, a, b, c, d, e, f, g, h) => do
    let x_86 ← Tr.index w 6
    let x_87 ← Tr.index w 4
    let x_88 ← Tr.index w 15
    let x_89 ← Tr.index w 7
    let updates' := Source.Sha256.small_hash.later_round cfg c d e f g h a b 0x5cb0a9dc#32 x_86 x_87 x_88 x_89
    let f := updates'.1
    let b := updates'.2.1
    let w ← Tr.indexSet w 6 updates'.2.2
    pure (w, a, b, c, d, e, f, g, h)

/-- round!(b, c, d, e, f, g, h, a, 0x76f988da, w[7], w[5], w[0], w[8]) -/
def Midstate.const_hash_small.line1_23 (cfg : Cfg) : Source.Sha256.Midstate.const_hash_small.State1 → Tr Source.Sha256.Midstate.const_hash_small.State1 :=
  fun (w, a, b, c, d, e, f, g, h) => do
    let x_91 ← Tr.index w 7
    let x_92 ← Tr.index w 5
    let x_93 ← Tr.index w 0
    let x_94 ← Tr.index w 8
    let updates' := Source.Sha256.small_hash.later_round cfg b c d e f g h a 0x76f988da#32 x_91 x_92 x_93 x_94
    let e := updates'.1
    let a := updates'.2.1
    let w ← Tr.indexSet w 7 updates'.2.2
    pure (w, a, b, c, d, e, f, g, h)

/-- round!(a, b, c, d, e, f, g, h, 0x983e5152, w[8], w[6], w[1], w[9]) -/
def Midstate.const_hash_small.line1_24 (cfg : Cfg) : Source.Sha256.Midstate.const_hash_small.State1 → Tr Source.Sha256.Midstate.const_hash_small.State1 :=
  fun (w, a, b, c, d, e, f, g, h) => do
    let x_96 ← Tr.index w 8
    let x_97 ← Tr.index w 6
    let x_98 ← Tr.index w 1
    let x_99 ← Tr.index w 9
    let updates' := Source.Sha256.small_hash.later_round cfg a b c d e f g h 0x983e5152#32 x_96 x_97 x_98 x_99
    let d := updates'.1
    let h := updates'.2.1
    let w ← Tr.indexSet w 8 updates'.2.2
    pure (w, a, b, c, d, e, f, g, h)

/-- round!(h, a, b, c, d, e, f, g, 0xa831c66d, w[9], w[7], w[2], w[10]) -/
def Midstate.const_hash_small.line1_25 (cfg : Cfg) : Source.Sha256.Midstate.const_hash_small.State1 → Tr Source.Sha256.Midstate.const_hash_small.State1 :=
  fun (w, a, b, c, d, e, f, g, h) => do
    let x_101 ← Tr.index w 9
    let x_102 ← Tr.index w 7
    let x_103 ← Tr.index w 2
    let x_104 ← Tr.index w 10
    let updates' := Source.Sha256.small_hash.later_round cfg h a b c d e f g 0xa831c66d#32 x_101 x_102 x_103 x_104
    let c := updates'.1
    let g := updates'.2.1
    let w ← Tr.indexSet w 9 updates'.2.2
    pure (w, a, b, c, d, e, f, g, h)

/-- round!(g, h, a, b, c, d, e, f, 0xb00327c8, w[10], w[8], w[3], w[11]) -/
def Midstate.const_hash_small.line1_26 (cfg : Cfg) : Source.Sha256.Midstate.const_hash_small.State1 → Tr Source.Sha256.Midstate.const_hash_small.State1 :=
  fun (w, a, b, c, d, e, f, g, h) => do
    let x_106 ← Tr.index w 10
    let x_107 ← Tr.index w 8
    let x_108 ← Tr.index w 3
    let x_109 ← Tr.index w 11
    let updates' := Source.Sha256.small_hash.later_round cfg g h a b c d e f 0xb00327c8#32 x_106 x_107 x_108 x_109
    let b := updates'.1
    let f := updates'.2.1
    let w ← Tr.indexSet w 10 updates'.2.2
    pure (w, a, b, c, d, e, f, g, h)

/-- round!(f, g, h, a, b, c, d, e, 0xbf597fc7, w[11], w[9], w[4], w[12]) -/
def Midstate.const_hash_small.line1_27 (cfg : Cfg) : Source.Sha256.Midstate.const_hash_small.State1 → Tr Source.Sha256.Midstate.const_hash_small.State1 :=
  fun (w, a, b, c, d, e, f, g, h) => do
    let x_111 ← Tr.index w 11
    let x_112 ← Tr.index w 9
    let x_113 ← Tr.index w 4
    let x_114 ← Tr.index w 12
    let updates' := Source.Sha256.small_hash.later_round cfg f g h a b c d e 0xbf597fc7#32 x_111 x_112 x_113 x_114
    let a := updates'.1
    let e := updates'.2.1
    let w ← Tr.indexSet w 11 updates'.2.2
    pure (w, a, b, c, d, e, f, g, h)

/-- round!(e, f, g, h, a, b, c, d, 0xc6e00bf3, w[12], w[10], w[5], w[13]) -/
def Midstate.const_hash_small.line1_28 (cfg : Cfg) : Source.Sha256.Midstate.const_hash_small.State1 → Tr Source.Sha256.Midstate.const_hash_small.State1 :=
  fun (w, a, b, c, d, e, f, g, h) => do
    let x_116 ← Tr.index w 12
    let x_117 ← Tr.index w 10
    let x_118 ← Tr.index w 5
    let x_119 ← Tr.index w 13
    let updates' := Source.Sha256.small_hash.later_round cfg e f g h a b c d 0xc6e00bf3#32 x_116 x_117 x_118 x_119
    let h := updates'.1
    let d := updates'.2.1
    let w ← Tr.indexSet w 12 updates'.2.2
    pure (w, a, b, c, d, e, f, g, h)

/-- round!(d, e, f, g, h, a, b, c, 0xd5a79147, w[13], w[11], w[6], w[14]) -/
def Midstate.const_hash_small.line1_29 (cfg : Cfg) : Source.Sha256.Midstate.const_hash_small.State1 → Tr Source.Sha256.Midstate.const_hash_small.State1 :=
  fun (w, a, b, c, d, e, f, g, h) => do
    let x_121 ← Tr.index w 13
    let x_122 ← Tr.index w 11
    let x_123 ← Tr.index w 6
    let x_124 ← Tr.index w 14
    let updates' := Source.Sha256.small_hash.later_round cfg d e f g h a b c 0xd5a79147#32 x_121 x_122 x_123 x_124
    let g := updates'.1
    let c := updates'.2.1
    let w ← Tr.indexSet w 13 updates'.2.2
    pure (w, a, b, c, d, e, f, g, h)

/-- round!(c, d, e, f, g, h, a, b, 0x06ca6351, w[14], w[12], w[7], w[15]) -/
def Midstate.const_hash_small.line1_30 (cfg : Cfg) : Source.Sha256.Midstate.const_hash_small.State1 → Tr Source.Sha256.Midstate.const_hash_small.State1 :=
  fun (w, a, b, c, d, e, f, g, h) => do
    let x_126 ← Tr.index w 14
    let x_127 ← Tr.index w 12
    let x_128 ← Tr.index w 7
    let x_129 ← Tr.index w 15
    let updates' := Source.Sha256.small_hash.later_round cfg c d e f g h a b 0x06ca6351#32 x_126 x_127 x_128 x_129
    let f := updates'.1
    let b := updates'.2.1
    let w ← Tr.indexSet w 14 updates'.2.2
    pure (w, a, b, c, d, e, f, g, h)

/-- round!(b, c, d, e, f, g, h, a, 0x14292967, w[15], w[13], w[8], w[0]) -/
def Midstate.const_hash_small.line1_31 (cfg : Cfg) : Source.Sha256.Midstate.const_hash_small.State1 → Tr Source.Sha256.Midstate.const_hash_small.State1 :=
  fun (w, a, b, c, d, e, f, g, h) => do
    let x_131 ← Tr.index w 15
    let x_132 ← Tr.index w 13
    let x_133 ← Tr.index w 8
    let x_134 ← Tr.index w 0
    let updates' := Source.Sha256.small_hash.later_round cfg b c d e f g h a 0x14292967#32 x_131 x_132 x_133 x_134
    let e := updates'.1
    let a := updates'.2.1
    let w ← Tr.indexSet w 15 updates'.2.2
    pure (w, a, b, c, d, e, f, g, h)

/-- round!(a, b, c, d, e, f, g, h, 0x27b70a85, w[0], w[14], w[9], w[1]) -/
def Midstate.const_hash_small.line1_32 (cfg : Cfg) : Source.Sha256.Midstate.const_hash_small.State1 → Tr Source.Sha256.Midstate.const_hash_small.State1 :=
  fun (w, a, b, c, d, e, f, g, h) => do
    let x_136 ← Tr.index w 0
    let x_137 ← Tr.index w 14
    let x_138 ← Tr.index w 9
    let x_139 ← Tr.index w 1
    let updates' := Source.Sha256.small_hash.later_round cfg a b c d e f g h 0x27b70a85#32 x_136 x_137 x_138 x_139
    let d := updates'.1
    let h := updates'.2.1
    let w ← Tr.indexSet w 0 updates'.2.2
    pure (w, a, b, c, d, e, f, g, h)

/-- round!(h, a, b, c, d, e, f, g, 0x2e1b2138, w[1], w[15], w[10], w[2]) -/
def Midstate.const_hash_small.line1_33 (cfg : Cfg) : Source.Sha256.Midstate.const_hash_small.State1 → Tr Source.Sha256.Midstate.const_hash_small.State1 :=
  fun (w, a, b, c, d, e, f, g, h) => do
    let x_141 ← Tr.index w 1
    let x_142 ← Tr.index w 15
    let x_143 ← Tr.index w 10
    let x_144 ← Tr.index w 2
    let updates' := Source.Sha256.small_hash.later_round cfg h a b c d e f g 0x2e1b2138#32 x_141 x_142 x_143 x_144
    let c := updates'.1
    let g := updates'.2.1
    let w ← Tr.indexSet w 1 updates'.2.2
    pure (w, a, b, c, d, e, f, g, h)

/-- round!(g, h, a, b, c, d, e, f, 0x4d2c6dfc, w[2], w[0], w[11], w[3]) -/
def Midstate.const_hash_small.line1_34 (cfg : Cfg) : Source.Sha256.Midstate.const_hash_small.State1 → Tr Source.Sha256.Midstate.const_hash_small.State1 :=
  fun (w, a, b, c, d, e, f, g, h) => do
    let x_146 ← Tr.index w 2
    let x_147 ← Tr.index w 0
    let x_148 ← Tr.index w 11
    let x_149 ← Tr.index w 3
    let updates' := Source.Sha256.small_hash.later_round cfg g h a b c d e f 0x4d2c6dfc#32 x_146 x_147 x_148 x_149
    let b := updates'.1
    let f := updates'.2.1
    let w ← Tr.indexSet w 2 updates'.2.2
    pure (w, a, b, c, d, e, f, g, h)

/-- round!(f, g, h, a, b, c, d, e, 0x53380d13, w[3], w[1], w[12], w[4]) -/
def Midstate.const_hash_small.line1_35 (cfg : Cfg) : Source.Sha256.Midstate.const_hash_small.State1 → Tr Source.Sha256.Midstate.const_hash_small.State1 :=
  fun (w, a, b, c, d, e, f, g, h) => do
    let x_151 ← Tr.index w 3
    let x_152 ← Tr.index w 1
    let x_153 ← Tr.index w 12
    let x_154 ← Tr.index w 4
    let updates' := Source.Sha256.small_hash.later_round cfg f g h a b c d e 0x53380d13#32 x_151 x_152 x_153 x_154
    let a := updates'.1
    let e := updates'.2.1
    let w ← Tr.indexSet w 3 updates'.2.2
    pure (w, a, b, c, d, e, f, g, h)

/-- round!(e, f, g, h, a, b, c, d, 0x650a7354, w[4], w[2], w[13], w[5]) -/
def Midstate.const_hash_small.line1_36 (cfg : Cfg) : Source.Sha256.Midstate.const_hash_small.State1 → Tr Source.Sha256.Midstate.const_hash_small.State1 :=
  fun (w, a, b, c, d, e, f, g, h) => do
    let x_156 ← Tr.index w 4
    let x_157 ← Tr.index w 2
    let x_158 ← Tr.index w 13
    let x_159 ← Tr.index w 5
    let updates' := Source.Sha256.small_hash.later_round cfg e f g h a b c d 0x650a7354#32 x_156 x_157 x_158 x_159
    let h := updates'.1
    let d := updates'.2.1
    let w ← Tr.indexSet w 4 updates'.2.2
    pure (w, a, b, c, d, e, f, g, h)

/-- round!(d, e, f, g, h, a, b, c, 0x766a0abb, w[5], w[3], w[14], w[6]) -/
def Midstate.const_hash_small.line1_37 (cfg : Cfg) : Source.Sha256.Midstate.const_hash_small.State1 → Tr Source.Sha256.Midstate.const_hash_small.State1 :=
  fun (w, a, b, c, d, e, f, g, h) => do
    let x_161 ← Tr.index w 5
    let x_162 ← Tr.index w 3
    let x_163 ← Tr.index w 14
    let x_164 ← Tr.index w 6
    let updates' := Source.Sha256.small_hash.later_round cfg d e f g h a b c 0x766a0abb#32 x_161 x_162 x_163 x_164
    let g := updates'.1
    let c := updates'.2.1
    let w ← Tr.indexSet w 5 updates'.2.2
    pure (w, a, b, c, d, e, f, g, h)

/-- round!(c, d, e, f, g, h, a, b, 0x81c2c92e, w[6], w[4], w[15], w[7]) -/
def Midstate.const_hash_small.line1_38 (cfg : Cfg) : Source.Sha256.Midstate.const_hash_small.State1 → Tr Source.Sha256.Midstate.const_hash_small.State1 :=
  fun (w, a, b, c, d, e, f, g, h) => do
    let x_166 ← Tr.index w 6
    let x_167 ← Tr.index w 4
    let x_168 ← Tr.index w 15
    let x_169 ← Tr.index w 7
    let updates' := Source.Sha256.small_hash.later_round cfg c d e f g h a b 0x81c2c92e#32 x_166 x_167 x_168 x_169
    let f := updates'.1
    let b := updates'.2.1
    let w ← Tr.indexSet w 6 updates'.2.2
    pure (w, a, b, c, d, e, f, g, h)

/-- round!(b, c, d, e, f, g, h, a, 0x92722c85, w[7], w[5], w[0], w[8]) -/
def Midstate.const_hash_small.line1_39 (cfg : Cfg) : Source.Sha256.Midstate.const_hash_small.State1 → Tr Source.Sha256.Midstate.const_hash_small.State1 :=
  fun (w, a, b, c, d, e, f, g, h) => do
    let x_171 ← Tr.index w 7
    let x_172 ← Tr.index w 5
    let x_173 ← Tr.index w 0
    let x_174 ← Tr.index w 8
    let updates' := Source.Sha256.small_hash.later_round cfg b c d e f g h a 0x92722c85#32 x_171 x_172 x_173 x_174
    let e := updates'.1
    let a := updates'.2.1
    let w ← Tr.indexSet w 7 updates'.2.2
    pure (w, a, b, c, d, e, f, g, h)

/-- round!(a, b, c, d, e, f, g, h, 0xa2bfe8a1, w[8], w[6], w[1], w[9]) -/
def Midstate.const_hash_small.line1_40 (cfg : Cfg) : Source.Sha256.Midstate.const_hash_small.State1 → Tr Source.Sha256.Midstate.const_hash_small.State1 :=
  fun (w, a, b, c, d, e, f, g, h) => do
    let x_176 ← Tr.index w 8
    let x_177 ← Tr.index w 6
    let x_178 ← Tr.index w 1
    let x_179 ← Tr.index w 9
    let updates' := Source.Sha256.small_hash.later_round cfg a b c d e f g h 0xa2bfe8a1#32 x_176 x_177 x_178 x_179
    let d := updates'.1
    let h := updates'.2.1
    let w ← Tr.indexSet w 8 updates'.2.2
    pure (w, a, b, c, d, e, f, g, h)

/-- round!(h, a, b, c, d, e, f, g, 0xa81a664b, w[9], w[7], w[2], w[10]) -/
def Midstate.const_hash_small.line1_41 (cfg : Cfg) : Source.Sha256.Midstate.const_hash_small.State1 → Tr Source.Sha256.Midstate.const_hash_small.State1 :=
  fun (w, a, b, c, d, e, f, g, h) => do
    let x_181 ← Tr.index w 9
    let x_182 ← Tr.index w 7
    let x_183 ← Tr.index w 2
    let x_184 ← Tr.index w 10
    let updates' := Source.Sha256.small_hash.later_round cfg h a b c d e f g 0xa81a664b#32 x_181 x_182 x_183 x_184
    let c := updates'.1
    let g := updates'.2.1
    let w ← Tr.indexSet w 9 updates'.2.2
    pure (w, a, b, c, d, e, f, g, h)

/-- round!(g, h, a, b, c, d, e, f, 0xc24b8b70, w[10], w[8], w[3], w[11]) -/
def Midstate.const_hash_small.line1_42 (cfg : Cfg) : Source.Sha256.Midstate.const_hash_small.State1 → Tr Source.Sha256.Midstate.const_hash_small.State1 :=
  fun (w, a, b, c, d, e, f, g, h) => do
    let x_186 ← Tr.index w 10
    let x_187 ← Tr.index w 8
    let x_188 ← Tr.index w 3
    let x_189 ← Tr.index w 11
    let updates' := Source.Sha256.small_hash.later_round cfg g h a b c d e f 0xc24b8b70#32 x_186 x_187 x_188 x_189
    let b := updates'.1
    let f := updates'.2.1
    let w ← Tr.indexSet w 10 updates'.2.2
    pure (w, a, b, c, d, e, f, g, h)

/-- round!(f, g, h, a, b, c, d, e, 0xc76c51a3, w[11], w[9], w[4], w[12]) -/
def Midstate.const_hash_small.line1_43 (cfg : Cfg) : Source.Sha256.Midstate.const_hash_small.State1 → Tr Source.Sha256.Midstate.const_hash_small.State1 :=
  fun (w, a, b, c, d, e, f, g, h) => do
    let x_191 ← Tr.index w 11
    let x_192 ← Tr.index w 9
    let x_193 ← Tr.index w 4
    let x_194 ← Tr.index w 12
    let updates' := Source.Sha256.small_hash.later_round cfg f g h a b c d e 0xc76c51a3#32 x_191 x_192 x_193 x_194
    let a := updates'.1
    let e := updates'.2.1
    let w ← Tr.indexSet w 11 updates'.2.2
    pure (w, a, b, c, d, e, f, g, h)

/-- round!(e, f, g, h, a, b, c, d, 0xd192e819, w[12], w[10], w[5], w[13]) -/
def Midstate.const_hash_small.line1_44 (cfg : Cfg) : Source.Sha256.Midstate.const_hash_small.State1 → Tr Source.Sha256.Midstate.const_hash_small.State1 :=
  fun (w, a, b, c, d, e, f, g, h) => do
    let x_196 ← Tr.index w 12
    let x_197 ← Tr.index w 10
    let x_198 ← Tr.index w 5
    let x_199 ← Tr.index w 13
    let updates' := Source.Sha256.small_hash.later_round cfg e f g h a b c d 0xd192e819#32 x_196 x_197 x_198 x_199
    let h := updates'.1
    let d := updates'.2.1
    let w ← Tr.indexSet w 12 updates'.2.2
    pure (w, a, b, c, d, e, f, g, h)

/-- round!(d, e, f, g, h, a, b, c, 0xd6990624, w[13], w[11], w[6], w[14]) -/
def Midstate.const_hash_small.line1_45 (cfg : Cfg) : Source.Sha256.Midstate.const_hash_small.State1 → Tr Source.Sha256.Midstate.const_hash_small.State1 :=
  fun (w, a, b, c, d, e, f, g, h) => do
    let x_201 ← Tr.index w 13
    let x_202 ← Tr.index w 11
    let x_203 ← Tr.index w 6
    let x_204 ← Tr.index w 14
    let updates' := Source.Sha256.small_hash.later_round cfg d e f g h a b c 0xd6990624#32 x_201 x_202 x_203 x_204
    let g := updates'.1
    let c := updates'.2.1
    let w ← Tr.indexSet w 13 updates'.2.2
    pure (w, a, b, c, d, e, f, g, h)

/-- round!(c, d, e, f, g, h, a, b, 0xf40e3585, w[14], w[12], w[7], w[15]) -/
def Midstate.const_hash_small.line1_46 (cfg : Cfg) : Source.Sha256.Midstate.const_hash_small.State1 → Tr Source.Sha256.Midstate.const_hash_small.State1 :=
  fun (w, a, b, c, d, e, f, g, h) => do
    let x_206 ← Tr.index w 14
    let x_207 ← Tr.index w 12
    let x_208 ← Tr.index w 7
    let x_209 ← Tr.index w 15
    let updates' := Source.Sha256.small_hash.later_round cfg c d e f g h a b 0xf40e3585#32 x_206 x_207 x_208 x_209
    let f := updates'.1
    let b := updates'.2.1
    let w ← Tr.indexSet w 14 updates'.2.2
    pure (w, a, b, c, d, e, f, g, h)

/-- round!(b, c, d, e, f, g, h, a, 0x106aa070, w[15], w[13], w[8], w[0]) -/
def Midstate.const_hash_small.line1_47 (cfg : Cfg) : Source.Sha256.Midstate.const_hash_small.State1 → Tr Source.Sha256.Midstate.const_hash_small.State1 :=
  fun (w, a, b, c, d, e, f, g, h) => do
    let x_211 ← Tr.index w 15
    let x_212 ← Tr.index w 13
    let x_213 ← Tr.index w 8
    let x_214 ← Tr.index w 0
    let updates' := Source.Sha256.small_hash.later_round cfg b c d e f g h a 0x106aa070#32 x_211 x_212 x_213 x_214
    let e := updates'.1
    let a := updates'.2.1
    let w ← Tr.indexSet w 15 updates'.2.2
    pure (w, a, b, c, d, e, f, g, h)

/-- round!(a, b, c, d, e, f, g, h, 0x19a4c116, w[0], w[14], w[9], w[1]) -/
def Midstate.const_hash_small.line1_48 (cfg : Cfg) : Source.Sha256.Midstate.const_hash_small.State1 → Tr Source.Sha256.Midstate.const_hash_small.State1 :=
  fun (w, a, b, c, d, e, f, g, h) => do
    let x_216 ← Tr.index w 0
    let x_217 ← Tr.index w 14
    let x_218 ← Tr.index w 9
    let x_219 ← Tr.index w 1
    let updates' := Source.Sha256.small_hash.later_round cfg a b c d e f g h 0x19a4c116#32 x_216 x_217 x_218 x_219
    let d := updates'.1
    let h := updates'.2.1
    let w ← Tr.indexSet w 0 updates'.2.2
    pure (w, a, b, c, d, e, f, g, h)

/-- round!(h, a, b, c, d, e, f, g, 0x1e376c08, w[1], w[15], w[10], w[2]) -/
def Midstate.const_hash_small.line1_49 (cfg : Cfg) : Source.Sha256.Midstate.const_hash_small.State1 → Tr Source.Sha256.Midstate.const_hash_small.State1 :=
  fun (w, a, b, c, d, e, f, g, h) => do
    let x_221 ← Tr.index w 1
    let x_222 ← Tr.index w 15
    let x_223 ← Tr.index w 10
    let x_224 ← Tr.index w 2
    let updates' := Source.Sha256.small_hash.later_round cfg h a b c d e f g 0x1e376c08#32 x_221 x_222 x_223 x_224
    let c := updates'.1
    let g := updates'.2.1
    let w ← Tr.indexSet w 1 updates'.2.2
    pure (w, a, b, c, d, e, f, g, h)

/-- round!(g, h, a, b, c, d, e, f, 0x2748774c, w[2], w[0], w[11], w[3]) -/
def Midstate.const_hash_small.line1_50 (cfg : Cfg) : Source.Sha256.Midstate.const_hash_small.State1 → Tr Source.Sha256.Midstate.const_hash_small.State1 :=
  fun (w, a, b, c, d, e, f, g, h) => do
    let x_226 ← Tr.index w 2
    let x_227 ← Tr.index w 0
    let x_228 ← Tr.index w 11
    let x_229 ← Tr.index w 3
    let updates' := Source.Sha256.small_hash.later_round cfg g h a b c d e f 0x2748774c#32 x_226 x_227 x_228 x_229
    let b := updates'.1
    let f := updates'.2.1
    let w ← Tr.indexSet w 2 updates'.2.2
    pure (w, a, b, c, d, e, f, g, h)

/-- round!(f, g, h, a, b, c, d, e, 0x34b0bcb5, w[3], w[1], w[12], w[4]) -/
def Midstate.const_hash_small.line1_51 (cfg : Cfg) : Source.Sha256.Midstate.const_hash_small.State1 → Tr Source.Sha256.Midstate.const_hash_small.State1 :=
  fun (w, a, b, c, d, e, f, g, h) => do
    let x_231 ← Tr.index w 3
    let x_232 ← Tr.index w 1
    let x_233 ← Tr.index w 12
    let x_234 ← Tr.index w 4
    let updates' := Source.Sha256.small_hash.later_round cfg f g h a b c d e 0x34b0bcb5#32 x_231 x_232 x_233 x_234
    let a := updates'.1
    let e := updates'.2.1
    let w ← Tr.indexSet w 3 updates'.2.2
    pure (w, a, b, c, d, e, f, g, h)

/-- round!(e, f, g, h, a, b, c, d, 0x391c0cb3, w[4], w[2], w[13], w[5]) -/
def Midstate.const_hash_small.line1_52 (cfg : Cfg) : Source.Sha256.Midstate.const_hash_small.State1 → Tr Source.Sha256.Midstate.const_hash_small.State1 :=
  fun (w, a, b, c, d, e, f, g, h) => do
    let x_236 ← Tr.index w 4
    let x_237 ← Tr.index w 2
    let x_238 ← Tr.index w 13
    let x_239 ← Tr.index w 5
    let updates' := Source.Sha256.small_hash.later_round cfg e f g h a b c d 0x391c0cb3#32 x_236 x_237 x_238 x_239
    let h := updates'.1
    let d := updates'.2.1
    let w ← Tr.indexSet w 4 updates'.2.2
    pure (w, a, b, c, d, e, f, g, h)

/-- round!(d, e, f, g, h, a, b, c, 0x4ed8aa4a, w[5], w[3], w[14], w[6]) -/
def Midstate.const_hash_small.line1_53 (cfg : Cfg) : Source.Sha256.Midstate.const_hash_small.State1 → Tr Source.Sha256.Midstate.const_hash_small.State1 :=
  fun (w, a, b, c, d, e, f, g, h) => do
    let x_241 ← Tr.index w 5
    let x_242 ← Tr.index w 3
    let x_243 ← Tr.index w 14
    let x_244 ← Tr.index w 6
    let updates' := Source.Sha256.small_hash.later_round cfg d e f g h a b c 0x4ed8aa4a#32 x_241 x_242 x_243 x_244
    let g := updates'.1
    let c := updates'.2.1
    let w ← Tr.indexSet w 5 updates'.2.2
    pure (w, a, b, c, d, e, f, g, h)

/-- round!(c, d, e, f, g, h, a, b, 0x5b9cca4f, w[6], w[4], w[15], w[7]) -/
def Midstate.const_hash_small.line1_54 (cfg : Cfg) : Source.Sha256.Midstate.const_hash_small.State1 → Tr Source.Sha256.Midstate.const_hash_small.State1 :=
  fun (w, a, b, c, d, e, f, g, h) => do
    let x_246 ← Tr.index w 6
    let x_247 ← Tr.index w 4
    let x_248 ← Tr.index w 15
    let x_249 ← Tr.index w 7
    let updates' := Source.Sha256.small_hash.later_round cfg c d e f g h a b 0x5b9cca4f#32 x_246 x_247 x_248 x_249
    let f := updates'.1
    let b := updates'.2.1
    let w ← Tr.indexSet w 6 updates'.2.2
    pure (w, a, b, c, d, e, f, g, h)

/-- round!(b, c, d, e, f, g, h, a, 0x682e6ff3, w[7], w[5], w[0], w[8]) -/
def Midstate.const_hash_small.line1_55 (cfg : Cfg) : Source.Sha256.Midstate.const_hash_small.State1 → Tr Source.Sha256.Midstate.const_hash_small.State1 :=
  fun (w, a, b, c, d, e, f, g, h) => do
    let x_251 ← Tr.index w 7
    let x_252 ← Tr.index w 5
    let x_253 ← Tr.index w 0
    let x_254 ← Tr.index w 8
    let updates' := Source.Sha256.small_hash.later_round cfg b c d e f g h a 0x682e6ff3#32 x_251 x_252 x_253 x_254
    let e := updates'.1
    let a := updates'.2.1
    let w ← Tr.indexSet w 7 updates'.2.2
    pure (w, a, b, c, d, e, f, g, h)

/-- round!(a, b, c, d, e, f, g, h, 0x748f82ee, w[8], w[6], w[1], w[9]) -/
def Midstate.const_hash_small.line1_56 (cfg : Cfg) : Source.Sha256.Midstate.const_hash_small.State1 → Tr Source.Sha256.Midstate.const_hash_small.State1 :=
  fun (w, a, b, c, d, e, f, g, h) => do
    let x_256 ← Tr.index w 8
    let x_257 ← Tr.index w 6
    let x_258 ← Tr.index w 1
    let x_259 ← Tr.index w 9
    let updates' := Source.Sha256.small_hash.later_round cfg a b c d e f g h 0x748f82ee#32 x_256 x_257 x_258 x_259
    let d := updates'.1
    let h := updates'.2.1
    let w ← Tr.indexSet w 8 updates'.2.2
    pure (w, a, b, c, d, e, f, g, h)

/-- round!(h, a, b, c, d, e, f, g, 0x78a5636f, w[9], w[7], w[2], w[10]) -/
def Midstate.const_hash_small.line1_57 (cfg : Cfg) : Source.Sha256.Midstate.const_hash_small.State1 → Tr Source.Sha256.Midstate.const_hash_small.State1 :=
  fun (w, a, b, c, d, e, f, g, h) => do
    let x_261 ← Tr.index w 9
    let x_262 ← Tr.index w 7
    let x_263 ← Tr.index w 2
    let x_264 ← Tr.index w 10
    let updates' := Source.Sha256.small_hash.later_round cfg h a b c d e f g 0x78a5636f#32 x_261 x_262 x_263 x_264
    let c := updates'.1
    let g := updates'.2.1
    let w ← Tr.indexSet w 9 updates'.2.2
    pure (w, a, b, c, d, e, f, g, h)

/-- round!(g, h, a, b, c, d, e, f, 0x84c87814, w[10], w[8], w[3], w[11]) -/
def Midstate.const_hash_small.line1_58 (cfg : Cfg) : Source.Sha256.Midstate.const_hash_small.State1 → Tr Source.Sha256.Midstate.const_hash_small.State1 :=
  fun (w, a, b, c, d, e, f, g, h) => do
    let x_266 ← Tr.index w 10
    let x_267 ← Tr.index w 8
    let x_268 ← Tr.index w 3
    let x_269 ← Tr.index w 11
    let updates' := Source.Sha256.small_hash.later_round cfg g h a b c d e f 0x84c87814#32 x_266 x_267 x_268 x_269
    let b := updates'.1
    let f := updates'.2.1
    let w ← Tr.indexSet w 10 updates'.2.2
    pure (w, a, b, c, d, e, f, g, h)

/-- round!(f, g, h, a, b, c, d, e, 0x8cc70208, w[11], w[9], w[4], w[12]) -/
def Midstate.const_hash_small.line1_59 (cfg : Cfg) : Source.Sha256.Midstate.const_hash_small.State1 → Tr Source.Sha256.Midstate.const_hash_small.State1 :=
  fun (w, a, b, c, d, e, f, g, h) => do
    let x_271 ← Tr.index w 11
    let x_272 ← Tr.index w 9
    let x_273 ← Tr.index w 4
    let x_274 ← Tr.index w 12
    let updates' := Source.Sha256.small_hash.later_round cfg f g h a b c d e 0x8cc70208#32 x_271 x_272 x_273 x_274
    let a := updates'.1
    let e := updates'.2.1
    let w ← Tr.indexSet w 11 updates'.2.2
    pure (w, a, b, c, d, e, f, g, h)

/-- round!(e, f, g, h, a, b, c, d, 0x90befffa, w[12], w[10], w[5], w[13]) -/
def Midstate.const_hash_small.line1_60 (cfg : Cfg) : Source.Sha256.Midstate.const_hash_small.State1 → Tr Source.Sha256.Midstate.const_hash_small.State1 :=
  fun (w, a, b, c, d, e, f, g, h) => do
    let x_276 ← Tr.index w 12
    let x_277 ← Tr.index w 10
    let x_278 ← Tr.index w 5
    let x_279 ← Tr.index w 13
    let updates' := Source.Sha256.small_hash.later_round cfg e f g h a b c d 0x90befffa#32 x_276 x_277 x_278 x_279
    let h := updates'.1
    let d := updates'.2.1
    let w ← Tr.indexSet w 12 updates'.2.2
    pure (w, a, b, c, d, e, f, g, h)

/-- round!(d, e, f, g, h, a, b, c, 0xa4506ceb, w[13], w[11], w[6], w[14]) -/
def Midstate.const_hash_small.line1_61 (cfg : Cfg) : Source.Sha256.Midstate.const_hash_small.State1 → Tr Source.Sha256.Midstate.const_hash_small.State1 :=
  fun (w, a, b, c, d, e, f, g, h) => do
    let x_281 ← Tr.index w 13
    let x_282 ← Tr.index w 11
    let x_283 ← Tr.index w 6
    let x_284 ← Tr.index w 14
    let updates' := Source.Sha256.small_hash.later_round cfg d e f g h a b c 0xa4506ceb#32 x_281 x_282 x_283 x_284
    let g := updates'.1
    let c := updates'.2.1
    let w ← Tr.indexSet w 13 updates'.2.2
    pure (w, a, b, c, d, e, f, g, h)

/-- round!(c, d, e, f, g, h, a, b, 0xbef9a3f7, w[14], w[12], w[7], w[15]) -/
def Midstate.const_hash_small.line1_62 (cfg : Cfg) : Source.Sha256.Midstate.const_hash_small.State1 → Tr Source.Sha256.Midstate.const_hash_small.State1 :=
  fun (w, a, b, c, d, e, f, g, h) => do
    let x_286 ← Tr.index w 14
    let x_287 ← Tr.index w 12
    let x_288 ← Tr.index w 7
    let x_289 ← Tr.index w 15
    let updates' := Source.Sha256.small_hash.later_round cfg c d e f g h a b 0xbef9a3f7#32 x_286 x_287 x_288 x_289
    let f := updates'.1
    let b := updates'.2.1
    let w ← Tr.indexSet w 14 updates'.2.2
    pure (w, a, b, c, d, e, f, g, h)

/-- round!(b, c, d, e, f, g, h, a, 0xc67178f2, w[15], w[13], w[8], w[0]) -/
def Midstate.const_hash_small.line1_63 (cfg : Cfg) : Source.Sha256.Midstate.const_hash_small.State1 → Tr Source.Sha256.Midstate.const_hash_small.State1 :=
  fun (w, a, b, c, d, e, f, g, h) => do
    let x_291 ← Tr.index w 15
    let x_292 ← Tr.index w 13
    let x_293 ← Tr.index w 8
    let x_294 ← Tr.index w 0
    let updates' := Source.Sha256.small_hash.later_round cfg b c d e f g h a 0xc67178f2#32 x_291 x_292 x_293 x_294
    let e := updates'.1
    let a := updates'.2.1
    let w ← Tr.indexSet w 15 updates'.2.2
    pure (w, a, b, c, d, e, f, g, h)

/-- The 64 statements. -/
def Midstate.const_hash_small.lines1 (cfg : Cfg) : List (Source.Sha256.Midstate.const_hash_small.State1 → Tr Source.Sha256.Midstate.const_hash_small.State1) := [
  Seen.Sha256.Midstate.const_hash_small.line1_0 cfg,
  Seen.Sha256.Midstate.const_hash_small.line1_1 cfg,
  Seen.Sha256.Midstate.const_hash_small.line1_2 cfg,
  Seen.Sha256.Midstate.const_hash_small.line1_3 cfg,
  Seen.Sha256.Midstate.const_hash_small.line1_4 cfg,
  Seen.Sha256.Midstate.const_hash_small.line1_5 cfg,
  Seen.Sha256.Midstate.const_hash_small.line1_6 cfg,
  Seen.Sha256.Midstate.const_hash_small.line1_7 cfg,
  Seen.Sha256.Midstate.const_hash_small.line1_8 cfg,
  Seen.Sha256.Midstate.const_hash_small.line1_9 cfg,
  Seen.Sha256.Midstate.const_hash_small.line1_10 cfg,
  Seen.Sha256.Midstate.const_hash_small.line1_11 cfg,
  Seen.Sha256.Midstate.const_hash_small.line1_12 cfg,
  Seen.Sha256.Midstate.const_hash_small.line1_13 cfg,
  Seen.Sha256.Midstate.const_hash_small.line1_14 cfg,
  Seen.Sha256.Midstate.const_hash_small.line1_15 cfg,
  Seen.Sha256.Midstate.const_hash_small.line1_16 cfg,
  Seen.Sha256.Midstate.const_hash_small.line1_17 cfg,
  Seen.Sha256.Midstate.const_hash_small.line1_18 cfg,
  Seen.Sha256.Midstate.const_hash_small.line1_19 cfg,
  Seen.Sha256.Midstate.const_hash_small.line1_20 cfg,
  Seen.Sha256.Midstate.const_hash_small.line1_21 cfg,
  Seen.Sha256.Midstate.const_hash_small.line1_22 cfg,
  Seen.Sha256.Midstate.const_hash_small.line1_23 cfg,
  Seen.Sha256.Midstate.const_hash_small.line1_24 cfg,
  Seen.Sha256.Midstate.const_hash_small.line1_25 cfg,
  Seen.Sha256.Midstate.const_hash_small.line1_26 cfg,
  Seen.Sha256.Midstate.const_hash_small.line1_27 cfg,
  Seen.Sha256.Midstate.const_hash_small.line1_28 cfg,
  Seen.Sha256.Midstate.const_hash_small.line1_29 cfg,
  Seen.Sha256.Midstate.const_hash_small.line1_30 cfg,
  Seen.Sha256.Midstate.const_hash_small.line1_31 cfg,
  Seen.Sha256.Midstate.const_hash_small.line1_32 cfg,
  Seen.Sha256.Midstate.const_hash_small.line1_33 cfg,
  Seen.Sha256.Midstate.const_hash_small.line1_34 cfg,
  Seen.Sha256.Midstate.const_hash_small.line1_35 cfg,
  Seen.Sha256.Midstate.const_hash_small.line1_36 cfg,
  Seen.Sha256.Midstate.const_hash_small.line1_37 cfg,
  Seen.Sha256.Midstate.const_hash_small.line1_38 cfg,
  Seen.Sha256.Midstate.const_hash_small.line1_39 cfg,
  Seen.Sha256.Midstate.const_hash_small.line1_40 cfg,
  Seen.Sha256.Midstate.const_hash_small.line1_41 cfg,
  Seen.Sha256.Midstate.const_hash_small.line1_42 cfg,
  Seen.Sha256.Midstate.const_hash_small.line1_43 cfg,
  Seen.Sha256.Midstate.const_hash_small.line1_44 cfg,
  Seen.Sha256.Midstate.const_hash_small.line1_45 cfg,
  Seen.Sha256.Midstate.const_hash_small.line1_46 cfg,
  Seen.Sha256.Midstate.const_hash_small.line1_47 cfg,
  Seen.Sha256.Midstate.const_hash_small.line1_48 cfg,
  Seen.Sha256.Midstate.const_hash_small.line1_49 cfg,
  Seen.Sha256.Midstate.const_hash_small.line1_50 cfg,
  Seen.Sha256.Midstate.const_hash_small.line1_51 cfg,
  Seen.Sha256.Midstate.const_hash_small.line1_52 cfg,
  Seen.Sha256.Midstate.const_hash_small.line1_53 cfg,
  Seen.Sha256.Midstate.const_hash_small.line1_54 cfg,
  Seen.Sha256.Midstate.const_hash_small.line1_55 cfg,
  Seen.Sha256.Midstate.const_hash_small.line1_56 cfg,
  Seen.Sha256.Midstate.const_hash_small.line1_57 cfg,
  Seen.Sha256.Midstate.const_hash_small.line1_58 cfg,
  Seen.Sha256.Midstate.const_hash_small.line1_59 cfg,
  Seen.Sha256.Midstate.const_hash_small.line1_60 cfg,
  Seen.Sha256.Midstate.const_hash_small.line1_61 cfg,
  Seen.Sha256.Midstate.const_hash_small.line1_62 cfg,
  Seen.Sha256.Midstate.const_hash_small.line1_63 cfg]

/-- `Midstate::const_hash`, sha256.rs 279-425, with feature `small-hash`. -/
def Midstate.const_hash_small (cfg : Cfg) (bytes : List Byte) (finalize : Bool) : Tr Source.Sha256.Midstate := do
  let state : List (BitVec 32) := [0x6a09e667#32, 0xbb67ae85#32, 0x3c6ef372#32, 0xa54ff53a#32, 0x510e527f#32, 0x9b05688c#32, 0x1f83d9ab#32, 0x5be0cd19#32]
  let x_1 ← Tr.addUsize cfg bytes.length 9
  let x_2 ← Tr.addUsize cfg x_1 63
  let num_chunks : Nat := x_2 / 64
  let chunk : Nat := 0
  let (state, chunk) ← Tr.whileBreak cfg.usizeMod
    (fun (state, chunk) => pure (decide (chunk < num_chunks)))
    (fun (state, chunk) => do
      let x_4 ←
        Tr.test (!finalize) >>= fun b_1 => if b_1 then do
          let x_3 ← Tr.addUsize cfg chunk 1
          pure (x_3 == num_chunks)
        else pure false
      let x_5 ←
        Tr.test (x_4) >>= fun b_2 => if b_2 then do
          pure (Rs.Flow.ret (state, chunk))
        else do
          pure (Rs.Flow.next ())
      match x_5 with
      | Rs.Flow.ret r => pure (Rs.Flow.ret r)
      | Rs.Flow.next _ => do
        let x_6 ← Tr.mulUsize cfg chunk 64
        let x_7 ← Tr.addUsize cfg x_6 64
        let x_30 ←
          Tr.test (decide (x_7 ≤ bytes.length)) >>= fun b_3 => if b_3 then do
            let x_8 ← Tr.mulUsize cfg chunk 64
            let x_9 ← Seen.Sha256.Midstate.copy_w cfg bytes x_8
            pure x_9
          else do
            let buf : List Byte := List.replicate 64 0#8
            let i : Nat := 0
            let offset ← Tr.mulUsize cfg chunk 64
            let (buf, i) ← Tr.whileR cfg.usizeMod
              (fun (buf, i) => do
                let x_11 ← Tr.addUsize cfg offset i
                pure (decide (x_11 < bytes.length)))
              (fun (buf, i) => do
                let x_12 ← Tr.addUsize cfg offset i
                let x_13 ← Tr.index bytes x_12
                let buf ← Tr.indexSet buf i x_13
                let i ← Tr.addUsize cfg i 1
                pure (buf, i)) (buf, i)
            let x_17 ←
              Tr.test (!(decide ((bytes.length % 64) ≤ (64 - 9)))) >>= fun b_4 => if b_4 then do
                let x_16 ← Tr.addUsize cfg chunk 2
                pure (x_16 == num_chunks)
              else pure true
            let buf ←
              Tr.test (x_17) >>= fun b_5 => if b_5 then do
                let buf ← Tr.indexSet buf i 0x80#8
                pure buf
              else do
                pure buf
            let x_19 ← Tr.addUsize cfg chunk 1
            let buf ←
              Tr.test (x_19 == num_chunks) >>= fun b_6 => if b_6 then do
                let bit_len ← Tr.mulU cfg (BitVec.ofNat 64 bytes.length) 8#64
                let buf ← Tr.indexSet buf (64 - 8) (BitVec.setWidth 8 ((bit_len >>> 56) &&& 0xFF#64))
                let buf ← Tr.indexSet buf (64 - 7) (BitVec.setWidth 8 ((bit_len >>> 48) &&& 0xFF#64))
                let buf ← Tr.indexSet buf (64 - 6) (BitVec.setWidth 8 ((bit_len >>> 40) &&& 0xFF#64))
                let buf ← Tr.indexSet buf (64 - 5) (BitVec.setWidth 8 ((bit_len >>> 32) &&& 0xFF#64))
                let buf ← Tr.indexSet buf (64 - 4) (BitVec.setWidth 8 ((bit_len >>> 24) &&& 0xFF#64))
                let buf ← Tr.indexSet buf (64 - 3) (BitVec.setWidth 8 ((bit_len >>> 16) &&& 0xFF#64))
                let buf ← Tr.indexSet buf (64 - 2) (BitVec.setWidth 8 ((bit_len >>> 8) &&& 0xFF#64))
                let buf ← Tr.indexSet buf (64 - 1) (BitVec.setWidth 8 ((bit_len >>> 0) &&& 0xFF#64))
                pure buf
              else do
                pure buf
            let x_29 ← Seen.Sha256.Midstate.copy_w cfg buf 0
            pure x_29
        let w : List (BitVec 32) := x_30
        let chunk ← Tr.addUsize cfg chunk 1
        let a ← Tr.index state 0
        let b ← Tr.index state 1
        let c ← Tr.index state 2
        let d ← Tr.index state 3
        let e ← Tr.index state 4
        let f ← Tr.index state 5
        let g ← Tr.index state 6
        let h ← Tr.index state 7
        let (w, a, b, c, d, e, f, g, h) ← Tr.runLines (Seen.Sha256.Midstate.const_hash_small.lines1 cfg) (w, a, b, c, d, e, f, g, h)
        let x_296 ← Tr.index state 0
        let state ← Tr.indexSet state 0 (x_296 + a)
        let x_298 ← Tr.index state 1
        let state ← Tr.indexSet state 1 (x_298 + b)
        let x_300 ← Tr.index state 2
        let state ← Tr.indexSet state 2 (x_300 + c)
        let x_302 ← Tr.index state 3
        let state ← Tr.indexSet state 3 (x_302 + d)
        let x_304 ← Tr.index state 4
        let state ← Tr.indexSet state 4 (x_304 + e)
        let x_306 ← Tr.index state 5
        let state ← Tr.indexSet state 5 (x_306 + f)
        let x_308 ← Tr.index state 6
        let state ← Tr.indexSet state 6 (x_308 + g)
        let x_310 ← Tr.index state 7
        let state ← Tr.indexSet state 7 (x_310 + h)
        pure (Rs.Flow.next (state, chunk))) (state, chunk)
  let output : List Byte := List.replicate 32 0#8
  let i : Nat := 0
  let (output, i) ← Tr.whileR cfg.usizeMod
    (fun (output, i) => pure (decide (i < 8)))
    (fun (output, i) => do
      let x_312 ← Tr.addUsize cfg i 0
      let x_313 ← Tr.index state x_312
      let x_314 ← Tr.mulUsize cfg i 4
      let x_315 ← Tr.addUsize cfg x_314 0
      let output ← Tr.indexSet output x_315 (BitVec.setWidth 8 (x_313 >>> 24))
      let x_317 ← Tr.addUsize cfg i 0
      let x_318 ← Tr.index state x_317
      let x_319 ← Tr.mulUsize cfg i 4
      let x_320 ← Tr.addUsize cfg x_319 1
      let output ← Tr.indexSet output x_320 (BitVec.setWidth 8 (x_318 >>> 16))
      let x_322 ← Tr.addUsize cfg i 0
      let x_323 ← Tr.index state x_322
      let x_324 ← Tr.mulUsize cfg i 4
      let x_325 ← Tr.addUsize cfg x_324 2
      let output ← Tr.indexSet output x_325 (BitVec.setWidth 8 (x_323 >>> 8))
      let x_327 ← Tr.addUsize cfg i 0
      let x_328 ← Tr.index state x_327
      let x_329 ← Tr.mulUsize cfg i 4
      let x_330 ← Tr.addUsize cfg x_329 3
      let output ← Tr.indexSet output x_330 (BitVec.setWidth 8 (x_328 >>> 0))
      let i ← Tr.addUsize cfg i 1
      pure (output, i)) (output, i)
  pure ({ f0 := output } : Source.Sha256.Midstate)

/-- `Midstate::const_hash`, sha256.rs 279-425. -/
def Midstate.const_hash (cfg : Cfg) (bytes : List Byte) (finalize : Bool) : Tr Source.Sha256.Midstate :=
  if cfg.smallHash then Seen.Sha256.Midstate.const_hash_small cfg bytes finalize else Seen.Sha256.Midstate.const_hash_fast cfg bytes finalize

/-- `Hash::const_hash`, sha256.rs 120. -/
def Hash.const_hash (cfg : Cfg) (bytes : List Byte) : Tr Source.Sha256.Hash := do
  let x_1 ← Seen.Sha256.Midstate.const_hash cfg bytes true
  pure ({ f0 := x_1.f0 } : Source.Sha256.Hash)

/-- `Midstate::hash_tag`, sha256.rs 169-178. -/
def Midstate.hash_tag (cfg : Cfg) (tag : List Byte) : Tr Source.Sha256.Midstate := do
  let hash ← Seen.Sha256.Hash.const_hash cfg tag
  let buf : List Byte := List.replicate 64 0#8
  let i : Nat := 0
  let (buf, i) ← Tr.whileR cfg.usizeMod
    (fun (buf, i) => pure (decide (i < buf.length)))
    (fun (buf, i) => do
      let x_2 ← Tr.remUsize i hash.f0.length
      let x_3 ← Tr.index hash.f0 x_2
      let buf ← Tr.indexSet buf i x_3
      let i ← Tr.addUsize cfg i 1
      pure (buf, i)) (buf, i)
  let x_6 ← Seen.Sha256.Midstate.const_hash cfg buf false
  pure x_6

/-- `Engine::HashEngine::from_midstate`, sha256.rs 104-113. -/
def Engine.HashEngine.from_midstate (cfg : Cfg) (midstate : Source.Sha256.Midstate) (length : Nat) : Tr Source.Sha256.Engine := do
  Tr.assertR ((length % Source.Sha256.BLOCK_SIZE) == 0)
  let ret : List (BitVec 32) := List.replicate 8 0#32
  let ret ← Tr.zipMut ret (chunksExact 4 midstate.f0) fun ret_val midstate_bytes => do
    let x_1 ← Tr.tryInto 4 midstate_bytes
    let ret_val := Rs.fromBeBytes 32 x_1
    pure ret_val
  pure ({ buffer := List.replicate 64 0#8, h := ret, length := length } : Source.Sha256.Engine)

/-- `impl HashEngine for Engine`, sha256.rs 44. -/
def engine (cfg : Cfg) : Tr.HashEngine (Source.Sha256.engine cfg) where
  default := pure (Source.Sha256.Engine.default cfg)
  new := pure (Source.Sha256.Engine.default cfg)
  input self data := Seen.Sha256.Engine.input cfg self data
  finalize self := Seen.Sha256.Engine.finalize cfg self
  midstate self := Seen.Sha256.Engine.midstate cfg self
  fromMidstate midstate length := Seen.Sha256.Engine.HashEngine.from_midstate cfg midstate length

end Chf.Seen.Sha256
