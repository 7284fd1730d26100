/- Generated by tools/rust2lean.py; do not edit. -/
import Verif.Seen.Sha256
import Verif.Proofs.Seen.Tactic

/-! The numbered statements of the translated text: what is seen of each does not depend on the
contents of words and arrays, and it computes what the translated statement computes. -/

namespace Chf.Seen.Sha256
open Chf

/-- The states of these statements are alike. -/
abbrev Engine.process_block_simd_x86_intrinsics.Alike1 :=
  fun s t : Source.Sha256.Engine.process_block_simd_x86_intrinsics.State1 => True

theorem Engine.process_block_simd_x86_intrinsics.line1_0_same (cfg : Cfg) {self self₂ : Source.Sha256.Engine} (hself : Len self.buffer self₂.buffer ∧ Len self.h self₂.h) (MASK : BitVec 128) (block_offset : Nat) : ∀ s t, Engine.process_block_simd_x86_intrinsics.Alike1 s t →
    Tr.SameSeen Engine.process_block_simd_x86_intrinsics.Alike1 (Engine.process_block_simd_x86_intrinsics.line1_0 cfg self MASK block_offset s) (Engine.process_block_simd_x86_intrinsics.line1_0 cfg self₂ MASK block_offset t) := by
  obtain ⟨hself_1, hself_2⟩ := hself
  rintro ⟨_, _, _, _, _, _, _, _, _, _⟩ ⟨_, _, _, _, _, _, _, _, _, _⟩ -
  unfold Engine.process_block_simd_x86_intrinsics.line1_0
  try dsimp only at *
  repeat same_step

theorem Engine.process_block_simd_x86_intrinsics.line1_1_same (cfg : Cfg) {self self₂ : Source.Sha256.Engine} (hself : Len self.buffer self₂.buffer ∧ Len self.h self₂.h) (MASK : BitVec 128) (block_offset : Nat) : ∀ s t, Engine.process_block_simd_x86_intrinsics.Alike1 s t →
    Tr.SameSeen Engine.process_block_simd_x86_intrinsics.Alike1 (Engine.process_block_simd_x86_intrinsics.line1_1 cfg self MASK block_offset s) (Engine.process_block_simd_x86_intrinsics.line1_1 cfg self₂ MASK block_offset t) := by
  obtain ⟨hself_1, hself_2⟩ := hself
  rintro ⟨_, _, _, _, _, _, _, _, _, _⟩ ⟨_, _, _, _, _, _, _, _, _, _⟩ -
  unfold Engine.process_block_simd_x86_intrinsics.line1_1
  try dsimp only at *
  repeat same_step

theorem Engine.process_block_simd_x86_intrinsics.line1_2_same (cfg : Cfg) {self self₂ : Source.Sha256.Engine} (hself : Len self.buffer self₂.buffer ∧ Len self.h self₂.h) (MASK : BitVec 128) (block_offset : Nat) : ∀ s t, Engine.process_block_simd_x86_intrinsics.Alike1 s t →
    Tr.SameSeen Engine.process_block_simd_x86_intrinsics.Alike1 (Engine.process_block_simd_x86_intrinsics.line1_2 cfg self MASK block_offset s) (Engine.process_block_simd_x86_intrinsics.line1_2 cfg self₂ MASK block_offset t) := by
  obtain ⟨hself_1, hself_2⟩ := hself
  rintro ⟨_, _, _, _, _, _, _, _, _, _⟩ ⟨_, _, _, _, _, _, _, _, _, _⟩ -
  unfold Engine.process_block_simd_x86_intrinsics.line1_2
  try dsimp only at *
  repeat same_step

theorem Engine.process_block_simd_x86_intrinsics.line1_3_same (cfg : Cfg) {self self₂ : Source.Sha256.Engine} (hself : Len self.buffer self₂.buffer ∧ Len self.h self₂.h) (MASK : BitVec 128) (block_offset : Nat) : ∀ s t, Engine.process_block_simd_x86_intrinsics.Alike1 s t →
    Tr.SameSeen Engine.process_block_simd_x86_intrinsics.Alike1 (Engine.process_block_simd_x86_intrinsics.line1_3 cfg self MASK block_offset s) (Engine.process_block_simd_x86_intrinsics.line1_3 cfg self₂ MASK block_offset t) := by
  obtain ⟨hself_1, hself_2⟩ := hself
  rintro ⟨_, _, _, _, _, _, _, _, _, _⟩ ⟨_, _, _, _, _, _, _, _, _, _⟩ -
  unfold Engine.process_block_simd_x86_intrinsics.line1_3
  try dsimp only at *
  repeat same_step

theorem Engine.process_block_simd_x86_intrinsics.line1_4_same (cfg : Cfg) {self self₂ : Source.Sha256.Engine} (hself : Len self.buffer self₂.buffer ∧ Len self.h self₂.h) (MASK : BitVec 128) (block_offset : Nat) : ∀ s t, Engine.process_block_simd_x86_intrinsics.Alike1 s t →
    Tr.SameSeen Engine.process_block_simd_x86_intrinsics.Alike1 (Engine.process_block_simd_x86_intrinsics.line1_4 cfg self MASK block_offset s) (Engine.process_block_simd_x86_intrinsics.line1_4 cfg self₂ MASK block_offset t) := by
  obtain ⟨hself_1, hself_2⟩ := hself
  rintro ⟨_, _, _, _, _, _, _, _, _, _⟩ ⟨_, _, _, _, _, _, _, _, _, _⟩ -
  unfold Engine.process_block_simd_x86_intrinsics.line1_4
  try dsimp only at *
  repeat same_step

theorem Engine.process_block_simd_x86_intrinsics.line1_5_same (cfg : Cfg) {self self₂ : Source.Sha256.Engine} (hself : Len self.buffer self₂.buffer ∧ Len self.h self₂.h) (MASK : BitVec 128) (block_offset : Nat) : ∀ s t, Engine.process_block_simd_x86_intrinsics.Alike1 s t →
    Tr.SameSeen Engine.process_block_simd_x86_intrinsics.Alike1 (Engine.process_block_simd_x86_intrinsics.line1_5 cfg self MASK block_offset s) (Engine.process_block_simd_x86_intrinsics.line1_5 cfg self₂ MASK block_offset t) := by
  obtain ⟨hself_1, hself_2⟩ := hself
  rintro ⟨_, _, _, _, _, _, _, _, _, _⟩ ⟨_, _, _, _, _, _, _, _, _, _⟩ -
  unfold Engine.process_block_simd_x86_intrinsics.line1_5
  try dsimp only at *
  repeat same_step

theorem Engine.process_block_simd_x86_intrinsics.line1_6_same (cfg : Cfg) {self self₂ : Source.Sha256.Engine} (hself : Len self.buffer self₂.buffer ∧ Len self.h self₂.h) (MASK : BitVec 128) (block_offset : Nat) : ∀ s t, Engine.process_block_simd_x86_intrinsics.Alike1 s t →
    Tr.SameSeen Engine.process_block_simd_x86_intrinsics.Alike1 (Engine.process_block_simd_x86_intrinsics.line1_6 cfg self MASK block_offset s) (Engine.process_block_simd_x86_intrinsics.line1_6 cfg self₂ MASK block_offset t) := by
  obtain ⟨hself_1, hself_2⟩ := hself
  rintro ⟨_, _, _, _, _, _, _, _, _, _⟩ ⟨_, _, _, _, _, _, _, _, _, _⟩ -
  unfold Engine.process_block_simd_x86_intrinsics.line1_6
  try dsimp only at *
  repeat same_step

theorem Engine.process_block_simd_x86_intrinsics.line1_7_same (cfg : Cfg) {self self₂ : Source.Sha256.Engine} (hself : Len self.buffer self₂.buffer ∧ Len self.h self₂.h) (MASK : BitVec 128) (block_offset : Nat) : ∀ s t, Engine.process_block_simd_x86_intrinsics.Alike1 s t →
    Tr.SameSeen Engine.process_block_simd_x86_intrinsics.Alike1 (Engine.process_block_simd_x86_intrinsics.line1_7 cfg self MASK block_offset s) (Engine.process_block_simd_x86_intrinsics.line1_7 cfg self₂ MASK block_offset t) := by
  obtain ⟨hself_1, hself_2⟩ := hself
  rintro ⟨_, _, _, _, _, _, _, _, _, _⟩ ⟨_, _, _, _, _, _, _, _, _, _⟩ -
  unfold Engine.process_block_simd_x86_intrinsics.line1_7
  try dsimp only at *
  repeat same_step

theorem Engine.process_block_simd_x86_intrinsics.line1_8_same (cfg : Cfg) {self self₂ : Source.Sha256.Engine} (hself : Len self.buffer self₂.buffer ∧ Len self.h self₂.h) (MASK : BitVec 128) (block_offset : Nat) : ∀ s t, Engine.process_block_simd_x86_intrinsics.Alike1 s t →
    Tr.SameSeen Engine.process_block_simd_x86_intrinsics.Alike1 (Engine.process_block_simd_x86_intrinsics.line1_8 cfg self MASK block_offset s) (Engine.process_block_simd_x86_intrinsics.line1_8 cfg self₂ MASK block_offset t) := by
  obtain ⟨hself_1, hself_2⟩ := hself
  rintro ⟨_, _, _, _, _, _, _, _, _, _⟩ ⟨_, _, _, _, _, _, _, _, _, _⟩ -
  unfold Engine.process_block_simd_x86_intrinsics.line1_8
  try dsimp only at *
  repeat same_step

theorem Engine.process_block_simd_x86_intrinsics.line1_9_same (cfg : Cfg) {self self₂ : Source.Sha256.Engine} (hself : Len self.buffer self₂.buffer ∧ Len self.h self₂.h) (MASK : BitVec 128) (block_offset : Nat) : ∀ s t, Engine.process_block_simd_x86_intrinsics.Alike1 s t →
    Tr.SameSeen Engine.process_block_simd_x86_intrinsics.Alike1 (Engine.process_block_simd_x86_intrinsics.line1_9 cfg self MASK block_offset s) (Engine.process_block_simd_x86_intrinsics.line1_9 cfg self₂ MASK block_offset t) := by
  obtain ⟨hself_1, hself_2⟩ := hself
  rintro ⟨_, _, _, _, _, _, _, _, _, _⟩ ⟨_, _, _, _, _, _, _, _, _, _⟩ -
  unfold Engine.process_block_simd_x86_intrinsics.line1_9
  try dsimp only at *
  repeat same_step

theorem Engine.process_block_simd_x86_intrinsics.line1_10_same (cfg : Cfg) {self self₂ : Source.Sha256.Engine} (hself : Len self.buffer self₂.buffer ∧ Len self.h self₂.h) (MASK : BitVec 128) (block_offset : Nat) : ∀ s t, Engine.process_block_simd_x86_intrinsics.Alike1 s t →
    Tr.SameSeen Engine.process_block_simd_x86_intrinsics.Alike1 (Engine.process_block_simd_x86_intrinsics.line1_10 cfg self MASK block_offset s) (Engine.process_block_simd_x86_intrinsics.line1_10 cfg self₂ MASK block_offset t) := by
  obtain ⟨hself_1, hself_2⟩ := hself
  rintro ⟨_, _, _, _, _, _, _, _, _, _⟩ ⟨_, _, _, _, _, _, _, _, _, _⟩ -
  unfold Engine.process_block_simd_x86_intrinsics.line1_10
  try dsimp only at *
  repeat same_step

theorem Engine.process_block_simd_x86_intrinsics.line1_11_same (cfg : Cfg) {self self₂ : Source.Sha256.Engine} (hself : Len self.buffer self₂.buffer ∧ Len self.h self₂.h) (MASK : BitVec 128) (block_offset : Nat) : ∀ s t, Engine.process_block_simd_x86_intrinsics.Alike1 s t →
    Tr.SameSeen Engine.process_block_simd_x86_intrinsics.Alike1 (Engine.process_block_simd_x86_intrinsics.line1_11 cfg self MASK block_offset s) (Engine.process_block_simd_x86_intrinsics.line1_11 cfg self₂ MASK block_offset t) := by
  obtain ⟨hself_1, hself_2⟩ := hself
  rintro ⟨_, _, _, _, _, _, _, _, _, _⟩ ⟨_, _, _, _, _, _, _, _, _, _⟩ -
  unfold Engine.process_block_simd_x86_intrinsics.line1_11
  try dsimp only at *
  repeat same_step

theorem Engine.process_block_simd_x86_intrinsics.line1_12_same (cfg : Cfg) {self self₂ : Source.Sha256.Engine} (hself : Len self.buffer self₂.buffer ∧ Len self.h self₂.h) (MASK : BitVec 128) (block_offset : Nat) : ∀ s t, Engine.process_block_simd_x86_intrinsics.Alike1 s t →
    Tr.SameSeen Engine.process_block_simd_x86_intrinsics.Alike1 (Engine.process_block_simd_x86_intrinsics.line1_12 cfg self MASK block_offset s) (Engine.process_block_simd_x86_intrinsics.line1_12 cfg self₂ MASK block_offset t) := by
  obtain ⟨hself_1, hself_2⟩ := hself
  rintro ⟨_, _, _, _, _, _, _, _, _, _⟩ ⟨_, _, _, _, _, _, _, _, _, _⟩ -
  unfold Engine.process_block_simd_x86_intrinsics.line1_12
  try dsimp only at *
  repeat same_step

theorem Engine.process_block_simd_x86_intrinsics.line1_13_same (cfg : Cfg) {self self₂ : Source.Sha256.Engine} (hself : Len self.buffer self₂.buffer ∧ Len self.h self₂.h) (MASK : BitVec 128) (block_offset : Nat) : ∀ s t, Engine.process_block_simd_x86_intrinsics.Alike1 s t →
    Tr.SameSeen Engine.process_block_simd_x86_intrinsics.Alike1 (Engine.process_block_simd_x86_intrinsics.line1_13 cfg self MASK block_offset s) (Engine.process_block_simd_x86_intrinsics.line1_13 cfg self₂ MASK block_offset t) := by
  obtain ⟨hself_1, hself_2⟩ := hself
  rintro ⟨_, _, _, _, _, _, _, _, _, _⟩ ⟨_, _, _, _, _, _, _, _, _, _⟩ -
  unfold Engine.process_block_simd_x86_intrinsics.line1_13
  try dsimp only at *
  repeat same_step

theorem Engine.process_block_simd_x86_intrinsics.line1_14_same (cfg : Cfg) {self self₂ : Source.Sha256.Engine} (hself : Len self.buffer self₂.buffer ∧ Len self.h self₂.h) (MASK : BitVec 128) (block_offset : Nat) : ∀ s t, Engine.process_block_simd_x86_intrinsics.Alike1 s t →
    Tr.SameSeen Engine.process_block_simd_x86_intrinsics.Alike1 (Engine.process_block_simd_x86_intrinsics.line1_14 cfg self MASK block_offset s) (Engine.process_block_simd_x86_intrinsics.line1_14 cfg self₂ MASK block_offset t) := by
  obtain ⟨hself_1, hself_2⟩ := hself
  rintro ⟨_, _, _, _, _, _, _, _, _, _⟩ ⟨_, _, _, _, _, _, _, _, _, _⟩ -
  unfold Engine.process_block_simd_x86_intrinsics.line1_14
  try dsimp only at *
  repeat same_step

theorem Engine.process_block_simd_x86_intrinsics.line1_15_same (cfg : Cfg) {self self₂ : Source.Sha256.Engine} (hself : Len self.buffer self₂.buffer ∧ Len self.h self₂.h) (MASK : BitVec 128) (block_offset : Nat) : ∀ s t, Engine.process_block_simd_x86_intrinsics.Alike1 s t →
    Tr.SameSeen Engine.process_block_simd_x86_intrinsics.Alike1 (Engine.process_block_simd_x86_intrinsics.line1_15 cfg self MASK block_offset s) (Engine.process_block_simd_x86_intrinsics.line1_15 cfg self₂ MASK block_offset t) := by
  obtain ⟨hself_1, hself_2⟩ := hself
  rintro ⟨_, _, _, _, _, _, _, _, _, _⟩ ⟨_, _, _, _, _, _, _, _, _, _⟩ -
  unfold Engine.process_block_simd_x86_intrinsics.line1_15
  try dsimp only at *
  repeat same_step

theorem Engine.process_block_simd_x86_intrinsics.line1_16_same (cfg : Cfg) {self self₂ : Source.Sha256.Engine} (hself : Len self.buffer self₂.buffer ∧ Len self.h self₂.h) (MASK : BitVec 128) (block_offset : Nat) : ∀ s t, Engine.process_block_simd_x86_intrinsics.Alike1 s t →
    Tr.SameSeen Engine.process_block_simd_x86_intrinsics.Alike1 (Engine.process_block_simd_x86_intrinsics.line1_16 cfg self MASK block_offset s) (Engine.process_block_simd_x86_intrinsics.line1_16 cfg self₂ MASK block_offset t) := by
  obtain ⟨hself_1, hself_2⟩ := hself
  rintro ⟨_, _, _, _, _, _, _, _, _, _⟩ ⟨_, _, _, _, _, _, _, _, _, _⟩ -
  unfold Engine.process_block_simd_x86_intrinsics.line1_16
  try dsimp only at *
  repeat same_step

theorem Engine.process_block_simd_x86_intrinsics.line1_17_same (cfg : Cfg) {self self₂ : Source.Sha256.Engine} (hself : Len self.buffer self₂.buffer ∧ Len self.h self₂.h) (MASK : BitVec 128) (block_offset : Nat) : ∀ s t, Engine.process_block_simd_x86_intrinsics.Alike1 s t →
    Tr.SameSeen Engine.process_block_simd_x86_intrinsics.Alike1 (Engine.process_block_simd_x86_intrinsics.line1_17 cfg self MASK block_offset s) (Engine.process_block_simd_x86_intrinsics.line1_17 cfg self₂ MASK block_offset t) := by
  obtain ⟨hself_1, hself_2⟩ := hself
  rintro ⟨_, _, _, _, _, _, _, _, _, _⟩ ⟨_, _, _, _, _, _, _, _, _, _⟩ -
  unfold Engine.process_block_simd_x86_intrinsics.line1_17
  try dsimp only at *
  repeat same_step

theorem Engine.process_block_simd_x86_intrinsics.line1_18_same (cfg : Cfg) {self self₂ : Source.Sha256.Engine} (hself : Len self.buffer self₂.buffer ∧ Len self.h self₂.h) (MASK : BitVec 128) (block_offset : Nat) : ∀ s t, Engine.process_block_simd_x86_intrinsics.Alike1 s t →
    Tr.SameSeen Engine.process_block_simd_x86_intrinsics.Alike1 (Engine.process_block_simd_x86_intrinsics.line1_18 cfg self MASK block_offset s) (Engine.process_block_simd_x86_intrinsics.line1_18 cfg self₂ MASK block_offset t) := by
  obtain ⟨hself_1, hself_2⟩ := hself
  rintro ⟨_, _, _, _, _, _, _, _, _, _⟩ ⟨_, _, _, _, _, _, _, _, _, _⟩ -
  unfold Engine.process_block_simd_x86_intrinsics.line1_18
  try dsimp only at *
  repeat same_step

theorem Engine.process_block_simd_x86_intrinsics.line1_19_same (cfg : Cfg) {self self₂ : Source.Sha256.Engine} (hself : Len self.buffer self₂.buffer ∧ Len self.h self₂.h) (MASK : BitVec 128) (block_offset : Nat) : ∀ s t, Engine.process_block_simd_x86_intrinsics.Alike1 s t →
    Tr.SameSeen Engine.process_block_simd_x86_intrinsics.Alike1 (Engine.process_block_simd_x86_intrinsics.line1_19 cfg self MASK block_offset s) (Engine.process_block_simd_x86_intrinsics.line1_19 cfg self₂ MASK block_offset t) := by
  obtain ⟨hself_1, hself_2⟩ := hself
  rintro ⟨_, _, _, _, _, _, _, _, _, _⟩ ⟨_, _, _, _, _, _, _, _, _, _⟩ -
  unfold Engine.process_block_simd_x86_intrinsics.line1_19
  try dsimp only at *
  repeat same_step

theorem Engine.process_block_simd_x86_intrinsics.line1_20_same (cfg : Cfg) {self self₂ : Source.Sha256.Engine} (hself : Len self.buffer self₂.buffer ∧ Len self.h self₂.h) (MASK : BitVec 128) (block_offset : Nat) : ∀ s t, Engine.process_block_simd_x86_intrinsics.Alike1 s t →
    Tr.SameSeen Engine.process_block_simd_x86_intrinsics.Alike1 (Engine.process_block_simd_x86_intrinsics.line1_20 cfg self MASK block_offset s) (Engine.process_block_simd_x86_intrinsics.line1_20 cfg self₂ MASK block_offset t) := by
  obtain ⟨hself_1, hself_2⟩ := hself
  rintro ⟨_, _, _, _, _, _, _, _, _, _⟩ ⟨_, _, _, _, _, _, _, _, _, _⟩ -
  unfold Engine.process_block_simd_x86_intrinsics.line1_20
  try dsimp only at *
  repeat same_step

theorem Engine.process_block_simd_x86_intrinsics.line1_21_same (cfg : Cfg) {self self₂ : Source.Sha256.Engine} (hself : Len self.buffer self₂.buffer ∧ Len self.h self₂.h) (MASK : BitVec 128) (block_offset : Nat) : ∀ s t, Engine.process_block_simd_x86_intrinsics.Alike1 s t →
    Tr.SameSeen Engine.process_block_simd_x86_intrinsics.Alike1 (Engine.process_block_simd_x86_intrinsics.line1_21 cfg self MASK block_offset s) (Engine.process_block_simd_x86_intrinsics.line1_21 cfg self₂ MASK block_offset t) := by
  obtain ⟨hself_1, hself_2⟩ := hself
  rintro ⟨_, _, _, _, _, _, _, _, _, _⟩ ⟨_, _, _, _, _, _, _, _, _, _⟩ -
  unfold Engine.process_block_simd_x86_intrinsics.line1_21
  try dsimp only at *
  repeat same_step

theorem Engine.process_block_simd_x86_intrinsics.line1_22_same (cfg : Cfg) {self self₂ : Source.Sha256.Engine} (hself : Len self.buffer self₂.buffer ∧ Len self.h self₂.h) (MASK : BitVec 128) (block_offset : Nat) : ∀ s t, Engine.process_block_simd_x86_intrinsics.Alike1 s t →
    Tr.SameSeen Engine.process_block_simd_x86_intrinsics.Alike1 (Engine.process_block_simd_x86_intrinsics.line1_22 cfg self MASK block_offset s) (Engine.process_block_simd_x86_intrinsics.line1_22 cfg self₂ MASK block_offset t) := by
  obtain ⟨hself_1, hself_2⟩ := hself
  rintro ⟨_, _, _, _, _, _, _, _, _, _⟩ ⟨_, _, _, _, _, _, _, _, _, _⟩ -
  unfold Engine.process_block_simd_x86_intrinsics.line1_22
  try dsimp only at *
  repeat same_step

theorem Engine.process_block_simd_x86_intrinsics.line1_23_same (cfg : Cfg) {self self₂ : Source.Sha256.Engine} (hself : Len self.buffer self₂.buffer ∧ Len self.h self₂.h) (MASK : BitVec 128) (block_offset : Nat) : ∀ s t, Engine.process_block_simd_x86_intrinsics.Alike1 s t →
    Tr.SameSeen Engine.process_block_simd_x86_intrinsics.Alike1 (Engine.process_block_simd_x86_intrinsics.line1_23 cfg self MASK block_offset s) (Engine.process_block_simd_x86_intrinsics.line1_23 cfg self₂ MASK block_offset t) := by
  obtain ⟨hself_1, hself_2⟩ := hself
  rintro ⟨_, _, _, _, _, _, _, _, _, _⟩ ⟨_, _, _, _, _, _, _, _, _, _⟩ -
  unfold Engine.process_block_simd_x86_intrinsics.line1_23
  try dsimp only at *
  repeat same_step

theorem Engine.process_block_simd_x86_intrinsics.line1_24_same (cfg : Cfg) {self self₂ : Source.Sha256.Engine} (hself : Len self.buffer self₂.buffer ∧ Len self.h self₂.h) (MASK : BitVec 128) (block_offset : Nat) : ∀ s t, Engine.process_block_simd_x86_intrinsics.Alike1 s t →
    Tr.SameSeen Engine.process_block_simd_x86_intrinsics.Alike1 (Engine.process_block_simd_x86_intrinsics.line1_24 cfg self MASK block_offset s) (Engine.process_block_simd_x86_intrinsics.line1_24 cfg self₂ MASK block_offset t) := by
  obtain ⟨hself_1, hself_2⟩ := hself
  rintro ⟨_, _, _, _, _, _, _, _, _, _⟩ ⟨_, _, _, _, _, _, _, _, _, _⟩ -
  unfold Engine.process_block_simd_x86_intrinsics.line1_24
  try dsimp only at *
  repeat same_step

theorem Engine.process_block_simd_x86_intrinsics.line1_25_same (cfg : Cfg) {self self₂ : Source.Sha256.Engine} (hself : Len self.buffer self₂.buffer ∧ Len self.h self₂.h) (MASK : BitVec 128) (block_offset : Nat) : ∀ s t, Engine.process_block_simd_x86_intrinsics.Alike1 s t →
    Tr.SameSeen Engine.process_block_simd_x86_intrinsics.Alike1 (Engine.process_block_simd_x86_intrinsics.line1_25 cfg self MASK block_offset s) (Engine.process_block_simd_x86_intrinsics.line1_25 cfg self₂ MASK block_offset t) := by
  obtain ⟨hself_1, hself_2⟩ := hself
  rintro ⟨_, _, _, _, _, _, _, _, _, _⟩ ⟨_, _, _, _, _, _, _, _, _, _⟩ -
  unfold Engine.process_block_simd_x86_intrinsics.line1_25
  try dsimp only at *
  repeat same_step

theorem Engine.process_block_simd_x86_intrinsics.line1_26_same (cfg : Cfg) {self self₂ : Source.Sha256.Engine} (hself : Len self.buffer self₂.buffer ∧ Len self.h self₂.h) (MASK : BitVec 128) (block_offset : Nat) : ∀ s t, Engine.process_block_simd_x86_intrinsics.Alike1 s t →
    Tr.SameSeen Engine.process_block_simd_x86_intrinsics.Alike1 (Engine.process_block_simd_x86_intrinsics.line1_26 cfg self MASK block_offset s) (Engine.process_block_simd_x86_intrinsics.line1_26 cfg self₂ MASK block_offset t) := by
  obtain ⟨hself_1, hself_2⟩ := hself
  rintro ⟨_, _, _, _, _, _, _, _, _, _⟩ ⟨_, _, _, _, _, _, _, _, _, _⟩ -
  unfold Engine.process_block_simd_x86_intrinsics.line1_26
  try dsimp only at *
  repeat same_step

theorem Engine.process_block_simd_x86_intrinsics.line1_27_same (cfg : Cfg) {self self₂ : Source.Sha256.Engine} (hself : Len self.buffer self₂.buffer ∧ Len self.h self₂.h) (MASK : BitVec 128) (block_offset : Nat) : ∀ s t, Engine.process_block_simd_x86_intrinsics.Alike1 s t →
    Tr.SameSeen Engine.process_block_simd_x86_intrinsics.Alike1 (Engine.process_block_simd_x86_intrinsics.line1_27 cfg self MASK block_offset s) (Engine.process_block_simd_x86_intrinsics.line1_27 cfg self₂ MASK block_offset t) := by
  obtain ⟨hself_1, hself_2⟩ := hself
  rintro ⟨_, _, _, _, _, _, _, _, _, _⟩ ⟨_, _, _, _, _, _, _, _, _, _⟩ -
  unfold Engine.process_block_simd_x86_intrinsics.line1_27
  try dsimp only at *
  repeat same_step

theorem Engine.process_block_simd_x86_intrinsics.line1_28_same (cfg : Cfg) {self self₂ : Source.Sha256.Engine} (hself : Len self.buffer self₂.buffer ∧ Len self.h self₂.h) (MASK : BitVec 128) (block_offset : Nat) : ∀ s t, Engine.process_block_simd_x86_intrinsics.Alike1 s t →
    Tr.SameSeen Engine.process_block_simd_x86_intrinsics.Alike1 (Engine.process_block_simd_x86_intrinsics.line1_28 cfg self MASK block_offset s) (Engine.process_block_simd_x86_intrinsics.line1_28 cfg self₂ MASK block_offset t) := by
  obtain ⟨hself_1, hself_2⟩ := hself
  rintro ⟨_, _, _, _, _, _, _, _, _, _⟩ ⟨_, _, _, _, _, _, _, _, _, _⟩ -
  unfold Engine.process_block_simd_x86_intrinsics.line1_28
  try dsimp only at *
  repeat same_step

theorem Engine.process_block_simd_x86_intrinsics.line1_29_same (cfg : Cfg) {self self₂ : Source.Sha256.Engine} (hself : Len self.buffer self₂.buffer ∧ Len self.h self₂.h) (MASK : BitVec 128) (block_offset : Nat) : ∀ s t, Engine.process_block_simd_x86_intrinsics.Alike1 s t →
    Tr.SameSeen Engine.process_block_simd_x86_intrinsics.Alike1 (Engine.process_block_simd_x86_intrinsics.line1_29 cfg self MASK block_offset s) (Engine.process_block_simd_x86_intrinsics.line1_29 cfg self₂ MASK block_offset t) := by
  obtain ⟨hself_1, hself_2⟩ := hself
  rintro ⟨_, _, _, _, _, _, _, _, _, _⟩ ⟨_, _, _, _, _, _, _, _, _, _⟩ -
  unfold Engine.process_block_simd_x86_intrinsics.line1_29
  try dsimp only at *
  repeat same_step

theorem Engine.process_block_simd_x86_intrinsics.line1_30_same (cfg : Cfg) {self self₂ : Source.Sha256.Engine} (hself : Len self.buffer self₂.buffer ∧ Len self.h self₂.h) (MASK : BitVec 128) (block_offset : Nat) : ∀ s t, Engine.process_block_simd_x86_intrinsics.Alike1 s t →
    Tr.SameSeen Engine.process_block_simd_x86_intrinsics.Alike1 (Engine.process_block_simd_x86_intrinsics.line1_30 cfg self MASK block_offset s) (Engine.process_block_simd_x86_intrinsics.line1_30 cfg self₂ MASK block_offset t) := by
  obtain ⟨hself_1, hself_2⟩ := hself
  rintro ⟨_, _, _, _, _, _, _, _, _, _⟩ ⟨_, _, _, _, _, _, _, _, _, _⟩ -
  unfold Engine.process_block_simd_x86_intrinsics.line1_30
  try dsimp only at *
  repeat same_step

theorem Engine.process_block_simd_x86_intrinsics.line1_31_same (cfg : Cfg) {self self₂ : Source.Sha256.Engine} (hself : Len self.buffer self₂.buffer ∧ Len self.h self₂.h) (MASK : BitVec 128) (block_offset : Nat) : ∀ s t, Engine.process_block_simd_x86_intrinsics.Alike1 s t →
    Tr.SameSeen Engine.process_block_simd_x86_intrinsics.Alike1 (Engine.process_block_simd_x86_intrinsics.line1_31 cfg self MASK block_offset s) (Engine.process_block_simd_x86_intrinsics.line1_31 cfg self₂ MASK block_offset t) := by
  obtain ⟨hself_1, hself_2⟩ := hself
  rintro ⟨_, _, _, _, _, _, _, _, _, _⟩ ⟨_, _, _, _, _, _, _, _, _, _⟩ -
  unfold Engine.process_block_simd_x86_intrinsics.line1_31
  try dsimp only at *
  repeat same_step

theorem Engine.process_block_simd_x86_intrinsics.line1_32_same (cfg : Cfg) {self self₂ : Source.Sha256.Engine} (hself : Len self.buffer self₂.buffer ∧ Len self.h self₂.h) (MASK : BitVec 128) (block_offset : Nat) : ∀ s t, Engine.process_block_simd_x86_intrinsics.Alike1 s t →
    Tr.SameSeen Engine.process_block_simd_x86_intrinsics.Alike1 (Engine.process_block_simd_x86_intrinsics.line1_32 cfg self MASK block_offset s) (Engine.process_block_simd_x86_intrinsics.line1_32 cfg self₂ MASK block_offset t) := by
  obtain ⟨hself_1, hself_2⟩ := hself
  rintro ⟨_, _, _, _, _, _, _, _, _, _⟩ ⟨_, _, _, _, _, _, _, _, _, _⟩ -
  unfold Engine.process_block_simd_x86_intrinsics.line1_32
  try dsimp only at *
  repeat same_step

theorem Engine.process_block_simd_x86_intrinsics.line1_33_same (cfg : Cfg) {self self₂ : Source.Sha256.Engine} (hself : Len self.buffer self₂.buffer ∧ Len self.h self₂.h) (MASK : BitVec 128) (block_offset : Nat) : ∀ s t, Engine.process_block_simd_x86_intrinsics.Alike1 s t →
    Tr.SameSeen Engine.process_block_simd_x86_intrinsics.Alike1 (Engine.process_block_simd_x86_intrinsics.line1_33 cfg self MASK block_offset s) (Engine.process_block_simd_x86_intrinsics.line1_33 cfg self₂ MASK block_offset t) := by
  obtain ⟨hself_1, hself_2⟩ := hself
  rintro ⟨_, _, _, _, _, _, _, _, _, _⟩ ⟨_, _, _, _, _, _, _, _, _, _⟩ -
  unfold Engine.process_block_simd_x86_intrinsics.line1_33
  try dsimp only at *
  repeat same_step

theorem Engine.process_block_simd_x86_intrinsics.line1_34_same (cfg : Cfg) {self self₂ : Source.Sha256.Engine} (hself : Len self.buffer self₂.buffer ∧ Len self.h self₂.h) (MASK : BitVec 128) (block_offset : Nat) : ∀ s t, Engine.process_block_simd_x86_intrinsics.Alike1 s t →
    Tr.SameSeen Engine.process_block_simd_x86_intrinsics.Alike1 (Engine.process_block_simd_x86_intrinsics.line1_34 cfg self MASK block_offset s) (Engine.process_block_simd_x86_intrinsics.line1_34 cfg self₂ MASK block_offset t) := by
  obtain ⟨hself_1, hself_2⟩ := hself
  rintro ⟨_, _, _, _, _, _, _, _, _, _⟩ ⟨_, _, _, _, _, _, _, _, _, _⟩ -
  unfold Engine.process_block_simd_x86_intrinsics.line1_34
  try dsimp only at *
  repeat same_step

theorem Engine.process_block_simd_x86_intrinsics.line1_35_same (cfg : Cfg) {self self₂ : Source.Sha256.Engine} (hself : Len self.buffer self₂.buffer ∧ Len self.h self₂.h) (MASK : BitVec 128) (block_offset : Nat) : ∀ s t, Engine.process_block_simd_x86_intrinsics.Alike1 s t →
    Tr.SameSeen Engine.process_block_simd_x86_intrinsics.Alike1 (Engine.process_block_simd_x86_intrinsics.line1_35 cfg self MASK block_offset s) (Engine.process_block_simd_x86_intrinsics.line1_35 cfg self₂ MASK block_offset t) := by
  obtain ⟨hself_1, hself_2⟩ := hself
  rintro ⟨_, _, _, _, _, _, _, _, _, _⟩ ⟨_, _, _, _, _, _, _, _, _, _⟩ -
  unfold Engine.process_block_simd_x86_intrinsics.line1_35
  try dsimp only at *
  repeat same_step

theorem Engine.process_block_simd_x86_intrinsics.line1_36_same (cfg : Cfg) {self self₂ : Source.Sha256.Engine} (hself : Len self.buffer self₂.buffer ∧ Len self.h self₂.h) (MASK : BitVec 128) (block_offset : Nat) : ∀ s t, Engine.process_block_simd_x86_intrinsics.Alike1 s t →
    Tr.SameSeen Engine.process_block_simd_x86_intrinsics.Alike1 (Engine.process_block_simd_x86_intrinsics.line1_36 cfg self MASK block_offset s) (Engine.process_block_simd_x86_intrinsics.line1_36 cfg self₂ MASK block_offset t) := by
  obtain ⟨hself_1, hself_2⟩ := hself
  rintro ⟨_, _, _, _, _, _, _, _, _, _⟩ ⟨_, _, _, _, _, _, _, _, _, _⟩ -
  unfold Engine.process_block_simd_x86_intrinsics.line1_36
  try dsimp only at *
  repeat same_step

theorem Engine.process_block_simd_x86_intrinsics.line1_37_same (cfg : Cfg) {self self₂ : Source.Sha256.Engine} (hself : Len self.buffer self₂.buffer ∧ Len self.h self₂.h) (MASK : BitVec 128) (block_offset : Nat) : ∀ s t, Engine.process_block_simd_x86_intrinsics.Alike1 s t →
    Tr.SameSeen Engine.process_block_simd_x86_intrinsics.Alike1 (Engine.process_block_simd_x86_intrinsics.line1_37 cfg self MASK block_offset s) (Engine.process_block_simd_x86_intrinsics.line1_37 cfg self₂ MASK block_offset t) := by
  obtain ⟨hself_1, hself_2⟩ := hself
  rintro ⟨_, _, _, _, _, _, _, _, _, _⟩ ⟨_, _, _, _, _, _, _, _, _, _⟩ -
  unfold Engine.process_block_simd_x86_intrinsics.line1_37
  try dsimp only at *
  repeat same_step

theorem Engine.process_block_simd_x86_intrinsics.line1_38_same (cfg : Cfg) {self self₂ : Source.Sha256.Engine} (hself : Len self.buffer self₂.buffer ∧ Len self.h self₂.h) (MASK : BitVec 128) (block_offset : Nat) : ∀ s t, Engine.process_block_simd_x86_intrinsics.Alike1 s t →
    Tr.SameSeen Engine.process_block_simd_x86_intrinsics.Alike1 (Engine.process_block_simd_x86_intrinsics.line1_38 cfg self MASK block_offset s) (Engine.process_block_simd_x86_intrinsics.line1_38 cfg self₂ MASK block_offset t) := by
  obtain ⟨hself_1, hself_2⟩ := hself
  rintro ⟨_, _, _, _, _, _, _, _, _, _⟩ ⟨_, _, _, _, _, _, _, _, _, _⟩ -
  unfold Engine.process_block_simd_x86_intrinsics.line1_38
  try dsimp only at *
  repeat same_step

theorem Engine.process_block_simd_x86_intrinsics.line1_39_same (cfg : Cfg) {self self₂ : Source.Sha256.Engine} (hself : Len self.buffer self₂.buffer ∧ Len self.h self₂.h) (MASK : BitVec 128) (block_offset : Nat) : ∀ s t, Engine.process_block_simd_x86_intrinsics.Alike1 s t →
    Tr.SameSeen Engine.process_block_simd_x86_intrinsics.Alike1 (Engine.process_block_simd_x86_intrinsics.line1_39 cfg self MASK block_offset s) (Engine.process_block_simd_x86_intrinsics.line1_39 cfg self₂ MASK block_offset t) := by
  obtain ⟨hself_1, hself_2⟩ := hself
  rintro ⟨_, _, _, _, _, _, _, _, _, _⟩ ⟨_, _, _, _, _, _, _, _, _, _⟩ -
  unfold Engine.process_block_simd_x86_intrinsics.line1_39
  try dsimp only at *
  repeat same_step

theorem Engine.process_block_simd_x86_intrinsics.line1_40_same (cfg : Cfg) {self self₂ : Source.Sha256.Engine} (hself : Len self.buffer self₂.buffer ∧ Len self.h self₂.h) (MASK : BitVec 128) (block_offset : Nat) : ∀ s t, Engine.process_block_simd_x86_intrinsics.Alike1 s t →
    Tr.SameSeen Engine.process_block_simd_x86_intrinsics.Alike1 (Engine.process_block_simd_x86_intrinsics.line1_40 cfg self MASK block_offset s) (Engine.process_block_simd_x86_intrinsics.line1_40 cfg self₂ MASK block_offset t) := by
  obtain ⟨hself_1, hself_2⟩ := hself
  rintro ⟨_, _, _, _, _, _, _, _, _, _⟩ ⟨_, _, _, _, _, _, _, _, _, _⟩ -
  unfold Engine.process_block_simd_x86_intrinsics.line1_40
  try dsimp only at *
  repeat same_step

theorem Engine.process_block_simd_x86_intrinsics.line1_41_same (cfg : Cfg) {self self₂ : Source.Sha256.Engine} (hself : Len self.buffer self₂.buffer ∧ Len self.h self₂.h) (MASK : BitVec 128) (block_offset : Nat) : ∀ s t, Engine.process_block_simd_x86_intrinsics.Alike1 s t →
    Tr.SameSeen Engine.process_block_simd_x86_intrinsics.Alike1 (Engine.process_block_simd_x86_intrinsics.line1_41 cfg self MASK block_offset s) (Engine.process_block_simd_x86_intrinsics.line1_41 cfg self₂ MASK block_offset t) := by
  obtain ⟨hself_1, hself_2⟩ := hself
  rintro ⟨_, _, _, _, _, _, _, _, _, _⟩ ⟨_, _, _, _, _, _, _, _, _, _⟩ -
  unfold Engine.process_block_simd_x86_intrinsics.line1_41
  try dsimp only at *
  repeat same_step

theorem Engine.process_block_simd_x86_intrinsics.line1_42_same (cfg : Cfg) {self self₂ : Source.Sha256.Engine} (hself : Len self.buffer self₂.buffer ∧ Len self.h self₂.h) (MASK : BitVec 128) (block_offset : Nat) : ∀ s t, Engine.process_block_simd_x86_intrinsics.Alike1 s t →
    Tr.SameSeen Engine.process_block_simd_x86_intrinsics.Alike1 (Engine.process_block_simd_x86_intrinsics.line1_42 cfg self MASK block_offset s) (Engine.process_block_simd_x86_intrinsics.line1_42 cfg self₂ MASK block_offset t) := by
  obtain ⟨hself_1, hself_2⟩ := hself
  rintro ⟨_, _, _, _, _, _, _, _, _, _⟩ ⟨_, _, _, _, _, _, _, _, _, _⟩ -
  unfold Engine.process_block_simd_x86_intrinsics.line1_42
  try dsimp only at *
  repeat same_step

theorem Engine.process_block_simd_x86_intrinsics.line1_43_same (cfg : Cfg) {self self₂ : Source.Sha256.Engine} (hself : Len self.buffer self₂.buffer ∧ Len self.h self₂.h) (MASK : BitVec 128) (block_offset : Nat) : ∀ s t, Engine.process_block_simd_x86_intrinsics.Alike1 s t →
    Tr.SameSeen Engine.process_block_simd_x86_intrinsics.Alike1 (Engine.process_block_simd_x86_intrinsics.line1_43 cfg self MASK block_offset s) (Engine.process_block_simd_x86_intrinsics.line1_43 cfg self₂ MASK block_offset t) := by
  obtain ⟨hself_1, hself_2⟩ := hself
  rintro ⟨_, _, _, _, _, _, _, _, _, _⟩ ⟨_, _, _, _, _, _, _, _, _, _⟩ -
  unfold Engine.process_block_simd_x86_intrinsics.line1_43
  try dsimp only at *
  repeat same_step

theorem Engine.process_block_simd_x86_intrinsics.line1_44_same (cfg : Cfg) {self self₂ : Source.Sha256.Engine} (hself : Len self.buffer self₂.buffer ∧ Len self.h self₂.h) (MASK : BitVec 128) (block_offset : Nat) : ∀ s t, Engine.process_block_simd_x86_intrinsics.Alike1 s t →
    Tr.SameSeen Engine.process_block_simd_x86_intrinsics.Alike1 (Engine.process_block_simd_x86_intrinsics.line1_44 cfg self MASK block_offset s) (Engine.process_block_simd_x86_intrinsics.line1_44 cfg self₂ MASK block_offset t) := by
  obtain ⟨hself_1, hself_2⟩ := hself
  rintro ⟨_, _, _, _, _, _, _, _, _, _⟩ ⟨_, _, _, _, _, _, _, _, _, _⟩ -
  unfold Engine.process_block_simd_x86_intrinsics.line1_44
  try dsimp only at *
  repeat same_step

theorem Engine.process_block_simd_x86_intrinsics.line1_45_same (cfg : Cfg) {self self₂ : Source.Sha256.Engine} (hself : Len self.buffer self₂.buffer ∧ Len self.h self₂.h) (MASK : BitVec 128) (block_offset : Nat) : ∀ s t, Engine.process_block_simd_x86_intrinsics.Alike1 s t →
    Tr.SameSeen Engine.process_block_simd_x86_intrinsics.Alike1 (Engine.process_block_simd_x86_intrinsics.line1_45 cfg self MASK block_offset s) (Engine.process_block_simd_x86_intrinsics.line1_45 cfg self₂ MASK block_offset t) := by
  obtain ⟨hself_1, hself_2⟩ := hself
  rintro ⟨_, _, _, _, _, _, _, _, _, _⟩ ⟨_, _, _, _, _, _, _, _, _, _⟩ -
  unfold Engine.process_block_simd_x86_intrinsics.line1_45
  try dsimp only at *
  repeat same_step

theorem Engine.process_block_simd_x86_intrinsics.line1_46_same (cfg : Cfg) {self self₂ : Source.Sha256.Engine} (hself : Len self.buffer self₂.buffer ∧ Len self.h self₂.h) (MASK : BitVec 128) (block_offset : Nat) : ∀ s t, Engine.process_block_simd_x86_intrinsics.Alike1 s t →
    Tr.SameSeen Engine.process_block_simd_x86_intrinsics.Alike1 (Engine.process_block_simd_x86_intrinsics.line1_46 cfg self MASK block_offset s) (Engine.process_block_simd_x86_intrinsics.line1_46 cfg self₂ MASK block_offset t) := by
  obtain ⟨hself_1, hself_2⟩ := hself
  rintro ⟨_, _, _, _, _, _, _, _, _, _⟩ ⟨_, _, _, _, _, _, _, _, _, _⟩ -
  unfold Engine.process_block_simd_x86_intrinsics.line1_46
  try dsimp only at *
  repeat same_step

theorem Engine.process_block_simd_x86_intrinsics.line1_47_same (cfg : Cfg) {self self₂ : Source.Sha256.Engine} (hself : Len self.buffer self₂.buffer ∧ Len self.h self₂.h) (MASK : BitVec 128) (block_offset : Nat) : ∀ s t, Engine.process_block_simd_x86_intrinsics.Alike1 s t →
    Tr.SameSeen Engine.process_block_simd_x86_intrinsics.Alike1 (Engine.process_block_simd_x86_intrinsics.line1_47 cfg self MASK block_offset s) (Engine.process_block_simd_x86_intrinsics.line1_47 cfg self₂ MASK block_offset t) := by
  obtain ⟨hself_1, hself_2⟩ := hself
  rintro ⟨_, _, _, _, _, _, _, _, _, _⟩ ⟨_, _, _, _, _, _, _, _, _, _⟩ -
  unfold Engine.process_block_simd_x86_intrinsics.line1_47
  try dsimp only at *
  repeat same_step

theorem Engine.process_block_simd_x86_intrinsics.line1_48_same (cfg : Cfg) {self self₂ : Source.Sha256.Engine} (hself : Len self.buffer self₂.buffer ∧ Len self.h self₂.h) (MASK : BitVec 128) (block_offset : Nat) : ∀ s t, Engine.process_block_simd_x86_intrinsics.Alike1 s t →
    Tr.SameSeen Engine.process_block_simd_x86_intrinsics.Alike1 (Engine.process_block_simd_x86_intrinsics.line1_48 cfg self MASK block_offset s) (Engine.process_block_simd_x86_intrinsics.line1_48 cfg self₂ MASK block_offset t) := by
  obtain ⟨hself_1, hself_2⟩ := hself
  rintro ⟨_, _, _, _, _, _, _, _, _, _⟩ ⟨_, _, _, _, _, _, _, _, _, _⟩ -
  unfold Engine.process_block_simd_x86_intrinsics.line1_48
  try dsimp only at *
  repeat same_step

theorem Engine.process_block_simd_x86_intrinsics.line1_49_same (cfg : Cfg) {self self₂ : Source.Sha256.Engine} (hself : Len self.buffer self₂.buffer ∧ Len self.h self₂.h) (MASK : BitVec 128) (block_offset : Nat) : ∀ s t, Engine.process_block_simd_x86_intrinsics.Alike1 s t →
    Tr.SameSeen Engine.process_block_simd_x86_intrinsics.Alike1 (Engine.process_block_simd_x86_intrinsics.line1_49 cfg self MASK block_offset s) (Engine.process_block_simd_x86_intrinsics.line1_49 cfg self₂ MASK block_offset t) := by
  obtain ⟨hself_1, hself_2⟩ := hself
  rintro ⟨_, _, _, _, _, _, _, _, _, _⟩ ⟨_, _, _, _, _, _, _, _, _, _⟩ -
  unfold Engine.process_block_simd_x86_intrinsics.line1_49
  try dsimp only at *
  repeat same_step

theorem Engine.process_block_simd_x86_intrinsics.line1_50_same (cfg : Cfg) {self self₂ : Source.Sha256.Engine} (hself : Len self.buffer self₂.buffer ∧ Len self.h self₂.h) (MASK : BitVec 128) (block_offset : Nat) : ∀ s t, Engine.process_block_simd_x86_intrinsics.Alike1 s t →
    Tr.SameSeen Engine.process_block_simd_x86_intrinsics.Alike1 (Engine.process_block_simd_x86_intrinsics.line1_50 cfg self MASK block_offset s) (Engine.process_block_simd_x86_intrinsics.line1_50 cfg self₂ MASK block_offset t) := by
  obtain ⟨hself_1, hself_2⟩ := hself
  rintro ⟨_, _, _, _, _, _, _, _, _, _⟩ ⟨_, _, _, _, _, _, _, _, _, _⟩ -
  unfold Engine.process_block_simd_x86_intrinsics.line1_50
  try dsimp only at *
  repeat same_step

theorem Engine.process_block_simd_x86_intrinsics.line1_51_same (cfg : Cfg) {self self₂ : Source.Sha256.Engine} (hself : Len self.buffer self₂.buffer ∧ Len self.h self₂.h) (MASK : BitVec 128) (block_offset : Nat) : ∀ s t, Engine.process_block_simd_x86_intrinsics.Alike1 s t →
    Tr.SameSeen Engine.process_block_simd_x86_intrinsics.Alike1 (Engine.process_block_simd_x86_intrinsics.line1_51 cfg self MASK block_offset s) (Engine.process_block_simd_x86_intrinsics.line1_51 cfg self₂ MASK block_offset t) := by
  obtain ⟨hself_1, hself_2⟩ := hself
  rintro ⟨_, _, _, _, _, _, _, _, _, _⟩ ⟨_, _, _, _, _, _, _, _, _, _⟩ -
  unfold Engine.process_block_simd_x86_intrinsics.line1_51
  try dsimp only at *
  repeat same_step

theorem Engine.process_block_simd_x86_intrinsics.line1_52_same (cfg : Cfg) {self self₂ : Source.Sha256.Engine} (hself : Len self.buffer self₂.buffer ∧ Len self.h self₂.h) (MASK : BitVec 128) (block_offset : Nat) : ∀ s t, Engine.process_block_simd_x86_intrinsics.Alike1 s t →
    Tr.SameSeen Engine.process_block_simd_x86_intrinsics.Alike1 (Engine.process_block_simd_x86_intrinsics.line1_52 cfg self MASK block_offset s) (Engine.process_block_simd_x86_intrinsics.line1_52 cfg self₂ MASK block_offset t) := by
  obtain ⟨hself_1, hself_2⟩ := hself
  rintro ⟨_, _, _, _, _, _, _, _, _, _⟩ ⟨_, _, _, _, _, _, _, _, _, _⟩ -
  unfold Engine.process_block_simd_x86_intrinsics.line1_52
  try dsimp only at *
  repeat same_step

theorem Engine.process_block_simd_x86_intrinsics.line1_53_same (cfg : Cfg) {self self₂ : Source.Sha256.Engine} (hself : Len self.buffer self₂.buffer ∧ Len self.h self₂.h) (MASK : BitVec 128) (block_offset : Nat) : ∀ s t, Engine.process_block_simd_x86_intrinsics.Alike1 s t →
    Tr.SameSeen Engine.process_block_simd_x86_intrinsics.Alike1 (Engine.process_block_simd_x86_intrinsics.line1_53 cfg self MASK block_offset s) (Engine.process_block_simd_x86_intrinsics.line1_53 cfg self₂ MASK block_offset t) := by
  obtain ⟨hself_1, hself_2⟩ := hself
  rintro ⟨_, _, _, _, _, _, _, _, _, _⟩ ⟨_, _, _, _, _, _, _, _, _, _⟩ -
  unfold Engine.process_block_simd_x86_intrinsics.line1_53
  try dsimp only at *
  repeat same_step

theorem Engine.process_block_simd_x86_intrinsics.line1_54_same (cfg : Cfg) {self self₂ : Source.Sha256.Engine} (hself : Len self.buffer self₂.buffer ∧ Len self.h self₂.h) (MASK : BitVec 128) (block_offset : Nat) : ∀ s t, Engine.process_block_simd_x86_intrinsics.Alike1 s t →
    Tr.SameSeen Engine.process_block_simd_x86_intrinsics.Alike1 (Engine.process_block_simd_x86_intrinsics.line1_54 cfg self MASK block_offset s) (Engine.process_block_simd_x86_intrinsics.line1_54 cfg self₂ MASK block_offset t) := by
  obtain ⟨hself_1, hself_2⟩ := hself
  rintro ⟨_, _, _, _, _, _, _, _, _, _⟩ ⟨_, _, _, _, _, _, _, _, _, _⟩ -
  unfold Engine.process_block_simd_x86_intrinsics.line1_54
  try dsimp only at *
  repeat same_step

theorem Engine.process_block_simd_x86_intrinsics.line1_55_same (cfg : Cfg) {self self₂ : Source.Sha256.Engine} (hself : Len self.buffer self₂.buffer ∧ Len self.h self₂.h) (MASK : BitVec 128) (block_offset : Nat) : ∀ s t, Engine.process_block_simd_x86_intrinsics.Alike1 s t →
    Tr.SameSeen Engine.process_block_simd_x86_intrinsics.Alike1 (Engine.process_block_simd_x86_intrinsics.line1_55 cfg self MASK block_offset s) (Engine.process_block_simd_x86_intrinsics.line1_55 cfg self₂ MASK block_offset t) := by
  obtain ⟨hself_1, hself_2⟩ := hself
  rintro ⟨_, _, _, _, _, _, _, _, _, _⟩ ⟨_, _, _, _, _, _, _, _, _, _⟩ -
  unfold Engine.process_block_simd_x86_intrinsics.line1_55
  try dsimp only at *
  repeat same_step

theorem Engine.process_block_simd_x86_intrinsics.line1_56_same (cfg : Cfg) {self self₂ : Source.Sha256.Engine} (hself : Len self.buffer self₂.buffer ∧ Len self.h self₂.h) (MASK : BitVec 128) (block_offset : Nat) : ∀ s t, Engine.process_block_simd_x86_intrinsics.Alike1 s t →
    Tr.SameSeen Engine.process_block_simd_x86_intrinsics.Alike1 (Engine.process_block_simd_x86_intrinsics.line1_56 cfg self MASK block_offset s) (Engine.process_block_simd_x86_intrinsics.line1_56 cfg self₂ MASK block_offset t) := by
  obtain ⟨hself_1, hself_2⟩ := hself
  rintro ⟨_, _, _, _, _, _, _, _, _, _⟩ ⟨_, _, _, _, _, _, _, _, _, _⟩ -
  unfold Engine.process_block_simd_x86_intrinsics.line1_56
  try dsimp only at *
  repeat same_step

theorem Engine.process_block_simd_x86_intrinsics.line1_57_same (cfg : Cfg) {self self₂ : Source.Sha256.Engine} (hself : Len self.buffer self₂.buffer ∧ Len self.h self₂.h) (MASK : BitVec 128) (block_offset : Nat) : ∀ s t, Engine.process_block_simd_x86_intrinsics.Alike1 s t →
    Tr.SameSeen Engine.process_block_simd_x86_intrinsics.Alike1 (Engine.process_block_simd_x86_intrinsics.line1_57 cfg self MASK block_offset s) (Engine.process_block_simd_x86_intrinsics.line1_57 cfg self₂ MASK block_offset t) := by
  obtain ⟨hself_1, hself_2⟩ := hself
  rintro ⟨_, _, _, _, _, _, _, _, _, _⟩ ⟨_, _, _, _, _, _, _, _, _, _⟩ -
  unfold Engine.process_block_simd_x86_intrinsics.line1_57
  try dsimp only at *
  repeat same_step

theorem Engine.process_block_simd_x86_intrinsics.line1_58_same (cfg : Cfg) {self self₂ : Source.Sha256.Engine} (hself : Len self.buffer self₂.buffer ∧ Len self.h self₂.h) (MASK : BitVec 128) (block_offset : Nat) : ∀ s t, Engine.process_block_simd_x86_intrinsics.Alike1 s t →
    Tr.SameSeen Engine.process_block_simd_x86_intrinsics.Alike1 (Engine.process_block_simd_x86_intrinsics.line1_58 cfg self MASK block_offset s) (Engine.process_block_simd_x86_intrinsics.line1_58 cfg self₂ MASK block_offset t) := by
  obtain ⟨hself_1, hself_2⟩ := hself
  rintro ⟨_, _, _, _, _, _, _, _, _, _⟩ ⟨_, _, _, _, _, _, _, _, _, _⟩ -
  unfold Engine.process_block_simd_x86_intrinsics.line1_58
  try dsimp only at *
  repeat same_step

theorem Engine.process_block_simd_x86_intrinsics.line1_59_same (cfg : Cfg) {self self₂ : Source.Sha256.Engine} (hself : Len self.buffer self₂.buffer ∧ Len self.h self₂.h) (MASK : BitVec 128) (block_offset : Nat) : ∀ s t, Engine.process_block_simd_x86_intrinsics.Alike1 s t →
    Tr.SameSeen Engine.process_block_simd_x86_intrinsics.Alike1 (Engine.process_block_simd_x86_intrinsics.line1_59 cfg self MASK block_offset s) (Engine.process_block_simd_x86_intrinsics.line1_59 cfg self₂ MASK block_offset t) := by
  obtain ⟨hself_1, hself_2⟩ := hself
  rintro ⟨_, _, _, _, _, _, _, _, _, _⟩ ⟨_, _, _, _, _, _, _, _, _, _⟩ -
  unfold Engine.process_block_simd_x86_intrinsics.line1_59
  try dsimp only at *
  repeat same_step

theorem Engine.process_block_simd_x86_intrinsics.line1_60_same (cfg : Cfg) {self self₂ : Source.Sha256.Engine} (hself : Len self.buffer self₂.buffer ∧ Len self.h self₂.h) (MASK : BitVec 128) (block_offset : Nat) : ∀ s t, Engine.process_block_simd_x86_intrinsics.Alike1 s t →
    Tr.SameSeen Engine.process_block_simd_x86_intrinsics.Alike1 (Engine.process_block_simd_x86_intrinsics.line1_60 cfg self MASK block_offset s) (Engine.process_block_simd_x86_intrinsics.line1_60 cfg self₂ MASK block_offset t) := by
  obtain ⟨hself_1, hself_2⟩ := hself
  rintro ⟨_, _, _, _, _, _, _, _, _, _⟩ ⟨_, _, _, _, _, _, _, _, _, _⟩ -
  unfold Engine.process_block_simd_x86_intrinsics.line1_60
  try dsimp only at *
  repeat same_step

theorem Engine.process_block_simd_x86_intrinsics.line1_61_same (cfg : Cfg) {self self₂ : Source.Sha256.Engine} (hself : Len self.buffer self₂.buffer ∧ Len self.h self₂.h) (MASK : BitVec 128) (block_offset : Nat) : ∀ s t, Engine.process_block_simd_x86_intrinsics.Alike1 s t →
    Tr.SameSeen Engine.process_block_simd_x86_intrinsics.Alike1 (Engine.process_block_simd_x86_intrinsics.line1_61 cfg self MASK block_offset s) (Engine.process_block_simd_x86_intrinsics.line1_61 cfg self₂ MASK block_offset t) := by
  obtain ⟨hself_1, hself_2⟩ := hself
  rintro ⟨_, _, _, _, _, _, _, _, _, _⟩ ⟨_, _, _, _, _, _, _, _, _, _⟩ -
  unfold Engine.process_block_simd_x86_intrinsics.line1_61
  try dsimp only at *
  repeat same_step

theorem Engine.process_block_simd_x86_intrinsics.line1_62_same (cfg : Cfg) {self self₂ : Source.Sha256.Engine} (hself : Len self.buffer self₂.buffer ∧ Len self.h self₂.h) (MASK : BitVec 128) (block_offset : Nat) : ∀ s t, Engine.process_block_simd_x86_intrinsics.Alike1 s t →
    Tr.SameSeen Engine.process_block_simd_x86_intrinsics.Alike1 (Engine.process_block_simd_x86_intrinsics.line1_62 cfg self MASK block_offset s) (Engine.process_block_simd_x86_intrinsics.line1_62 cfg self₂ MASK block_offset t) := by
  obtain ⟨hself_1, hself_2⟩ := hself
  rintro ⟨_, _, _, _, _, _, _, _, _, _⟩ ⟨_, _, _, _, _, _, _, _, _, _⟩ -
  unfold Engine.process_block_simd_x86_intrinsics.line1_62
  try dsimp only at *
  repeat same_step

theorem Engine.process_block_simd_x86_intrinsics.line1_63_same (cfg : Cfg) {self self₂ : Source.Sha256.Engine} (hself : Len self.buffer self₂.buffer ∧ Len self.h self₂.h) (MASK : BitVec 128) (block_offset : Nat) : ∀ s t, Engine.process_block_simd_x86_intrinsics.Alike1 s t →
    Tr.SameSeen Engine.process_block_simd_x86_intrinsics.Alike1 (Engine.process_block_simd_x86_intrinsics.line1_63 cfg self MASK block_offset s) (Engine.process_block_simd_x86_intrinsics.line1_63 cfg self₂ MASK block_offset t) := by
  obtain ⟨hself_1, hself_2⟩ := hself
  rintro ⟨_, _, _, _, _, _, _, _, _, _⟩ ⟨_, _, _, _, _, _, _, _, _, _⟩ -
  unfold Engine.process_block_simd_x86_intrinsics.line1_63
  try dsimp only at *
  repeat same_step

theorem Engine.process_block_simd_x86_intrinsics.line1_64_same (cfg : Cfg) {self self₂ : Source.Sha256.Engine} (hself : Len self.buffer self₂.buffer ∧ Len self.h self₂.h) (MASK : BitVec 128) (block_offset : Nat) : ∀ s t, Engine.process_block_simd_x86_intrinsics.Alike1 s t →
    Tr.SameSeen Engine.process_block_simd_x86_intrinsics.Alike1 (Engine.process_block_simd_x86_intrinsics.line1_64 cfg self MASK block_offset s) (Engine.process_block_simd_x86_intrinsics.line1_64 cfg self₂ MASK block_offset t) := by
  obtain ⟨hself_1, hself_2⟩ := hself
  rintro ⟨_, _, _, _, _, _, _, _, _, _⟩ ⟨_, _, _, _, _, _, _, _, _, _⟩ -
  unfold Engine.process_block_simd_x86_intrinsics.line1_64
  try dsimp only at *
  repeat same_step

theorem Engine.process_block_simd_x86_intrinsics.line1_65_same (cfg : Cfg) {self self₂ : Source.Sha256.Engine} (hself : Len self.buffer self₂.buffer ∧ Len self.h self₂.h) (MASK : BitVec 128) (block_offset : Nat) : ∀ s t, Engine.process_block_simd_x86_intrinsics.Alike1 s t →
    Tr.SameSeen Engine.process_block_simd_x86_intrinsics.Alike1 (Engine.process_block_simd_x86_intrinsics.line1_65 cfg self MASK block_offset s) (Engine.process_block_simd_x86_intrinsics.line1_65 cfg self₂ MASK block_offset t) := by
  obtain ⟨hself_1, hself_2⟩ := hself
  rintro ⟨_, _, _, _, _, _, _, _, _, _⟩ ⟨_, _, _, _, _, _, _, _, _, _⟩ -
  unfold Engine.process_block_simd_x86_intrinsics.line1_65
  try dsimp only at *
  repeat same_step

theorem Engine.process_block_simd_x86_intrinsics.line1_66_same (cfg : Cfg) {self self₂ : Source.Sha256.Engine} (hself : Len self.buffer self₂.buffer ∧ Len self.h self₂.h) (MASK : BitVec 128) (block_offset : Nat) : ∀ s t, Engine.process_block_simd_x86_intrinsics.Alike1 s t →
    Tr.SameSeen Engine.process_block_simd_x86_intrinsics.Alike1 (Engine.process_block_simd_x86_intrinsics.line1_66 cfg self MASK block_offset s) (Engine.process_block_simd_x86_intrinsics.line1_66 cfg self₂ MASK block_offset t) := by
  obtain ⟨hself_1, hself_2⟩ := hself
  rintro ⟨_, _, _, _, _, _, _, _, _, _⟩ ⟨_, _, _, _, _, _, _, _, _, _⟩ -
  unfold Engine.process_block_simd_x86_intrinsics.line1_66
  try dsimp only at *
  repeat same_step

theorem Engine.process_block_simd_x86_intrinsics.line1_67_same (cfg : Cfg) {self self₂ : Source.Sha256.Engine} (hself : Len self.buffer self₂.buffer ∧ Len self.h self₂.h) (MASK : BitVec 128) (block_offset : Nat) : ∀ s t, Engine.process_block_simd_x86_intrinsics.Alike1 s t →
    Tr.SameSeen Engine.process_block_simd_x86_intrinsics.Alike1 (Engine.process_block_simd_x86_intrinsics.line1_67 cfg self MASK block_offset s) (Engine.process_block_simd_x86_intrinsics.line1_67 cfg self₂ MASK block_offset t) := by
  obtain ⟨hself_1, hself_2⟩ := hself
  rintro ⟨_, _, _, _, _, _, _, _, _, _⟩ ⟨_, _, _, _, _, _, _, _, _, _⟩ -
  unfold Engine.process_block_simd_x86_intrinsics.line1_67
  try dsimp only at *
  repeat same_step

theorem Engine.process_block_simd_x86_intrinsics.line1_68_same (cfg : Cfg) {self self₂ : Source.Sha256.Engine} (hself : Len self.buffer self₂.buffer ∧ Len self.h self₂.h) (MASK : BitVec 128) (block_offset : Nat) : ∀ s t, Engine.process_block_simd_x86_intrinsics.Alike1 s t →
    Tr.SameSeen Engine.process_block_simd_x86_intrinsics.Alike1 (Engine.process_block_simd_x86_intrinsics.line1_68 cfg self MASK block_offset s) (Engine.process_block_simd_x86_intrinsics.line1_68 cfg self₂ MASK block_offset t) := by
  obtain ⟨hself_1, hself_2⟩ := hself
  rintro ⟨_, _, _, _, _, _, _, _, _, _⟩ ⟨_, _, _, _, _, _, _, _, _, _⟩ -
  unfold Engine.process_block_simd_x86_intrinsics.line1_68
  try dsimp only at *
  repeat same_step

theorem Engine.process_block_simd_x86_intrinsics.line1_69_same (cfg : Cfg) {self self₂ : Source.Sha256.Engine} (hself : Len self.buffer self₂.buffer ∧ Len self.h self₂.h) (MASK : BitVec 128) (block_offset : Nat) : ∀ s t, Engine.process_block_simd_x86_intrinsics.Alike1 s t →
    Tr.SameSeen Engine.process_block_simd_x86_intrinsics.Alike1 (Engine.process_block_simd_x86_intrinsics.line1_69 cfg self MASK block_offset s) (Engine.process_block_simd_x86_intrinsics.line1_69 cfg self₂ MASK block_offset t) := by
  obtain ⟨hself_1, hself_2⟩ := hself
  rintro ⟨_, _, _, _, _, _, _, _, _, _⟩ ⟨_, _, _, _, _, _, _, _, _, _⟩ -
  unfold Engine.process_block_simd_x86_intrinsics.line1_69
  try dsimp only at *
  repeat same_step

theorem Engine.process_block_simd_x86_intrinsics.line1_70_same (cfg : Cfg) {self self₂ : Source.Sha256.Engine} (hself : Len self.buffer self₂.buffer ∧ Len self.h self₂.h) (MASK : BitVec 128) (block_offset : Nat) : ∀ s t, Engine.process_block_simd_x86_intrinsics.Alike1 s t →
    Tr.SameSeen Engine.process_block_simd_x86_intrinsics.Alike1 (Engine.process_block_simd_x86_intrinsics.line1_70 cfg self MASK block_offset s) (Engine.process_block_simd_x86_intrinsics.line1_70 cfg self₂ MASK block_offset t) := by
  obtain ⟨hself_1, hself_2⟩ := hself
  rintro ⟨_, _, _, _, _, _, _, _, _, _⟩ ⟨_, _, _, _, _, _, _, _, _, _⟩ -
  unfold Engine.process_block_simd_x86_intrinsics.line1_70
  try dsimp only at *
  repeat same_step

theorem Engine.process_block_simd_x86_intrinsics.line1_71_same (cfg : Cfg) {self self₂ : Source.Sha256.Engine} (hself : Len self.buffer self₂.buffer ∧ Len self.h self₂.h) (MASK : BitVec 128) (block_offset : Nat) : ∀ s t, Engine.process_block_simd_x86_intrinsics.Alike1 s t →
    Tr.SameSeen Engine.process_block_simd_x86_intrinsics.Alike1 (Engine.process_block_simd_x86_intrinsics.line1_71 cfg self MASK block_offset s) (Engine.process_block_simd_x86_intrinsics.line1_71 cfg self₂ MASK block_offset t) := by
  obtain ⟨hself_1, hself_2⟩ := hself
  rintro ⟨_, _, _, _, _, _, _, _, _, _⟩ ⟨_, _, _, _, _, _, _, _, _, _⟩ -
  unfold Engine.process_block_simd_x86_intrinsics.line1_71
  try dsimp only at *
  repeat same_step

theorem Engine.process_block_simd_x86_intrinsics.line1_72_same (cfg : Cfg) {self self₂ : Source.Sha256.Engine} (hself : Len self.buffer self₂.buffer ∧ Len self.h self₂.h) (MASK : BitVec 128) (block_offset : Nat) : ∀ s t, Engine.process_block_simd_x86_intrinsics.Alike1 s t →
    Tr.SameSeen Engine.process_block_simd_x86_intrinsics.Alike1 (Engine.process_block_simd_x86_intrinsics.line1_72 cfg self MASK block_offset s) (Engine.process_block_simd_x86_intrinsics.line1_72 cfg self₂ MASK block_offset t) := by
  obtain ⟨hself_1, hself_2⟩ := hself
  rintro ⟨_, _, _, _, _, _, _, _, _, _⟩ ⟨_, _, _, _, _, _, _, _, _, _⟩ -
  unfold Engine.process_block_simd_x86_intrinsics.line1_72
  try dsimp only at *
  repeat same_step

theorem Engine.process_block_simd_x86_intrinsics.line1_73_same (cfg : Cfg) {self self₂ : Source.Sha256.Engine} (hself : Len self.buffer self₂.buffer ∧ Len self.h self₂.h) (MASK : BitVec 128) (block_offset : Nat) : ∀ s t, Engine.process_block_simd_x86_intrinsics.Alike1 s t →
    Tr.SameSeen Engine.process_block_simd_x86_intrinsics.Alike1 (Engine.process_block_simd_x86_intrinsics.line1_73 cfg self MASK block_offset s) (Engine.process_block_simd_x86_intrinsics.line1_73 cfg self₂ MASK block_offset t) := by
  obtain ⟨hself_1, hself_2⟩ := hself
  rintro ⟨_, _, _, _, _, _, _, _, _, _⟩ ⟨_, _, _, _, _, _, _, _, _, _⟩ -
  unfold Engine.process_block_simd_x86_intrinsics.line1_73
  try dsimp only at *
  repeat same_step

theorem Engine.process_block_simd_x86_intrinsics.line1_74_same (cfg : Cfg) {self self₂ : Source.Sha256.Engine} (hself : Len self.buffer self₂.buffer ∧ Len self.h self₂.h) (MASK : BitVec 128) (block_offset : Nat) : ∀ s t, Engine.process_block_simd_x86_intrinsics.Alike1 s t →
    Tr.SameSeen Engine.process_block_simd_x86_intrinsics.Alike1 (Engine.process_block_simd_x86_intrinsics.line1_74 cfg self MASK block_offset s) (Engine.process_block_simd_x86_intrinsics.line1_74 cfg self₂ MASK block_offset t) := by
  obtain ⟨hself_1, hself_2⟩ := hself
  rintro ⟨_, _, _, _, _, _, _, _, _, _⟩ ⟨_, _, _, _, _, _, _, _, _, _⟩ -
  unfold Engine.process_block_simd_x86_intrinsics.line1_74
  try dsimp only at *
  repeat same_step

theorem Engine.process_block_simd_x86_intrinsics.line1_75_same (cfg : Cfg) {self self₂ : Source.Sha256.Engine} (hself : Len self.buffer self₂.buffer ∧ Len self.h self₂.h) (MASK : BitVec 128) (block_offset : Nat) : ∀ s t, Engine.process_block_simd_x86_intrinsics.Alike1 s t →
    Tr.SameSeen Engine.process_block_simd_x86_intrinsics.Alike1 (Engine.process_block_simd_x86_intrinsics.line1_75 cfg self MASK block_offset s) (Engine.process_block_simd_x86_intrinsics.line1_75 cfg self₂ MASK block_offset t) := by
  obtain ⟨hself_1, hself_2⟩ := hself
  rintro ⟨_, _, _, _, _, _, _, _, _, _⟩ ⟨_, _, _, _, _, _, _, _, _, _⟩ -
  unfold Engine.process_block_simd_x86_intrinsics.line1_75
  try dsimp only at *
  repeat same_step

theorem Engine.process_block_simd_x86_intrinsics.line1_76_same (cfg : Cfg) {self self₂ : Source.Sha256.Engine} (hself : Len self.buffer self₂.buffer ∧ Len self.h self₂.h) (MASK : BitVec 128) (block_offset : Nat) : ∀ s t, Engine.process_block_simd_x86_intrinsics.Alike1 s t →
    Tr.SameSeen Engine.process_block_simd_x86_intrinsics.Alike1 (Engine.process_block_simd_x86_intrinsics.line1_76 cfg self MASK block_offset s) (Engine.process_block_simd_x86_intrinsics.line1_76 cfg self₂ MASK block_offset t) := by
  obtain ⟨hself_1, hself_2⟩ := hself
  rintro ⟨_, _, _, _, _, _, _, _, _, _⟩ ⟨_, _, _, _, _, _, _, _, _, _⟩ -
  unfold Engine.process_block_simd_x86_intrinsics.line1_76
  try dsimp only at *
  repeat same_step

theorem Engine.process_block_simd_x86_intrinsics.line1_77_same (cfg : Cfg) {self self₂ : Source.Sha256.Engine} (hself : Len self.buffer self₂.buffer ∧ Len self.h self₂.h) (MASK : BitVec 128) (block_offset : Nat) : ∀ s t, Engine.process_block_simd_x86_intrinsics.Alike1 s t →
    Tr.SameSeen Engine.process_block_simd_x86_intrinsics.Alike1 (Engine.process_block_simd_x86_intrinsics.line1_77 cfg self MASK block_offset s) (Engine.process_block_simd_x86_intrinsics.line1_77 cfg self₂ MASK block_offset t) := by
  obtain ⟨hself_1, hself_2⟩ := hself
  rintro ⟨_, _, _, _, _, _, _, _, _, _⟩ ⟨_, _, _, _, _, _, _, _, _, _⟩ -
  unfold Engine.process_block_simd_x86_intrinsics.line1_77
  try dsimp only at *
  repeat same_step

theorem Engine.process_block_simd_x86_intrinsics.line1_78_same (cfg : Cfg) {self self₂ : Source.Sha256.Engine} (hself : Len self.buffer self₂.buffer ∧ Len self.h self₂.h) (MASK : BitVec 128) (block_offset : Nat) : ∀ s t, Engine.process_block_simd_x86_intrinsics.Alike1 s t →
    Tr.SameSeen Engine.process_block_simd_x86_intrinsics.Alike1 (Engine.process_block_simd_x86_intrinsics.line1_78 cfg self MASK block_offset s) (Engine.process_block_simd_x86_intrinsics.line1_78 cfg self₂ MASK block_offset t) := by
  obtain ⟨hself_1, hself_2⟩ := hself
  rintro ⟨_, _, _, _, _, _, _, _, _, _⟩ ⟨_, _, _, _, _, _, _, _, _, _⟩ -
  unfold Engine.process_block_simd_x86_intrinsics.line1_78
  try dsimp only at *
  repeat same_step

theorem Engine.process_block_simd_x86_intrinsics.line1_79_same (cfg : Cfg) {self self₂ : Source.Sha256.Engine} (hself : Len self.buffer self₂.buffer ∧ Len self.h self₂.h) (MASK : BitVec 128) (block_offset : Nat) : ∀ s t, Engine.process_block_simd_x86_intrinsics.Alike1 s t →
    Tr.SameSeen Engine.process_block_simd_x86_intrinsics.Alike1 (Engine.process_block_simd_x86_intrinsics.line1_79 cfg self MASK block_offset s) (Engine.process_block_simd_x86_intrinsics.line1_79 cfg self₂ MASK block_offset t) := by
  obtain ⟨hself_1, hself_2⟩ := hself
  rintro ⟨_, _, _, _, _, _, _, _, _, _⟩ ⟨_, _, _, _, _, _, _, _, _, _⟩ -
  unfold Engine.process_block_simd_x86_intrinsics.line1_79
  try dsimp only at *
  repeat same_step

theorem Engine.process_block_simd_x86_intrinsics.line1_80_same (cfg : Cfg) {self self₂ : Source.Sha256.Engine} (hself : Len self.buffer self₂.buffer ∧ Len self.h self₂.h) (MASK : BitVec 128) (block_offset : Nat) : ∀ s t, Engine.process_block_simd_x86_intrinsics.Alike1 s t →
    Tr.SameSeen Engine.process_block_simd_x86_intrinsics.Alike1 (Engine.process_block_simd_x86_intrinsics.line1_80 cfg self MASK block_offset s) (Engine.process_block_simd_x86_intrinsics.line1_80 cfg self₂ MASK block_offset t) := by
  obtain ⟨hself_1, hself_2⟩ := hself
  rintro ⟨_, _, _, _, _, _, _, _, _, _⟩ ⟨_, _, _, _, _, _, _, _, _, _⟩ -
  unfold Engine.process_block_simd_x86_intrinsics.line1_80
  try dsimp only at *
  repeat same_step

theorem Engine.process_block_simd_x86_intrinsics.line1_81_same (cfg : Cfg) {self self₂ : Source.Sha256.Engine} (hself : Len self.buffer self₂.buffer ∧ Len self.h self₂.h) (MASK : BitVec 128) (block_offset : Nat) : ∀ s t, Engine.process_block_simd_x86_intrinsics.Alike1 s t →
    Tr.SameSeen Engine.process_block_simd_x86_intrinsics.Alike1 (Engine.process_block_simd_x86_intrinsics.line1_81 cfg self MASK block_offset s) (Engine.process_block_simd_x86_intrinsics.line1_81 cfg self₂ MASK block_offset t) := by
  obtain ⟨hself_1, hself_2⟩ := hself
  rintro ⟨_, _, _, _, _, _, _, _, _, _⟩ ⟨_, _, _, _, _, _, _, _, _, _⟩ -
  unfold Engine.process_block_simd_x86_intrinsics.line1_81
  try dsimp only at *
  repeat same_step

theorem Engine.process_block_simd_x86_intrinsics.line1_82_same (cfg : Cfg) {self self₂ : Source.Sha256.Engine} (hself : Len self.buffer self₂.buffer ∧ Len self.h self₂.h) (MASK : BitVec 128) (block_offset : Nat) : ∀ s t, Engine.process_block_simd_x86_intrinsics.Alike1 s t →
    Tr.SameSeen Engine.process_block_simd_x86_intrinsics.Alike1 (Engine.process_block_simd_x86_intrinsics.line1_82 cfg self MASK block_offset s) (Engine.process_block_simd_x86_intrinsics.line1_82 cfg self₂ MASK block_offset t) := by
  obtain ⟨hself_1, hself_2⟩ := hself
  rintro ⟨_, _, _, _, _, _, _, _, _, _⟩ ⟨_, _, _, _, _, _, _, _, _, _⟩ -
  unfold Engine.process_block_simd_x86_intrinsics.line1_82
  try dsimp only at *
  repeat same_step

theorem Engine.process_block_simd_x86_intrinsics.line1_83_same (cfg : Cfg) {self self₂ : Source.Sha256.Engine} (hself : Len self.buffer self₂.buffer ∧ Len self.h self₂.h) (MASK : BitVec 128) (block_offset : Nat) : ∀ s t, Engine.process_block_simd_x86_intrinsics.Alike1 s t →
    Tr.SameSeen Engine.process_block_simd_x86_intrinsics.Alike1 (Engine.process_block_simd_x86_intrinsics.line1_83 cfg self MASK block_offset s) (Engine.process_block_simd_x86_intrinsics.line1_83 cfg self₂ MASK block_offset t) := by
  obtain ⟨hself_1, hself_2⟩ := hself
  rintro ⟨_, _, _, _, _, _, _, _, _, _⟩ ⟨_, _, _, _, _, _, _, _, _, _⟩ -
  unfold Engine.process_block_simd_x86_intrinsics.line1_83
  try dsimp only at *
  repeat same_step

theorem Engine.process_block_simd_x86_intrinsics.line1_84_same (cfg : Cfg) {self self₂ : Source.Sha256.Engine} (hself : Len self.buffer self₂.buffer ∧ Len self.h self₂.h) (MASK : BitVec 128) (block_offset : Nat) : ∀ s t, Engine.process_block_simd_x86_intrinsics.Alike1 s t →
    Tr.SameSeen Engine.process_block_simd_x86_intrinsics.Alike1 (Engine.process_block_simd_x86_intrinsics.line1_84 cfg self MASK block_offset s) (Engine.process_block_simd_x86_intrinsics.line1_84 cfg self₂ MASK block_offset t) := by
  obtain ⟨hself_1, hself_2⟩ := hself
  rintro ⟨_, _, _, _, _, _, _, _, _, _⟩ ⟨_, _, _, _, _, _, _, _, _, _⟩ -
  unfold Engine.process_block_simd_x86_intrinsics.line1_84
  try dsimp only at *
  repeat same_step

theorem Engine.process_block_simd_x86_intrinsics.line1_85_same (cfg : Cfg) {self self₂ : Source.Sha256.Engine} (hself : Len self.buffer self₂.buffer ∧ Len self.h self₂.h) (MASK : BitVec 128) (block_offset : Nat) : ∀ s t, Engine.process_block_simd_x86_intrinsics.Alike1 s t →
    Tr.SameSeen Engine.process_block_simd_x86_intrinsics.Alike1 (Engine.process_block_simd_x86_intrinsics.line1_85 cfg self MASK block_offset s) (Engine.process_block_simd_x86_intrinsics.line1_85 cfg self₂ MASK block_offset t) := by
  obtain ⟨hself_1, hself_2⟩ := hself
  rintro ⟨_, _, _, _, _, _, _, _, _, _⟩ ⟨_, _, _, _, _, _, _, _, _, _⟩ -
  unfold Engine.process_block_simd_x86_intrinsics.line1_85
  try dsimp only at *
  repeat same_step

theorem Engine.process_block_simd_x86_intrinsics.line1_86_same (cfg : Cfg) {self self₂ : Source.Sha256.Engine} (hself : Len self.buffer self₂.buffer ∧ Len self.h self₂.h) (MASK : BitVec 128) (block_offset : Nat) : ∀ s t, Engine.process_block_simd_x86_intrinsics.Alike1 s t →
    Tr.SameSeen Engine.process_block_simd_x86_intrinsics.Alike1 (Engine.process_block_simd_x86_intrinsics.line1_86 cfg self MASK block_offset s) (Engine.process_block_simd_x86_intrinsics.line1_86 cfg self₂ MASK block_offset t) := by
  obtain ⟨hself_1, hself_2⟩ := hself
  rintro ⟨_, _, _, _, _, _, _, _, _, _⟩ ⟨_, _, _, _, _, _, _, _, _, _⟩ -
  unfold Engine.process_block_simd_x86_intrinsics.line1_86
  try dsimp only at *
  repeat same_step

theorem Engine.process_block_simd_x86_intrinsics.line1_87_same (cfg : Cfg) {self self₂ : Source.Sha256.Engine} (hself : Len self.buffer self₂.buffer ∧ Len self.h self₂.h) (MASK : BitVec 128) (block_offset : Nat) : ∀ s t, Engine.process_block_simd_x86_intrinsics.Alike1 s t →
    Tr.SameSeen Engine.process_block_simd_x86_intrinsics.Alike1 (Engine.process_block_simd_x86_intrinsics.line1_87 cfg self MASK block_offset s) (Engine.process_block_simd_x86_intrinsics.line1_87 cfg self₂ MASK block_offset t) := by
  obtain ⟨hself_1, hself_2⟩ := hself
  rintro ⟨_, _, _, _, _, _, _, _, _, _⟩ ⟨_, _, _, _, _, _, _, _, _, _⟩ -
  unfold Engine.process_block_simd_x86_intrinsics.line1_87
  try dsimp only at *
  repeat same_step

theorem Engine.process_block_simd_x86_intrinsics.line1_88_same (cfg : Cfg) {self self₂ : Source.Sha256.Engine} (hself : Len self.buffer self₂.buffer ∧ Len self.h self₂.h) (MASK : BitVec 128) (block_offset : Nat) : ∀ s t, Engine.process_block_simd_x86_intrinsics.Alike1 s t →
    Tr.SameSeen Engine.process_block_simd_x86_intrinsics.Alike1 (Engine.process_block_simd_x86_intrinsics.line1_88 cfg self MASK block_offset s) (Engine.process_block_simd_x86_intrinsics.line1_88 cfg self₂ MASK block_offset t) := by
  obtain ⟨hself_1, hself_2⟩ := hself
  rintro ⟨_, _, _, _, _, _, _, _, _, _⟩ ⟨_, _, _, _, _, _, _, _, _, _⟩ -
  unfold Engine.process_block_simd_x86_intrinsics.line1_88
  try dsimp only at *
  repeat same_step

theorem Engine.process_block_simd_x86_intrinsics.line1_89_same (cfg : Cfg) {self self₂ : Source.Sha256.Engine} (hself : Len self.buffer self₂.buffer ∧ Len self.h self₂.h) (MASK : BitVec 128) (block_offset : Nat) : ∀ s t, Engine.process_block_simd_x86_intrinsics.Alike1 s t →
    Tr.SameSeen Engine.process_block_simd_x86_intrinsics.Alike1 (Engine.process_block_simd_x86_intrinsics.line1_89 cfg self MASK block_offset s) (Engine.process_block_simd_x86_intrinsics.line1_89 cfg self₂ MASK block_offset t) := by
  obtain ⟨hself_1, hself_2⟩ := hself
  rintro ⟨_, _, _, _, _, _, _, _, _, _⟩ ⟨_, _, _, _, _, _, _, _, _, _⟩ -
  unfold Engine.process_block_simd_x86_intrinsics.line1_89
  try dsimp only at *
  repeat same_step

theorem Engine.process_block_simd_x86_intrinsics.line1_90_same (cfg : Cfg) {self self₂ : Source.Sha256.Engine} (hself : Len self.buffer self₂.buffer ∧ Len self.h self₂.h) (MASK : BitVec 128) (block_offset : Nat) : ∀ s t, Engine.process_block_simd_x86_intrinsics.Alike1 s t →
    Tr.SameSeen Engine.process_block_simd_x86_intrinsics.Alike1 (Engine.process_block_simd_x86_intrinsics.line1_90 cfg self MASK block_offset s) (Engine.process_block_simd_x86_intrinsics.line1_90 cfg self₂ MASK block_offset t) := by
  obtain ⟨hself_1, hself_2⟩ := hself
  rintro ⟨_, _, _, _, _, _, _, _, _, _⟩ ⟨_, _, _, _, _, _, _, _, _, _⟩ -
  unfold Engine.process_block_simd_x86_intrinsics.line1_90
  try dsimp only at *
  repeat same_step

theorem Engine.process_block_simd_x86_intrinsics.line1_91_same (cfg : Cfg) {self self₂ : Source.Sha256.Engine} (hself : Len self.buffer self₂.buffer ∧ Len self.h self₂.h) (MASK : BitVec 128) (block_offset : Nat) : ∀ s t, Engine.process_block_simd_x86_intrinsics.Alike1 s t →
    Tr.SameSeen Engine.process_block_simd_x86_intrinsics.Alike1 (Engine.process_block_simd_x86_intrinsics.line1_91 cfg self MASK block_offset s) (Engine.process_block_simd_x86_intrinsics.line1_91 cfg self₂ MASK block_offset t) := by
  obtain ⟨hself_1, hself_2⟩ := hself
  rintro ⟨_, _, _, _, _, _, _, _, _, _⟩ ⟨_, _, _, _, _, _, _, _, _, _⟩ -
  unfold Engine.process_block_simd_x86_intrinsics.line1_91
  try dsimp only at *
  repeat same_step

theorem Engine.process_block_simd_x86_intrinsics.line1_92_same (cfg : Cfg) {self self₂ : Source.Sha256.Engine} (hself : Len self.buffer self₂.buffer ∧ Len self.h self₂.h) (MASK : BitVec 128) (block_offset : Nat) : ∀ s t, Engine.process_block_simd_x86_intrinsics.Alike1 s t →
    Tr.SameSeen Engine.process_block_simd_x86_intrinsics.Alike1 (Engine.process_block_simd_x86_intrinsics.line1_92 cfg self MASK block_offset s) (Engine.process_block_simd_x86_intrinsics.line1_92 cfg self₂ MASK block_offset t) := by
  obtain ⟨hself_1, hself_2⟩ := hself
  rintro ⟨_, _, _, _, _, _, _, _, _, _⟩ ⟨_, _, _, _, _, _, _, _, _, _⟩ -
  unfold Engine.process_block_simd_x86_intrinsics.line1_92
  try dsimp only at *
  repeat same_step

theorem Engine.process_block_simd_x86_intrinsics.line1_93_same (cfg : Cfg) {self self₂ : Source.Sha256.Engine} (hself : Len self.buffer self₂.buffer ∧ Len self.h self₂.h) (MASK : BitVec 128) (block_offset : Nat) : ∀ s t, Engine.process_block_simd_x86_intrinsics.Alike1 s t →
    Tr.SameSeen Engine.process_block_simd_x86_intrinsics.Alike1 (Engine.process_block_simd_x86_intrinsics.line1_93 cfg self MASK block_offset s) (Engine.process_block_simd_x86_intrinsics.line1_93 cfg self₂ MASK block_offset t) := by
  obtain ⟨hself_1, hself_2⟩ := hself
  rintro ⟨_, _, _, _, _, _, _, _, _, _⟩ ⟨_, _, _, _, _, _, _, _, _, _⟩ -
  unfold Engine.process_block_simd_x86_intrinsics.line1_93
  try dsimp only at *
  repeat same_step

theorem Engine.process_block_simd_x86_intrinsics.line1_94_same (cfg : Cfg) {self self₂ : Source.Sha256.Engine} (hself : Len self.buffer self₂.buffer ∧ Len self.h self₂.h) (MASK : BitVec 128) (block_offset : Nat) : ∀ s t, Engine.process_block_simd_x86_intrinsics.Alike1 s t →
    Tr.SameSeen Engine.process_block_simd_x86_intrinsics.Alike1 (Engine.process_block_simd_x86_intrinsics.line1_94 cfg self MASK block_offset s) (Engine.process_block_simd_x86_intrinsics.line1_94 cfg self₂ MASK block_offset t) := by
  obtain ⟨hself_1, hself_2⟩ := hself
  rintro ⟨_, _, _, _, _, _, _, _, _, _⟩ ⟨_, _, _, _, _, _, _, _, _, _⟩ -
  unfold Engine.process_block_simd_x86_intrinsics.line1_94
  try dsimp only at *
  repeat same_step

theorem Engine.process_block_simd_x86_intrinsics.line1_95_same (cfg : Cfg) {self self₂ : Source.Sha256.Engine} (hself : Len self.buffer self₂.buffer ∧ Len self.h self₂.h) (MASK : BitVec 128) (block_offset : Nat) : ∀ s t, Engine.process_block_simd_x86_intrinsics.Alike1 s t →
    Tr.SameSeen Engine.process_block_simd_x86_intrinsics.Alike1 (Engine.process_block_simd_x86_intrinsics.line1_95 cfg self MASK block_offset s) (Engine.process_block_simd_x86_intrinsics.line1_95 cfg self₂ MASK block_offset t) := by
  obtain ⟨hself_1, hself_2⟩ := hself
  rintro ⟨_, _, _, _, _, _, _, _, _, _⟩ ⟨_, _, _, _, _, _, _, _, _, _⟩ -
  unfold Engine.process_block_simd_x86_intrinsics.line1_95
  try dsimp only at *
  repeat same_step

theorem Engine.process_block_simd_x86_intrinsics.line1_96_same (cfg : Cfg) {self self₂ : Source.Sha256.Engine} (hself : Len self.buffer self₂.buffer ∧ Len self.h self₂.h) (MASK : BitVec 128) (block_offset : Nat) : ∀ s t, Engine.process_block_simd_x86_intrinsics.Alike1 s t →
    Tr.SameSeen Engine.process_block_simd_x86_intrinsics.Alike1 (Engine.process_block_simd_x86_intrinsics.line1_96 cfg self MASK block_offset s) (Engine.process_block_simd_x86_intrinsics.line1_96 cfg self₂ MASK block_offset t) := by
  obtain ⟨hself_1, hself_2⟩ := hself
  rintro ⟨_, _, _, _, _, _, _, _, _, _⟩ ⟨_, _, _, _, _, _, _, _, _, _⟩ -
  unfold Engine.process_block_simd_x86_intrinsics.line1_96
  try dsimp only at *
  repeat same_step

theorem Engine.process_block_simd_x86_intrinsics.line1_97_same (cfg : Cfg) {self self₂ : Source.Sha256.Engine} (hself : Len self.buffer self₂.buffer ∧ Len self.h self₂.h) (MASK : BitVec 128) (block_offset : Nat) : ∀ s t, Engine.process_block_simd_x86_intrinsics.Alike1 s t →
    Tr.SameSeen Engine.process_block_simd_x86_intrinsics.Alike1 (Engine.process_block_simd_x86_intrinsics.line1_97 cfg self MASK block_offset s) (Engine.process_block_simd_x86_intrinsics.line1_97 cfg self₂ MASK block_offset t) := by
  obtain ⟨hself_1, hself_2⟩ := hself
  rintro ⟨_, _, _, _, _, _, _, _, _, _⟩ ⟨_, _, _, _, _, _, _, _, _, _⟩ -
  unfold Engine.process_block_simd_x86_intrinsics.line1_97
  try dsimp only at *
  repeat same_step

theorem Engine.process_block_simd_x86_intrinsics.line1_98_same (cfg : Cfg) {self self₂ : Source.Sha256.Engine} (hself : Len self.buffer self₂.buffer ∧ Len self.h self₂.h) (MASK : BitVec 128) (block_offset : Nat) : ∀ s t, Engine.process_block_simd_x86_intrinsics.Alike1 s t →
    Tr.SameSeen Engine.process_block_simd_x86_intrinsics.Alike1 (Engine.process_block_simd_x86_intrinsics.line1_98 cfg self MASK block_offset s) (Engine.process_block_simd_x86_intrinsics.line1_98 cfg self₂ MASK block_offset t) := by
  obtain ⟨hself_1, hself_2⟩ := hself
  rintro ⟨_, _, _, _, _, _, _, _, _, _⟩ ⟨_, _, _, _, _, _, _, _, _, _⟩ -
  unfold Engine.process_block_simd_x86_intrinsics.line1_98
  try dsimp only at *
  repeat same_step

theorem Engine.process_block_simd_x86_intrinsics.line1_99_same (cfg : Cfg) {self self₂ : Source.Sha256.Engine} (hself : Len self.buffer self₂.buffer ∧ Len self.h self₂.h) (MASK : BitVec 128) (block_offset : Nat) : ∀ s t, Engine.process_block_simd_x86_intrinsics.Alike1 s t →
    Tr.SameSeen Engine.process_block_simd_x86_intrinsics.Alike1 (Engine.process_block_simd_x86_intrinsics.line1_99 cfg self MASK block_offset s) (Engine.process_block_simd_x86_intrinsics.line1_99 cfg self₂ MASK block_offset t) := by
  obtain ⟨hself_1, hself_2⟩ := hself
  rintro ⟨_, _, _, _, _, _, _, _, _, _⟩ ⟨_, _, _, _, _, _, _, _, _, _⟩ -
  unfold Engine.process_block_simd_x86_intrinsics.line1_99
  try dsimp only at *
  repeat same_step

theorem Engine.process_block_simd_x86_intrinsics.line1_100_same (cfg : Cfg) {self self₂ : Source.Sha256.Engine} (hself : Len self.buffer self₂.buffer ∧ Len self.h self₂.h) (MASK : BitVec 128) (block_offset : Nat) : ∀ s t, Engine.process_block_simd_x86_intrinsics.Alike1 s t →
    Tr.SameSeen Engine.process_block_simd_x86_intrinsics.Alike1 (Engine.process_block_simd_x86_intrinsics.line1_100 cfg self MASK block_offset s) (Engine.process_block_simd_x86_intrinsics.line1_100 cfg self₂ MASK block_offset t) := by
  obtain ⟨hself_1, hself_2⟩ := hself
  rintro ⟨_, _, _, _, _, _, _, _, _, _⟩ ⟨_, _, _, _, _, _, _, _, _, _⟩ -
  unfold Engine.process_block_simd_x86_intrinsics.line1_100
  try dsimp only at *
  repeat same_step

theorem Engine.process_block_simd_x86_intrinsics.line1_101_same (cfg : Cfg) {self self₂ : Source.Sha256.Engine} (hself : Len self.buffer self₂.buffer ∧ Len self.h self₂.h) (MASK : BitVec 128) (block_offset : Nat) : ∀ s t, Engine.process_block_simd_x86_intrinsics.Alike1 s t →
    Tr.SameSeen Engine.process_block_simd_x86_intrinsics.Alike1 (Engine.process_block_simd_x86_intrinsics.line1_101 cfg self MASK block_offset s) (Engine.process_block_simd_x86_intrinsics.line1_101 cfg self₂ MASK block_offset t) := by
  obtain ⟨hself_1, hself_2⟩ := hself
  rintro ⟨_, _, _, _, _, _, _, _, _, _⟩ ⟨_, _, _, _, _, _, _, _, _, _⟩ -
  unfold Engine.process_block_simd_x86_intrinsics.line1_101
  try dsimp only at *
  repeat same_step

theorem Engine.process_block_simd_x86_intrinsics.line1_102_same (cfg : Cfg) {self self₂ : Source.Sha256.Engine} (hself : Len self.buffer self₂.buffer ∧ Len self.h self₂.h) (MASK : BitVec 128) (block_offset : Nat) : ∀ s t, Engine.process_block_simd_x86_intrinsics.Alike1 s t →
    Tr.SameSeen Engine.process_block_simd_x86_intrinsics.Alike1 (Engine.process_block_simd_x86_intrinsics.line1_102 cfg self MASK block_offset s) (Engine.process_block_simd_x86_intrinsics.line1_102 cfg self₂ MASK block_offset t) := by
  obtain ⟨hself_1, hself_2⟩ := hself
  rintro ⟨_, _, _, _, _, _, _, _, _, _⟩ ⟨_, _, _, _, _, _, _, _, _, _⟩ -
  unfold Engine.process_block_simd_x86_intrinsics.line1_102
  try dsimp only at *
  repeat same_step

theorem Engine.process_block_simd_x86_intrinsics.line1_103_same (cfg : Cfg) {self self₂ : Source.Sha256.Engine} (hself : Len self.buffer self₂.buffer ∧ Len self.h self₂.h) (MASK : BitVec 128) (block_offset : Nat) : ∀ s t, Engine.process_block_simd_x86_intrinsics.Alike1 s t →
    Tr.SameSeen Engine.process_block_simd_x86_intrinsics.Alike1 (Engine.process_block_simd_x86_intrinsics.line1_103 cfg self MASK block_offset s) (Engine.process_block_simd_x86_intrinsics.line1_103 cfg self₂ MASK block_offset t) := by
  obtain ⟨hself_1, hself_2⟩ := hself
  rintro ⟨_, _, _, _, _, _, _, _, _, _⟩ ⟨_, _, _, _, _, _, _, _, _, _⟩ -
  unfold Engine.process_block_simd_x86_intrinsics.line1_103
  try dsimp only at *
  repeat same_step

theorem Engine.process_block_simd_x86_intrinsics.line1_104_same (cfg : Cfg) {self self₂ : Source.Sha256.Engine} (hself : Len self.buffer self₂.buffer ∧ Len self.h self₂.h) (MASK : BitVec 128) (block_offset : Nat) : ∀ s t, Engine.process_block_simd_x86_intrinsics.Alike1 s t →
    Tr.SameSeen Engine.process_block_simd_x86_intrinsics.Alike1 (Engine.process_block_simd_x86_intrinsics.line1_104 cfg self MASK block_offset s) (Engine.process_block_simd_x86_intrinsics.line1_104 cfg self₂ MASK block_offset t) := by
  obtain ⟨hself_1, hself_2⟩ := hself
  rintro ⟨_, _, _, _, _, _, _, _, _, _⟩ ⟨_, _, _, _, _, _, _, _, _, _⟩ -
  unfold Engine.process_block_simd_x86_intrinsics.line1_104
  try dsimp only at *
  repeat same_step

theorem Engine.process_block_simd_x86_intrinsics.line1_105_same (cfg : Cfg) {self self₂ : Source.Sha256.Engine} (hself : Len self.buffer self₂.buffer ∧ Len self.h self₂.h) (MASK : BitVec 128) (block_offset : Nat) : ∀ s t, Engine.process_block_simd_x86_intrinsics.Alike1 s t →
    Tr.SameSeen Engine.process_block_simd_x86_intrinsics.Alike1 (Engine.process_block_simd_x86_intrinsics.line1_105 cfg self MASK block_offset s) (Engine.process_block_simd_x86_intrinsics.line1_105 cfg self₂ MASK block_offset t) := by
  obtain ⟨hself_1, hself_2⟩ := hself
  rintro ⟨_, _, _, _, _, _, _, _, _, _⟩ ⟨_, _, _, _, _, _, _, _, _, _⟩ -
  unfold Engine.process_block_simd_x86_intrinsics.line1_105
  try dsimp only at *
  repeat same_step

theorem Engine.process_block_simd_x86_intrinsics.line1_106_same (cfg : Cfg) {self self₂ : Source.Sha256.Engine} (hself : Len self.buffer self₂.buffer ∧ Len self.h self₂.h) (MASK : BitVec 128) (block_offset : Nat) : ∀ s t, Engine.process_block_simd_x86_intrinsics.Alike1 s t →
    Tr.SameSeen Engine.process_block_simd_x86_intrinsics.Alike1 (Engine.process_block_simd_x86_intrinsics.line1_106 cfg self MASK block_offset s) (Engine.process_block_simd_x86_intrinsics.line1_106 cfg self₂ MASK block_offset t) := by
  obtain ⟨hself_1, hself_2⟩ := hself
  rintro ⟨_, _, _, _, _, _, _, _, _, _⟩ ⟨_, _, _, _, _, _, _, _, _, _⟩ -
  unfold Engine.process_block_simd_x86_intrinsics.line1_106
  try dsimp only at *
  repeat same_step

theorem Engine.process_block_simd_x86_intrinsics.line1_107_same (cfg : Cfg) {self self₂ : Source.Sha256.Engine} (hself : Len self.buffer self₂.buffer ∧ Len self.h self₂.h) (MASK : BitVec 128) (block_offset : Nat) : ∀ s t, Engine.process_block_simd_x86_intrinsics.Alike1 s t →
    Tr.SameSeen Engine.process_block_simd_x86_intrinsics.Alike1 (Engine.process_block_simd_x86_intrinsics.line1_107 cfg self MASK block_offset s) (Engine.process_block_simd_x86_intrinsics.line1_107 cfg self₂ MASK block_offset t) := by
  obtain ⟨hself_1, hself_2⟩ := hself
  rintro ⟨_, _, _, _, _, _, _, _, _, _⟩ ⟨_, _, _, _, _, _, _, _, _, _⟩ -
  unfold Engine.process_block_simd_x86_intrinsics.line1_107
  try dsimp only at *
  repeat same_step

theorem Engine.process_block_simd_x86_intrinsics.line1_108_same (cfg : Cfg) {self self₂ : Source.Sha256.Engine} (hself : Len self.buffer self₂.buffer ∧ Len self.h self₂.h) (MASK : BitVec 128) (block_offset : Nat) : ∀ s t, Engine.process_block_simd_x86_intrinsics.Alike1 s t →
    Tr.SameSeen Engine.process_block_simd_x86_intrinsics.Alike1 (Engine.process_block_simd_x86_intrinsics.line1_108 cfg self MASK block_offset s) (Engine.process_block_simd_x86_intrinsics.line1_108 cfg self₂ MASK block_offset t) := by
  obtain ⟨hself_1, hself_2⟩ := hself
  rintro ⟨_, _, _, _, _, _, _, _, _, _⟩ ⟨_, _, _, _, _, _, _, _, _, _⟩ -
  unfold Engine.process_block_simd_x86_intrinsics.line1_108
  try dsimp only at *
  repeat same_step

theorem Engine.process_block_simd_x86_intrinsics.line1_109_same (cfg : Cfg) {self self₂ : Source.Sha256.Engine} (hself : Len self.buffer self₂.buffer ∧ Len self.h self₂.h) (MASK : BitVec 128) (block_offset : Nat) : ∀ s t, Engine.process_block_simd_x86_intrinsics.Alike1 s t →
    Tr.SameSeen Engine.process_block_simd_x86_intrinsics.Alike1 (Engine.process_block_simd_x86_intrinsics.line1_109 cfg self MASK block_offset s) (Engine.process_block_simd_x86_intrinsics.line1_109 cfg self₂ MASK block_offset t) := by
  obtain ⟨hself_1, hself_2⟩ := hself
  rintro ⟨_, _, _, _, _, _, _, _, _, _⟩ ⟨_, _, _, _, _, _, _, _, _, _⟩ -
  unfold Engine.process_block_simd_x86_intrinsics.line1_109
  try dsimp only at *
  repeat same_step

theorem Engine.process_block_simd_x86_intrinsics.line1_110_same (cfg : Cfg) {self self₂ : Source.Sha256.Engine} (hself : Len self.buffer self₂.buffer ∧ Len self.h self₂.h) (MASK : BitVec 128) (block_offset : Nat) : ∀ s t, Engine.process_block_simd_x86_intrinsics.Alike1 s t →
    Tr.SameSeen Engine.process_block_simd_x86_intrinsics.Alike1 (Engine.process_block_simd_x86_intrinsics.line1_110 cfg self MASK block_offset s) (Engine.process_block_simd_x86_intrinsics.line1_110 cfg self₂ MASK block_offset t) := by
  obtain ⟨hself_1, hself_2⟩ := hself
  rintro ⟨_, _, _, _, _, _, _, _, _, _⟩ ⟨_, _, _, _, _, _, _, _, _, _⟩ -
  unfold Engine.process_block_simd_x86_intrinsics.line1_110
  try dsimp only at *
  repeat same_step

theorem Engine.process_block_simd_x86_intrinsics.line1_111_same (cfg : Cfg) {self self₂ : Source.Sha256.Engine} (hself : Len self.buffer self₂.buffer ∧ Len self.h self₂.h) (MASK : BitVec 128) (block_offset : Nat) : ∀ s t, Engine.process_block_simd_x86_intrinsics.Alike1 s t →
    Tr.SameSeen Engine.process_block_simd_x86_intrinsics.Alike1 (Engine.process_block_simd_x86_intrinsics.line1_111 cfg self MASK block_offset s) (Engine.process_block_simd_x86_intrinsics.line1_111 cfg self₂ MASK block_offset t) := by
  obtain ⟨hself_1, hself_2⟩ := hself
  rintro ⟨_, _, _, _, _, _, _, _, _, _⟩ ⟨_, _, _, _, _, _, _, _, _, _⟩ -
  unfold Engine.process_block_simd_x86_intrinsics.line1_111
  try dsimp only at *
  repeat same_step

theorem Engine.process_block_simd_x86_intrinsics.line1_112_same (cfg : Cfg) {self self₂ : Source.Sha256.Engine} (hself : Len self.buffer self₂.buffer ∧ Len self.h self₂.h) (MASK : BitVec 128) (block_offset : Nat) : ∀ s t, Engine.process_block_simd_x86_intrinsics.Alike1 s t →
    Tr.SameSeen Engine.process_block_simd_x86_intrinsics.Alike1 (Engine.process_block_simd_x86_intrinsics.line1_112 cfg self MASK block_offset s) (Engine.process_block_simd_x86_intrinsics.line1_112 cfg self₂ MASK block_offset t) := by
  obtain ⟨hself_1, hself_2⟩ := hself
  rintro ⟨_, _, _, _, _, _, _, _, _, _⟩ ⟨_, _, _, _, _, _, _, _, _, _⟩ -
  unfold Engine.process_block_simd_x86_intrinsics.line1_112
  try dsimp only at *
  repeat same_step

theorem Engine.process_block_simd_x86_intrinsics.line1_113_same (cfg : Cfg) {self self₂ : Source.Sha256.Engine} (hself : Len self.buffer self₂.buffer ∧ Len self.h self₂.h) (MASK : BitVec 128) (block_offset : Nat) : ∀ s t, Engine.process_block_simd_x86_intrinsics.Alike1 s t →
    Tr.SameSeen Engine.process_block_simd_x86_intrinsics.Alike1 (Engine.process_block_simd_x86_intrinsics.line1_113 cfg self MASK block_offset s) (Engine.process_block_simd_x86_intrinsics.line1_113 cfg self₂ MASK block_offset t) := by
  obtain ⟨hself_1, hself_2⟩ := hself
  rintro ⟨_, _, _, _, _, _, _, _, _, _⟩ ⟨_, _, _, _, _, _, _, _, _, _⟩ -
  unfold Engine.process_block_simd_x86_intrinsics.line1_113
  try dsimp only at *
  repeat same_step

theorem Engine.process_block_simd_x86_intrinsics.line1_114_same (cfg : Cfg) {self self₂ : Source.Sha256.Engine} (hself : Len self.buffer self₂.buffer ∧ Len self.h self₂.h) (MASK : BitVec 128) (block_offset : Nat) : ∀ s t, Engine.process_block_simd_x86_intrinsics.Alike1 s t →
    Tr.SameSeen Engine.process_block_simd_x86_intrinsics.Alike1 (Engine.process_block_simd_x86_intrinsics.line1_114 cfg self MASK block_offset s) (Engine.process_block_simd_x86_intrinsics.line1_114 cfg self₂ MASK block_offset t) := by
  obtain ⟨hself_1, hself_2⟩ := hself
  rintro ⟨_, _, _, _, _, _, _, _, _, _⟩ ⟨_, _, _, _, _, _, _, _, _, _⟩ -
  unfold Engine.process_block_simd_x86_intrinsics.line1_114
  try dsimp only at *
  repeat same_step

theorem Engine.process_block_simd_x86_intrinsics.line1_115_same (cfg : Cfg) {self self₂ : Source.Sha256.Engine} (hself : Len self.buffer self₂.buffer ∧ Len self.h self₂.h) (MASK : BitVec 128) (block_offset : Nat) : ∀ s t, Engine.process_block_simd_x86_intrinsics.Alike1 s t →
    Tr.SameSeen Engine.process_block_simd_x86_intrinsics.Alike1 (Engine.process_block_simd_x86_intrinsics.line1_115 cfg self MASK block_offset s) (Engine.process_block_simd_x86_intrinsics.line1_115 cfg self₂ MASK block_offset t) := by
  obtain ⟨hself_1, hself_2⟩ := hself
  rintro ⟨_, _, _, _, _, _, _, _, _, _⟩ ⟨_, _, _, _, _, _, _, _, _, _⟩ -
  unfold Engine.process_block_simd_x86_intrinsics.line1_115
  try dsimp only at *
  repeat same_step

theorem Engine.process_block_simd_x86_intrinsics.line1_116_same (cfg : Cfg) {self self₂ : Source.Sha256.Engine} (hself : Len self.buffer self₂.buffer ∧ Len self.h self₂.h) (MASK : BitVec 128) (block_offset : Nat) : ∀ s t, Engine.process_block_simd_x86_intrinsics.Alike1 s t →
    Tr.SameSeen Engine.process_block_simd_x86_intrinsics.Alike1 (Engine.process_block_simd_x86_intrinsics.line1_116 cfg self MASK block_offset s) (Engine.process_block_simd_x86_intrinsics.line1_116 cfg self₂ MASK block_offset t) := by
  obtain ⟨hself_1, hself_2⟩ := hself
  rintro ⟨_, _, _, _, _, _, _, _, _, _⟩ ⟨_, _, _, _, _, _, _, _, _, _⟩ -
  unfold Engine.process_block_simd_x86_intrinsics.line1_116
  try dsimp only at *
  repeat same_step

theorem Engine.process_block_simd_x86_intrinsics.line1_117_same (cfg : Cfg) {self self₂ : Source.Sha256.Engine} (hself : Len self.buffer self₂.buffer ∧ Len self.h self₂.h) (MASK : BitVec 128) (block_offset : Nat) : ∀ s t, Engine.process_block_simd_x86_intrinsics.Alike1 s t →
    Tr.SameSeen Engine.process_block_simd_x86_intrinsics.Alike1 (Engine.process_block_simd_x86_intrinsics.line1_117 cfg self MASK block_offset s) (Engine.process_block_simd_x86_intrinsics.line1_117 cfg self₂ MASK block_offset t) := by
  obtain ⟨hself_1, hself_2⟩ := hself
  rintro ⟨_, _, _, _, _, _, _, _, _, _⟩ ⟨_, _, _, _, _, _, _, _, _, _⟩ -
  unfold Engine.process_block_simd_x86_intrinsics.line1_117
  try dsimp only at *
  repeat same_step

theorem Engine.process_block_simd_x86_intrinsics.line1_118_same (cfg : Cfg) {self self₂ : Source.Sha256.Engine} (hself : Len self.buffer self₂.buffer ∧ Len self.h self₂.h) (MASK : BitVec 128) (block_offset : Nat) : ∀ s t, Engine.process_block_simd_x86_intrinsics.Alike1 s t →
    Tr.SameSeen Engine.process_block_simd_x86_intrinsics.Alike1 (Engine.process_block_simd_x86_intrinsics.line1_118 cfg self MASK block_offset s) (Engine.process_block_simd_x86_intrinsics.line1_118 cfg self₂ MASK block_offset t) := by
  obtain ⟨hself_1, hself_2⟩ := hself
  rintro ⟨_, _, _, _, _, _, _, _, _, _⟩ ⟨_, _, _, _, _, _, _, _, _, _⟩ -
  unfold Engine.process_block_simd_x86_intrinsics.line1_118
  try dsimp only at *
  repeat same_step

theorem Engine.process_block_simd_x86_intrinsics.line1_119_same (cfg : Cfg) {self self₂ : Source.Sha256.Engine} (hself : Len self.buffer self₂.buffer ∧ Len self.h self₂.h) (MASK : BitVec 128) (block_offset : Nat) : ∀ s t, Engine.process_block_simd_x86_intrinsics.Alike1 s t →
    Tr.SameSeen Engine.process_block_simd_x86_intrinsics.Alike1 (Engine.process_block_simd_x86_intrinsics.line1_119 cfg self MASK block_offset s) (Engine.process_block_simd_x86_intrinsics.line1_119 cfg self₂ MASK block_offset t) := by
  obtain ⟨hself_1, hself_2⟩ := hself
  rintro ⟨_, _, _, _, _, _, _, _, _, _⟩ ⟨_, _, _, _, _, _, _, _, _, _⟩ -
  unfold Engine.process_block_simd_x86_intrinsics.line1_119
  try dsimp only at *
  repeat same_step

theorem Engine.process_block_simd_x86_intrinsics.line1_120_same (cfg : Cfg) {self self₂ : Source.Sha256.Engine} (hself : Len self.buffer self₂.buffer ∧ Len self.h self₂.h) (MASK : BitVec 128) (block_offset : Nat) : ∀ s t, Engine.process_block_simd_x86_intrinsics.Alike1 s t →
    Tr.SameSeen Engine.process_block_simd_x86_intrinsics.Alike1 (Engine.process_block_simd_x86_intrinsics.line1_120 cfg self MASK block_offset s) (Engine.process_block_simd_x86_intrinsics.line1_120 cfg self₂ MASK block_offset t) := by
  obtain ⟨hself_1, hself_2⟩ := hself
  rintro ⟨_, _, _, _, _, _, _, _, _, _⟩ ⟨_, _, _, _, _, _, _, _, _, _⟩ -
  unfold Engine.process_block_simd_x86_intrinsics.line1_120
  try dsimp only at *
  repeat same_step

theorem Engine.process_block_simd_x86_intrinsics.line1_121_same (cfg : Cfg) {self self₂ : Source.Sha256.Engine} (hself : Len self.buffer self₂.buffer ∧ Len self.h self₂.h) (MASK : BitVec 128) (block_offset : Nat) : ∀ s t, Engine.process_block_simd_x86_intrinsics.Alike1 s t →
    Tr.SameSeen Engine.process_block_simd_x86_intrinsics.Alike1 (Engine.process_block_simd_x86_intrinsics.line1_121 cfg self MASK block_offset s) (Engine.process_block_simd_x86_intrinsics.line1_121 cfg self₂ MASK block_offset t) := by
  obtain ⟨hself_1, hself_2⟩ := hself
  rintro ⟨_, _, _, _, _, _, _, _, _, _⟩ ⟨_, _, _, _, _, _, _, _, _, _⟩ -
  unfold Engine.process_block_simd_x86_intrinsics.line1_121
  try dsimp only at *
  repeat same_step

theorem Engine.process_block_simd_x86_intrinsics.line1_122_same (cfg : Cfg) {self self₂ : Source.Sha256.Engine} (hself : Len self.buffer self₂.buffer ∧ Len self.h self₂.h) (MASK : BitVec 128) (block_offset : Nat) : ∀ s t, Engine.process_block_simd_x86_intrinsics.Alike1 s t →
    Tr.SameSeen Engine.process_block_simd_x86_intrinsics.Alike1 (Engine.process_block_simd_x86_intrinsics.line1_122 cfg self MASK block_offset s) (Engine.process_block_simd_x86_intrinsics.line1_122 cfg self₂ MASK block_offset t) := by
  obtain ⟨hself_1, hself_2⟩ := hself
  rintro ⟨_, _, _, _, _, _, _, _, _, _⟩ ⟨_, _, _, _, _, _, _, _, _, _⟩ -
  unfold Engine.process_block_simd_x86_intrinsics.line1_122
  try dsimp only at *
  repeat same_step

theorem Engine.process_block_simd_x86_intrinsics.line1_123_same (cfg : Cfg) {self self₂ : Source.Sha256.Engine} (hself : Len self.buffer self₂.buffer ∧ Len self.h self₂.h) (MASK : BitVec 128) (block_offset : Nat) : ∀ s t, Engine.process_block_simd_x86_intrinsics.Alike1 s t →
    Tr.SameSeen Engine.process_block_simd_x86_intrinsics.Alike1 (Engine.process_block_simd_x86_intrinsics.line1_123 cfg self MASK block_offset s) (Engine.process_block_simd_x86_intrinsics.line1_123 cfg self₂ MASK block_offset t) := by
  obtain ⟨hself_1, hself_2⟩ := hself
  rintro ⟨_, _, _, _, _, _, _, _, _, _⟩ ⟨_, _, _, _, _, _, _, _, _, _⟩ -
  unfold Engine.process_block_simd_x86_intrinsics.line1_123
  try dsimp only at *
  repeat same_step

set_option maxRecDepth 10000 in
theorem Engine.process_block_simd_x86_intrinsics.lines1_same (cfg : Cfg) {self self₂ : Source.Sha256.Engine} (hself : Len self.buffer self₂.buffer ∧ Len self.h self₂.h) (MASK : BitVec 128) (block_offset : Nat) :
    Tr.SameSeen.Each (fun f g => ∀ s t, Engine.process_block_simd_x86_intrinsics.Alike1 s t → Tr.SameSeen Engine.process_block_simd_x86_intrinsics.Alike1 (f s) (g t))
      (Engine.process_block_simd_x86_intrinsics.lines1 cfg self MASK block_offset) (Engine.process_block_simd_x86_intrinsics.lines1 cfg self₂ MASK block_offset) :=
  ⟨Engine.process_block_simd_x86_intrinsics.line1_0_same cfg hself MASK block_offset,
   Engine.process_block_simd_x86_intrinsics.line1_1_same cfg hself MASK block_offset,
   Engine.process_block_simd_x86_intrinsics.line1_2_same cfg hself MASK block_offset,
   Engine.process_block_simd_x86_intrinsics.line1_3_same cfg hself MASK block_offset,
   Engine.process_block_simd_x86_intrinsics.line1_4_same cfg hself MASK block_offset,
   Engine.process_block_simd_x86_intrinsics.line1_5_same cfg hself MASK block_offset,
   Engine.process_block_simd_x86_intrinsics.line1_6_same cfg hself MASK block_offset,
   Engine.process_block_simd_x86_intrinsics.line1_7_same cfg hself MASK block_offset,
   Engine.process_block_simd_x86_intrinsics.line1_8_same cfg hself MASK block_offset,
   Engine.process_block_simd_x86_intrinsics.line1_9_same cfg hself MASK block_offset,
   Engine.process_block_simd_x86_intrinsics.line1_10_same cfg hself MASK block_offset,
   Engine.process_block_simd_x86_intrinsics.line1_11_same cfg hself MASK block_offset,
   Engine.process_block_simd_x86_intrinsics.line1_12_same cfg hself MASK block_offset,
   Engine.process_block_simd_x86_intrinsics.line1_13_same cfg hself MASK block_offset,
   Engine.process_block_simd_x86_intrinsics.line1_14_same cfg hself MASK block_offset,
   Engine.process_block_simd_x86_intrinsics.line1_15_same cfg hself MASK block_offset,
   Engine.process_block_simd_x86_intrinsics.line1_16_same cfg hself MASK block_offset,
   Engine.process_block_simd_x86_intrinsics.line1_17_same cfg hself MASK block_offset,
   Engine.process_block_simd_x86_intrinsics.line1_18_same cfg hself MASK block_offset,
   Engine.process_block_simd_x86_intrinsics.line1_19_same cfg hself MASK block_offset,
   Engine.process_block_simd_x86_intrinsics.line1_20_same cfg hself MASK block_offset,
   Engine.process_block_simd_x86_intrinsics.line1_21_same cfg hself MASK block_offset,
   Engine.process_block_simd_x86_intrinsics.line1_22_same cfg hself MASK block_offset,
   Engine.process_block_simd_x86_intrinsics.line1_23_same cfg hself MASK block_offset,
   Engine.process_block_simd_x86_intrinsics.line1_24_same cfg hself MASK block_offset,
   Engine.process_block_simd_x86_intrinsics.line1_25_same cfg hself MASK block_offset,
   Engine.process_block_simd_x86_intrinsics.line1_26_same cfg hself MASK block_offset,
   Engine.process_block_simd_x86_intrinsics.line1_27_same cfg hself MASK block_offset,
   Engine.process_block_simd_x86_intrinsics.line1_28_same cfg hself MASK block_offset,
   Engine.process_block_simd_x86_intrinsics.line1_29_same cfg hself MASK block_offset,
   Engine.process_block_simd_x86_intrinsics.line1_30_same cfg hself MASK block_offset,
   Engine.process_block_simd_x86_intrinsics.line1_31_same cfg hself MASK block_offset,
   Engine.process_block_simd_x86_intrinsics.line1_32_same cfg hself MASK block_offset,
   Engine.process_block_simd_x86_intrinsics.line1_33_same cfg hself MASK block_offset,
   Engine.process_block_simd_x86_intrinsics.line1_34_same cfg hself MASK block_offset,
   Engine.process_block_simd_x86_intrinsics.line1_35_same cfg hself MASK block_offset,
   Engine.process_block_simd_x86_intrinsics.line1_36_same cfg hself MASK block_offset,
   Engine.process_block_simd_x86_intrinsics.line1_37_same cfg hself MASK block_offset,
   Engine.process_block_simd_x86_intrinsics.line1_38_same cfg hself MASK block_offset,
   Engine.process_block_simd_x86_intrinsics.line1_39_same cfg hself MASK block_offset,
   Engine.process_block_simd_x86_intrinsics.line1_40_same cfg hself MASK block_offset,
   Engine.process_block_simd_x86_intrinsics.line1_41_same cfg hself MASK block_offset,
   Engine.process_block_simd_x86_intrinsics.line1_42_same cfg hself MASK block_offset,
   Engine.process_block_simd_x86_intrinsics.line1_43_same cfg hself MASK block_offset,
   Engine.process_block_simd_x86_intrinsics.line1_44_same cfg hself MASK block_offset,
   Engine.process_block_simd_x86_intrinsics.line1_45_same cfg hself MASK block_offset,
   Engine.process_block_simd_x86_intrinsics.line1_46_same cfg hself MASK block_offset,
   Engine.process_block_simd_x86_intrinsics.line1_47_same cfg hself MASK block_offset,
   Engine.process_block_simd_x86_intrinsics.line1_48_same cfg hself MASK block_offset,
   Engine.process_block_simd_x86_intrinsics.line1_49_same cfg hself MASK block_offset,
   Engine.process_block_simd_x86_intrinsics.line1_50_same cfg hself MASK block_offset,
   Engine.process_block_simd_x86_intrinsics.line1_51_same cfg hself MASK block_offset,
   Engine.process_block_simd_x86_intrinsics.line1_52_same cfg hself MASK block_offset,
   Engine.process_block_simd_x86_intrinsics.line1_53_same cfg hself MASK block_offset,
   Engine.process_block_simd_x86_intrinsics.line1_54_same cfg hself MASK block_offset,
   Engine.process_block_simd_x86_intrinsics.line1_55_same cfg hself MASK block_offset,
   Engine.process_block_simd_x86_intrinsics.line1_56_same cfg hself MASK block_offset,
   Engine.process_block_simd_x86_intrinsics.line1_57_same cfg hself MASK block_offset,
   Engine.process_block_simd_x86_intrinsics.line1_58_same cfg hself MASK block_offset,
   Engine.process_block_simd_x86_intrinsics.line1_59_same cfg hself MASK block_offset,
   Engine.process_block_simd_x86_intrinsics.line1_60_same cfg hself MASK block_offset,
   Engine.process_block_simd_x86_intrinsics.line1_61_same cfg hself MASK block_offset,
   Engine.process_block_simd_x86_intrinsics.line1_62_same cfg hself MASK block_offset,
   Engine.process_block_simd_x86_intrinsics.line1_63_same cfg hself MASK block_offset,
   Engine.process_block_simd_x86_intrinsics.line1_64_same cfg hself MASK block_offset,
   Engine.process_block_simd_x86_intrinsics.line1_65_same cfg hself MASK block_offset,
   Engine.process_block_simd_x86_intrinsics.line1_66_same cfg hself MASK block_offset,
   Engine.process_block_simd_x86_intrinsics.line1_67_same cfg hself MASK block_offset,
   Engine.process_block_simd_x86_intrinsics.line1_68_same cfg hself MASK block_offset,
   Engine.process_block_simd_x86_intrinsics.line1_69_same cfg hself MASK block_offset,
   Engine.process_block_simd_x86_intrinsics.line1_70_same cfg hself MASK block_offset,
   Engine.process_block_simd_x86_intrinsics.line1_71_same cfg hself MASK block_offset,
   Engine.process_block_simd_x86_intrinsics.line1_72_same cfg hself MASK block_offset,
   Engine.process_block_simd_x86_intrinsics.line1_73_same cfg hself MASK block_offset,
   Engine.process_block_simd_x86_intrinsics.line1_74_same cfg hself MASK block_offset,
   Engine.process_block_simd_x86_intrinsics.line1_75_same cfg hself MASK block_offset,
   Engine.process_block_simd_x86_intrinsics.line1_76_same cfg hself MASK block_offset,
   Engine.process_block_simd_x86_intrinsics.line1_77_same cfg hself MASK block_offset,
   Engine.process_block_simd_x86_intrinsics.line1_78_same cfg hself MASK block_offset,
   Engine.process_block_simd_x86_intrinsics.line1_79_same cfg hself MASK block_offset,
   Engine.process_block_simd_x86_intrinsics.line1_80_same cfg hself MASK block_offset,
   Engine.process_block_simd_x86_intrinsics.line1_81_same cfg hself MASK block_offset,
   Engine.process_block_simd_x86_intrinsics.line1_82_same cfg hself MASK block_offset,
   Engine.process_block_simd_x86_intrinsics.line1_83_same cfg hself MASK block_offset,
   Engine.process_block_simd_x86_intrinsics.line1_84_same cfg hself MASK block_offset,
   Engine.process_block_simd_x86_intrinsics.line1_85_same cfg hself MASK block_offset,
   Engine.process_block_simd_x86_intrinsics.line1_86_same cfg hself MASK block_offset,
   Engine.process_block_simd_x86_intrinsics.line1_87_same cfg hself MASK block_offset,
   Engine.process_block_simd_x86_intrinsics.line1_88_same cfg hself MASK block_offset,
   Engine.process_block_simd_x86_intrinsics.line1_89_same cfg hself MASK block_offset,
   Engine.process_block_simd_x86_intrinsics.line1_90_same cfg hself MASK block_offset,
   Engine.process_block_simd_x86_intrinsics.line1_91_same cfg hself MASK block_offset,
   Engine.process_block_simd_x86_intrinsics.line1_92_same cfg hself MASK block_offset,
   Engine.process_block_simd_x86_intrinsics.line1_93_same cfg hself MASK block_offset,
   Engine.process_block_simd_x86_intrinsics.line1_94_same cfg hself MASK block_offset,
   Engine.process_block_simd_x86_intrinsics.line1_95_same cfg hself MASK block_offset,
   Engine.process_block_simd_x86_intrinsics.line1_96_same cfg hself MASK block_offset,
   Engine.process_block_simd_x86_intrinsics.line1_97_same cfg hself MASK block_offset,
   Engine.process_block_simd_x86_intrinsics.line1_98_same cfg hself MASK block_offset,
   Engine.process_block_simd_x86_intrinsics.line1_99_same cfg hself MASK block_offset,
   Engine.process_block_simd_x86_intrinsics.line1_100_same cfg hself MASK block_offset,
   Engine.process_block_simd_x86_intrinsics.line1_101_same cfg hself MASK block_offset,
   Engine.process_block_simd_x86_intrinsics.line1_102_same cfg hself MASK block_offset,
   Engine.process_block_simd_x86_intrinsics.line1_103_same cfg hself MASK block_offset,
   Engine.process_block_simd_x86_intrinsics.line1_104_same cfg hself MASK block_offset,
   Engine.process_block_simd_x86_intrinsics.line1_105_same cfg hself MASK block_offset,
   Engine.process_block_simd_x86_intrinsics.line1_106_same cfg hself MASK block_offset,
   Engine.process_block_simd_x86_intrinsics.line1_107_same cfg hself MASK block_offset,
   Engine.process_block_simd_x86_intrinsics.line1_108_same cfg hself MASK block_offset,
   Engine.process_block_simd_x86_intrinsics.line1_109_same cfg hself MASK block_offset,
   Engine.process_block_simd_x86_intrinsics.line1_110_same cfg hself MASK block_offset,
   Engine.process_block_simd_x86_intrinsics.line1_111_same cfg hself MASK block_offset,
   Engine.process_block_simd_x86_intrinsics.line1_112_same cfg hself MASK block_offset,
   Engine.process_block_simd_x86_intrinsics.line1_113_same cfg hself MASK block_offset,
   Engine.process_block_simd_x86_intrinsics.line1_114_same cfg hself MASK block_offset,
   Engine.process_block_simd_x86_intrinsics.line1_115_same cfg hself MASK block_offset,
   Engine.process_block_simd_x86_intrinsics.line1_116_same cfg hself MASK block_offset,
   Engine.process_block_simd_x86_intrinsics.line1_117_same cfg hself MASK block_offset,
   Engine.process_block_simd_x86_intrinsics.line1_118_same cfg hself MASK block_offset,
   Engine.process_block_simd_x86_intrinsics.line1_119_same cfg hself MASK block_offset,
   Engine.process_block_simd_x86_intrinsics.line1_120_same cfg hself MASK block_offset,
   Engine.process_block_simd_x86_intrinsics.line1_121_same cfg hself MASK block_offset,
   Engine.process_block_simd_x86_intrinsics.line1_122_same cfg hself MASK block_offset,
   Engine.process_block_simd_x86_intrinsics.line1_123_same cfg hself MASK block_offset, trivial⟩

set_option maxRecDepth 10000 in
theorem Engine.process_block_simd_x86_intrinsics.lines1_res (cfg : Cfg) (self : Source.Sha256.Engine) (MASK : BitVec 128) (block_offset : Nat) :
    (Engine.process_block_simd_x86_intrinsics.lines1 cfg self MASK block_offset).map (fun f s => (f s).res) = Source.Sha256.Engine.process_block_simd_x86_intrinsics.lines1 cfg self MASK block_offset := rfl

/-- The states of these statements are alike. -/
abbrev Engine.software_process_block_fast.Alike1 :=
  fun s t : Source.Sha256.Engine.software_process_block_fast.State1 => Len s.1 t.1

theorem Engine.software_process_block_fast.line1_0_same (cfg : Cfg) : ∀ s t, Engine.software_process_block_fast.Alike1 s t →
    Tr.SameSeen Engine.software_process_block_fast.Alike1 (Engine.software_process_block_fast.line1_0 cfg s) (Engine.software_process_block_fast.line1_0 cfg t) := by
  rintro ⟨_, _, _, _, _, _, _, _, _⟩ ⟨_, _, _, _, _, _, _, _, _⟩ h
  unfold Engine.software_process_block_fast.line1_0
  try dsimp only at *
  repeat same_step

theorem Engine.software_process_block_fast.line1_1_same (cfg : Cfg) : ∀ s t, Engine.software_process_block_fast.Alike1 s t →
    Tr.SameSeen Engine.software_process_block_fast.Alike1 (Engine.software_process_block_fast.line1_1 cfg s) (Engine.software_process_block_fast.line1_1 cfg t) := by
  rintro ⟨_, _, _, _, _, _, _, _, _⟩ ⟨_, _, _, _, _, _, _, _, _⟩ h
  unfold Engine.software_process_block_fast.line1_1
  try dsimp only at *
  repeat same_step

theorem Engine.software_process_block_fast.line1_2_same (cfg : Cfg) : ∀ s t, Engine.software_process_block_fast.Alike1 s t →
    Tr.SameSeen Engine.software_process_block_fast.Alike1 (Engine.software_process_block_fast.line1_2 cfg s) (Engine.software_process_block_fast.line1_2 cfg t) := by
  rintro ⟨_, _, _, _, _, _, _, _, _⟩ ⟨_, _, _, _, _, _, _, _, _⟩ h
  unfold Engine.software_process_block_fast.line1_2
  try dsimp only at *
  repeat same_step

theorem Engine.software_process_block_fast.line1_3_same (cfg : Cfg) : ∀ s t, Engine.software_process_block_fast.Alike1 s t →
    Tr.SameSeen Engine.software_process_block_fast.Alike1 (Engine.software_process_block_fast.line1_3 cfg s) (Engine.software_process_block_fast.line1_3 cfg t) := by
  rintro ⟨_, _, _, _, _, _, _, _, _⟩ ⟨_, _, _, _, _, _, _, _, _⟩ h
  unfold Engine.software_process_block_fast.line1_3
  try dsimp only at *
  repeat same_step

theorem Engine.software_process_block_fast.line1_4_same (cfg : Cfg) : ∀ s t, Engine.software_process_block_fast.Alike1 s t →
    Tr.SameSeen Engine.software_process_block_fast.Alike1 (Engine.software_process_block_fast.line1_4 cfg s) (Engine.software_process_block_fast.line1_4 cfg t) := by
  rintro ⟨_, _, _, _, _, _, _, _, _⟩ ⟨_, _, _, _, _, _, _, _, _⟩ h
  unfold Engine.software_process_block_fast.line1_4
  try dsimp only at *
  repeat same_step

theorem Engine.software_process_block_fast.line1_5_same (cfg : Cfg) : ∀ s t, Engine.software_process_block_fast.Alike1 s t →
    Tr.SameSeen Engine.software_process_block_fast.Alike1 (Engine.software_process_block_fast.line1_5 cfg s) (Engine.software_process_block_fast.line1_5 cfg t) := by
  rintro ⟨_, _, _, _, _, _, _, _, _⟩ ⟨_, _, _, _, _, _, _, _, _⟩ h
  unfold Engine.software_process_block_fast.line1_5
  try dsimp only at *
  repeat same_step

theorem Engine.software_process_block_fast.line1_6_same (cfg : Cfg) : ∀ s t, Engine.software_process_block_fast.Alike1 s t →
    Tr.SameSeen Engine.software_process_block_fast.Alike1 (Engine.software_process_block_fast.line1_6 cfg s) (Engine.software_process_block_fast.line1_6 cfg t) := by
  rintro ⟨_, _, _, _, _, _, _, _, _⟩ ⟨_, _, _, _, _, _, _, _, _⟩ h
  unfold Engine.software_process_block_fast.line1_6
  try dsimp only at *
  repeat same_step

theorem Engine.software_process_block_fast.line1_7_same (cfg : Cfg) : ∀ s t, Engine.software_process_block_fast.Alike1 s t →
    Tr.SameSeen Engine.software_process_block_fast.Alike1 (Engine.software_process_block_fast.line1_7 cfg s) (Engine.software_process_block_fast.line1_7 cfg t) := by
  rintro ⟨_, _, _, _, _, _, _, _, _⟩ ⟨_, _, _, _, _, _, _, _, _⟩ h
  unfold Engine.software_process_block_fast.line1_7
  try dsimp only at *
  repeat same_step

theorem Engine.software_process_block_fast.line1_8_same (cfg : Cfg) : ∀ s t, Engine.software_process_block_fast.Alike1 s t →
    Tr.SameSeen Engine.software_process_block_fast.Alike1 (Engine.software_process_block_fast.line1_8 cfg s) (Engine.software_process_block_fast.line1_8 cfg t) := by
  rintro ⟨_, _, _, _, _, _, _, _, _⟩ ⟨_, _, _, _, _, _, _, _, _⟩ h
  unfold Engine.software_process_block_fast.line1_8
  try dsimp only at *
  repeat same_step

theorem Engine.software_process_block_fast.line1_9_same (cfg : Cfg) : ∀ s t, Engine.software_process_block_fast.Alike1 s t →
    Tr.SameSeen Engine.software_process_block_fast.Alike1 (Engine.software_process_block_fast.line1_9 cfg s) (Engine.software_process_block_fast.line1_9 cfg t) := by
  rintro ⟨_, _, _, _, _, _, _, _, _⟩ ⟨_, _, _, _, _, _, _, _, _⟩ h
  unfold Engine.software_process_block_fast.line1_9
  try dsimp only at *
  repeat same_step

theorem Engine.software_process_block_fast.line1_10_same (cfg : Cfg) : ∀ s t, Engine.software_process_block_fast.Alike1 s t →
    Tr.SameSeen Engine.software_process_block_fast.Alike1 (Engine.software_process_block_fast.line1_10 cfg s) (Engine.software_process_block_fast.line1_10 cfg t) := by
  rintro ⟨_, _, _, _, _, _, _, _, _⟩ ⟨_, _, _, _, _, _, _, _, _⟩ h
  unfold Engine.software_process_block_fast.line1_10
  try dsimp only at *
  repeat same_step

theorem Engine.software_process_block_fast.line1_11_same (cfg : Cfg) : ∀ s t, Engine.software_process_block_fast.Alike1 s t →
    Tr.SameSeen Engine.software_process_block_fast.Alike1 (Engine.software_process_block_fast.line1_11 cfg s) (Engine.software_process_block_fast.line1_11 cfg t) := by
  rintro ⟨_, _, _, _, _, _, _, _, _⟩ ⟨_, _, _, _, _, _, _, _, _⟩ h
  unfold Engine.software_process_block_fast.line1_11
  try dsimp only at *
  repeat same_step

theorem Engine.software_process_block_fast.line1_12_same (cfg : Cfg) : ∀ s t, Engine.software_process_block_fast.Alike1 s t →
    Tr.SameSeen Engine.software_process_block_fast.Alike1 (Engine.software_process_block_fast.line1_12 cfg s) (Engine.software_process_block_fast.line1_12 cfg t) := by
  rintro ⟨_, _, _, _, _, _, _, _, _⟩ ⟨_, _, _, _, _, _, _, _, _⟩ h
  unfold Engine.software_process_block_fast.line1_12
  try dsimp only at *
  repeat same_step

theorem Engine.software_process_block_fast.line1_13_same (cfg : Cfg) : ∀ s t, Engine.software_process_block_fast.Alike1 s t →
    Tr.SameSeen Engine.software_process_block_fast.Alike1 (Engine.software_process_block_fast.line1_13 cfg s) (Engine.software_process_block_fast.line1_13 cfg t) := by
  rintro ⟨_, _, _, _, _, _, _, _, _⟩ ⟨_, _, _, _, _, _, _, _, _⟩ h
  unfold Engine.software_process_block_fast.line1_13
  try dsimp only at *
  repeat same_step

theorem Engine.software_process_block_fast.line1_14_same (cfg : Cfg) : ∀ s t, Engine.software_process_block_fast.Alike1 s t →
    Tr.SameSeen Engine.software_process_block_fast.Alike1 (Engine.software_process_block_fast.line1_14 cfg s) (Engine.software_process_block_fast.line1_14 cfg t) := by
  rintro ⟨_, _, _, _, _, _, _, _, _⟩ ⟨_, _, _, _, _, _, _, _, _⟩ h
  unfold Engine.software_process_block_fast.line1_14
  try dsimp only at *
  repeat same_step

theorem Engine.software_process_block_fast.line1_15_same (cfg : Cfg) : ∀ s t, Engine.software_process_block_fast.Alike1 s t →
    Tr.SameSeen Engine.software_process_block_fast.Alike1 (Engine.software_process_block_fast.line1_15 cfg s) (Engine.software_process_block_fast.line1_15 cfg t) := by
  rintro ⟨_, _, _, _, _, _, _, _, _⟩ ⟨_, _, _, _, _, _, _, _, _⟩ h
  unfold Engine.software_process_block_fast.line1_15
  try dsimp only at *
  repeat same_step

theorem Engine.software_process_block_fast.line1_16_same (cfg : Cfg) : ∀ s t, Engine.software_process_block_fast.Alike1 s t →
    Tr.SameSeen Engine.software_process_block_fast.Alike1 (Engine.software_process_block_fast.line1_16 cfg s) (Engine.software_process_block_fast.line1_16 cfg t) := by
  rintro ⟨_, _, _, _, _, _, _, _, _⟩ ⟨_, _, _, _, _, _, _, _, _⟩ h
  unfold Engine.software_process_block_fast.line1_16
  try dsimp only at *
  repeat same_step

theorem Engine.software_process_block_fast.line1_17_same (cfg : Cfg) : ∀ s t, Engine.software_process_block_fast.Alike1 s t →
    Tr.SameSeen Engine.software_process_block_fast.Alike1 (Engine.software_process_block_fast.line1_17 cfg s) (Engine.software_process_block_fast.line1_17 cfg t) := by
  rintro ⟨_, _, _, _, _, _, _, _, _⟩ ⟨_, _, _, _, _, _, _, _, _⟩ h
  unfold Engine.software_process_block_fast.line1_17
  try dsimp only at *
  repeat same_step

theorem Engine.software_process_block_fast.line1_18_same (cfg : Cfg) : ∀ s t, Engine.software_process_block_fast.Alike1 s t →
    Tr.SameSeen Engine.software_process_block_fast.Alike1 (Engine.software_process_block_fast.line1_18 cfg s) (Engine.software_process_block_fast.line1_18 cfg t) := by
  rintro ⟨_, _, _, _, _, _, _, _, _⟩ ⟨_, _, _, _, _, _, _, _, _⟩ h
  unfold Engine.software_process_block_fast.line1_18
  try dsimp only at *
  repeat same_step

theorem Engine.software_process_block_fast.line1_19_same (cfg : Cfg) : ∀ s t, Engine.software_process_block_fast.Alike1 s t →
    Tr.SameSeen Engine.software_process_block_fast.Alike1 (Engine.software_process_block_fast.line1_19 cfg s) (Engine.software_process_block_fast.line1_19 cfg t) := by
  rintro ⟨_, _, _, _, _, _, _, _, _⟩ ⟨_, _, _, _, _, _, _, _, _⟩ h
  unfold Engine.software_process_block_fast.line1_19
  try dsimp only at *
  repeat same_step

theorem Engine.software_process_block_fast.line1_20_same (cfg : Cfg) : ∀ s t, Engine.software_process_block_fast.Alike1 s t →
    Tr.SameSeen Engine.software_process_block_fast.Alike1 (Engine.software_process_block_fast.line1_20 cfg s) (Engine.software_process_block_fast.line1_20 cfg t) := by
  rintro ⟨_, _, _, _, _, _, _, _, _⟩ ⟨_, _, _, _, _, _, _, _, _⟩ h
  unfold Engine.software_process_block_fast.line1_20
  try dsimp only at *
  repeat same_step

theorem Engine.software_process_block_fast.line1_21_same (cfg : Cfg) : ∀ s t, Engine.software_process_block_fast.Alike1 s t →
    Tr.SameSeen Engine.software_process_block_fast.Alike1 (Engine.software_process_block_fast.line1_21 cfg s) (Engine.software_process_block_fast.line1_21 cfg t) := by
  rintro ⟨_, _, _, _, _, _, _, _, _⟩ ⟨_, _, _, _, _, _, _, _, _⟩ h
  unfold Engine.software_process_block_fast.line1_21
  try dsimp only at *
  repeat same_step

theorem Engine.software_process_block_fast.line1_22_same (cfg : Cfg) : ∀ s t, Engine.software_process_block_fast.Alike1 s t →
    Tr.SameSeen Engine.software_process_block_fast.Alike1 (Engine.software_process_block_fast.line1_22 cfg s) (Engine.software_process_block_fast.line1_22 cfg t) := by
  rintro ⟨_, _, _, _, _, _, _, _, _⟩ ⟨_, _, _, _, _, _, _, _, _⟩ h
  unfold Engine.software_process_block_fast.line1_22
  try dsimp only at *
  repeat same_step

theorem Engine.software_process_block_fast.line1_23_same (cfg : Cfg) : ∀ s t, Engine.software_process_block_fast.Alike1 s t →
    Tr.SameSeen Engine.software_process_block_fast.Alike1 (Engine.software_process_block_fast.line1_23 cfg s) (Engine.software_process_block_fast.line1_23 cfg t) := by
  rintro ⟨_, _, _, _, _, _, _, _, _⟩ ⟨_, _, _, _, _, _, _, _, _⟩ h
  unfold Engine.software_process_block_fast.line1_23
  try dsimp only at *
  repeat same_step

theorem Engine.software_process_block_fast.line1_24_same (cfg : Cfg) : ∀ s t, Engine.software_process_block_fast.Alike1 s t →
    Tr.SameSeen Engine.software_process_block_fast.Alike1 (Engine.software_process_block_fast.line1_24 cfg s) (Engine.software_process_block_fast.line1_24 cfg t) := by
  rintro ⟨_, _, _, _, _, _, _, _, _⟩ ⟨_, _, _, _, _, _, _, _, _⟩ h
  unfold Engine.software_process_block_fast.line1_24
  try dsimp only at *
  repeat same_step

theorem Engine.software_process_block_fast.line1_25_same (cfg : Cfg) : ∀ s t, Engine.software_process_block_fast.Alike1 s t →
    Tr.SameSeen Engine.software_process_block_fast.Alike1 (Engine.software_process_block_fast.line1_25 cfg s) (Engine.software_process_block_fast.line1_25 cfg t) := by
  rintro ⟨_, _, _, _, _, _, _, _, _⟩ ⟨_, _, _, _, _, _, _, _, _⟩ h
  unfold Engine.software_process_block_fast.line1_25
  try dsimp only at *
  repeat same_step

theorem Engine.software_process_block_fast.line1_26_same (cfg : Cfg) : ∀ s t, Engine.software_process_block_fast.Alike1 s t →
    Tr.SameSeen Engine.software_process_block_fast.Alike1 (Engine.software_process_block_fast.line1_26 cfg s) (Engine.software_process_block_fast.line1_26 cfg t) := by
  rintro ⟨_, _, _, _, _, _, _, _, _⟩ ⟨_, _, _, _, _, _, _, _, _⟩ h
  unfold Engine.software_process_block_fast.line1_26
  try dsimp only at *
  repeat same_step

theorem Engine.software_process_block_fast.line1_27_same (cfg : Cfg) : ∀ s t, Engine.software_process_block_fast.Alike1 s t →
    Tr.SameSeen Engine.software_process_block_fast.Alike1 (Engine.software_process_block_fast.line1_27 cfg s) (Engine.software_process_block_fast.line1_27 cfg t) := by
  rintro ⟨_, _, _, _, _, _, _, _, _⟩ ⟨_, _, _, _, _, _, _, _, _⟩ h
  unfold Engine.software_process_block_fast.line1_27
  try dsimp only at *
  repeat same_step

theorem Engine.software_process_block_fast.line1_28_same (cfg : Cfg) : ∀ s t, Engine.software_process_block_fast.Alike1 s t →
    Tr.SameSeen Engine.software_process_block_fast.Alike1 (Engine.software_process_block_fast.line1_28 cfg s) (Engine.software_process_block_fast.line1_28 cfg t) := by
  rintro ⟨_, _, _, _, _, _, _, _, _⟩ ⟨_, _, _, _, _, _, _, _, _⟩ h
  unfold Engine.software_process_block_fast.line1_28
  try dsimp only at *
  repeat same_step

theorem Engine.software_process_block_fast.line1_29_same (cfg : Cfg) : ∀ s t, Engine.software_process_block_fast.Alike1 s t →
    Tr.SameSeen Engine.software_process_block_fast.Alike1 (Engine.software_process_block_fast.line1_29 cfg s) (Engine.software_process_block_fast.line1_29 cfg t) := by
  rintro ⟨_, _, _, _, _, _, _, _, _⟩ ⟨_, _, _, _, _, _, _, _, _⟩ h
  unfold Engine.software_process_block_fast.line1_29
  try dsimp only at *
  repeat same_step

theorem Engine.software_process_block_fast.line1_30_same (cfg : Cfg) : ∀ s t, Engine.software_process_block_fast.Alike1 s t →
    Tr.SameSeen Engine.software_process_block_fast.Alike1 (Engine.software_process_block_fast.line1_30 cfg s) (Engine.software_process_block_fast.line1_30 cfg t) := by
  rintro ⟨_, _, _, _, _, _, _, _, _⟩ ⟨_, _, _, _, _, _, _, _, _⟩ h
  unfold Engine.software_process_block_fast.line1_30
  try dsimp only at *
  repeat same_step

theorem Engine.software_process_block_fast.line1_31_same (cfg : Cfg) : ∀ s t, Engine.software_process_block_fast.Alike1 s t →
    Tr.SameSeen Engine.software_process_block_fast.Alike1 (Engine.software_process_block_fast.line1_31 cfg s) (Engine.software_process_block_fast.line1_31 cfg t) := by
  rintro ⟨_, _, _, _, _, _, _, _, _⟩ ⟨_, _, _, _, _, _, _, _, _⟩ h
  unfold Engine.software_process_block_fast.line1_31
  try dsimp only at *
  repeat same_step

theorem Engine.software_process_block_fast.line1_32_same (cfg : Cfg) : ∀ s t, Engine.software_process_block_fast.Alike1 s t →
    Tr.SameSeen Engine.software_process_block_fast.Alike1 (Engine.software_process_block_fast.line1_32 cfg s) (Engine.software_process_block_fast.line1_32 cfg t) := by
  rintro ⟨_, _, _, _, _, _, _, _, _⟩ ⟨_, _, _, _, _, _, _, _, _⟩ h
  unfold Engine.software_process_block_fast.line1_32
  try dsimp only at *
  repeat same_step

theorem Engine.software_process_block_fast.line1_33_same (cfg : Cfg) : ∀ s t, Engine.software_process_block_fast.Alike1 s t →
    Tr.SameSeen Engine.software_process_block_fast.Alike1 (Engine.software_process_block_fast.line1_33 cfg s) (Engine.software_process_block_fast.line1_33 cfg t) := by
  rintro ⟨_, _, _, _, _, _, _, _, _⟩ ⟨_, _, _, _, _, _, _, _, _⟩ h
  unfold Engine.software_process_block_fast.line1_33
  try dsimp only at *
  repeat same_step

theorem Engine.software_process_block_fast.line1_34_same (cfg : Cfg) : ∀ s t, Engine.software_process_block_fast.Alike1 s t →
    Tr.SameSeen Engine.software_process_block_fast.Alike1 (Engine.software_process_block_fast.line1_34 cfg s) (Engine.software_process_block_fast.line1_34 cfg t) := by
  rintro ⟨_, _, _, _, _, _, _, _, _⟩ ⟨_, _, _, _, _, _, _, _, _⟩ h
  unfold Engine.software_process_block_fast.line1_34
  try dsimp only at *
  repeat same_step

theorem Engine.software_process_block_fast.line1_35_same (cfg : Cfg) : ∀ s t, Engine.software_process_block_fast.Alike1 s t →
    Tr.SameSeen Engine.software_process_block_fast.Alike1 (Engine.software_process_block_fast.line1_35 cfg s) (Engine.software_process_block_fast.line1_35 cfg t) := by
  rintro ⟨_, _, _, _, _, _, _, _, _⟩ ⟨_, _, _, _, _, _, _, _, _⟩ h
  unfold Engine.software_process_block_fast.line1_35
  try dsimp only at *
  repeat same_step

theorem Engine.software_process_block_fast.line1_36_same (cfg : Cfg) : ∀ s t, Engine.software_process_block_fast.Alike1 s t →
    Tr.SameSeen Engine.software_process_block_fast.Alike1 (Engine.software_process_block_fast.line1_36 cfg s) (Engine.software_process_block_fast.line1_36 cfg t) := by
  rintro ⟨_, _, _, _, _, _, _, _, _⟩ ⟨_, _, _, _, _, _, _, _, _⟩ h
  unfold Engine.software_process_block_fast.line1_36
  try dsimp only at *
  repeat same_step

theorem Engine.software_process_block_fast.line1_37_same (cfg : Cfg) : ∀ s t, Engine.software_process_block_fast.Alike1 s t →
    Tr.SameSeen Engine.software_process_block_fast.Alike1 (Engine.software_process_block_fast.line1_37 cfg s) (Engine.software_process_block_fast.line1_37 cfg t) := by
  rintro ⟨_, _, _, _, _, _, _, _, _⟩ ⟨_, _, _, _, _, _, _, _, _⟩ h
  unfold Engine.software_process_block_fast.line1_37
  try dsimp only at *
  repeat same_step

theorem Engine.software_process_block_fast.line1_38_same (cfg : Cfg) : ∀ s t, Engine.software_process_block_fast.Alike1 s t →
    Tr.SameSeen Engine.software_process_block_fast.Alike1 (Engine.software_process_block_fast.line1_38 cfg s) (Engine.software_process_block_fast.line1_38 cfg t) := by
  rintro ⟨_, _, _, _, _, _, _, _, _⟩ ⟨_, _, _, _, _, _, _, _, _⟩ h
  unfold Engine.software_process_block_fast.line1_38
  try dsimp only at *
  repeat same_step

theorem Engine.software_process_block_fast.line1_39_same (cfg : Cfg) : ∀ s t, Engine.software_process_block_fast.Alike1 s t →
    Tr.SameSeen Engine.software_process_block_fast.Alike1 (Engine.software_process_block_fast.line1_39 cfg s) (Engine.software_process_block_fast.line1_39 cfg t) := by
  rintro ⟨_, _, _, _, _, _, _, _, _⟩ ⟨_, _, _, _, _, _, _, _, _⟩ h
  unfold Engine.software_process_block_fast.line1_39
  try dsimp only at *
  repeat same_step

theorem Engine.software_process_block_fast.line1_40_same (cfg : Cfg) : ∀ s t, Engine.software_process_block_fast.Alike1 s t →
    Tr.SameSeen Engine.software_process_block_fast.Alike1 (Engine.software_process_block_fast.line1_40 cfg s) (Engine.software_process_block_fast.line1_40 cfg t) := by
  rintro ⟨_, _, _, _, _, _, _, _, _⟩ ⟨_, _, _, _, _, _, _, _, _⟩ h
  unfold Engine.software_process_block_fast.line1_40
  try dsimp only at *
  repeat same_step

theorem Engine.software_process_block_fast.line1_41_same (cfg : Cfg) : ∀ s t, Engine.software_process_block_fast.Alike1 s t →
    Tr.SameSeen Engine.software_process_block_fast.Alike1 (Engine.software_process_block_fast.line1_41 cfg s) (Engine.software_process_block_fast.line1_41 cfg t) := by
  rintro ⟨_, _, _, _, _, _, _, _, _⟩ ⟨_, _, _, _, _, _, _, _, _⟩ h
  unfold Engine.software_process_block_fast.line1_41
  try dsimp only at *
  repeat same_step

theorem Engine.software_process_block_fast.line1_42_same (cfg : Cfg) : ∀ s t, Engine.software_process_block_fast.Alike1 s t →
    Tr.SameSeen Engine.software_process_block_fast.Alike1 (Engine.software_process_block_fast.line1_42 cfg s) (Engine.software_process_block_fast.line1_42 cfg t) := by
  rintro ⟨_, _, _, _, _, _, _, _, _⟩ ⟨_, _, _, _, _, _, _, _, _⟩ h
  unfold Engine.software_process_block_fast.line1_42
  try dsimp only at *
  repeat same_step

theorem Engine.software_process_block_fast.line1_43_same (cfg : Cfg) : ∀ s t, Engine.software_process_block_fast.Alike1 s t →
    Tr.SameSeen Engine.software_process_block_fast.Alike1 (Engine.software_process_block_fast.line1_43 cfg s) (Engine.software_process_block_fast.line1_43 cfg t) := by
  rintro ⟨_, _, _, _, _, _, _, _, _⟩ ⟨_, _, _, _, _, _, _, _, _⟩ h
  unfold Engine.software_process_block_fast.line1_43
  try dsimp only at *
  repeat same_step

theorem Engine.software_process_block_fast.line1_44_same (cfg : Cfg) : ∀ s t, Engine.software_process_block_fast.Alike1 s t →
    Tr.SameSeen Engine.software_process_block_fast.Alike1 (Engine.software_process_block_fast.line1_44 cfg s) (Engine.software_process_block_fast.line1_44 cfg t) := by
  rintro ⟨_, _, _, _, _, _, _, _, _⟩ ⟨_, _, _, _, _, _, _, _, _⟩ h
  unfold Engine.software_process_block_fast.line1_44
  try dsimp only at *
  repeat same_step

theorem Engine.software_process_block_fast.line1_45_same (cfg : Cfg) : ∀ s t, Engine.software_process_block_fast.Alike1 s t →
    Tr.SameSeen Engine.software_process_block_fast.Alike1 (Engine.software_process_block_fast.line1_45 cfg s) (Engine.software_process_block_fast.line1_45 cfg t) := by
  rintro ⟨_, _, _, _, _, _, _, _, _⟩ ⟨_, _, _, _, _, _, _, _, _⟩ h
  unfold Engine.software_process_block_fast.line1_45
  try dsimp only at *
  repeat same_step

theorem Engine.software_process_block_fast.line1_46_same (cfg : Cfg) : ∀ s t, Engine.software_process_block_fast.Alike1 s t →
    Tr.SameSeen Engine.software_process_block_fast.Alike1 (Engine.software_process_block_fast.line1_46 cfg s) (Engine.software_process_block_fast.line1_46 cfg t) := by
  rintro ⟨_, _, _, _, _, _, _, _, _⟩ ⟨_, _, _, _, _, _, _, _, _⟩ h
  unfold Engine.software_process_block_fast.line1_46
  try dsimp only at *
  repeat same_step

theorem Engine.software_process_block_fast.line1_47_same (cfg : Cfg) : ∀ s t, Engine.software_process_block_fast.Alike1 s t →
    Tr.SameSeen Engine.software_process_block_fast.Alike1 (Engine.software_process_block_fast.line1_47 cfg s) (Engine.software_process_block_fast.line1_47 cfg t) := by
  rintro ⟨_, _, _, _, _, _, _, _, _⟩ ⟨_, _, _, _, _, _, _, _, _⟩ h
  unfold Engine.software_process_block_fast.line1_47
  try dsimp only at *
  repeat same_step

theorem Engine.software_process_block_fast.line1_48_same (cfg : Cfg) : ∀ s t, Engine.software_process_block_fast.Alike1 s t →
    Tr.SameSeen Engine.software_process_block_fast.Alike1 (Engine.software_process_block_fast.line1_48 cfg s) (Engine.software_process_block_fast.line1_48 cfg t) := by
  rintro ⟨_, _, _, _, _, _, _, _, _⟩ ⟨_, _, _, _, _, _, _, _, _⟩ h
  unfold Engine.software_process_block_fast.line1_48
  try dsimp only at *
  repeat same_step

theorem Engine.software_process_block_fast.line1_49_same (cfg : Cfg) : ∀ s t, Engine.software_process_block_fast.Alike1 s t →
    Tr.SameSeen Engine.software_process_block_fast.Alike1 (Engine.software_process_block_fast.line1_49 cfg s) (Engine.software_process_block_fast.line1_49 cfg t) := by
  rintro ⟨_, _, _, _, _, _, _, _, _⟩ ⟨_, _, _, _, _, _, _, _, _⟩ h
  unfold Engine.software_process_block_fast.line1_49
  try dsimp only at *
  repeat same_step

theorem Engine.software_process_block_fast.line1_50_same (cfg : Cfg) : ∀ s t, Engine.software_process_block_fast.Alike1 s t →
    Tr.SameSeen Engine.software_process_block_fast.Alike1 (Engine.software_process_block_fast.line1_50 cfg s) (Engine.software_process_block_fast.line1_50 cfg t) := by
  rintro ⟨_, _, _, _, _, _, _, _, _⟩ ⟨_, _, _, _, _, _, _, _, _⟩ h
  unfold Engine.software_process_block_fast.line1_50
  try dsimp only at *
  repeat same_step

theorem Engine.software_process_block_fast.line1_51_same (cfg : Cfg) : ∀ s t, Engine.software_process_block_fast.Alike1 s t →
    Tr.SameSeen Engine.software_process_block_fast.Alike1 (Engine.software_process_block_fast.line1_51 cfg s) (Engine.software_process_block_fast.line1_51 cfg t) := by
  rintro ⟨_, _, _, _, _, _, _, _, _⟩ ⟨_, _, _, _, _, _, _, _, _⟩ h
  unfold Engine.software_process_block_fast.line1_51
  try dsimp only at *
  repeat same_step

theorem Engine.software_process_block_fast.line1_52_same (cfg : Cfg) : ∀ s t, Engine.software_process_block_fast.Alike1 s t →
    Tr.SameSeen Engine.software_process_block_fast.Alike1 (Engine.software_process_block_fast.line1_52 cfg s) (Engine.software_process_block_fast.line1_52 cfg t) := by
  rintro ⟨_, _, _, _, _, _, _, _, _⟩ ⟨_, _, _, _, _, _, _, _, _⟩ h
  unfold Engine.software_process_block_fast.line1_52
  try dsimp only at *
  repeat same_step

theorem Engine.software_process_block_fast.line1_53_same (cfg : Cfg) : ∀ s t, Engine.software_process_block_fast.Alike1 s t →
    Tr.SameSeen Engine.software_process_block_fast.Alike1 (Engine.software_process_block_fast.line1_53 cfg s) (Engine.software_process_block_fast.line1_53 cfg t) := by
  rintro ⟨_, _, _, _, _, _, _, _, _⟩ ⟨_, _, _, _, _, _, _, _, _⟩ h
  unfold Engine.software_process_block_fast.line1_53
  try dsimp only at *
  repeat same_step

theorem Engine.software_process_block_fast.line1_54_same (cfg : Cfg) : ∀ s t, Engine.software_process_block_fast.Alike1 s t →
    Tr.SameSeen Engine.software_process_block_fast.Alike1 (Engine.software_process_block_fast.line1_54 cfg s) (Engine.software_process_block_fast.line1_54 cfg t) := by
  rintro ⟨_, _, _, _, _, _, _, _, _⟩ ⟨_, _, _, _, _, _, _, _, _⟩ h
  unfold Engine.software_process_block_fast.line1_54
  try dsimp only at *
  repeat same_step

theorem Engine.software_process_block_fast.line1_55_same (cfg : Cfg) : ∀ s t, Engine.software_process_block_fast.Alike1 s t →
    Tr.SameSeen Engine.software_process_block_fast.Alike1 (Engine.software_process_block_fast.line1_55 cfg s) (Engine.software_process_block_fast.line1_55 cfg t) := by
  rintro ⟨_, _, _, _, _, _, _, _, _⟩ ⟨_, _, _, _, _, _, _, _, _⟩ h
  unfold Engine.software_process_block_fast.line1_55
  try dsimp only at *
  repeat same_step

theorem Engine.software_process_block_fast.line1_56_same (cfg : Cfg) : ∀ s t, Engine.software_process_block_fast.Alike1 s t →
    Tr.SameSeen Engine.software_process_block_fast.Alike1 (Engine.software_process_block_fast.line1_56 cfg s) (Engine.software_process_block_fast.line1_56 cfg t) := by
  rintro ⟨_, _, _, _, _, _, _, _, _⟩ ⟨_, _, _, _, _, _, _, _, _⟩ h
  unfold Engine.software_process_block_fast.line1_56
  try dsimp only at *
  repeat same_step

theorem Engine.software_process_block_fast.line1_57_same (cfg : Cfg) : ∀ s t, Engine.software_process_block_fast.Alike1 s t →
    Tr.SameSeen Engine.software_process_block_fast.Alike1 (Engine.software_process_block_fast.line1_57 cfg s) (Engine.software_process_block_fast.line1_57 cfg t) := by
  rintro ⟨_, _, _, _, _, _, _, _, _⟩ ⟨_, _, _, _, _, _, _, _, _⟩ h
  unfold Engine.software_process_block_fast.line1_57
  try dsimp only at *
  repeat same_step

theorem Engine.software_process_block_fast.line1_58_same (cfg : Cfg) : ∀ s t, Engine.software_process_block_fast.Alike1 s t →
    Tr.SameSeen Engine.software_process_block_fast.Alike1 (Engine.software_process_block_fast.line1_58 cfg s) (Engine.software_process_block_fast.line1_58 cfg t) := by
  rintro ⟨_, _, _, _, _, _, _, _, _⟩ ⟨_, _, _, _, _, _, _, _, _⟩ h
  unfold Engine.software_process_block_fast.line1_58
  try dsimp only at *
  repeat same_step

theorem Engine.software_process_block_fast.line1_59_same (cfg : Cfg) : ∀ s t, Engine.software_process_block_fast.Alike1 s t →
    Tr.SameSeen Engine.software_process_block_fast.Alike1 (Engine.software_process_block_fast.line1_59 cfg s) (Engine.software_process_block_fast.line1_59 cfg t) := by
  rintro ⟨_, _, _, _, _, _, _, _, _⟩ ⟨_, _, _, _, _, _, _, _, _⟩ h
  unfold Engine.software_process_block_fast.line1_59
  try dsimp only at *
  repeat same_step

theorem Engine.software_process_block_fast.line1_60_same (cfg : Cfg) : ∀ s t, Engine.software_process_block_fast.Alike1 s t →
    Tr.SameSeen Engine.software_process_block_fast.Alike1 (Engine.software_process_block_fast.line1_60 cfg s) (Engine.software_process_block_fast.line1_60 cfg t) := by
  rintro ⟨_, _, _, _, _, _, _, _, _⟩ ⟨_, _, _, _, _, _, _, _, _⟩ h
  unfold Engine.software_process_block_fast.line1_60
  try dsimp only at *
  repeat same_step

theorem Engine.software_process_block_fast.line1_61_same (cfg : Cfg) : ∀ s t, Engine.software_process_block_fast.Alike1 s t →
    Tr.SameSeen Engine.software_process_block_fast.Alike1 (Engine.software_process_block_fast.line1_61 cfg s) (Engine.software_process_block_fast.line1_61 cfg t) := by
  rintro ⟨_, _, _, _, _, _, _, _, _⟩ ⟨_, _, _, _, _, _, _, _, _⟩ h
  unfold Engine.software_process_block_fast.line1_61
  try dsimp only at *
  repeat same_step

theorem Engine.software_process_block_fast.line1_62_same (cfg : Cfg) : ∀ s t, Engine.software_process_block_fast.Alike1 s t →
    Tr.SameSeen Engine.software_process_block_fast.Alike1 (Engine.software_process_block_fast.line1_62 cfg s) (Engine.software_process_block_fast.line1_62 cfg t) := by
  rintro ⟨_, _, _, _, _, _, _, _, _⟩ ⟨_, _, _, _, _, _, _, _, _⟩ h
  unfold Engine.software_process_block_fast.line1_62
  try dsimp only at *
  repeat same_step

theorem Engine.software_process_block_fast.line1_63_same (cfg : Cfg) : ∀ s t, Engine.software_process_block_fast.Alike1 s t →
    Tr.SameSeen Engine.software_process_block_fast.Alike1 (Engine.software_process_block_fast.line1_63 cfg s) (Engine.software_process_block_fast.line1_63 cfg t) := by
  rintro ⟨_, _, _, _, _, _, _, _, _⟩ ⟨_, _, _, _, _, _, _, _, _⟩ h
  unfold Engine.software_process_block_fast.line1_63
  try dsimp only at *
  repeat same_step

set_option maxRecDepth 10000 in
theorem Engine.software_process_block_fast.lines1_same (cfg : Cfg) :
    Tr.SameSeen.Each (fun f g => ∀ s t, Engine.software_process_block_fast.Alike1 s t → Tr.SameSeen Engine.software_process_block_fast.Alike1 (f s) (g t))
      (Engine.software_process_block_fast.lines1 cfg) (Engine.software_process_block_fast.lines1 cfg) :=
  ⟨Engine.software_process_block_fast.line1_0_same cfg,
   Engine.software_process_block_fast.line1_1_same cfg,
   Engine.software_process_block_fast.line1_2_same cfg,
   Engine.software_process_block_fast.line1_3_same cfg,
   Engine.software_process_block_fast.line1_4_same cfg,
   Engine.software_process_block_fast.line1_5_same cfg,
   Engine.software_process_block_fast.line1_6_same cfg,
   Engine.software_process_block_fast.line1_7_same cfg,
   Engine.software_process_block_fast.line1_8_same cfg,
   Engine.software_process_block_fast.line1_9_same cfg,
   Engine.software_process_block_fast.line1_10_same cfg,
   Engine.software_process_block_fast.line1_11_same cfg,
   Engine.software_process_block_fast.line1_12_same cfg,
   Engine.software_process_block_fast.line1_13_same cfg,
   Engine.software_process_block_fast.line1_14_same cfg,
   Engine.software_process_block_fast.line1_15_same cfg,
   Engine.software_process_block_fast.line1_16_same cfg,
   Engine.software_process_block_fast.line1_17_same cfg,
   Engine.software_process_block_fast.line1_18_same cfg,
   Engine.software_process_block_fast.line1_19_same cfg,
   Engine.software_process_block_fast.line1_20_same cfg,
   Engine.software_process_block_fast.line1_21_same cfg,
   Engine.software_process_block_fast.line1_22_same cfg,
   Engine.software_process_block_fast.line1_23_same cfg,
   Engine.software_process_block_fast.line1_24_same cfg,
   Engine.software_process_block_fast.line1_25_same cfg,
   Engine.software_process_block_fast.line1_26_same cfg,
   Engine.software_process_block_fast.line1_27_same cfg,
   Engine.software_process_block_fast.line1_28_same cfg,
   Engine.software_process_block_fast.line1_29_same cfg,
   Engine.software_process_block_fast.line1_30_same cfg,
   Engine.software_process_block_fast.line1_31_same cfg,
   Engine.software_process_block_fast.line1_32_same cfg,
   Engine.software_process_block_fast.line1_33_same cfg,
   Engine.software_process_block_fast.line1_34_same cfg,
   Engine.software_process_block_fast.line1_35_same cfg,
   Engine.software_process_block_fast.line1_36_same cfg,
   Engine.software_process_block_fast.line1_37_same cfg,
   Engine.software_process_block_fast.line1_38_same cfg,
   Engine.software_process_block_fast.line1_39_same cfg,
   Engine.software_process_block_fast.line1_40_same cfg,
   Engine.software_process_block_fast.line1_41_same cfg,
   Engine.software_process_block_fast.line1_42_same cfg,
   Engine.software_process_block_fast.line1_43_same cfg,
   Engine.software_process_block_fast.line1_44_same cfg,
   Engine.software_process_block_fast.line1_45_same cfg,
   Engine.software_process_block_fast.line1_46_same cfg,
   Engine.software_process_block_fast.line1_47_same cfg,
   Engine.software_process_block_fast.line1_48_same cfg,
   Engine.software_process_block_fast.line1_49_same cfg,
   Engine.software_process_block_fast.line1_50_same cfg,
   Engine.software_process_block_fast.line1_51_same cfg,
   Engine.software_process_block_fast.line1_52_same cfg,
   Engine.software_process_block_fast.line1_53_same cfg,
   Engine.software_process_block_fast.line1_54_same cfg,
   Engine.software_process_block_fast.line1_55_same cfg,
   Engine.software_process_block_fast.line1_56_same cfg,
   Engine.software_process_block_fast.line1_57_same cfg,
   Engine.software_process_block_fast.line1_58_same cfg,
   Engine.software_process_block_fast.line1_59_same cfg,
   Engine.software_process_block_fast.line1_60_same cfg,
   Engine.software_process_block_fast.line1_61_same cfg,
   Engine.software_process_block_fast.line1_62_same cfg,
   Engine.software_process_block_fast.line1_63_same cfg, trivial⟩

set_option maxRecDepth 10000 in
theorem Engine.software_process_block_fast.lines1_res (cfg : Cfg) :
    (Engine.software_process_block_fast.lines1 cfg).map (fun f s => (f s).res) = Source.Sha256.Engine.software_process_block_fast.lines1 cfg := rfl

/-- The states of these statements are alike. -/
abbrev Engine.software_process_block_small.Alike1 :=
  fun s t : Source.Sha256.Engine.software_process_block_small.State1 => Len s.1 t.1

theorem Engine.software_process_block_small.line1_0_same (cfg : Cfg) : ∀ s t, Engine.software_process_block_small.Alike1 s t →
    Tr.SameSeen Engine.software_process_block_small.Alike1 (Engine.software_process_block_small.line1_0 cfg s) (Engine.software_process_block_small.line1_0 cfg t) := by
  rintro ⟨_, _, _, _, _, _, _, _, _⟩ ⟨_, _, _, _, _, _, _, _, _⟩ h
  unfold Engine.software_process_block_small.line1_0
  try dsimp only at *
  repeat same_step

theorem Engine.software_process_block_small.line1_1_same (cfg : Cfg) : ∀ s t, Engine.software_process_block_small.Alike1 s t →
    Tr.SameSeen Engine.software_process_block_small.Alike1 (Engine.software_process_block_small.line1_1 cfg s) (Engine.software_process_block_small.line1_1 cfg t) := by
  rintro ⟨_, _, _, _, _, _, _, _, _⟩ ⟨_, _, _, _, _, _, _, _, _⟩ h
  unfold Engine.software_process_block_small.line1_1
  try dsimp only at *
  repeat same_step

theorem Engine.software_process_block_small.line1_2_same (cfg : Cfg) : ∀ s t, Engine.software_process_block_small.Alike1 s t →
    Tr.SameSeen Engine.software_process_block_small.Alike1 (Engine.software_process_block_small.line1_2 cfg s) (Engine.software_process_block_small.line1_2 cfg t) := by
  rintro ⟨_, _, _, _, _, _, _, _, _⟩ ⟨_, _, _, _, _, _, _, _, _⟩ h
  unfold Engine.software_process_block_small.line1_2
  try dsimp only at *
  repeat same_step

theorem Engine.software_process_block_small.line1_3_same (cfg : Cfg) : ∀ s t, Engine.software_process_block_small.Alike1 s t →
    Tr.SameSeen Engine.software_process_block_small.Alike1 (Engine.software_process_block_small.line1_3 cfg s) (Engine.software_process_block_small.line1_3 cfg t) := by
  rintro ⟨_, _, _, _, _, _, _, _, _⟩ ⟨_, _, _, _, _, _, _, _, _⟩ h
  unfold Engine.software_process_block_small.line1_3
  try dsimp only at *
  repeat same_step

theorem Engine.software_process_block_small.line1_4_same (cfg : Cfg) : ∀ s t, Engine.software_process_block_small.Alike1 s t →
    Tr.SameSeen Engine.software_process_block_small.Alike1 (Engine.software_process_block_small.line1_4 cfg s) (Engine.software_process_block_small.line1_4 cfg t) := by
  rintro ⟨_, _, _, _, _, _, _, _, _⟩ ⟨_, _, _, _, _, _, _, _, _⟩ h
  unfold Engine.software_process_block_small.line1_4
  try dsimp only at *
  repeat same_step

theorem Engine.software_process_block_small.line1_5_same (cfg : Cfg) : ∀ s t, Engine.software_process_block_small.Alike1 s t →
    Tr.SameSeen Engine.software_process_block_small.Alike1 (Engine.software_process_block_small.line1_5 cfg s) (Engine.software_process_block_small.line1_5 cfg t) := by
  rintro ⟨_, _, _, _, _, _, _, _, _⟩ ⟨_, _, _, _, _, _, _, _, _⟩ h
  unfold Engine.software_process_block_small.line1_5
  try dsimp only at *
  repeat same_step

theorem Engine.software_process_block_small.line1_6_same (cfg : Cfg) : ∀ s t, Engine.software_process_block_small.Alike1 s t →
    Tr.SameSeen Engine.software_process_block_small.Alike1 (Engine.software_process_block_small.line1_6 cfg s) (Engine.software_process_block_small.line1_6 cfg t) := by
  rintro ⟨_, _, _, _, _, _, _, _, _⟩ ⟨_, _, _, _, _, _, _, _, _⟩ h
  unfold Engine.software_process_block_small.line1_6
  try dsimp only at *
  repeat same_step

theorem Engine.software_process_block_small.line1_7_same (cfg : Cfg) : ∀ s t, Engine.software_process_block_small.Alike1 s t →
    Tr.SameSeen Engine.software_process_block_small.Alike1 (Engine.software_process_block_small.line1_7 cfg s) (Engine.software_process_block_small.line1_7 cfg t) := by
  rintro ⟨_, _, _, _, _, _, _, _, _⟩ ⟨_, _, _, _, _, _, _, _, _⟩ h
  unfold Engine.software_process_block_small.line1_7
  try dsimp only at *
  repeat same_step

theorem Engine.software_process_block_small.line1_8_same (cfg : Cfg) : ∀ s t, Engine.software_process_block_small.Alike1 s t →
    Tr.SameSeen Engine.software_process_block_small.Alike1 (Engine.software_process_block_small.line1_8 cfg s) (Engine.software_process_block_small.line1_8 cfg t) := by
  rintro ⟨_, _, _, _, _, _, _, _, _⟩ ⟨_, _, _, _, _, _, _, _, _⟩ h
  unfold Engine.software_process_block_small.line1_8
  try dsimp only at *
  repeat same_step

theorem Engine.software_process_block_small.line1_9_same (cfg : Cfg) : ∀ s t, Engine.software_process_block_small.Alike1 s t →
    Tr.SameSeen Engine.software_process_block_small.Alike1 (Engine.software_process_block_small.line1_9 cfg s) (Engine.software_process_block_small.line1_9 cfg t) := by
  rintro ⟨_, _, _, _, _, _, _, _, _⟩ ⟨_, _, _, _, _, _, _, _, _⟩ h
  unfold Engine.software_process_block_small.line1_9
  try dsimp only at *
  repeat same_step

theorem Engine.software_process_block_small.line1_10_same (cfg : Cfg) : ∀ s t, Engine.software_process_block_small.Alike1 s t →
    Tr.SameSeen Engine.software_process_block_small.Alike1 (Engine.software_process_block_small.line1_10 cfg s) (Engine.software_process_block_small.line1_10 cfg t) := by
  rintro ⟨_, _, _, _, _, _, _, _, _⟩ ⟨_, _, _, _, _, _, _, _, _⟩ h
  unfold Engine.software_process_block_small.line1_10
  try dsimp only at *
  repeat same_step

theorem Engine.software_process_block_small.line1_11_same (cfg : Cfg) : ∀ s t, Engine.software_process_block_small.Alike1 s t →
    Tr.SameSeen Engine.software_process_block_small.Alike1 (Engine.software_process_block_small.line1_11 cfg s) (Engine.software_process_block_small.line1_11 cfg t) := by
  rintro ⟨_, _, _, _, _, _, _, _, _⟩ ⟨_, _, _, _, _, _, _, _, _⟩ h
  unfold Engine.software_process_block_small.line1_11
  try dsimp only at *
  repeat same_step

theorem Engine.software_process_block_small.line1_12_same (cfg : Cfg) : ∀ s t, Engine.software_process_block_small.Alike1 s t →
    Tr.SameSeen Engine.software_process_block_small.Alike1 (Engine.software_process_block_small.line1_12 cfg s) (Engine.software_process_block_small.line1_12 cfg t) := by
  rintro ⟨_, _, _, _, _, _, _, _, _⟩ ⟨_, _, _, _, _, _, _, _, _⟩ h
  unfold Engine.software_process_block_small.line1_12
  try dsimp only at *
  repeat same_step

theorem Engine.software_process_block_small.line1_13_same (cfg : Cfg) : ∀ s t, Engine.software_process_block_small.Alike1 s t →
    Tr.SameSeen Engine.software_process_block_small.Alike1 (Engine.software_process_block_small.line1_13 cfg s) (Engine.software_process_block_small.line1_13 cfg t) := by
  rintro ⟨_, _, _, _, _, _, _, _, _⟩ ⟨_, _, _, _, _, _, _, _, _⟩ h
  unfold Engine.software_process_block_small.line1_13
  try dsimp only at *
  repeat same_step

theorem Engine.software_process_block_small.line1_14_same (cfg : Cfg) : ∀ s t, Engine.software_process_block_small.Alike1 s t →
    Tr.SameSeen Engine.software_process_block_small.Alike1 (Engine.software_process_block_small.line1_14 cfg s) (Engine.software_process_block_small.line1_14 cfg t) := by
  rintro ⟨_, _, _, _, _, _, _, _, _⟩ ⟨_, _, _, _, _, _, _, _, _⟩ h
  unfold Engine.software_process_block_small.line1_14
  try dsimp only at *
  repeat same_step

theorem Engine.software_process_block_small.line1_15_same (cfg : Cfg) : ∀ s t, Engine.software_process_block_small.Alike1 s t →
    Tr.SameSeen Engine.software_process_block_small.Alike1 (Engine.software_process_block_small.line1_15 cfg s) (Engine.software_process_block_small.line1_15 cfg t) := by
  rintro ⟨_, _, _, _, _, _, _, _, _⟩ ⟨_, _, _, _, _, _, _, _, _⟩ h
  unfold Engine.software_process_block_small.line1_15
  try dsimp only at *
  repeat same_step

theorem Engine.software_process_block_small.line1_16_same (cfg : Cfg) : ∀ s t, Engine.software_process_block_small.Alike1 s t →
    Tr.SameSeen Engine.software_process_block_small.Alike1 (Engine.software_process_block_small.line1_16 cfg s) (Engine.software_process_block_small.line1_16 cfg t) := by
  rintro ⟨_, _, _, _, _, _, _, _, _⟩ ⟨_, _, _, _, _, _, _, _, _⟩ h
  unfold Engine.software_process_block_small.line1_16
  try dsimp only at *
  repeat same_step

theorem Engine.software_process_block_small.line1_17_same (cfg : Cfg) : ∀ s t, Engine.software_process_block_small.Alike1 s t →
    Tr.SameSeen Engine.software_process_block_small.Alike1 (Engine.software_process_block_small.line1_17 cfg s) (Engine.software_process_block_small.line1_17 cfg t) := by
  rintro ⟨_, _, _, _, _, _, _, _, _⟩ ⟨_, _, _, _, _, _, _, _, _⟩ h
  unfold Engine.software_process_block_small.line1_17
  try dsimp only at *
  repeat same_step

theorem Engine.software_process_block_small.line1_18_same (cfg : Cfg) : ∀ s t, Engine.software_process_block_small.Alike1 s t →
    Tr.SameSeen Engine.software_process_block_small.Alike1 (Engine.software_process_block_small.line1_18 cfg s) (Engine.software_process_block_small.line1_18 cfg t) := by
  rintro ⟨_, _, _, _, _, _, _, _, _⟩ ⟨_, _, _, _, _, _, _, _, _⟩ h
  unfold Engine.software_process_block_small.line1_18
  try dsimp only at *
  repeat same_step

theorem Engine.software_process_block_small.line1_19_same (cfg : Cfg) : ∀ s t, Engine.software_process_block_small.Alike1 s t →
    Tr.SameSeen Engine.software_process_block_small.Alike1 (Engine.software_process_block_small.line1_19 cfg s) (Engine.software_process_block_small.line1_19 cfg t) := by
  rintro ⟨_, _, _, _, _, _, _, _, _⟩ ⟨_, _, _, _, _, _, _, _, _⟩ h
  unfold Engine.software_process_block_small.line1_19
  try dsimp only at *
  repeat same_step

theorem Engine.software_process_block_small.line1_20_same (cfg : Cfg) : ∀ s t, Engine.software_process_block_small.Alike1 s t →
    Tr.SameSeen Engine.software_process_block_small.Alike1 (Engine.software_process_block_small.line1_20 cfg s) (Engine.software_process_block_small.line1_20 cfg t) := by
  rintro ⟨_, _, _, _, _, _, _, _, _⟩ ⟨_, _, _, _, _, _, _, _, _⟩ h
  unfold Engine.software_process_block_small.line1_20
  try dsimp only at *
  repeat same_step

theorem Engine.software_process_block_small.line1_21_same (cfg : Cfg) : ∀ s t, Engine.software_process_block_small.Alike1 s t →
    Tr.SameSeen Engine.software_process_block_small.Alike1 (Engine.software_process_block_small.line1_21 cfg s) (Engine.software_process_block_small.line1_21 cfg t) := by
  rintro ⟨_, _, _, _, _, _, _, _, _⟩ ⟨_, _, _, _, _, _, _, _, _⟩ h
  unfold Engine.software_process_block_small.line1_21
  try dsimp only at *
  repeat same_step

theorem Engine.software_process_block_small.line1_22_same (cfg : Cfg) : ∀ s t, Engine.software_process_block_small.Alike1 s t →
    Tr.SameSeen Engine.software_process_block_small.Alike1 (Engine.software_process_block_small.line1_22 cfg s) (Engine.software_process_block_small.line1_22 cfg t) := by
  rintro ⟨_, _, _, _, _, _, _, _, _⟩ ⟨_, _, _, _, _, _, _, _, _⟩ h
  unfold Engine.software_process_block_small.line1_22
  try dsimp only at *
  repeat same_step

theorem Engine.software_process_block_small.line1_23_same (cfg : Cfg) : ∀ s t, Engine.software_process_block_small.Alike1 s t →
    Tr.SameSeen Engine.software_process_block_small.Alike1 (Engine.software_process_block_small.line1_23 cfg s) (Engine.software_process_block_small.line1_23 cfg t) := by
  rintro ⟨_, _, _, _, _, _, _, _, _⟩ ⟨_, _, _, _, _, _, _, _, _⟩ h
  unfold Engine.software_process_block_small.line1_23
  try dsimp only at *
  repeat same_step

theorem Engine.software_process_block_small.line1_24_same (cfg : Cfg) : ∀ s t, Engine.software_process_block_small.Alike1 s t →
    Tr.SameSeen Engine.software_process_block_small.Alike1 (Engine.software_process_block_small.line1_24 cfg s) (Engine.software_process_block_small.line1_24 cfg t) := by
  rintro ⟨_, _, _, _, _, _, _, _, _⟩ ⟨_, _, _, _, _, _, _, _, _⟩ h
  unfold Engine.software_process_block_small.line1_24
  try dsimp only at *
  repeat same_step

theorem Engine.software_process_block_small.line1_25_same (cfg : Cfg) : ∀ s t, Engine.software_process_block_small.Alike1 s t →
    Tr.SameSeen Engine.software_process_block_small.Alike1 (Engine.software_process_block_small.line1_25 cfg s) (Engine.software_process_block_small.line1_25 cfg t) := by
  rintro ⟨_, _, _, _, _, _, _, _, _⟩ ⟨_, _, _, _, _, _, _, _, _⟩ h
  unfold Engine.software_process_block_small.line1_25
  try dsimp only at *
  repeat same_step

theorem Engine.software_process_block_small.line1_26_same (cfg : Cfg) : ∀ s t, Engine.software_process_block_small.Alike1 s t →
    Tr.SameSeen Engine.software_process_block_small.Alike1 (Engine.software_process_block_small.line1_26 cfg s) (Engine.software_process_block_small.line1_26 cfg t) := by
  rintro ⟨_, _, _, _, _, _, _, _, _⟩ ⟨_, _, _, _, _, _, _, _, _⟩ h
  unfold Engine.software_process_block_small.line1_26
  try dsimp only at *
  repeat same_step

theorem Engine.software_process_block_small.line1_27_same (cfg : Cfg) : ∀ s t, Engine.software_process_block_small.Alike1 s t →
    Tr.SameSeen Engine.software_process_block_small.Alike1 (Engine.software_process_block_small.line1_27 cfg s) (Engine.software_process_block_small.line1_27 cfg t) := by
  rintro ⟨_, _, _, _, _, _, _, _, _⟩ ⟨_, _, _, _, _, _, _, _, _⟩ h
  unfold Engine.software_process_block_small.line1_27
  try dsimp only at *
  repeat same_step

theorem Engine.software_process_block_small.line1_28_same (cfg : Cfg) : ∀ s t, Engine.software_process_block_small.Alike1 s t →
    Tr.SameSeen Engine.software_process_block_small.Alike1 (Engine.software_process_block_small.line1_28 cfg s) (Engine.software_process_block_small.line1_28 cfg t) := by
  rintro ⟨_, _, _, _, _, _, _, _, _⟩ ⟨_, _, _, _, _, _, _, _, _⟩ h
  unfold Engine.software_process_block_small.line1_28
  try dsimp only at *
  repeat same_step

theorem Engine.software_process_block_small.line1_29_same (cfg : Cfg) : ∀ s t, Engine.software_process_block_small.Alike1 s t →
    Tr.SameSeen Engine.software_process_block_small.Alike1 (Engine.software_process_block_small.line1_29 cfg s) (Engine.software_process_block_small.line1_29 cfg t) := by
  rintro ⟨_, _, _, _, _, _, _, _, _⟩ ⟨_, _, _, _, _, _, _, _, _⟩ h
  unfold Engine.software_process_block_small.line1_29
  try dsimp only at *
  repeat same_step

theorem Engine.software_process_block_small.line1_30_same (cfg : Cfg) : ∀ s t, Engine.software_process_block_small.Alike1 s t →
    Tr.SameSeen Engine.software_process_block_small.Alike1 (Engine.software_process_block_small.line1_30 cfg s) (Engine.software_process_block_small.line1_30 cfg t) := by
  rintro ⟨_, _, _, _, _, _, _, _, _⟩ ⟨_, _, _, _, _, _, _, _, _⟩ h
  unfold Engine.software_process_block_small.line1_30
  try dsimp only at *
  repeat same_step

theorem Engine.software_process_block_small.line1_31_same (cfg : Cfg) : ∀ s t, Engine.software_process_block_small.Alike1 s t →
    Tr.SameSeen Engine.software_process_block_small.Alike1 (Engine.software_process_block_small.line1_31 cfg s) (Engine.software_process_block_small.line1_31 cfg t) := by
  rintro ⟨_, _, _, _, _, _, _, _, _⟩ ⟨_, _, _, _, _, _, _, _, _⟩ h
  unfold Engine.software_process_block_small.line1_31
  try dsimp only at *
  repeat same_step

theorem Engine.software_process_block_small.line1_32_same (cfg : Cfg) : ∀ s t, Engine.software_process_block_small.Alike1 s t →
    Tr.SameSeen Engine.software_process_block_small.Alike1 (Engine.software_process_block_small.line1_32 cfg s) (Engine.software_process_block_small.line1_32 cfg t) := by
  rintro ⟨_, _, _, _, _, _, _, _, _⟩ ⟨_, _, _, _, _, _, _, _, _⟩ h
  unfold Engine.software_process_block_small.line1_32
  try dsimp only at *
  repeat same_step

theorem Engine.software_process_block_small.line1_33_same (cfg : Cfg) : ∀ s t, Engine.software_process_block_small.Alike1 s t →
    Tr.SameSeen Engine.software_process_block_small.Alike1 (Engine.software_process_block_small.line1_33 cfg s) (Engine.software_process_block_small.line1_33 cfg t) := by
  rintro ⟨_, _, _, _, _, _, _, _, _⟩ ⟨_, _, _, _, _, _, _, _, _⟩ h
  unfold Engine.software_process_block_small.line1_33
  try dsimp only at *
  repeat same_step

theorem Engine.software_process_block_small.line1_34_same (cfg : Cfg) : ∀ s t, Engine.software_process_block_small.Alike1 s t →
    Tr.SameSeen Engine.software_process_block_small.Alike1 (Engine.software_process_block_small.line1_34 cfg s) (Engine.software_process_block_small.line1_34 cfg t) := by
  rintro ⟨_, _, _, _, _, _, _, _, _⟩ ⟨_, _, _, _, _, _, _, _, _⟩ h
  unfold Engine.software_process_block_small.line1_34
  try dsimp only at *
  repeat same_step

theorem Engine.software_process_block_small.line1_35_same (cfg : Cfg) : ∀ s t, Engine.software_process_block_small.Alike1 s t →
    Tr.SameSeen Engine.software_process_block_small.Alike1 (Engine.software_process_block_small.line1_35 cfg s) (Engine.software_process_block_small.line1_35 cfg t) := by
  rintro ⟨_, _, _, _, _, _, _, _, _⟩ ⟨_, _, _, _, _, _, _, _, _⟩ h
  unfold Engine.software_process_block_small.line1_35
  try dsimp only at *
  repeat same_step

theorem Engine.software_process_block_small.line1_36_same (cfg : Cfg) : ∀ s t, Engine.software_process_block_small.Alike1 s t →
    Tr.SameSeen Engine.software_process_block_small.Alike1 (Engine.software_process_block_small.line1_36 cfg s) (Engine.software_process_block_small.line1_36 cfg t) := by
  rintro ⟨_, _, _, _, _, _, _, _, _⟩ ⟨_, _, _, _, _, _, _, _, _⟩ h
  unfold Engine.software_process_block_small.line1_36
  try dsimp only at *
  repeat same_step

theorem Engine.software_process_block_small.line1_37_same (cfg : Cfg) : ∀ s t, Engine.software_process_block_small.Alike1 s t →
    Tr.SameSeen Engine.software_process_block_small.Alike1 (Engine.software_process_block_small.line1_37 cfg s) (Engine.software_process_block_small.line1_37 cfg t) := by
  rintro ⟨_, _, _, _, _, _, _, _, _⟩ ⟨_, _, _, _, _, _, _, _, _⟩ h
  unfold Engine.software_process_block_small.line1_37
  try dsimp only at *
  repeat same_step

theorem Engine.software_process_block_small.line1_38_same (cfg : Cfg) : ∀ s t, Engine.software_process_block_small.Alike1 s t →
    Tr.SameSeen Engine.software_process_block_small.Alike1 (Engine.software_process_block_small.line1_38 cfg s) (Engine.software_process_block_small.line1_38 cfg t) := by
  rintro ⟨_, _, _, _, _, _, _, _, _⟩ ⟨_, _, _, _, _, _, _, _, _⟩ h
  unfold Engine.software_process_block_small.line1_38
  try dsimp only at *
  repeat same_step

theorem Engine.software_process_block_small.line1_39_same (cfg : Cfg) : ∀ s t, Engine.software_process_block_small.Alike1 s t →
    Tr.SameSeen Engine.software_process_block_small.Alike1 (Engine.software_process_block_small.line1_39 cfg s) (Engine.software_process_block_small.line1_39 cfg t) := by
  rintro ⟨_, _, _, _, _, _, _, _, _⟩ ⟨_, _, _, _, _, _, _, _, _⟩ h
  unfold Engine.software_process_block_small.line1_39
  try dsimp only at *
  repeat same_step

theorem Engine.software_process_block_small.line1_40_same (cfg : Cfg) : ∀ s t, Engine.software_process_block_small.Alike1 s t →
    Tr.SameSeen Engine.software_process_block_small.Alike1 (Engine.software_process_block_small.line1_40 cfg s) (Engine.software_process_block_small.line1_40 cfg t) := by
  rintro ⟨_, _, _, _, _, _, _, _, _⟩ ⟨_, _, _, _, _, _, _, _, _⟩ h
  unfold Engine.software_process_block_small.line1_40
  try dsimp only at *
  repeat same_step

theorem Engine.software_process_block_small.line1_41_same (cfg : Cfg) : ∀ s t, Engine.software_process_block_small.Alike1 s t →
    Tr.SameSeen Engine.software_process_block_small.Alike1 (Engine.software_process_block_small.line1_41 cfg s) (Engine.software_process_block_small.line1_41 cfg t) := by
  rintro ⟨_, _, _, _, _, _, _, _, _⟩ ⟨_, _, _, _, _, _, _, _, _⟩ h
  unfold Engine.software_process_block_small.line1_41
  try dsimp only at *
  repeat same_step

theorem Engine.software_process_block_small.line1_42_same (cfg : Cfg) : ∀ s t, Engine.software_process_block_small.Alike1 s t →
    Tr.SameSeen Engine.software_process_block_small.Alike1 (Engine.software_process_block_small.line1_42 cfg s) (Engine.software_process_block_small.line1_42 cfg t) := by
  rintro ⟨_, _, _, _, _, _, _, _, _⟩ ⟨_, _, _, _, _, _, _, _, _⟩ h
  unfold Engine.software_process_block_small.line1_42
  try dsimp only at *
  repeat same_step

theorem Engine.software_process_block_small.line1_43_same (cfg : Cfg) : ∀ s t, Engine.software_process_block_small.Alike1 s t →
    Tr.SameSeen Engine.software_process_block_small.Alike1 (Engine.software_process_block_small.line1_43 cfg s) (Engine.software_process_block_small.line1_43 cfg t) := by
  rintro ⟨_, _, _, _, _, _, _, _, _⟩ ⟨_, _, _, _, _, _, _, _, _⟩ h
  unfold Engine.software_process_block_small.line1_43
  try dsimp only at *
  repeat same_step

theorem Engine.software_process_block_small.line1_44_same (cfg : Cfg) : ∀ s t, Engine.software_process_block_small.Alike1 s t →
    Tr.SameSeen Engine.software_process_block_small.Alike1 (Engine.software_process_block_small.line1_44 cfg s) (Engine.software_process_block_small.line1_44 cfg t) := by
  rintro ⟨_, _, _, _, _, _, _, _, _⟩ ⟨_, _, _, _, _, _, _, _, _⟩ h
  unfold Engine.software_process_block_small.line1_44
  try dsimp only at *
  repeat same_step

theorem Engine.software_process_block_small.line1_45_same (cfg : Cfg) : ∀ s t, Engine.software_process_block_small.Alike1 s t →
    Tr.SameSeen Engine.software_process_block_small.Alike1 (Engine.software_process_block_small.line1_45 cfg s) (Engine.software_process_block_small.line1_45 cfg t) := by
  rintro ⟨_, _, _, _, _, _, _, _, _⟩ ⟨_, _, _, _, _, _, _, _, _⟩ h
  unfold Engine.software_process_block_small.line1_45
  try dsimp only at *
  repeat same_step

theorem Engine.software_process_block_small.line1_46_same (cfg : Cfg) : ∀ s t, Engine.software_process_block_small.Alike1 s t →
    Tr.SameSeen Engine.software_process_block_small.Alike1 (Engine.software_process_block_small.line1_46 cfg s) (Engine.software_process_block_small.line1_46 cfg t) := by
  rintro ⟨_, _, _, _, _, _, _, _, _⟩ ⟨_, _, _, _, _, _, _, _, _⟩ h
  unfold Engine.software_process_block_small.line1_46
  try dsimp only at *
  repeat same_step

theorem Engine.software_process_block_small.line1_47_same (cfg : Cfg) : ∀ s t, Engine.software_process_block_small.Alike1 s t →
    Tr.SameSeen Engine.software_process_block_small.Alike1 (Engine.software_process_block_small.line1_47 cfg s) (Engine.software_process_block_small.line1_47 cfg t) := by
  rintro ⟨_, _, _, _, _, _, _, _, _⟩ ⟨_, _, _, _, _, _, _, _, _⟩ h
  unfold Engine.software_process_block_small.line1_47
  try dsimp only at *
  repeat same_step

theorem Engine.software_process_block_small.line1_48_same (cfg : Cfg) : ∀ s t, Engine.software_process_block_small.Alike1 s t →
    Tr.SameSeen Engine.software_process_block_small.Alike1 (Engine.software_process_block_small.line1_48 cfg s) (Engine.software_process_block_small.line1_48 cfg t) := by
  rintro ⟨_, _, _, _, _, _, _, _, _⟩ ⟨_, _, _, _, _, _, _, _, _⟩ h
  unfold Engine.software_process_block_small.line1_48
  try dsimp only at *
  repeat same_step

theorem Engine.software_process_block_small.line1_49_same (cfg : Cfg) : ∀ s t, Engine.software_process_block_small.Alike1 s t →
    Tr.SameSeen Engine.software_process_block_small.Alike1 (Engine.software_process_block_small.line1_49 cfg s) (Engine.software_process_block_small.line1_49 cfg t) := by
  rintro ⟨_, _, _, _, _, _, _, _, _⟩ ⟨_, _, _, _, _, _, _, _, _⟩ h
  unfold Engine.software_process_block_small.line1_49
  try dsimp only at *
  repeat same_step

theorem Engine.software_process_block_small.line1_50_same (cfg : Cfg) : ∀ s t, Engine.software_process_block_small.Alike1 s t →
    Tr.SameSeen Engine.software_process_block_small.Alike1 (Engine.software_process_block_small.line1_50 cfg s) (Engine.software_process_block_small.line1_50 cfg t) := by
  rintro ⟨_, _, _, _, _, _, _, _, _⟩ ⟨_, _, _, _, _, _, _, _, _⟩ h
  unfold Engine.software_process_block_small.line1_50
  try dsimp only at *
  repeat same_step

theorem Engine.software_process_block_small.line1_51_same (cfg : Cfg) : ∀ s t, Engine.software_process_block_small.Alike1 s t →
    Tr.SameSeen Engine.software_process_block_small.Alike1 (Engine.software_process_block_small.line1_51 cfg s) (Engine.software_process_block_small.line1_51 cfg t) := by
  rintro ⟨_, _, _, _, _, _, _, _, _⟩ ⟨_, _, _, _, _, _, _, _, _⟩ h
  unfold Engine.software_process_block_small.line1_51
  try dsimp only at *
  repeat same_step

theorem Engine.software_process_block_small.line1_52_same (cfg : Cfg) : ∀ s t, Engine.software_process_block_small.Alike1 s t →
    Tr.SameSeen Engine.software_process_block_small.Alike1 (Engine.software_process_block_small.line1_52 cfg s) (Engine.software_process_block_small.line1_52 cfg t) := by
  rintro ⟨_, _, _, _, _, _, _, _, _⟩ ⟨_, _, _, _, _, _, _, _, _⟩ h
  unfold Engine.software_process_block_small.line1_52
  try dsimp only at *
  repeat same_step

theorem Engine.software_process_block_small.line1_53_same (cfg : Cfg) : ∀ s t, Engine.software_process_block_small.Alike1 s t →
    Tr.SameSeen Engine.software_process_block_small.Alike1 (Engine.software_process_block_small.line1_53 cfg s) (Engine.software_process_block_small.line1_53 cfg t) := by
  rintro ⟨_, _, _, _, _, _, _, _, _⟩ ⟨_, _, _, _, _, _, _, _, _⟩ h
  unfold Engine.software_process_block_small.line1_53
  try dsimp only at *
  repeat same_step

theorem Engine.software_process_block_small.line1_54_same (cfg : Cfg) : ∀ s t, Engine.software_process_block_small.Alike1 s t →
    Tr.SameSeen Engine.software_process_block_small.Alike1 (Engine.software_process_block_small.line1_54 cfg s) (Engine.software_process_block_small.line1_54 cfg t) := by
  rintro ⟨_, _, _, _, _, _, _, _, _⟩ ⟨_, _, _, _, _, _, _, _, _⟩ h
  unfold Engine.software_process_block_small.line1_54
  try dsimp only at *
  repeat same_step

theorem Engine.software_process_block_small.line1_55_same (cfg : Cfg) : ∀ s t, Engine.software_process_block_small.Alike1 s t →
    Tr.SameSeen Engine.software_process_block_small.Alike1 (Engine.software_process_block_small.line1_55 cfg s) (Engine.software_process_block_small.line1_55 cfg t) := by
  rintro ⟨_, _, _, _, _, _, _, _, _⟩ ⟨_, _, _, _, _, _, _, _, _⟩ h
  unfold Engine.software_process_block_small.line1_55
  try dsimp only at *
  repeat same_step

theorem Engine.software_process_block_small.line1_56_same (cfg : Cfg) : ∀ s t, Engine.software_process_block_small.Alike1 s t →
    Tr.SameSeen Engine.software_process_block_small.Alike1 (Engine.software_process_block_small.line1_56 cfg s) (Engine.software_process_block_small.line1_56 cfg t) := by
  rintro ⟨_, _, _, _, _, _, _, _, _⟩ ⟨_, _, _, _, _, _, _, _, _⟩ h
  unfold Engine.software_process_block_small.line1_56
  try dsimp only at *
  repeat same_step

theorem Engine.software_process_block_small.line1_57_same (cfg : Cfg) : ∀ s t, Engine.software_process_block_small.Alike1 s t →
    Tr.SameSeen Engine.software_process_block_small.Alike1 (Engine.software_process_block_small.line1_57 cfg s) (Engine.software_process_block_small.line1_57 cfg t) := by
  rintro ⟨_, _, _, _, _, _, _, _, _⟩ ⟨_, _, _, _, _, _, _, _, _⟩ h
  unfold Engine.software_process_block_small.line1_57
  try dsimp only at *
  repeat same_step

theorem Engine.software_process_block_small.line1_58_same (cfg : Cfg) : ∀ s t, Engine.software_process_block_small.Alike1 s t →
    Tr.SameSeen Engine.software_process_block_small.Alike1 (Engine.software_process_block_small.line1_58 cfg s) (Engine.software_process_block_small.line1_58 cfg t) := by
  rintro ⟨_, _, _, _, _, _, _, _, _⟩ ⟨_, _, _, _, _, _, _, _, _⟩ h
  unfold Engine.software_process_block_small.line1_58
  try dsimp only at *
  repeat same_step

theorem Engine.software_process_block_small.line1_59_same (cfg : Cfg) : ∀ s t, Engine.software_process_block_small.Alike1 s t →
    Tr.SameSeen Engine.software_process_block_small.Alike1 (Engine.software_process_block_small.line1_59 cfg s) (Engine.software_process_block_small.line1_59 cfg t) := by
  rintro ⟨_, _, _, _, _, _, _, _, _⟩ ⟨_, _, _, _, _, _, _, _, _⟩ h
  unfold Engine.software_process_block_small.line1_59
  try dsimp only at *
  repeat same_step

theorem Engine.software_process_block_small.line1_60_same (cfg : Cfg) : ∀ s t, Engine.software_process_block_small.Alike1 s t →
    Tr.SameSeen Engine.software_process_block_small.Alike1 (Engine.software_process_block_small.line1_60 cfg s) (Engine.software_process_block_small.line1_60 cfg t) := by
  rintro ⟨_, _, _, _, _, _, _, _, _⟩ ⟨_, _, _, _, _, _, _, _, _⟩ h
  unfold Engine.software_process_block_small.line1_60
  try dsimp only at *
  repeat same_step

theorem Engine.software_process_block_small.line1_61_same (cfg : Cfg) : ∀ s t, Engine.software_process_block_small.Alike1 s t →
    Tr.SameSeen Engine.software_process_block_small.Alike1 (Engine.software_process_block_small.line1_61 cfg s) (Engine.software_process_block_small.line1_61 cfg t) := by
  rintro ⟨_, _, _, _, _, _, _, _, _⟩ ⟨_, _, _, _, _, _, _, _, _⟩ h
  unfold Engine.software_process_block_small.line1_61
  try dsimp only at *
  repeat same_step

theorem Engine.software_process_block_small.line1_62_same (cfg : Cfg) : ∀ s t, Engine.software_process_block_small.Alike1 s t →
    Tr.SameSeen Engine.software_process_block_small.Alike1 (Engine.software_process_block_small.line1_62 cfg s) (Engine.software_process_block_small.line1_62 cfg t) := by
  rintro ⟨_, _, _, _, _, _, _, _, _⟩ ⟨_, _, _, _, _, _, _, _, _⟩ h
  unfold Engine.software_process_block_small.line1_62
  try dsimp only at *
  repeat same_step

theorem Engine.software_process_block_small.line1_63_same (cfg : Cfg) : ∀ s t, Engine.software_process_block_small.Alike1 s t →
    Tr.SameSeen Engine.software_process_block_small.Alike1 (Engine.software_process_block_small.line1_63 cfg s) (Engine.software_process_block_small.line1_63 cfg t) := by
  rintro ⟨_, _, _, _, _, _, _, _, _⟩ ⟨_, _, _, _, _, _, _, _, _⟩ h
  unfold Engine.software_process_block_small.line1_63
  try dsimp only at *
  repeat same_step

set_option maxRecDepth 10000 in
theorem Engine.software_process_block_small.lines1_same (cfg : Cfg) :
    Tr.SameSeen.Each (fun f g => ∀ s t, Engine.software_process_block_small.Alike1 s t → Tr.SameSeen Engine.software_process_block_small.Alike1 (f s) (g t))
      (Engine.software_process_block_small.lines1 cfg) (Engine.software_process_block_small.lines1 cfg) :=
  ⟨Engine.software_process_block_small.line1_0_same cfg,
   Engine.software_process_block_small.line1_1_same cfg,
   Engine.software_process_block_small.line1_2_same cfg,
   Engine.software_process_block_small.line1_3_same cfg,
   Engine.software_process_block_small.line1_4_same cfg,
   Engine.software_process_block_small.line1_5_same cfg,
   Engine.software_process_block_small.line1_6_same cfg,
   Engine.software_process_block_small.line1_7_same cfg,
   Engine.software_process_block_small.line1_8_same cfg,
   Engine.software_process_block_small.line1_9_same cfg,
   Engine.software_process_block_small.line1_10_same cfg,
   Engine.software_process_block_small.line1_11_same cfg,
   Engine.software_process_block_small.line1_12_same cfg,
   Engine.software_process_block_small.line1_13_same cfg,
   Engine.software_process_block_small.line1_14_same cfg,
   Engine.software_process_block_small.line1_15_same cfg,
   Engine.software_process_block_small.line1_16_same cfg,
   Engine.software_process_block_small.line1_17_same cfg,
   Engine.software_process_block_small.line1_18_same cfg,
   Engine.software_process_block_small.line1_19_same cfg,
   Engine.software_process_block_small.line1_20_same cfg,
   Engine.software_process_block_small.line1_21_same cfg,
   Engine.software_process_block_small.line1_22_same cfg,
   Engine.software_process_block_small.line1_23_same cfg,
   Engine.software_process_block_small.line1_24_same cfg,
   Engine.software_process_block_small.line1_25_same cfg,
   Engine.software_process_block_small.line1_26_same cfg,
   Engine.software_process_block_small.line1_27_same cfg,
   Engine.software_process_block_small.line1_28_same cfg,
   Engine.software_process_block_small.line1_29_same cfg,
   Engine.software_process_block_small.line1_30_same cfg,
   Engine.software_process_block_small.line1_31_same cfg,
   Engine.software_process_block_small.line1_32_same cfg,
   Engine.software_process_block_small.line1_33_same cfg,
   Engine.software_process_block_small.line1_34_same cfg,
   Engine.software_process_block_small.line1_35_same cfg,
   Engine.software_process_block_small.line1_36_same cfg,
   Engine.software_process_block_small.line1_37_same cfg,
   Engine.software_process_block_small.line1_38_same cfg,
   Engine.software_process_block_small.line1_39_same cfg,
   Engine.software_process_block_small.line1_40_same cfg,
   Engine.software_process_block_small.line1_41_same cfg,
   Engine.software_process_block_small.line1_42_same cfg,
   Engine.software_process_block_small.line1_43_same cfg,
   Engine.software_process_block_small.line1_44_same cfg,
   Engine.software_process_block_small.line1_45_same cfg,
   Engine.software_process_block_small.line1_46_same cfg,
   Engine.software_process_block_small.line1_47_same cfg,
   Engine.software_process_block_small.line1_48_same cfg,
   Engine.software_process_block_small.line1_49_same cfg,
   Engine.software_process_block_small.line1_50_same cfg,
   Engine.software_process_block_small.line1_51_same cfg,
   Engine.software_process_block_small.line1_52_same cfg,
   Engine.software_process_block_small.line1_53_same cfg,
   Engine.software_process_block_small.line1_54_same cfg,
   Engine.software_process_block_small.line1_55_same cfg,
   Engine.software_process_block_small.line1_56_same cfg,
   Engine.software_process_block_small.line1_57_same cfg,
   Engine.software_process_block_small.line1_58_same cfg,
   Engine.software_process_block_small.line1_59_same cfg,
   Engine.software_process_block_small.line1_60_same cfg,
   Engine.software_process_block_small.line1_61_same cfg,
   Engine.software_process_block_small.line1_62_same cfg,
   Engine.software_process_block_small.line1_63_same cfg, trivial⟩

set_option maxRecDepth 10000 in
theorem Engine.software_process_block_small.lines1_res (cfg : Cfg) :
    (Engine.software_process_block_small.lines1 cfg).map (fun f s => (f s).res) = Source.Sha256.Engine.software_process_block_small.lines1 cfg := rfl

/-- The states of these statements are alike. -/
abbrev Midstate.const_hash_fast.Alike1 :=
  fun s t : Source.Sha256.Midstate.const_hash_fast.State1 => Len s.1 t.1

theorem Midstate.const_hash_fast.line1_0_same (cfg : Cfg) : ∀ s t, Midstate.const_hash_fast.Alike1 s t →
    Tr.SameSeen Midstate.const_hash_fast.Alike1 (Midstate.const_hash_fast.line1_0 cfg s) (Midstate.const_hash_fast.line1_0 cfg t) := by
  rintro ⟨_, _, _, _, _, _, _, _, _⟩ ⟨_, _, _, _, _, _, _, _, _⟩ h
  unfold Midstate.const_hash_fast.line1_0
  try dsimp only at *
  repeat same_step

theorem Midstate.const_hash_fast.line1_1_same (cfg : Cfg) : ∀ s t, Midstate.const_hash_fast.Alike1 s t →
    Tr.SameSeen Midstate.const_hash_fast.Alike1 (Midstate.const_hash_fast.line1_1 cfg s) (Midstate.const_hash_fast.line1_1 cfg t) := by
  rintro ⟨_, _, _, _, _, _, _, _, _⟩ ⟨_, _, _, _, _, _, _, _, _⟩ h
  unfold Midstate.const_hash_fast.line1_1
  try dsimp only at *
  repeat same_step

theorem Midstate.const_hash_fast.line1_2_same (cfg : Cfg) : ∀ s t, Midstate.const_hash_fast.Alike1 s t →
    Tr.SameSeen Midstate.const_hash_fast.Alike1 (Midstate.const_hash_fast.line1_2 cfg s) (Midstate.const_hash_fast.line1_2 cfg t) := by
  rintro ⟨_, _, _, _, _, _, _, _, _⟩ ⟨_, _, _, _, _, _, _, _, _⟩ h
  unfold Midstate.const_hash_fast.line1_2
  try dsimp only at *
  repeat same_step

theorem Midstate.const_hash_fast.line1_3_same (cfg : Cfg) : ∀ s t, Midstate.const_hash_fast.Alike1 s t →
    Tr.SameSeen Midstate.const_hash_fast.Alike1 (Midstate.const_hash_fast.line1_3 cfg s) (Midstate.const_hash_fast.line1_3 cfg t) := by
  rintro ⟨_, _, _, _, _, _, _, _, _⟩ ⟨_, _, _, _, _, _, _, _, _⟩ h
  unfold Midstate.const_hash_fast.line1_3
  try dsimp only at *
  repeat same_step

theorem Midstate.const_hash_fast.line1_4_same (cfg : Cfg) : ∀ s t, Midstate.const_hash_fast.Alike1 s t →
    Tr.SameSeen Midstate.const_hash_fast.Alike1 (Midstate.const_hash_fast.line1_4 cfg s) (Midstate.const_hash_fast.line1_4 cfg t) := by
  rintro ⟨_, _, _, _, _, _, _, _, _⟩ ⟨_, _, _, _, _, _, _, _, _⟩ h
  unfold Midstate.const_hash_fast.line1_4
  try dsimp only at *
  repeat same_step

theorem Midstate.const_hash_fast.line1_5_same (cfg : Cfg) : ∀ s t, Midstate.const_hash_fast.Alike1 s t →
    Tr.SameSeen Midstate.const_hash_fast.Alike1 (Midstate.const_hash_fast.line1_5 cfg s) (Midstate.const_hash_fast.line1_5 cfg t) := by
  rintro ⟨_, _, _, _, _, _, _, _, _⟩ ⟨_, _, _, _, _, _, _, _, _⟩ h
  unfold Midstate.const_hash_fast.line1_5
  try dsimp only at *
  repeat same_step

theorem Midstate.const_hash_fast.line1_6_same (cfg : Cfg) : ∀ s t, Midstate.const_hash_fast.Alike1 s t →
    Tr.SameSeen Midstate.const_hash_fast.Alike1 (Midstate.const_hash_fast.line1_6 cfg s) (Midstate.const_hash_fast.line1_6 cfg t) := by
  rintro ⟨_, _, _, _, _, _, _, _, _⟩ ⟨_, _, _, _, _, _, _, _, _⟩ h
  unfold Midstate.const_hash_fast.line1_6
  try dsimp only at *
  repeat same_step

theorem Midstate.const_hash_fast.line1_7_same (cfg : Cfg) : ∀ s t, Midstate.const_hash_fast.Alike1 s t →
    Tr.SameSeen Midstate.const_hash_fast.Alike1 (Midstate.const_hash_fast.line1_7 cfg s) (Midstate.const_hash_fast.line1_7 cfg t) := by
  rintro ⟨_, _, _, _, _, _, _, _, _⟩ ⟨_, _, _, _, _, _, _, _, _⟩ h
  unfold Midstate.const_hash_fast.line1_7
  try dsimp only at *
  repeat same_step

theorem Midstate.const_hash_fast.line1_8_same (cfg : Cfg) : ∀ s t, Midstate.const_hash_fast.Alike1 s t →
    Tr.SameSeen Midstate.const_hash_fast.Alike1 (Midstate.const_hash_fast.line1_8 cfg s) (Midstate.const_hash_fast.line1_8 cfg t) := by
  rintro ⟨_, _, _, _, _, _, _, _, _⟩ ⟨_, _, _, _, _, _, _, _, _⟩ h
  unfold Midstate.const_hash_fast.line1_8
  try dsimp only at *
  repeat same_step

theorem Midstate.const_hash_fast.line1_9_same (cfg : Cfg) : ∀ s t, Midstate.const_hash_fast.Alike1 s t →
    Tr.SameSeen Midstate.const_hash_fast.Alike1 (Midstate.const_hash_fast.line1_9 cfg s) (Midstate.const_hash_fast.line1_9 cfg t) := by
  rintro ⟨_, _, _, _, _, _, _, _, _⟩ ⟨_, _, _, _, _, _, _, _, _⟩ h
  unfold Midstate.const_hash_fast.line1_9
  try dsimp only at *
  repeat same_step

theorem Midstate.const_hash_fast.line1_10_same (cfg : Cfg) : ∀ s t, Midstate.const_hash_fast.Alike1 s t →
    Tr.SameSeen Midstate.const_hash_fast.Alike1 (Midstate.const_hash_fast.line1_10 cfg s) (Midstate.const_hash_fast.line1_10 cfg t) := by
  rintro ⟨_, _, _, _, _, _, _, _, _⟩ ⟨_, _, _, _, _, _, _, _, _⟩ h
  unfold Midstate.const_hash_fast.line1_10
  try dsimp only at *
  repeat same_step

theorem Midstate.const_hash_fast.line1_11_same (cfg : Cfg) : ∀ s t, Midstate.const_hash_fast.Alike1 s t →
    Tr.SameSeen Midstate.const_hash_fast.Alike1 (Midstate.const_hash_fast.line1_11 cfg s) (Midstate.const_hash_fast.line1_11 cfg t) := by
  rintro ⟨_, _, _, _, _, _, _, _, _⟩ ⟨_, _, _, _, _, _, _, _, _⟩ h
  unfold Midstate.const_hash_fast.line1_11
  try dsimp only at *
  repeat same_step

theorem Midstate.const_hash_fast.line1_12_same (cfg : Cfg) : ∀ s t, Midstate.const_hash_fast.Alike1 s t →
    Tr.SameSeen Midstate.const_hash_fast.Alike1 (Midstate.const_hash_fast.line1_12 cfg s) (Midstate.const_hash_fast.line1_12 cfg t) := by
  rintro ⟨_, _, _, _, _, _, _, _, _⟩ ⟨_, _, _, _, _, _, _, _, _⟩ h
  unfold Midstate.const_hash_fast.line1_12
  try dsimp only at *
  repeat same_step

theorem Midstate.const_hash_fast.line1_13_same (cfg : Cfg) : ∀ s t, Midstate.const_hash_fast.Alike1 s t →
    Tr.SameSeen Midstate.const_hash_fast.Alike1 (Midstate.const_hash_fast.line1_13 cfg s) (Midstate.const_hash_fast.line1_13 cfg t) := by
  rintro ⟨_, _, _, _, _, _, _, _, _⟩ ⟨_, _, _, _, _, _, _, _, _⟩ h
  unfold Midstate.const_hash_fast.line1_13
  try dsimp only at *
  repeat same_step

theorem Midstate.const_hash_fast.line1_14_same (cfg : Cfg) : ∀ s t, Midstate.const_hash_fast.Alike1 s t →
    Tr.SameSeen Midstate.const_hash_fast.Alike1 (Midstate.const_hash_fast.line1_14 cfg s) (Midstate.const_hash_fast.line1_14 cfg t) := by
  rintro ⟨_, _, _, _, _, _, _, _, _⟩ ⟨_, _, _, _, _, _, _, _, _⟩ h
  unfold Midstate.const_hash_fast.line1_14
  try dsimp only at *
  repeat same_step

theorem Midstate.const_hash_fast.line1_15_same (cfg : Cfg) : ∀ s t, Midstate.const_hash_fast.Alike1 s t →
    Tr.SameSeen Midstate.const_hash_fast.Alike1 (Midstate.const_hash_fast.line1_15 cfg s) (Midstate.const_hash_fast.line1_15 cfg t) := by
  rintro ⟨_, _, _, _, _, _, _, _, _⟩ ⟨_, _, _, _, _, _, _, _, _⟩ h
  unfold Midstate.const_hash_fast.line1_15
  try dsimp only at *
  repeat same_step

theorem Midstate.const_hash_fast.line1_16_same (cfg : Cfg) : ∀ s t, Midstate.const_hash_fast.Alike1 s t →
    Tr.SameSeen Midstate.const_hash_fast.Alike1 (Midstate.const_hash_fast.line1_16 cfg s) (Midstate.const_hash_fast.line1_16 cfg t) := by
  rintro ⟨_, _, _, _, _, _, _, _, _⟩ ⟨_, _, _, _, _, _, _, _, _⟩ h
  unfold Midstate.const_hash_fast.line1_16
  try dsimp only at *
  repeat same_step

theorem Midstate.const_hash_fast.line1_17_same (cfg : Cfg) : ∀ s t, Midstate.const_hash_fast.Alike1 s t →
    Tr.SameSeen Midstate.const_hash_fast.Alike1 (Midstate.const_hash_fast.line1_17 cfg s) (Midstate.const_hash_fast.line1_17 cfg t) := by
  rintro ⟨_, _, _, _, _, _, _, _, _⟩ ⟨_, _, _, _, _, _, _, _, _⟩ h
  unfold Midstate.const_hash_fast.line1_17
  try dsimp only at *
  repeat same_step

theorem Midstate.const_hash_fast.line1_18_same (cfg : Cfg) : ∀ s t, Midstate.const_hash_fast.Alike1 s t →
    Tr.SameSeen Midstate.const_hash_fast.Alike1 (Midstate.const_hash_fast.line1_18 cfg s) (Midstate.const_hash_fast.line1_18 cfg t) := by
  rintro ⟨_, _, _, _, _, _, _, _, _⟩ ⟨_, _, _, _, _, _, _, _, _⟩ h
  unfold Midstate.const_hash_fast.line1_18
  try dsimp only at *
  repeat same_step

theorem Midstate.const_hash_fast.line1_19_same (cfg : Cfg) : ∀ s t, Midstate.const_hash_fast.Alike1 s t →
    Tr.SameSeen Midstate.const_hash_fast.Alike1 (Midstate.const_hash_fast.line1_19 cfg s) (Midstate.const_hash_fast.line1_19 cfg t) := by
  rintro ⟨_, _, _, _, _, _, _, _, _⟩ ⟨_, _, _, _, _, _, _, _, _⟩ h
  unfold Midstate.const_hash_fast.line1_19
  try dsimp only at *
  repeat same_step

theorem Midstate.const_hash_fast.line1_20_same (cfg : Cfg) : ∀ s t, Midstate.const_hash_fast.Alike1 s t →
    Tr.SameSeen Midstate.const_hash_fast.Alike1 (Midstate.const_hash_fast.line1_20 cfg s) (Midstate.const_hash_fast.line1_20 cfg t) := by
  rintro ⟨_, _, _, _, _, _, _, _, _⟩ ⟨_, _, _, _, _, _, _, _, _⟩ h
  unfold Midstate.const_hash_fast.line1_20
  try dsimp only at *
  repeat same_step

theorem Midstate.const_hash_fast.line1_21_same (cfg : Cfg) : ∀ s t, Midstate.const_hash_fast.Alike1 s t →
    Tr.SameSeen Midstate.const_hash_fast.Alike1 (Midstate.const_hash_fast.line1_21 cfg s) (Midstate.const_hash_fast.line1_21 cfg t) := by
  rintro ⟨_, _, _, _, _, _, _, _, _⟩ ⟨_, _, _, _, _, _, _, _, _⟩ h
  unfold Midstate.const_hash_fast.line1_21
  try dsimp only at *
  repeat same_step

theorem Midstate.const_hash_fast.line1_22_same (cfg : Cfg) : ∀ s t, Midstate.const_hash_fast.Alike1 s t →
    Tr.SameSeen Midstate.const_hash_fast.Alike1 (Midstate.const_hash_fast.line1_22 cfg s) (Midstate.const_hash_fast.line1_22 cfg t) := by
  rintro ⟨_, _, _, _, _, _, _, _, _⟩ ⟨_, _, _, _, _, _, _, _, _⟩ h
  unfold Midstate.const_hash_fast.line1_22
  try dsimp only at *
  repeat same_step

theorem Midstate.const_hash_fast.line1_23_same (cfg : Cfg) : ∀ s t, Midstate.const_hash_fast.Alike1 s t →
    Tr.SameSeen Midstate.const_hash_fast.Alike1 (Midstate.const_hash_fast.line1_23 cfg s) (Midstate.const_hash_fast.line1_23 cfg t) := by
  rintro ⟨_, _, _, _, _, _, _, _, _⟩ ⟨_, _, _, _, _, _, _, _, _⟩ h
  unfold Midstate.const_hash_fast.line1_23
  try dsimp only at *
  repeat same_step

theorem Midstate.const_hash_fast.line1_24_same (cfg : Cfg) : ∀ s t, Midstate.const_hash_fast.Alike1 s t →
    Tr.SameSeen Midstate.const_hash_fast.Alike1 (Midstate.const_hash_fast.line1_24 cfg s) (Midstate.const_hash_fast.line1_24 cfg t) := by
  rintro ⟨_, _, _, _, _, _, _, _, _⟩ ⟨_, _, _, _, _, _, _, _, _⟩ h
  unfold Midstate.const_hash_fast.line1_24
  try dsimp only at *
  repeat same_step

theorem Midstate.const_hash_fast.line1_25_same (cfg : Cfg) : ∀ s t, Midstate.const_hash_fast.Alike1 s t →
    Tr.SameSeen Midstate.const_hash_fast.Alike1 (Midstate.const_hash_fast.line1_25 cfg s) (Midstate.const_hash_fast.line1_25 cfg t) := by
  rintro ⟨_, _, _, _, _, _, _, _, _⟩ ⟨_, _, _, _, _, _, _, _, _⟩ h
  unfold Midstate.const_hash_fast.line1_25
  try dsimp only at *
  repeat same_step

theorem Midstate.const_hash_fast.line1_26_same (cfg : Cfg) : ∀ s t, Midstate.const_hash_fast.Alike1 s t →
    Tr.SameSeen Midstate.const_hash_fast.Alike1 (Midstate.const_hash_fast.line1_26 cfg s) (Midstate.const_hash_fast.line1_26 cfg t) := by
  rintro ⟨_, _, _, _, _, _, _, _, _⟩ ⟨_, _, _, _, _, _, _, _, _⟩ h
  unfold Midstate.const_hash_fast.line1_26
  try dsimp only at *
  repeat same_step

theorem Midstate.const_hash_fast.line1_27_same (cfg : Cfg) : ∀ s t, Midstate.const_hash_fast.Alike1 s t →
    Tr.SameSeen Midstate.const_hash_fast.Alike1 (Midstate.const_hash_fast.line1_27 cfg s) (Midstate.const_hash_fast.line1_27 cfg t) := by
  rintro ⟨_, _, _, _, _, _, _, _, _⟩ ⟨_, _, _, _, _, _, _, _, _⟩ h
  unfold Midstate.const_hash_fast.line1_27
  try dsimp only at *
  repeat same_step

theorem Midstate.const_hash_fast.line1_28_same (cfg : Cfg) : ∀ s t, Midstate.const_hash_fast.Alike1 s t →
    Tr.SameSeen Midstate.const_hash_fast.Alike1 (Midstate.const_hash_fast.line1_28 cfg s) (Midstate.const_hash_fast.line1_28 cfg t) := by
  rintro ⟨_, _, _, _, _, _, _, _, _⟩ ⟨_, _, _, _, _, _, _, _, _⟩ h
  unfold Midstate.const_hash_fast.line1_28
  try dsimp only at *
  repeat same_step

theorem Midstate.const_hash_fast.line1_29_same (cfg : Cfg) : ∀ s t, Midstate.const_hash_fast.Alike1 s t →
    Tr.SameSeen Midstate.const_hash_fast.Alike1 (Midstate.const_hash_fast.line1_29 cfg s) (Midstate.const_hash_fast.line1_29 cfg t) := by
  rintro ⟨_, _, _, _, _, _, _, _, _⟩ ⟨_, _, _, _, _, _, _, _, _⟩ h
  unfold Midstate.const_hash_fast.line1_29
  try dsimp only at *
  repeat same_step

theorem Midstate.const_hash_fast.line1_30_same (cfg : Cfg) : ∀ s t, Midstate.const_hash_fast.Alike1 s t →
    Tr.SameSeen Midstate.const_hash_fast.Alike1 (Midstate.const_hash_fast.line1_30 cfg s) (Midstate.const_hash_fast.line1_30 cfg t) := by
  rintro ⟨_, _, _, _, _, _, _, _, _⟩ ⟨_, _, _, _, _, _, _, _, _⟩ h
  unfold Midstate.const_hash_fast.line1_30
  try dsimp only at *
  repeat same_step

theorem Midstate.const_hash_fast.line1_31_same (cfg : Cfg) : ∀ s t, Midstate.const_hash_fast.Alike1 s t →
    Tr.SameSeen Midstate.const_hash_fast.Alike1 (Midstate.const_hash_fast.line1_31 cfg s) (Midstate.const_hash_fast.line1_31 cfg t) := by
  rintro ⟨_, _, _, _, _, _, _, _, _⟩ ⟨_, _, _, _, _, _, _, _, _⟩ h
  unfold Midstate.const_hash_fast.line1_31
  try dsimp only at *
  repeat same_step

theorem Midstate.const_hash_fast.line1_32_same (cfg : Cfg) : ∀ s t, Midstate.const_hash_fast.Alike1 s t →
    Tr.SameSeen Midstate.const_hash_fast.Alike1 (Midstate.const_hash_fast.line1_32 cfg s) (Midstate.const_hash_fast.line1_32 cfg t) := by
  rintro ⟨_, _, _, _, _, _, _, _, _⟩ ⟨_, _, _, _, _, _, _, _, _⟩ h
  unfold Midstate.const_hash_fast.line1_32
  try dsimp only at *
  repeat same_step

theorem Midstate.const_hash_fast.line1_33_same (cfg : Cfg) : ∀ s t, Midstate.const_hash_fast.Alike1 s t →
    Tr.SameSeen Midstate.const_hash_fast.Alike1 (Midstate.const_hash_fast.line1_33 cfg s) (Midstate.const_hash_fast.line1_33 cfg t) := by
  rintro ⟨_, _, _, _, _, _, _, _, _⟩ ⟨_, _, _, _, _, _, _, _, _⟩ h
  unfold Midstate.const_hash_fast.line1_33
  try dsimp only at *
  repeat same_step

theorem Midstate.const_hash_fast.line1_34_same (cfg : Cfg) : ∀ s t, Midstate.const_hash_fast.Alike1 s t →
    Tr.SameSeen Midstate.const_hash_fast.Alike1 (Midstate.const_hash_fast.line1_34 cfg s) (Midstate.const_hash_fast.line1_34 cfg t) := by
  rintro ⟨_, _, _, _, _, _, _, _, _⟩ ⟨_, _, _, _, _, _, _, _, _⟩ h
  unfold Midstate.const_hash_fast.line1_34
  try dsimp only at *
  repeat same_step

theorem Midstate.const_hash_fast.line1_35_same (cfg : Cfg) : ∀ s t, Midstate.const_hash_fast.Alike1 s t →
    Tr.SameSeen Midstate.const_hash_fast.Alike1 (Midstate.const_hash_fast.line1_35 cfg s) (Midstate.const_hash_fast.line1_35 cfg t) := by
  rintro ⟨_, _, _, _, _, _, _, _, _⟩ ⟨_, _, _, _, _, _, _, _, _⟩ h
  unfold Midstate.const_hash_fast.line1_35
  try dsimp only at *
  repeat same_step

theorem Midstate.const_hash_fast.line1_36_same (cfg : Cfg) : ∀ s t, Midstate.const_hash_fast.Alike1 s t →
    Tr.SameSeen Midstate.const_hash_fast.Alike1 (Midstate.const_hash_fast.line1_36 cfg s) (Midstate.const_hash_fast.line1_36 cfg t) := by
  rintro ⟨_, _, _, _, _, _, _, _, _⟩ ⟨_, _, _, _, _, _, _, _, _⟩ h
  unfold Midstate.const_hash_fast.line1_36
  try dsimp only at *
  repeat same_step

theorem Midstate.const_hash_fast.line1_37_same (cfg : Cfg) : ∀ s t, Midstate.const_hash_fast.Alike1 s t →
    Tr.SameSeen Midstate.const_hash_fast.Alike1 (Midstate.const_hash_fast.line1_37 cfg s) (Midstate.const_hash_fast.line1_37 cfg t) := by
  rintro ⟨_, _, _, _, _, _, _, _, _⟩ ⟨_, _, _, _, _, _, _, _, _⟩ h
  unfold Midstate.const_hash_fast.line1_37
  try dsimp only at *
  repeat same_step

theorem Midstate.const_hash_fast.line1_38_same (cfg : Cfg) : ∀ s t, Midstate.const_hash_fast.Alike1 s t →
    Tr.SameSeen Midstate.const_hash_fast.Alike1 (Midstate.const_hash_fast.line1_38 cfg s) (Midstate.const_hash_fast.line1_38 cfg t) := by
  rintro ⟨_, _, _, _, _, _, _, _, _⟩ ⟨_, _, _, _, _, _, _, _, _⟩ h
  unfold Midstate.const_hash_fast.line1_38
  try dsimp only at *
  repeat same_step

theorem Midstate.const_hash_fast.line1_39_same (cfg : Cfg) : ∀ s t, Midstate.const_hash_fast.Alike1 s t →
    Tr.SameSeen Midstate.const_hash_fast.Alike1 (Midstate.const_hash_fast.line1_39 cfg s) (Midstate.const_hash_fast.line1_39 cfg t) := by
  rintro ⟨_, _, _, _, _, _, _, _, _⟩ ⟨_, _, _, _, _, _, _, _, _⟩ h
  unfold Midstate.const_hash_fast.line1_39
  try dsimp only at *
  repeat same_step

theorem Midstate.const_hash_fast.line1_40_same (cfg : Cfg) : ∀ s t, Midstate.const_hash_fast.Alike1 s t →
    Tr.SameSeen Midstate.const_hash_fast.Alike1 (Midstate.const_hash_fast.line1_40 cfg s) (Midstate.const_hash_fast.line1_40 cfg t) := by
  rintro ⟨_, _, _, _, _, _, _, _, _⟩ ⟨_, _, _, _, _, _, _, _, _⟩ h
  unfold Midstate.const_hash_fast.line1_40
  try dsimp only at *
  repeat same_step

theorem Midstate.const_hash_fast.line1_41_same (cfg : Cfg) : ∀ s t, Midstate.const_hash_fast.Alike1 s t →
    Tr.SameSeen Midstate.const_hash_fast.Alike1 (Midstate.const_hash_fast.line1_41 cfg s) (Midstate.const_hash_fast.line1_41 cfg t) := by
  rintro ⟨_, _, _, _, _, _, _, _, _⟩ ⟨_, _, _, _, _, _, _, _, _⟩ h
  unfold Midstate.const_hash_fast.line1_41
  try dsimp only at *
  repeat same_step

theorem Midstate.const_hash_fast.line1_42_same (cfg : Cfg) : ∀ s t, Midstate.const_hash_fast.Alike1 s t →
    Tr.SameSeen Midstate.const_hash_fast.Alike1 (Midstate.const_hash_fast.line1_42 cfg s) (Midstate.const_hash_fast.line1_42 cfg t) := by
  rintro ⟨_, _, _, _, _, _, _, _, _⟩ ⟨_, _, _, _, _, _, _, _, _⟩ h
  unfold Midstate.const_hash_fast.line1_42
  try dsimp only at *
  repeat same_step

theorem Midstate.const_hash_fast.line1_43_same (cfg : Cfg) : ∀ s t, Midstate.const_hash_fast.Alike1 s t →
    Tr.SameSeen Midstate.const_hash_fast.Alike1 (Midstate.const_hash_fast.line1_43 cfg s) (Midstate.const_hash_fast.line1_43 cfg t) := by
  rintro ⟨_, _, _, _, _, _, _, _, _⟩ ⟨_, _, _, _, _, _, _, _, _⟩ h
  unfold Midstate.const_hash_fast.line1_43
  try dsimp only at *
  repeat same_step

theorem Midstate.const_hash_fast.line1_44_same (cfg : Cfg) : ∀ s t, Midstate.const_hash_fast.Alike1 s t →
    Tr.SameSeen Midstate.const_hash_fast.Alike1 (Midstate.const_hash_fast.line1_44 cfg s) (Midstate.const_hash_fast.line1_44 cfg t) := by
  rintro ⟨_, _, _, _, _, _, _, _, _⟩ ⟨_, _, _, _, _, _, _, _, _⟩ h
  unfold Midstate.const_hash_fast.line1_44
  try dsimp only at *
  repeat same_step

theorem Midstate.const_hash_fast.line1_45_same (cfg : Cfg) : ∀ s t, Midstate.const_hash_fast.Alike1 s t →
    Tr.SameSeen Midstate.const_hash_fast.Alike1 (Midstate.const_hash_fast.line1_45 cfg s) (Midstate.const_hash_fast.line1_45 cfg t) := by
  rintro ⟨_, _, _, _, _, _, _, _, _⟩ ⟨_, _, _, _, _, _, _, _, _⟩ h
  unfold Midstate.const_hash_fast.line1_45
  try dsimp only at *
  repeat same_step

theorem Midstate.const_hash_fast.line1_46_same (cfg : Cfg) : ∀ s t, Midstate.const_hash_fast.Alike1 s t →
    Tr.SameSeen Midstate.const_hash_fast.Alike1 (Midstate.const_hash_fast.line1_46 cfg s) (Midstate.const_hash_fast.line1_46 cfg t) := by
  rintro ⟨_, _, _, _, _, _, _, _, _⟩ ⟨_, _, _, _, _, _, _, _, _⟩ h
  unfold Midstate.const_hash_fast.line1_46
  try dsimp only at *
  repeat same_step

theorem Midstate.const_hash_fast.line1_47_same (cfg : Cfg) : ∀ s t, Midstate.const_hash_fast.Alike1 s t →
    Tr.SameSeen Midstate.const_hash_fast.Alike1 (Midstate.const_hash_fast.line1_47 cfg s) (Midstate.const_hash_fast.line1_47 cfg t) := by
  rintro ⟨_, _, _, _, _, _, _, _, _⟩ ⟨_, _, _, _, _, _, _, _, _⟩ h
  unfold Midstate.const_hash_fast.line1_47
  try dsimp only at *
  repeat same_step

theorem Midstate.const_hash_fast.line1_48_same (cfg : Cfg) : ∀ s t, Midstate.const_hash_fast.Alike1 s t →
    Tr.SameSeen Midstate.const_hash_fast.Alike1 (Midstate.const_hash_fast.line1_48 cfg s) (Midstate.const_hash_fast.line1_48 cfg t) := by
  rintro ⟨_, _, _, _, _, _, _, _, _⟩ ⟨_, _, _, _, _, _, _, _, _⟩ h
  unfold Midstate.const_hash_fast.line1_48
  try dsimp only at *
  repeat same_step

theorem Midstate.const_hash_fast.line1_49_same (cfg : Cfg) : ∀ s t, Midstate.const_hash_fast.Alike1 s t →
    Tr.SameSeen Midstate.const_hash_fast.Alike1 (Midstate.const_hash_fast.line1_49 cfg s) (Midstate.const_hash_fast.line1_49 cfg t) := by
  rintro ⟨_, _, _, _, _, _, _, _, _⟩ ⟨_, _, _, _, _, _, _, _, _⟩ h
  unfold Midstate.const_hash_fast.line1_49
  try dsimp only at *
  repeat same_step

theorem Midstate.const_hash_fast.line1_50_same (cfg : Cfg) : ∀ s t, Midstate.const_hash_fast.Alike1 s t →
    Tr.SameSeen Midstate.const_hash_fast.Alike1 (Midstate.const_hash_fast.line1_50 cfg s) (Midstate.const_hash_fast.line1_50 cfg t) := by
  rintro ⟨_, _, _, _, _, _, _, _, _⟩ ⟨_, _, _, _, _, _, _, _, _⟩ h
  unfold Midstate.const_hash_fast.line1_50
  try dsimp only at *
  repeat same_step

theorem Midstate.const_hash_fast.line1_51_same (cfg : Cfg) : ∀ s t, Midstate.const_hash_fast.Alike1 s t →
    Tr.SameSeen Midstate.const_hash_fast.Alike1 (Midstate.const_hash_fast.line1_51 cfg s) (Midstate.const_hash_fast.line1_51 cfg t) := by
  rintro ⟨_, _, _, _, _, _, _, _, _⟩ ⟨_, _, _, _, _, _, _, _, _⟩ h
  unfold Midstate.const_hash_fast.line1_51
  try dsimp only at *
  repeat same_step

theorem Midstate.const_hash_fast.line1_52_same (cfg : Cfg) : ∀ s t, Midstate.const_hash_fast.Alike1 s t →
    Tr.SameSeen Midstate.const_hash_fast.Alike1 (Midstate.const_hash_fast.line1_52 cfg s) (Midstate.const_hash_fast.line1_52 cfg t) := by
  rintro ⟨_, _, _, _, _, _, _, _, _⟩ ⟨_, _, _, _, _, _, _, _, _⟩ h
  unfold Midstate.const_hash_fast.line1_52
  try dsimp only at *
  repeat same_step

theorem Midstate.const_hash_fast.line1_53_same (cfg : Cfg) : ∀ s t, Midstate.const_hash_fast.Alike1 s t →
    Tr.SameSeen Midstate.const_hash_fast.Alike1 (Midstate.const_hash_fast.line1_53 cfg s) (Midstate.const_hash_fast.line1_53 cfg t) := by
  rintro ⟨_, _, _, _, _, _, _, _, _⟩ ⟨_, _, _, _, _, _, _, _, _⟩ h
  unfold Midstate.const_hash_fast.line1_53
  try dsimp only at *
  repeat same_step

theorem Midstate.const_hash_fast.line1_54_same (cfg : Cfg) : ∀ s t, Midstate.const_hash_fast.Alike1 s t →
    Tr.SameSeen Midstate.const_hash_fast.Alike1 (Midstate.const_hash_fast.line1_54 cfg s) (Midstate.const_hash_fast.line1_54 cfg t) := by
  rintro ⟨_, _, _, _, _, _, _, _, _⟩ ⟨_, _, _, _, _, _, _, _, _⟩ h
  unfold Midstate.const_hash_fast.line1_54
  try dsimp only at *
  repeat same_step

theorem Midstate.const_hash_fast.line1_55_same (cfg : Cfg) : ∀ s t, Midstate.const_hash_fast.Alike1 s t →
    Tr.SameSeen Midstate.const_hash_fast.Alike1 (Midstate.const_hash_fast.line1_55 cfg s) (Midstate.const_hash_fast.line1_55 cfg t) := by
  rintro ⟨_, _, _, _, _, _, _, _, _⟩ ⟨_, _, _, _, _, _, _, _, _⟩ h
  unfold Midstate.const_hash_fast.line1_55
  try dsimp only at *
  repeat same_step

theorem Midstate.const_hash_fast.line1_56_same (cfg : Cfg) : ∀ s t, Midstate.const_hash_fast.Alike1 s t →
    Tr.SameSeen Midstate.const_hash_fast.Alike1 (Midstate.const_hash_fast.line1_56 cfg s) (Midstate.const_hash_fast.line1_56 cfg t) := by
  rintro ⟨_, _, _, _, _, _, _, _, _⟩ ⟨_, _, _, _, _, _, _, _, _⟩ h
  unfold Midstate.const_hash_fast.line1_56
  try dsimp only at *
  repeat same_step

theorem Midstate.const_hash_fast.line1_57_same (cfg : Cfg) : ∀ s t, Midstate.const_hash_fast.Alike1 s t →
    Tr.SameSeen Midstate.const_hash_fast.Alike1 (Midstate.const_hash_fast.line1_57 cfg s) (Midstate.const_hash_fast.line1_57 cfg t) := by
  rintro ⟨_, _, _, _, _, _, _, _, _⟩ ⟨_, _, _, _, _, _, _, _, _⟩ h
  unfold Midstate.const_hash_fast.line1_57
  try dsimp only at *
  repeat same_step

theorem Midstate.const_hash_fast.line1_58_same (cfg : Cfg) : ∀ s t, Midstate.const_hash_fast.Alike1 s t →
    Tr.SameSeen Midstate.const_hash_fast.Alike1 (Midstate.const_hash_fast.line1_58 cfg s) (Midstate.const_hash_fast.line1_58 cfg t) := by
  rintro ⟨_, _, _, _, _, _, _, _, _⟩ ⟨_, _, _, _, _, _, _, _, _⟩ h
  unfold Midstate.const_hash_fast.line1_58
  try dsimp only at *
  repeat same_step

theorem Midstate.const_hash_fast.line1_59_same (cfg : Cfg) : ∀ s t, Midstate.const_hash_fast.Alike1 s t →
    Tr.SameSeen Midstate.const_hash_fast.Alike1 (Midstate.const_hash_fast.line1_59 cfg s) (Midstate.const_hash_fast.line1_59 cfg t) := by
  rintro ⟨_, _, _, _, _, _, _, _, _⟩ ⟨_, _, _, _, _, _, _, _, _⟩ h
  unfold Midstate.const_hash_fast.line1_59
  try dsimp only at *
  repeat same_step

theorem Midstate.const_hash_fast.line1_60_same (cfg : Cfg) : ∀ s t, Midstate.const_hash_fast.Alike1 s t →
    Tr.SameSeen Midstate.const_hash_fast.Alike1 (Midstate.const_hash_fast.line1_60 cfg s) (Midstate.const_hash_fast.line1_60 cfg t) := by
  rintro ⟨_, _, _, _, _, _, _, _, _⟩ ⟨_, _, _, _, _, _, _, _, _⟩ h
  unfold Midstate.const_hash_fast.line1_60
  try dsimp only at *
  repeat same_step

theorem Midstate.const_hash_fast.line1_61_same (cfg : Cfg) : ∀ s t, Midstate.const_hash_fast.Alike1 s t →
    Tr.SameSeen Midstate.const_hash_fast.Alike1 (Midstate.const_hash_fast.line1_61 cfg s) (Midstate.const_hash_fast.line1_61 cfg t) := by
  rintro ⟨_, _, _, _, _, _, _, _, _⟩ ⟨_, _, _, _, _, _, _, _, _⟩ h
  unfold Midstate.const_hash_fast.line1_61
  try dsimp only at *
  repeat same_step

theorem Midstate.const_hash_fast.line1_62_same (cfg : Cfg) : ∀ s t, Midstate.const_hash_fast.Alike1 s t →
    Tr.SameSeen Midstate.const_hash_fast.Alike1 (Midstate.const_hash_fast.line1_62 cfg s) (Midstate.const_hash_fast.line1_62 cfg t) := by
  rintro ⟨_, _, _, _, _, _, _, _, _⟩ ⟨_, _, _, _, _, _, _, _, _⟩ h
  unfold Midstate.const_hash_fast.line1_62
  try dsimp only at *
  repeat same_step

theorem Midstate.const_hash_fast.line1_63_same (cfg : Cfg) : ∀ s t, Midstate.const_hash_fast.Alike1 s t →
    Tr.SameSeen Midstate.const_hash_fast.Alike1 (Midstate.const_hash_fast.line1_63 cfg s) (Midstate.const_hash_fast.line1_63 cfg t) := by
  rintro ⟨_, _, _, _, _, _, _, _, _⟩ ⟨_, _, _, _, _, _, _, _, _⟩ h
  unfold Midstate.const_hash_fast.line1_63
  try dsimp only at *
  repeat same_step

set_option maxRecDepth 10000 in
theorem Midstate.const_hash_fast.lines1_same (cfg : Cfg) :
    Tr.SameSeen.Each (fun f g => ∀ s t, Midstate.const_hash_fast.Alike1 s t → Tr.SameSeen Midstate.const_hash_fast.Alike1 (f s) (g t))
      (Midstate.const_hash_fast.lines1 cfg) (Midstate.const_hash_fast.lines1 cfg) :=
  ⟨Midstate.const_hash_fast.line1_0_same cfg,
   Midstate.const_hash_fast.line1_1_same cfg,
   Midstate.const_hash_fast.line1_2_same cfg,
   Midstate.const_hash_fast.line1_3_same cfg,
   Midstate.const_hash_fast.line1_4_same cfg,
   Midstate.const_hash_fast.line1_5_same cfg,
   Midstate.const_hash_fast.line1_6_same cfg,
   Midstate.const_hash_fast.line1_7_same cfg,
   Midstate.const_hash_fast.line1_8_same cfg,
   Midstate.const_hash_fast.line1_9_same cfg,
   Midstate.const_hash_fast.line1_10_same cfg,
   Midstate.const_hash_fast.line1_11_same cfg,
   Midstate.const_hash_fast.line1_12_same cfg,
   Midstate.const_hash_fast.line1_13_same cfg,
   Midstate.const_hash_fast.line1_14_same cfg,
   Midstate.const_hash_fast.line1_15_same cfg,
   Midstate.const_hash_fast.line1_16_same cfg,
   Midstate.const_hash_fast.line1_17_same cfg,
   Midstate.const_hash_fast.line1_18_same cfg,
   Midstate.const_hash_fast.line1_19_same cfg,
   Midstate.const_hash_fast.line1_20_same cfg,
   Midstate.const_hash_fast.line1_21_same cfg,
   Midstate.const_hash_fast.line1_22_same cfg,
   Midstate.const_hash_fast.line1_23_same cfg,
   Midstate.const_hash_fast.line1_24_same cfg,
   Midstate.const_hash_fast.line1_25_same cfg,
   Midstate.const_hash_fast.line1_26_same cfg,
   Midstate.const_hash_fast.line1_27_same cfg,
   Midstate.const_hash_fast.line1_28_same cfg,
   Midstate.const_hash_fast.line1_29_same cfg,
   Midstate.const_hash_fast.line1_30_same cfg,
   Midstate.const_hash_fast.line1_31_same cfg,
   Midstate.const_hash_fast.line1_32_same cfg,
   Midstate.const_hash_fast.line1_33_same cfg,
   Midstate.const_hash_fast.line1_34_same cfg,
   Midstate.const_hash_fast.line1_35_same cfg,
   Midstate.const_hash_fast.line1_36_same cfg,
   Midstate.const_hash_fast.line1_37_same cfg,
   Midstate.const_hash_fast.line1_38_same cfg,
   Midstate.const_hash_fast.line1_39_same cfg,
   Midstate.const_hash_fast.line1_40_same cfg,
   Midstate.const_hash_fast.line1_41_same cfg,
   Midstate.const_hash_fast.line1_42_same cfg,
   Midstate.const_hash_fast.line1_43_same cfg,
   Midstate.const_hash_fast.line1_44_same cfg,
   Midstate.const_hash_fast.line1_45_same cfg,
   Midstate.const_hash_fast.line1_46_same cfg,
   Midstate.const_hash_fast.line1_47_same cfg,
   Midstate.const_hash_fast.line1_48_same cfg,
   Midstate.const_hash_fast.line1_49_same cfg,
   Midstate.const_hash_fast.line1_50_same cfg,
   Midstate.const_hash_fast.line1_51_same cfg,
   Midstate.const_hash_fast.line1_52_same cfg,
   Midstate.const_hash_fast.line1_53_same cfg,
   Midstate.const_hash_fast.line1_54_same cfg,
   Midstate.const_hash_fast.line1_55_same cfg,
   Midstate.const_hash_fast.line1_56_same cfg,
   Midstate.const_hash_fast.line1_57_same cfg,
   Midstate.const_hash_fast.line1_58_same cfg,
   Midstate.const_hash_fast.line1_59_same cfg,
   Midstate.const_hash_fast.line1_60_same cfg,
   Midstate.const_hash_fast.line1_61_same cfg,
   Midstate.const_hash_fast.line1_62_same cfg,
   Midstate.const_hash_fast.line1_63_same cfg, trivial⟩

set_option maxRecDepth 10000 in
theorem Midstate.const_hash_fast.lines1_res (cfg : Cfg) :
    (Midstate.const_hash_fast.lines1 cfg).map (fun f s => (f s).res) = Source.Sha256.Midstate.const_hash_fast.lines1 cfg := rfl

/-- The states of these statements are alike. -/
abbrev Midstate.const_hash_small.Alike1 :=
  fun s t : Source.Sha256.Midstate.const_hash_small.State1 => Len s.1 t.1

theorem Midstate.const_hash_small.line1_0_same (cfg : Cfg) : ∀ s t, Midstate.const_hash_small.Alike1 s t →
    Tr.SameSeen Midstate.const_hash_small.Alike1 (Midstate.const_hash_small.line1_0 cfg s) (Midstate.const_hash_small.line1_0 cfg t) := by
  rintro ⟨_, _, _, _, _, _, _, _, _⟩ ⟨_, _, _, _, _, _, _, _, _⟩ h
  unfold Midstate.const_hash_small.line1_0
  try dsimp only at *
  repeat same_step

theorem Midstate.const_hash_small.line1_1_same (cfg : Cfg) : ∀ s t, Midstate.const_hash_small.Alike1 s t →
    Tr.SameSeen Midstate.const_hash_small.Alike1 (Midstate.const_hash_small.line1_1 cfg s) (Midstate.const_hash_small.line1_1 cfg t) := by
  rintro ⟨_, _, _, _, _, _, _, _, _⟩ ⟨_, _, _, _, _, _, _, _, _⟩ h
  unfold Midstate.const_hash_small.line1_1
  try dsimp only at *
  repeat same_step

theorem Midstate.const_hash_small.line1_2_same (cfg : Cfg) : ∀ s t, Midstate.const_hash_small.Alike1 s t →
    Tr.SameSeen Midstate.const_hash_small.Alike1 (Midstate.const_hash_small.line1_2 cfg s) (Midstate.const_hash_small.line1_2 cfg t) := by
  rintro ⟨_, _, _, _, _, _, _, _, _⟩ ⟨_, _, _, _, _, _, _, _, _⟩ h
  unfold Midstate.const_hash_small.line1_2
  try dsimp only at *
  repeat same_step

theorem Midstate.const_hash_small.line1_3_same (cfg : Cfg) : ∀ s t, Midstate.const_hash_small.Alike1 s t →
    Tr.SameSeen Midstate.const_hash_small.Alike1 (Midstate.const_hash_small.line1_3 cfg s) (Midstate.const_hash_small.line1_3 cfg t) := by
  rintro ⟨_, _, _, _, _, _, _, _, _⟩ ⟨_, _, _, _, _, _, _, _, _⟩ h
  unfold Midstate.const_hash_small.line1_3
  try dsimp only at *
  repeat same_step

theorem Midstate.const_hash_small.line1_4_same (cfg : Cfg) : ∀ s t, Midstate.const_hash_small.Alike1 s t →
    Tr.SameSeen Midstate.const_hash_small.Alike1 (Midstate.const_hash_small.line1_4 cfg s) (Midstate.const_hash_small.line1_4 cfg t) := by
  rintro ⟨_, _, _, _, _, _, _, _, _⟩ ⟨_, _, _, _, _, _, _, _, _⟩ h
  unfold Midstate.const_hash_small.line1_4
  try dsimp only at *
  repeat same_step

theorem Midstate.const_hash_small.line1_5_same (cfg : Cfg) : ∀ s t, Midstate.const_hash_small.Alike1 s t →
    Tr.SameSeen Midstate.const_hash_small.Alike1 (Midstate.const_hash_small.line1_5 cfg s) (Midstate.const_hash_small.line1_5 cfg t) := by
  rintro ⟨_, _, _, _, _, _, _, _, _⟩ ⟨_, _, _, _, _, _, _, _, _⟩ h
  unfold Midstate.const_hash_small.line1_5
  try dsimp only at *
  repeat same_step

theorem Midstate.const_hash_small.line1_6_same (cfg : Cfg) : ∀ s t, Midstate.const_hash_small.Alike1 s t →
    Tr.SameSeen Midstate.const_hash_small.Alike1 (Midstate.const_hash_small.line1_6 cfg s) (Midstate.const_hash_small.line1_6 cfg t) := by
  rintro ⟨_, _, _, _, _, _, _, _, _⟩ ⟨_, _, _, _, _, _, _, _, _⟩ h
  unfold Midstate.const_hash_small.line1_6
  try dsimp only at *
  repeat same_step

theorem Midstate.const_hash_small.line1_7_same (cfg : Cfg) : ∀ s t, Midstate.const_hash_small.Alike1 s t →
    Tr.SameSeen Midstate.const_hash_small.Alike1 (Midstate.const_hash_small.line1_7 cfg s) (Midstate.const_hash_small.line1_7 cfg t) := by
  rintro ⟨_, _, _, _, _, _, _, _, _⟩ ⟨_, _, _, _, _, _, _, _, _⟩ h
  unfold Midstate.const_hash_small.line1_7
  try dsimp only at *
  repeat same_step

theorem Midstate.const_hash_small.line1_8_same (cfg : Cfg) : ∀ s t, Midstate.const_hash_small.Alike1 s t →
    Tr.SameSeen Midstate.const_hash_small.Alike1 (Midstate.const_hash_small.line1_8 cfg s) (Midstate.const_hash_small.line1_8 cfg t) := by
  rintro ⟨_, _, _, _, _, _, _, _, _⟩ ⟨_, _, _, _, _, _, _, _, _⟩ h
  unfold Midstate.const_hash_small.line1_8
  try dsimp only at *
  repeat same_step

theorem Midstate.const_hash_small.line1_9_same (cfg : Cfg) : ∀ s t, Midstate.const_hash_small.Alike1 s t →
    Tr.SameSeen Midstate.const_hash_small.Alike1 (Midstate.const_hash_small.line1_9 cfg s) (Midstate.const_hash_small.line1_9 cfg t) := by
  rintro ⟨_, _, _, _, _, _, _, _, _⟩ ⟨_, _, _, _, _, _, _, _, _⟩ h
  unfold Midstate.const_hash_small.line1_9
  try dsimp only at *
  repeat same_step

theorem Midstate.const_hash_small.line1_10_same (cfg : Cfg) : ∀ s t, Midstate.const_hash_small.Alike1 s t →
    Tr.SameSeen Midstate.const_hash_small.Alike1 (Midstate.const_hash_small.line1_10 cfg s) (Midstate.const_hash_small.line1_10 cfg t) := by
  rintro ⟨_, _, _, _, _, _, _, _, _⟩ ⟨_, _, _, _, _, _, _, _, _⟩ h
  unfold Midstate.const_hash_small.line1_10
  try dsimp only at *
  repeat same_step

theorem Midstate.const_hash_small.line1_11_same (cfg : Cfg) : ∀ s t, Midstate.const_hash_small.Alike1 s t →
    Tr.SameSeen Midstate.const_hash_small.Alike1 (Midstate.const_hash_small.line1_11 cfg s) (Midstate.const_hash_small.line1_11 cfg t) := by
  rintro ⟨_, _, _, _, _, _, _, _, _⟩ ⟨_, _, _, _, _, _, _, _, _⟩ h
  unfold Midstate.const_hash_small.line1_11
  try dsimp only at *
  repeat same_step

theorem Midstate.const_hash_small.line1_12_same (cfg : Cfg) : ∀ s t, Midstate.const_hash_small.Alike1 s t →
    Tr.SameSeen Midstate.const_hash_small.Alike1 (Midstate.const_hash_small.line1_12 cfg s) (Midstate.const_hash_small.line1_12 cfg t) := by
  rintro ⟨_, _, _, _, _, _, _, _, _⟩ ⟨_, _, _, _, _, _, _, _, _⟩ h
  unfold Midstate.const_hash_small.line1_12
  try dsimp only at *
  repeat same_step

theorem Midstate.const_hash_small.line1_13_same (cfg : Cfg) : ∀ s t, Midstate.const_hash_small.Alike1 s t →
    Tr.SameSeen Midstate.const_hash_small.Alike1 (Midstate.const_hash_small.line1_13 cfg s) (Midstate.const_hash_small.line1_13 cfg t) := by
  rintro ⟨_, _, _, _, _, _, _, _, _⟩ ⟨_, _, _, _, _, _, _, _, _⟩ h
  unfold Midstate.const_hash_small.line1_13
  try dsimp only at *
  repeat same_step

theorem Midstate.const_hash_small.line1_14_same (cfg : Cfg) : ∀ s t, Midstate.const_hash_small.Alike1 s t →
    Tr.SameSeen Midstate.const_hash_small.Alike1 (Midstate.const_hash_small.line1_14 cfg s) (Midstate.const_hash_small.line1_14 cfg t) := by
  rintro ⟨_, _, _, _, _, _, _, _, _⟩ ⟨_, _, _, _, _, _, _, _, _⟩ h
  unfold Midstate.const_hash_small.line1_14
  try dsimp only at *
  repeat same_step

theorem Midstate.const_hash_small.line1_15_same (cfg : Cfg) : ∀ s t, Midstate.const_hash_small.Alike1 s t →
    Tr.SameSeen Midstate.const_hash_small.Alike1 (Midstate.const_hash_small.line1_15 cfg s) (Midstate.const_hash_small.line1_15 cfg t) := by
  rintro ⟨_, _, _, _, _, _, _, _, _⟩ ⟨_, _, _, _, _, _, _, _, _⟩ h
  unfold Midstate.const_hash_small.line1_15
  try dsimp only at *
  repeat same_step

theorem Midstate.const_hash_small.line1_16_same (cfg : Cfg) : ∀ s t, Midstate.const_hash_small.Alike1 s t →
    Tr.SameSeen Midstate.const_hash_small.Alike1 (Midstate.const_hash_small.line1_16 cfg s) (Midstate.const_hash_small.line1_16 cfg t) := by
  rintro ⟨_, _, _, _, _, _, _, _, _⟩ ⟨_, _, _, _, _, _, _, _, _⟩ h
  unfold Midstate.const_hash_small.line1_16
  try dsimp only at *
  repeat same_step

theorem Midstate.const_hash_small.line1_17_same (cfg : Cfg) : ∀ s t, Midstate.const_hash_small.Alike1 s t →
    Tr.SameSeen Midstate.const_hash_small.Alike1 (Midstate.const_hash_small.line1_17 cfg s) (Midstate.const_hash_small.line1_17 cfg t) := by
  rintro ⟨_, _, _, _, _, _, _, _, _⟩ ⟨_, _, _, _, _, _, _, _, _⟩ h
  unfold Midstate.const_hash_small.line1_17
  try dsimp only at *
  repeat same_step

theorem Midstate.const_hash_small.line1_18_same (cfg : Cfg) : ∀ s t, Midstate.const_hash_small.Alike1 s t →
    Tr.SameSeen Midstate.const_hash_small.Alike1 (Midstate.const_hash_small.line1_18 cfg s) (Midstate.const_hash_small.line1_18 cfg t) := by
  rintro ⟨_, _, _, _, _, _, _, _, _⟩ ⟨_, _, _, _, _, _, _, _, _⟩ h
  unfold Midstate.const_hash_small.line1_18
  try dsimp only at *
  repeat same_step

theorem Midstate.const_hash_small.line1_19_same (cfg : Cfg) : ∀ s t, Midstate.const_hash_small.Alike1 s t →
    Tr.SameSeen Midstate.const_hash_small.Alike1 (Midstate.const_hash_small.line1_19 cfg s) (Midstate.const_hash_small.line1_19 cfg t) := by
  rintro ⟨_, _, _, _, _, _, _, _, _⟩ ⟨_, _, _, _, _, _, _, _, _⟩ h
  unfold Midstate.const_hash_small.line1_19
  try dsimp only at *
  repeat same_step

theorem Midstate.const_hash_small.line1_20_same (cfg : Cfg) : ∀ s t, Midstate.const_hash_small.Alike1 s t →
    Tr.SameSeen Midstate.const_hash_small.Alike1 (Midstate.const_hash_small.line1_20 cfg s) (Midstate.const_hash_small.line1_20 cfg t) := by
  rintro ⟨_, _, _, _, _, _, _, _, _⟩ ⟨_, _, _, _, _, _, _, _, _⟩ h
  unfold Midstate.const_hash_small.line1_20
  try dsimp only at *
  repeat same_step

theorem Midstate.const_hash_small.line1_21_same (cfg : Cfg) : ∀ s t, Midstate.const_hash_small.Alike1 s t →
    Tr.SameSeen Midstate.const_hash_small.Alike1 (Midstate.const_hash_small.line1_21 cfg s) (Midstate.const_hash_small.line1_21 cfg t) := by
  rintro ⟨_, _, _, _, _, _, _, _, _⟩ ⟨_, _, _, _, _, _, _, _, _⟩ h
  unfold Midstate.const_hash_small.line1_21
  try dsimp only at *
  repeat same_step

theorem Midstate.const_hash_small.line1_22_same (cfg : Cfg) : ∀ s t, Midstate.const_hash_small.Alike1 s t →
    Tr.SameSeen Midstate.const_hash_small.Alike1 (Midstate.const_hash_small.line1_22 cfg s) (Midstate.const_hash_small.line1_22 cfg t) := by
  rintro ⟨_, _, _, _, _, _, _, _, _⟩ ⟨_, _, _, _, _, _, _, _, _⟩ h
  unfold Midstate.const_hash_small.line1_22
  try dsimp only at *
  repeat same_step

theorem Midstate.const_hash_small.line1_23_same (cfg : Cfg) : ∀ s t, Midstate.const_hash_small.Alike1 s t →
    Tr.SameSeen Midstate.const_hash_small.Alike1 (Midstate.const_hash_small.line1_23 cfg s) (Midstate.const_hash_small.line1_23 cfg t) := by
  rintro ⟨_, _, _, _, _, _, _, _, _⟩ ⟨_, _, _, _, _, _, _, _, _⟩ h
  unfold Midstate.const_hash_small.line1_23
  try dsimp only at *
  repeat same_step

theorem Midstate.const_hash_small.line1_24_same (cfg : Cfg) : ∀ s t, Midstate.const_hash_small.Alike1 s t →
    Tr.SameSeen Midstate.const_hash_small.Alike1 (Midstate.const_hash_small.line1_24 cfg s) (Midstate.const_hash_small.line1_24 cfg t) := by
  rintro ⟨_, _, _, _, _, _, _, _, _⟩ ⟨_, _, _, _, _, _, _, _, _⟩ h
  unfold Midstate.const_hash_small.line1_24
  try dsimp only at *
  repeat same_step

theorem Midstate.const_hash_small.line1_25_same (cfg : Cfg) : ∀ s t, Midstate.const_hash_small.Alike1 s t →
    Tr.SameSeen Midstate.const_hash_small.Alike1 (Midstate.const_hash_small.line1_25 cfg s) (Midstate.const_hash_small.line1_25 cfg t) := by
  rintro ⟨_, _, _, _, _, _, _, _, _⟩ ⟨_, _, _, _, _, _, _, _, _⟩ h
  unfold Midstate.const_hash_small.line1_25
  try dsimp only at *
  repeat same_step

theorem Midstate.const_hash_small.line1_26_same (cfg : Cfg) : ∀ s t, Midstate.const_hash_small.Alike1 s t →
    Tr.SameSeen Midstate.const_hash_small.Alike1 (Midstate.const_hash_small.line1_26 cfg s) (Midstate.const_hash_small.line1_26 cfg t) := by
  rintro ⟨_, _, _, _, _, _, _, _, _⟩ ⟨_, _, _, _, _, _, _, _, _⟩ h
  unfold Midstate.const_hash_small.line1_26
  try dsimp only at *
  repeat same_step

theorem Midstate.const_hash_small.line1_27_same (cfg : Cfg) : ∀ s t, Midstate.const_hash_small.Alike1 s t →
    Tr.SameSeen Midstate.const_hash_small.Alike1 (Midstate.const_hash_small.line1_27 cfg s) (Midstate.const_hash_small.line1_27 cfg t) := by
  rintro ⟨_, _, _, _, _, _, _, _, _⟩ ⟨_, _, _, _, _, _, _, _, _⟩ h
  unfold Midstate.const_hash_small.line1_27
  try dsimp only at *
  repeat same_step

theorem Midstate.const_hash_small.line1_28_same (cfg : Cfg) : ∀ s t, Midstate.const_hash_small.Alike1 s t →
    Tr.SameSeen Midstate.const_hash_small.Alike1 (Midstate.const_hash_small.line1_28 cfg s) (Midstate.const_hash_small.line1_28 cfg t) := by
  rintro ⟨_, _, _, _, _, _, _, _, _⟩ ⟨_, _, _, _, _, _, _, _, _⟩ h
  unfold Midstate.const_hash_small.line1_28
  try dsimp only at *
  repeat same_step

theorem Midstate.const_hash_small.line1_29_same (cfg : Cfg) : ∀ s t, Midstate.const_hash_small.Alike1 s t →
    Tr.SameSeen Midstate.const_hash_small.Alike1 (Midstate.const_hash_small.line1_29 cfg s) (Midstate.const_hash_small.line1_29 cfg t) := by
  rintro ⟨_, _, _, _, _, _, _, _, _⟩ ⟨_, _, _, _, _, _, _, _, _⟩ h
  unfold Midstate.const_hash_small.line1_29
  try dsimp only at *
  repeat same_step

theorem Midstate.const_hash_small.line1_30_same (cfg : Cfg) : ∀ s t, Midstate.const_hash_small.Alike1 s t →
    Tr.SameSeen Midstate.const_hash_small.Alike1 (Midstate.const_hash_small.line1_30 cfg s) (Midstate.const_hash_small.line1_30 cfg t) := by
  rintro ⟨_, _, _, _, _, _, _, _, _⟩ ⟨_, _, _, _, _, _, _, _, _⟩ h
  unfold Midstate.const_hash_small.line1_30
  try dsimp only at *
  repeat same_step

theorem Midstate.const_hash_small.line1_31_same (cfg : Cfg) : ∀ s t, Midstate.const_hash_small.Alike1 s t →
    Tr.SameSeen Midstate.const_hash_small.Alike1 (Midstate.const_hash_small.line1_31 cfg s) (Midstate.const_hash_small.line1_31 cfg t) := by
  rintro ⟨_, _, _, _, _, _, _, _, _⟩ ⟨_, _, _, _, _, _, _, _, _⟩ h
  unfold Midstate.const_hash_small.line1_31
  try dsimp only at *
  repeat same_step

theorem Midstate.const_hash_small.line1_32_same (cfg : Cfg) : ∀ s t, Midstate.const_hash_small.Alike1 s t →
    Tr.SameSeen Midstate.const_hash_small.Alike1 (Midstate.const_hash_small.line1_32 cfg s) (Midstate.const_hash_small.line1_32 cfg t) := by
  rintro ⟨_, _, _, _, _, _, _, _, _⟩ ⟨_, _, _, _, _, _, _, _, _⟩ h
  unfold Midstate.const_hash_small.line1_32
  try dsimp only at *
  repeat same_step

theorem Midstate.const_hash_small.line1_33_same (cfg : Cfg) : ∀ s t, Midstate.const_hash_small.Alike1 s t →
    Tr.SameSeen Midstate.const_hash_small.Alike1 (Midstate.const_hash_small.line1_33 cfg s) (Midstate.const_hash_small.line1_33 cfg t) := by
  rintro ⟨_, _, _, _, _, _, _, _, _⟩ ⟨_, _, _, _, _, _, _, _, _⟩ h
  unfold Midstate.const_hash_small.line1_33
  try dsimp only at *
  repeat same_step

theorem Midstate.const_hash_small.line1_34_same (cfg : Cfg) : ∀ s t, Midstate.const_hash_small.Alike1 s t →
    Tr.SameSeen Midstate.const_hash_small.Alike1 (Midstate.const_hash_small.line1_34 cfg s) (Midstate.const_hash_small.line1_34 cfg t) := by
  rintro ⟨_, _, _, _, _, _, _, _, _⟩ ⟨_, _, _, _, _, _, _, _, _⟩ h
  unfold Midstate.const_hash_small.line1_34
  try dsimp only at *
  repeat same_step

theorem Midstate.const_hash_small.line1_35_same (cfg : Cfg) : ∀ s t, Midstate.const_hash_small.Alike1 s t →
    Tr.SameSeen Midstate.const_hash_small.Alike1 (Midstate.const_hash_small.line1_35 cfg s) (Midstate.const_hash_small.line1_35 cfg t) := by
  rintro ⟨_, _, _, _, _, _, _, _, _⟩ ⟨_, _, _, _, _, _, _, _, _⟩ h
  unfold Midstate.const_hash_small.line1_35
  try dsimp only at *
  repeat same_step

theorem Midstate.const_hash_small.line1_36_same (cfg : Cfg) : ∀ s t, Midstate.const_hash_small.Alike1 s t →
    Tr.SameSeen Midstate.const_hash_small.Alike1 (Midstate.const_hash_small.line1_36 cfg s) (Midstate.const_hash_small.line1_36 cfg t) := by
  rintro ⟨_, _, _, _, _, _, _, _, _⟩ ⟨_, _, _, _, _, _, _, _, _⟩ h
  unfold Midstate.const_hash_small.line1_36
  try dsimp only at *
  repeat same_step

theorem Midstate.const_hash_small.line1_37_same (cfg : Cfg) : ∀ s t, Midstate.const_hash_small.Alike1 s t →
    Tr.SameSeen Midstate.const_hash_small.Alike1 (Midstate.const_hash_small.line1_37 cfg s) (Midstate.const_hash_small.line1_37 cfg t) := by
  rintro ⟨_, _, _, _, _, _, _, _, _⟩ ⟨_, _, _, _, _, _, _, _, _⟩ h
  unfold Midstate.const_hash_small.line1_37
  try dsimp only at *
  repeat same_step

theorem Midstate.const_hash_small.line1_38_same (cfg : Cfg) : ∀ s t, Midstate.const_hash_small.Alike1 s t →
    Tr.SameSeen Midstate.const_hash_small.Alike1 (Midstate.const_hash_small.line1_38 cfg s) (Midstate.const_hash_small.line1_38 cfg t) := by
  rintro ⟨_, _, _, _, _, _, _, _, _⟩ ⟨_, _, _, _, _, _, _, _, _⟩ h
  unfold Midstate.const_hash_small.line1_38
  try dsimp only at *
  repeat same_step

theorem Midstate.const_hash_small.line1_39_same (cfg : Cfg) : ∀ s t, Midstate.const_hash_small.Alike1 s t →
    Tr.SameSeen Midstate.const_hash_small.Alike1 (Midstate.const_hash_small.line1_39 cfg s) (Midstate.const_hash_small.line1_39 cfg t) := by
  rintro ⟨_, _, _, _, _, _, _, _, _⟩ ⟨_, _, _, _, _, _, _, _, _⟩ h
  unfold Midstate.const_hash_small.line1_39
  try dsimp only at *
  repeat same_step

theorem Midstate.const_hash_small.line1_40_same (cfg : Cfg) : ∀ s t, Midstate.const_hash_small.Alike1 s t →
    Tr.SameSeen Midstate.const_hash_small.Alike1 (Midstate.const_hash_small.line1_40 cfg s) (Midstate.const_hash_small.line1_40 cfg t) := by
  rintro ⟨_, _, _, _, _, _, _, _, _⟩ ⟨_, _, _, _, _, _, _, _, _⟩ h
  unfold Midstate.const_hash_small.line1_40
  try dsimp only at *
  repeat same_step

theorem Midstate.const_hash_small.line1_41_same (cfg : Cfg) : ∀ s t, Midstate.const_hash_small.Alike1 s t →
    Tr.SameSeen Midstate.const_hash_small.Alike1 (Midstate.const_hash_small.line1_41 cfg s) (Midstate.const_hash_small.line1_41 cfg t) := by
  rintro ⟨_, _, _, _, _, _, _, _, _⟩ ⟨_, _, _, _, _, _, _, _, _⟩ h
  unfold Midstate.const_hash_small.line1_41
  try dsimp only at *
  repeat same_step

theorem Midstate.const_hash_small.line1_42_same (cfg : Cfg) : ∀ s t, Midstate.const_hash_small.Alike1 s t →
    Tr.SameSeen Midstate.const_hash_small.Alike1 (Midstate.const_hash_small.line1_42 cfg s) (Midstate.const_hash_small.line1_42 cfg t) := by
  rintro ⟨_, _, _, _, _, _, _, _, _⟩ ⟨_, _, _, _, _, _, _, _, _⟩ h
  unfold Midstate.const_hash_small.line1_42
  try dsimp only at *
  repeat same_step

theorem Midstate.const_hash_small.line1_43_same (cfg : Cfg) : ∀ s t, Midstate.const_hash_small.Alike1 s t →
    Tr.SameSeen Midstate.const_hash_small.Alike1 (Midstate.const_hash_small.line1_43 cfg s) (Midstate.const_hash_small.line1_43 cfg t) := by
  rintro ⟨_, _, _, _, _, _, _, _, _⟩ ⟨_, _, _, _, _, _, _, _, _⟩ h
  unfold Midstate.const_hash_small.line1_43
  try dsimp only at *
  repeat same_step

theorem Midstate.const_hash_small.line1_44_same (cfg : Cfg) : ∀ s t, Midstate.const_hash_small.Alike1 s t →
    Tr.SameSeen Midstate.const_hash_small.Alike1 (Midstate.const_hash_small.line1_44 cfg s) (Midstate.const_hash_small.line1_44 cfg t) := by
  rintro ⟨_, _, _, _, _, _, _, _, _⟩ ⟨_, _, _, _, _, _, _, _, _⟩ h
  unfold Midstate.const_hash_small.line1_44
  try dsimp only at *
  repeat same_step

theorem Midstate.const_hash_small.line1_45_same (cfg : Cfg) : ∀ s t, Midstate.const_hash_small.Alike1 s t →
    Tr.SameSeen Midstate.const_hash_small.Alike1 (Midstate.const_hash_small.line1_45 cfg s) (Midstate.const_hash_small.line1_45 cfg t) := by
  rintro ⟨_, _, _, _, _, _, _, _, _⟩ ⟨_, _, _, _, _, _, _, _, _⟩ h
  unfold Midstate.const_hash_small.line1_45
  try dsimp only at *
  repeat same_step

theorem Midstate.const_hash_small.line1_46_same (cfg : Cfg) : ∀ s t, Midstate.const_hash_small.Alike1 s t →
    Tr.SameSeen Midstate.const_hash_small.Alike1 (Midstate.const_hash_small.line1_46 cfg s) (Midstate.const_hash_small.line1_46 cfg t) := by
  rintro ⟨_, _, _, _, _, _, _, _, _⟩ ⟨_, _, _, _, _, _, _, _, _⟩ h
  unfold Midstate.const_hash_small.line1_46
  try dsimp only at *
  repeat same_step

theorem Midstate.const_hash_small.line1_47_same (cfg : Cfg) : ∀ s t, Midstate.const_hash_small.Alike1 s t →
    Tr.SameSeen Midstate.const_hash_small.Alike1 (Midstate.const_hash_small.line1_47 cfg s) (Midstate.const_hash_small.line1_47 cfg t) := by
  rintro ⟨_, _, _, _, _, _, _, _, _⟩ ⟨_, _, _, _, _, _, _, _, _⟩ h
  unfold Midstate.const_hash_small.line1_47
  try dsimp only at *
  repeat same_step

theorem Midstate.const_hash_small.line1_48_same (cfg : Cfg) : ∀ s t, Midstate.const_hash_small.Alike1 s t →
    Tr.SameSeen Midstate.const_hash_small.Alike1 (Midstate.const_hash_small.line1_48 cfg s) (Midstate.const_hash_small.line1_48 cfg t) := by
  rintro ⟨_, _, _, _, _, _, _, _, _⟩ ⟨_, _, _, _, _, _, _, _, _⟩ h
  unfold Midstate.const_hash_small.line1_48
  try dsimp only at *
  repeat same_step

theorem Midstate.const_hash_small.line1_49_same (cfg : Cfg) : ∀ s t, Midstate.const_hash_small.Alike1 s t →
    Tr.SameSeen Midstate.const_hash_small.Alike1 (Midstate.const_hash_small.line1_49 cfg s) (Midstate.const_hash_small.line1_49 cfg t) := by
  rintro ⟨_, _, _, _, _, _, _, _, _⟩ ⟨_, _, _, _, _, _, _, _, _⟩ h
  unfold Midstate.const_hash_small.line1_49
  try dsimp only at *
  repeat same_step

theorem Midstate.const_hash_small.line1_50_same (cfg : Cfg) : ∀ s t, Midstate.const_hash_small.Alike1 s t →
    Tr.SameSeen Midstate.const_hash_small.Alike1 (Midstate.const_hash_small.line1_50 cfg s) (Midstate.const_hash_small.line1_50 cfg t) := by
  rintro ⟨_, _, _, _, _, _, _, _, _⟩ ⟨_, _, _, _, _, _, _, _, _⟩ h
  unfold Midstate.const_hash_small.line1_50
  try dsimp only at *
  repeat same_step

theorem Midstate.const_hash_small.line1_51_same (cfg : Cfg) : ∀ s t, Midstate.const_hash_small.Alike1 s t →
    Tr.SameSeen Midstate.const_hash_small.Alike1 (Midstate.const_hash_small.line1_51 cfg s) (Midstate.const_hash_small.line1_51 cfg t) := by
  rintro ⟨_, _, _, _, _, _, _, _, _⟩ ⟨_, _, _, _, _, _, _, _, _⟩ h
  unfold Midstate.const_hash_small.line1_51
  try dsimp only at *
  repeat same_step

theorem Midstate.const_hash_small.line1_52_same (cfg : Cfg) : ∀ s t, Midstate.const_hash_small.Alike1 s t →
    Tr.SameSeen Midstate.const_hash_small.Alike1 (Midstate.const_hash_small.line1_52 cfg s) (Midstate.const_hash_small.line1_52 cfg t) := by
  rintro ⟨_, _, _, _, _, _, _, _, _⟩ ⟨_, _, _, _, _, _, _, _, _⟩ h
  unfold Midstate.const_hash_small.line1_52
  try dsimp only at *
  repeat same_step

theorem Midstate.const_hash_small.line1_53_same (cfg : Cfg) : ∀ s t, Midstate.const_hash_small.Alike1 s t →
    Tr.SameSeen Midstate.const_hash_small.Alike1 (Midstate.const_hash_small.line1_53 cfg s) (Midstate.const_hash_small.line1_53 cfg t) := by
  rintro ⟨_, _, _, _, _, _, _, _, _⟩ ⟨_, _, _, _, _, _, _, _, _⟩ h
  unfold Midstate.const_hash_small.line1_53
  try dsimp only at *
  repeat same_step

theorem Midstate.const_hash_small.line1_54_same (cfg : Cfg) : ∀ s t, Midstate.const_hash_small.Alike1 s t →
    Tr.SameSeen Midstate.const_hash_small.Alike1 (Midstate.const_hash_small.line1_54 cfg s) (Midstate.const_hash_small.line1_54 cfg t) := by
  rintro ⟨_, _, _, _, _, _, _, _, _⟩ ⟨_, _, _, _, _, _, _, _, _⟩ h
  unfold Midstate.const_hash_small.line1_54
  try dsimp only at *
  repeat same_step

theorem Midstate.const_hash_small.line1_55_same (cfg : Cfg) : ∀ s t, Midstate.const_hash_small.Alike1 s t →
    Tr.SameSeen Midstate.const_hash_small.Alike1 (Midstate.const_hash_small.line1_55 cfg s) (Midstate.const_hash_small.line1_55 cfg t) := by
  rintro ⟨_, _, _, _, _, _, _, _, _⟩ ⟨_, _, _, _, _, _, _, _, _⟩ h
  unfold Midstate.const_hash_small.line1_55
  try dsimp only at *
  repeat same_step

theorem Midstate.const_hash_small.line1_56_same (cfg : Cfg) : ∀ s t, Midstate.const_hash_small.Alike1 s t →
    Tr.SameSeen Midstate.const_hash_small.Alike1 (Midstate.const_hash_small.line1_56 cfg s) (Midstate.const_hash_small.line1_56 cfg t) := by
  rintro ⟨_, _, _, _, _, _, _, _, _⟩ ⟨_, _, _, _, _, _, _, _, _⟩ h
  unfold Midstate.const_hash_small.line1_56
  try dsimp only at *
  repeat same_step

theorem Midstate.const_hash_small.line1_57_same (cfg : Cfg) : ∀ s t, Midstate.const_hash_small.Alike1 s t →
    Tr.SameSeen Midstate.const_hash_small.Alike1 (Midstate.const_hash_small.line1_57 cfg s) (Midstate.const_hash_small.line1_57 cfg t) := by
  rintro ⟨_, _, _, _, _, _, _, _, _⟩ ⟨_, _, _, _, _, _, _, _, _⟩ h
  unfold Midstate.const_hash_small.line1_57
  try dsimp only at *
  repeat same_step

theorem Midstate.const_hash_small.line1_58_same (cfg : Cfg) : ∀ s t, Midstate.const_hash_small.Alike1 s t →
    Tr.SameSeen Midstate.const_hash_small.Alike1 (Midstate.const_hash_small.line1_58 cfg s) (Midstate.const_hash_small.line1_58 cfg t) := by
  rintro ⟨_, _, _, _, _, _, _, _, _⟩ ⟨_, _, _, _, _, _, _, _, _⟩ h
  unfold Midstate.const_hash_small.line1_58
  try dsimp only at *
  repeat same_step

theorem Midstate.const_hash_small.line1_59_same (cfg : Cfg) : ∀ s t, Midstate.const_hash_small.Alike1 s t →
    Tr.SameSeen Midstate.const_hash_small.Alike1 (Midstate.const_hash_small.line1_59 cfg s) (Midstate.const_hash_small.line1_59 cfg t) := by
  rintro ⟨_, _, _, _, _, _, _, _, _⟩ ⟨_, _, _, _, _, _, _, _, _⟩ h
  unfold Midstate.const_hash_small.line1_59
  try dsimp only at *
  repeat same_step

theorem Midstate.const_hash_small.line1_60_same (cfg : Cfg) : ∀ s t, Midstate.const_hash_small.Alike1 s t →
    Tr.SameSeen Midstate.const_hash_small.Alike1 (Midstate.const_hash_small.line1_60 cfg s) (Midstate.const_hash_small.line1_60 cfg t) := by
  rintro ⟨_, _, _, _, _, _, _, _, _⟩ ⟨_, _, _, _, _, _, _, _, _⟩ h
  unfold Midstate.const_hash_small.line1_60
  try dsimp only at *
  repeat same_step

theorem Midstate.const_hash_small.line1_61_same (cfg : Cfg) : ∀ s t, Midstate.const_hash_small.Alike1 s t →
    Tr.SameSeen Midstate.const_hash_small.Alike1 (Midstate.const_hash_small.line1_61 cfg s) (Midstate.const_hash_small.line1_61 cfg t) := by
  rintro ⟨_, _, _, _, _, _, _, _, _⟩ ⟨_, _, _, _, _, _, _, _, _⟩ h
  unfold Midstate.const_hash_small.line1_61
  try dsimp only at *
  repeat same_step

theorem Midstate.const_hash_small.line1_62_same (cfg : Cfg) : ∀ s t, Midstate.const_hash_small.Alike1 s t →
    Tr.SameSeen Midstate.const_hash_small.Alike1 (Midstate.const_hash_small.line1_62 cfg s) (Midstate.const_hash_small.line1_62 cfg t) := by
  rintro ⟨_, _, _, _, _, _, _, _, _⟩ ⟨_, _, _, _, _, _, _, _, _⟩ h
  unfold Midstate.const_hash_small.line1_62
  try dsimp only at *
  repeat same_step

theorem Midstate.const_hash_small.line1_63_same (cfg : Cfg) : ∀ s t, Midstate.const_hash_small.Alike1 s t →
    Tr.SameSeen Midstate.const_hash_small.Alike1 (Midstate.const_hash_small.line1_63 cfg s) (Midstate.const_hash_small.line1_63 cfg t) := by
  rintro ⟨_, _, _, _, _, _, _, _, _⟩ ⟨_, _, _, _, _, _, _, _, _⟩ h
  unfold Midstate.const_hash_small.line1_63
  try dsimp only at *
  repeat same_step

set_option maxRecDepth 10000 in
theorem Midstate.const_hash_small.lines1_same (cfg : Cfg) :
    Tr.SameSeen.Each (fun f g => ∀ s t, Midstate.const_hash_small.Alike1 s t → Tr.SameSeen Midstate.const_hash_small.Alike1 (f s) (g t))
      (Midstate.const_hash_small.lines1 cfg) (Midstate.const_hash_small.lines1 cfg) :=
  ⟨Midstate.const_hash_small.line1_0_same cfg,
   Midstate.const_hash_small.line1_1_same cfg,
   Midstate.const_hash_small.line1_2_same cfg,
   Midstate.const_hash_small.line1_3_same cfg,
   Midstate.const_hash_small.line1_4_same cfg,
   Midstate.const_hash_small.line1_5_same cfg,
   Midstate.const_hash_small.line1_6_same cfg,
   Midstate.const_hash_small.line1_7_same cfg,
   Midstate.const_hash_small.line1_8_same cfg,
   Midstate.const_hash_small.line1_9_same cfg,
   Midstate.const_hash_small.line1_10_same cfg,
   Midstate.const_hash_small.line1_11_same cfg,
   Midstate.const_hash_small.line1_12_same cfg,
   Midstate.const_hash_small.line1_13_same cfg,
   Midstate.const_hash_small.line1_14_same cfg,
   Midstate.const_hash_small.line1_15_same cfg,
   Midstate.const_hash_small.line1_16_same cfg,
   Midstate.const_hash_small.line1_17_same cfg,
   Midstate.const_hash_small.line1_18_same cfg,
   Midstate.const_hash_small.line1_19_same cfg,
   Midstate.const_hash_small.line1_20_same cfg,
   Midstate.const_hash_small.line1_21_same cfg,
   Midstate.const_hash_small.line1_22_same cfg,
   Midstate.const_hash_small.line1_23_same cfg,
   Midstate.const_hash_small.line1_24_same cfg,
   Midstate.const_hash_small.line1_25_same cfg,
   Midstate.const_hash_small.line1_26_same cfg,
   Midstate.const_hash_small.line1_27_same cfg,
   Midstate.const_hash_small.line1_28_same cfg,
   Midstate.const_hash_small.line1_29_same cfg,
   Midstate.const_hash_small.line1_30_same cfg,
   Midstate.const_hash_small.line1_31_same cfg,
   Midstate.const_hash_small.line1_32_same cfg,
   Midstate.const_hash_small.line1_33_same cfg,
   Midstate.const_hash_small.line1_34_same cfg,
   Midstate.const_hash_small.line1_35_same cfg,
   Midstate.const_hash_small.line1_36_same cfg,
   Midstate.const_hash_small.line1_37_same cfg,
   Midstate.const_hash_small.line1_38_same cfg,
   Midstate.const_hash_small.line1_39_same cfg,
   Midstate.const_hash_small.line1_40_same cfg,
   Midstate.const_hash_small.line1_41_same cfg,
   Midstate.const_hash_small.line1_42_same cfg,
   Midstate.const_hash_small.line1_43_same cfg,
   Midstate.const_hash_small.line1_44_same cfg,
   Midstate.const_hash_small.line1_45_same cfg,
   Midstate.const_hash_small.line1_46_same cfg,
   Midstate.const_hash_small.line1_47_same cfg,
   Midstate.const_hash_small.line1_48_same cfg,
   Midstate.const_hash_small.line1_49_same cfg,
   Midstate.const_hash_small.line1_50_same cfg,
   Midstate.const_hash_small.line1_51_same cfg,
   Midstate.const_hash_small.line1_52_same cfg,
   Midstate.const_hash_small.line1_53_same cfg,
   Midstate.const_hash_small.line1_54_same cfg,
   Midstate.const_hash_small.line1_55_same cfg,
   Midstate.const_hash_small.line1_56_same cfg,
   Midstate.const_hash_small.line1_57_same cfg,
   Midstate.const_hash_small.line1_58_same cfg,
   Midstate.const_hash_small.line1_59_same cfg,
   Midstate.const_hash_small.line1_60_same cfg,
   Midstate.const_hash_small.line1_61_same cfg,
   Midstate.const_hash_small.line1_62_same cfg,
   Midstate.const_hash_small.line1_63_same cfg, trivial⟩

set_option maxRecDepth 10000 in
theorem Midstate.const_hash_small.lines1_res (cfg : Cfg) :
    (Midstate.const_hash_small.lines1 cfg).map (fun f s => (f s).res) = Source.Sha256.Midstate.const_hash_small.lines1 cfg := rfl

end Chf.Seen.Sha256
