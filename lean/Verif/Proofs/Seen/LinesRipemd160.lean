/- Generated by tools/rust2lean.py; do not edit. -/
import Verif.Seen.Ripemd160
import Verif.Proofs.Seen.Tactic

/-! The numbered statements of the translated text: what is seen of each does not depend on the
contents of words and arrays, and it computes what the translated statement computes. -/

namespace Chf.Seen.Ripemd160
open Chf

/-- The states of these statements are alike. -/
abbrev Engine.process_block_fast.Alike1 :=
  fun s t : Source.Ripemd160.Engine.process_block_fast.State1 => Len s.1 t.1 ∧ Len s.2 t.2

theorem Engine.process_block_fast.line1_0_same (cfg : Cfg) {w w₂ : List (BitVec 32)} (hw : Len w w₂) : ∀ s t, Engine.process_block_fast.Alike1 s t →
    Tr.SameSeen Engine.process_block_fast.Alike1 (Engine.process_block_fast.line1_0 cfg w s) (Engine.process_block_fast.line1_0 cfg w₂ t) := by
  rintro ⟨_, _⟩ ⟨_, _⟩ ⟨h0, h1⟩
  unfold Engine.process_block_fast.line1_0
  try dsimp only at *
  repeat same_step

theorem Engine.process_block_fast.line1_1_same (cfg : Cfg) {w w₂ : List (BitVec 32)} (hw : Len w w₂) : ∀ s t, Engine.process_block_fast.Alike1 s t →
    Tr.SameSeen Engine.process_block_fast.Alike1 (Engine.process_block_fast.line1_1 cfg w s) (Engine.process_block_fast.line1_1 cfg w₂ t) := by
  rintro ⟨_, _⟩ ⟨_, _⟩ ⟨h0, h1⟩
  unfold Engine.process_block_fast.line1_1
  try dsimp only at *
  repeat same_step

theorem Engine.process_block_fast.line1_2_same (cfg : Cfg) {w w₂ : List (BitVec 32)} (hw : Len w w₂) : ∀ s t, Engine.process_block_fast.Alike1 s t →
    Tr.SameSeen Engine.process_block_fast.Alike1 (Engine.process_block_fast.line1_2 cfg w s) (Engine.process_block_fast.line1_2 cfg w₂ t) := by
  rintro ⟨_, _⟩ ⟨_, _⟩ ⟨h0, h1⟩
  unfold Engine.process_block_fast.line1_2
  try dsimp only at *
  repeat same_step

theorem Engine.process_block_fast.line1_3_same (cfg : Cfg) {w w₂ : List (BitVec 32)} (hw : Len w w₂) : ∀ s t, Engine.process_block_fast.Alike1 s t →
    Tr.SameSeen Engine.process_block_fast.Alike1 (Engine.process_block_fast.line1_3 cfg w s) (Engine.process_block_fast.line1_3 cfg w₂ t) := by
  rintro ⟨_, _⟩ ⟨_, _⟩ ⟨h0, h1⟩
  unfold Engine.process_block_fast.line1_3
  try dsimp only at *
  repeat same_step

theorem Engine.process_block_fast.line1_4_same (cfg : Cfg) {w w₂ : List (BitVec 32)} (hw : Len w w₂) : ∀ s t, Engine.process_block_fast.Alike1 s t →
    Tr.SameSeen Engine.process_block_fast.Alike1 (Engine.process_block_fast.line1_4 cfg w s) (Engine.process_block_fast.line1_4 cfg w₂ t) := by
  rintro ⟨_, _⟩ ⟨_, _⟩ ⟨h0, h1⟩
  unfold Engine.process_block_fast.line1_4
  try dsimp only at *
  repeat same_step

theorem Engine.process_block_fast.line1_5_same (cfg : Cfg) {w w₂ : List (BitVec 32)} (hw : Len w w₂) : ∀ s t, Engine.process_block_fast.Alike1 s t →
    Tr.SameSeen Engine.process_block_fast.Alike1 (Engine.process_block_fast.line1_5 cfg w s) (Engine.process_block_fast.line1_5 cfg w₂ t) := by
  rintro ⟨_, _⟩ ⟨_, _⟩ ⟨h0, h1⟩
  unfold Engine.process_block_fast.line1_5
  try dsimp only at *
  repeat same_step

theorem Engine.process_block_fast.line1_6_same (cfg : Cfg) {w w₂ : List (BitVec 32)} (hw : Len w w₂) : ∀ s t, Engine.process_block_fast.Alike1 s t →
    Tr.SameSeen Engine.process_block_fast.Alike1 (Engine.process_block_fast.line1_6 cfg w s) (Engine.process_block_fast.line1_6 cfg w₂ t) := by
  rintro ⟨_, _⟩ ⟨_, _⟩ ⟨h0, h1⟩
  unfold Engine.process_block_fast.line1_6
  try dsimp only at *
  repeat same_step

theorem Engine.process_block_fast.line1_7_same (cfg : Cfg) {w w₂ : List (BitVec 32)} (hw : Len w w₂) : ∀ s t, Engine.process_block_fast.Alike1 s t →
    Tr.SameSeen Engine.process_block_fast.Alike1 (Engine.process_block_fast.line1_7 cfg w s) (Engine.process_block_fast.line1_7 cfg w₂ t) := by
  rintro ⟨_, _⟩ ⟨_, _⟩ ⟨h0, h1⟩
  unfold Engine.process_block_fast.line1_7
  try dsimp only at *
  repeat same_step

theorem Engine.process_block_fast.line1_8_same (cfg : Cfg) {w w₂ : List (BitVec 32)} (hw : Len w w₂) : ∀ s t, Engine.process_block_fast.Alike1 s t →
    Tr.SameSeen Engine.process_block_fast.Alike1 (Engine.process_block_fast.line1_8 cfg w s) (Engine.process_block_fast.line1_8 cfg w₂ t) := by
  rintro ⟨_, _⟩ ⟨_, _⟩ ⟨h0, h1⟩
  unfold Engine.process_block_fast.line1_8
  try dsimp only at *
  repeat same_step

theorem Engine.process_block_fast.line1_9_same (cfg : Cfg) {w w₂ : List (BitVec 32)} (hw : Len w w₂) : ∀ s t, Engine.process_block_fast.Alike1 s t →
    Tr.SameSeen Engine.process_block_fast.Alike1 (Engine.process_block_fast.line1_9 cfg w s) (Engine.process_block_fast.line1_9 cfg w₂ t) := by
  rintro ⟨_, _⟩ ⟨_, _⟩ ⟨h0, h1⟩
  unfold Engine.process_block_fast.line1_9
  try dsimp only at *
  repeat same_step

theorem Engine.process_block_fast.line1_10_same (cfg : Cfg) {w w₂ : List (BitVec 32)} (hw : Len w w₂) : ∀ s t, Engine.process_block_fast.Alike1 s t →
    Tr.SameSeen Engine.process_block_fast.Alike1 (Engine.process_block_fast.line1_10 cfg w s) (Engine.process_block_fast.line1_10 cfg w₂ t) := by
  rintro ⟨_, _⟩ ⟨_, _⟩ ⟨h0, h1⟩
  unfold Engine.process_block_fast.line1_10
  try dsimp only at *
  repeat same_step

theorem Engine.process_block_fast.line1_11_same (cfg : Cfg) {w w₂ : List (BitVec 32)} (hw : Len w w₂) : ∀ s t, Engine.process_block_fast.Alike1 s t →
    Tr.SameSeen Engine.process_block_fast.Alike1 (Engine.process_block_fast.line1_11 cfg w s) (Engine.process_block_fast.line1_11 cfg w₂ t) := by
  rintro ⟨_, _⟩ ⟨_, _⟩ ⟨h0, h1⟩
  unfold Engine.process_block_fast.line1_11
  try dsimp only at *
  repeat same_step

theorem Engine.process_block_fast.line1_12_same (cfg : Cfg) {w w₂ : List (BitVec 32)} (hw : Len w w₂) : ∀ s t, Engine.process_block_fast.Alike1 s t →
    Tr.SameSeen Engine.process_block_fast.Alike1 (Engine.process_block_fast.line1_12 cfg w s) (Engine.process_block_fast.line1_12 cfg w₂ t) := by
  rintro ⟨_, _⟩ ⟨_, _⟩ ⟨h0, h1⟩
  unfold Engine.process_block_fast.line1_12
  try dsimp only at *
  repeat same_step

theorem Engine.process_block_fast.line1_13_same (cfg : Cfg) {w w₂ : List (BitVec 32)} (hw : Len w w₂) : ∀ s t, Engine.process_block_fast.Alike1 s t →
    Tr.SameSeen Engine.process_block_fast.Alike1 (Engine.process_block_fast.line1_13 cfg w s) (Engine.process_block_fast.line1_13 cfg w₂ t) := by
  rintro ⟨_, _⟩ ⟨_, _⟩ ⟨h0, h1⟩
  unfold Engine.process_block_fast.line1_13
  try dsimp only at *
  repeat same_step

theorem Engine.process_block_fast.line1_14_same (cfg : Cfg) {w w₂ : List (BitVec 32)} (hw : Len w w₂) : ∀ s t, Engine.process_block_fast.Alike1 s t →
    Tr.SameSeen Engine.process_block_fast.Alike1 (Engine.process_block_fast.line1_14 cfg w s) (Engine.process_block_fast.line1_14 cfg w₂ t) := by
  rintro ⟨_, _⟩ ⟨_, _⟩ ⟨h0, h1⟩
  unfold Engine.process_block_fast.line1_14
  try dsimp only at *
  repeat same_step

theorem Engine.process_block_fast.line1_15_same (cfg : Cfg) {w w₂ : List (BitVec 32)} (hw : Len w w₂) : ∀ s t, Engine.process_block_fast.Alike1 s t →
    Tr.SameSeen Engine.process_block_fast.Alike1 (Engine.process_block_fast.line1_15 cfg w s) (Engine.process_block_fast.line1_15 cfg w₂ t) := by
  rintro ⟨_, _⟩ ⟨_, _⟩ ⟨h0, h1⟩
  unfold Engine.process_block_fast.line1_15
  try dsimp only at *
  repeat same_step

theorem Engine.process_block_fast.line1_16_same (cfg : Cfg) {w w₂ : List (BitVec 32)} (hw : Len w w₂) : ∀ s t, Engine.process_block_fast.Alike1 s t →
    Tr.SameSeen Engine.process_block_fast.Alike1 (Engine.process_block_fast.line1_16 cfg w s) (Engine.process_block_fast.line1_16 cfg w₂ t) := by
  rintro ⟨_, _⟩ ⟨_, _⟩ ⟨h0, h1⟩
  unfold Engine.process_block_fast.line1_16
  try dsimp only at *
  repeat same_step

theorem Engine.process_block_fast.line1_17_same (cfg : Cfg) {w w₂ : List (BitVec 32)} (hw : Len w w₂) : ∀ s t, Engine.process_block_fast.Alike1 s t →
    Tr.SameSeen Engine.process_block_fast.Alike1 (Engine.process_block_fast.line1_17 cfg w s) (Engine.process_block_fast.line1_17 cfg w₂ t) := by
  rintro ⟨_, _⟩ ⟨_, _⟩ ⟨h0, h1⟩
  unfold Engine.process_block_fast.line1_17
  try dsimp only at *
  repeat same_step

theorem Engine.process_block_fast.line1_18_same (cfg : Cfg) {w w₂ : List (BitVec 32)} (hw : Len w w₂) : ∀ s t, Engine.process_block_fast.Alike1 s t →
    Tr.SameSeen Engine.process_block_fast.Alike1 (Engine.process_block_fast.line1_18 cfg w s) (Engine.process_block_fast.line1_18 cfg w₂ t) := by
  rintro ⟨_, _⟩ ⟨_, _⟩ ⟨h0, h1⟩
  unfold Engine.process_block_fast.line1_18
  try dsimp only at *
  repeat same_step

theorem Engine.process_block_fast.line1_19_same (cfg : Cfg) {w w₂ : List (BitVec 32)} (hw : Len w w₂) : ∀ s t, Engine.process_block_fast.Alike1 s t →
    Tr.SameSeen Engine.process_block_fast.Alike1 (Engine.process_block_fast.line1_19 cfg w s) (Engine.process_block_fast.line1_19 cfg w₂ t) := by
  rintro ⟨_, _⟩ ⟨_, _⟩ ⟨h0, h1⟩
  unfold Engine.process_block_fast.line1_19
  try dsimp only at *
  repeat same_step

theorem Engine.process_block_fast.line1_20_same (cfg : Cfg) {w w₂ : List (BitVec 32)} (hw : Len w w₂) : ∀ s t, Engine.process_block_fast.Alike1 s t →
    Tr.SameSeen Engine.process_block_fast.Alike1 (Engine.process_block_fast.line1_20 cfg w s) (Engine.process_block_fast.line1_20 cfg w₂ t) := by
  rintro ⟨_, _⟩ ⟨_, _⟩ ⟨h0, h1⟩
  unfold Engine.process_block_fast.line1_20
  try dsimp only at *
  repeat same_step

theorem Engine.process_block_fast.line1_21_same (cfg : Cfg) {w w₂ : List (BitVec 32)} (hw : Len w w₂) : ∀ s t, Engine.process_block_fast.Alike1 s t →
    Tr.SameSeen Engine.process_block_fast.Alike1 (Engine.process_block_fast.line1_21 cfg w s) (Engine.process_block_fast.line1_21 cfg w₂ t) := by
  rintro ⟨_, _⟩ ⟨_, _⟩ ⟨h0, h1⟩
  unfold Engine.process_block_fast.line1_21
  try dsimp only at *
  repeat same_step

theorem Engine.process_block_fast.line1_22_same (cfg : Cfg) {w w₂ : List (BitVec 32)} (hw : Len w w₂) : ∀ s t, Engine.process_block_fast.Alike1 s t →
    Tr.SameSeen Engine.process_block_fast.Alike1 (Engine.process_block_fast.line1_22 cfg w s) (Engine.process_block_fast.line1_22 cfg w₂ t) := by
  rintro ⟨_, _⟩ ⟨_, _⟩ ⟨h0, h1⟩
  unfold Engine.process_block_fast.line1_22
  try dsimp only at *
  repeat same_step

theorem Engine.process_block_fast.line1_23_same (cfg : Cfg) {w w₂ : List (BitVec 32)} (hw : Len w w₂) : ∀ s t, Engine.process_block_fast.Alike1 s t →
    Tr.SameSeen Engine.process_block_fast.Alike1 (Engine.process_block_fast.line1_23 cfg w s) (Engine.process_block_fast.line1_23 cfg w₂ t) := by
  rintro ⟨_, _⟩ ⟨_, _⟩ ⟨h0, h1⟩
  unfold Engine.process_block_fast.line1_23
  try dsimp only at *
  repeat same_step

theorem Engine.process_block_fast.line1_24_same (cfg : Cfg) {w w₂ : List (BitVec 32)} (hw : Len w w₂) : ∀ s t, Engine.process_block_fast.Alike1 s t →
    Tr.SameSeen Engine.process_block_fast.Alike1 (Engine.process_block_fast.line1_24 cfg w s) (Engine.process_block_fast.line1_24 cfg w₂ t) := by
  rintro ⟨_, _⟩ ⟨_, _⟩ ⟨h0, h1⟩
  unfold Engine.process_block_fast.line1_24
  try dsimp only at *
  repeat same_step

theorem Engine.process_block_fast.line1_25_same (cfg : Cfg) {w w₂ : List (BitVec 32)} (hw : Len w w₂) : ∀ s t, Engine.process_block_fast.Alike1 s t →
    Tr.SameSeen Engine.process_block_fast.Alike1 (Engine.process_block_fast.line1_25 cfg w s) (Engine.process_block_fast.line1_25 cfg w₂ t) := by
  rintro ⟨_, _⟩ ⟨_, _⟩ ⟨h0, h1⟩
  unfold Engine.process_block_fast.line1_25
  try dsimp only at *
  repeat same_step

theorem Engine.process_block_fast.line1_26_same (cfg : Cfg) {w w₂ : List (BitVec 32)} (hw : Len w w₂) : ∀ s t, Engine.process_block_fast.Alike1 s t →
    Tr.SameSeen Engine.process_block_fast.Alike1 (Engine.process_block_fast.line1_26 cfg w s) (Engine.process_block_fast.line1_26 cfg w₂ t) := by
  rintro ⟨_, _⟩ ⟨_, _⟩ ⟨h0, h1⟩
  unfold Engine.process_block_fast.line1_26
  try dsimp only at *
  repeat same_step

theorem Engine.process_block_fast.line1_27_same (cfg : Cfg) {w w₂ : List (BitVec 32)} (hw : Len w w₂) : ∀ s t, Engine.process_block_fast.Alike1 s t →
    Tr.SameSeen Engine.process_block_fast.Alike1 (Engine.process_block_fast.line1_27 cfg w s) (Engine.process_block_fast.line1_27 cfg w₂ t) := by
  rintro ⟨_, _⟩ ⟨_, _⟩ ⟨h0, h1⟩
  unfold Engine.process_block_fast.line1_27
  try dsimp only at *
  repeat same_step

theorem Engine.process_block_fast.line1_28_same (cfg : Cfg) {w w₂ : List (BitVec 32)} (hw : Len w w₂) : ∀ s t, Engine.process_block_fast.Alike1 s t →
    Tr.SameSeen Engine.process_block_fast.Alike1 (Engine.process_block_fast.line1_28 cfg w s) (Engine.process_block_fast.line1_28 cfg w₂ t) := by
  rintro ⟨_, _⟩ ⟨_, _⟩ ⟨h0, h1⟩
  unfold Engine.process_block_fast.line1_28
  try dsimp only at *
  repeat same_step

theorem Engine.process_block_fast.line1_29_same (cfg : Cfg) {w w₂ : List (BitVec 32)} (hw : Len w w₂) : ∀ s t, Engine.process_block_fast.Alike1 s t →
    Tr.SameSeen Engine.process_block_fast.Alike1 (Engine.process_block_fast.line1_29 cfg w s) (Engine.process_block_fast.line1_29 cfg w₂ t) := by
  rintro ⟨_, _⟩ ⟨_, _⟩ ⟨h0, h1⟩
  unfold Engine.process_block_fast.line1_29
  try dsimp only at *
  repeat same_step

theorem Engine.process_block_fast.line1_30_same (cfg : Cfg) {w w₂ : List (BitVec 32)} (hw : Len w w₂) : ∀ s t, Engine.process_block_fast.Alike1 s t →
    Tr.SameSeen Engine.process_block_fast.Alike1 (Engine.process_block_fast.line1_30 cfg w s) (Engine.process_block_fast.line1_30 cfg w₂ t) := by
  rintro ⟨_, _⟩ ⟨_, _⟩ ⟨h0, h1⟩
  unfold Engine.process_block_fast.line1_30
  try dsimp only at *
  repeat same_step

theorem Engine.process_block_fast.line1_31_same (cfg : Cfg) {w w₂ : List (BitVec 32)} (hw : Len w w₂) : ∀ s t, Engine.process_block_fast.Alike1 s t →
    Tr.SameSeen Engine.process_block_fast.Alike1 (Engine.process_block_fast.line1_31 cfg w s) (Engine.process_block_fast.line1_31 cfg w₂ t) := by
  rintro ⟨_, _⟩ ⟨_, _⟩ ⟨h0, h1⟩
  unfold Engine.process_block_fast.line1_31
  try dsimp only at *
  repeat same_step

theorem Engine.process_block_fast.line1_32_same (cfg : Cfg) {w w₂ : List (BitVec 32)} (hw : Len w w₂) : ∀ s t, Engine.process_block_fast.Alike1 s t →
    Tr.SameSeen Engine.process_block_fast.Alike1 (Engine.process_block_fast.line1_32 cfg w s) (Engine.process_block_fast.line1_32 cfg w₂ t) := by
  rintro ⟨_, _⟩ ⟨_, _⟩ ⟨h0, h1⟩
  unfold Engine.process_block_fast.line1_32
  try dsimp only at *
  repeat same_step

theorem Engine.process_block_fast.line1_33_same (cfg : Cfg) {w w₂ : List (BitVec 32)} (hw : Len w w₂) : ∀ s t, Engine.process_block_fast.Alike1 s t →
    Tr.SameSeen Engine.process_block_fast.Alike1 (Engine.process_block_fast.line1_33 cfg w s) (Engine.process_block_fast.line1_33 cfg w₂ t) := by
  rintro ⟨_, _⟩ ⟨_, _⟩ ⟨h0, h1⟩
  unfold Engine.process_block_fast.line1_33
  try dsimp only at *
  repeat same_step

theorem Engine.process_block_fast.line1_34_same (cfg : Cfg) {w w₂ : List (BitVec 32)} (hw : Len w w₂) : ∀ s t, Engine.process_block_fast.Alike1 s t →
    Tr.SameSeen Engine.process_block_fast.Alike1 (Engine.process_block_fast.line1_34 cfg w s) (Engine.process_block_fast.line1_34 cfg w₂ t) := by
  rintro ⟨_, _⟩ ⟨_, _⟩ ⟨h0, h1⟩
  unfold Engine.process_block_fast.line1_34
  try dsimp only at *
  repeat same_step

theorem Engine.process_block_fast.line1_35_same (cfg : Cfg) {w w₂ : List (BitVec 32)} (hw : Len w w₂) : ∀ s t, Engine.process_block_fast.Alike1 s t →
    Tr.SameSeen Engine.process_block_fast.Alike1 (Engine.process_block_fast.line1_35 cfg w s) (Engine.process_block_fast.line1_35 cfg w₂ t) := by
  rintro ⟨_, _⟩ ⟨_, _⟩ ⟨h0, h1⟩
  unfold Engine.process_block_fast.line1_35
  try dsimp only at *
  repeat same_step

theorem Engine.process_block_fast.line1_36_same (cfg : Cfg) {w w₂ : List (BitVec 32)} (hw : Len w w₂) : ∀ s t, Engine.process_block_fast.Alike1 s t →
    Tr.SameSeen Engine.process_block_fast.Alike1 (Engine.process_block_fast.line1_36 cfg w s) (Engine.process_block_fast.line1_36 cfg w₂ t) := by
  rintro ⟨_, _⟩ ⟨_, _⟩ ⟨h0, h1⟩
  unfold Engine.process_block_fast.line1_36
  try dsimp only at *
  repeat same_step

theorem Engine.process_block_fast.line1_37_same (cfg : Cfg) {w w₂ : List (BitVec 32)} (hw : Len w w₂) : ∀ s t, Engine.process_block_fast.Alike1 s t →
    Tr.SameSeen Engine.process_block_fast.Alike1 (Engine.process_block_fast.line1_37 cfg w s) (Engine.process_block_fast.line1_37 cfg w₂ t) := by
  rintro ⟨_, _⟩ ⟨_, _⟩ ⟨h0, h1⟩
  unfold Engine.process_block_fast.line1_37
  try dsimp only at *
  repeat same_step

theorem Engine.process_block_fast.line1_38_same (cfg : Cfg) {w w₂ : List (BitVec 32)} (hw : Len w w₂) : ∀ s t, Engine.process_block_fast.Alike1 s t →
    Tr.SameSeen Engine.process_block_fast.Alike1 (Engine.process_block_fast.line1_38 cfg w s) (Engine.process_block_fast.line1_38 cfg w₂ t) := by
  rintro ⟨_, _⟩ ⟨_, _⟩ ⟨h0, h1⟩
  unfold Engine.process_block_fast.line1_38
  try dsimp only at *
  repeat same_step

theorem Engine.process_block_fast.line1_39_same (cfg : Cfg) {w w₂ : List (BitVec 32)} (hw : Len w w₂) : ∀ s t, Engine.process_block_fast.Alike1 s t →
    Tr.SameSeen Engine.process_block_fast.Alike1 (Engine.process_block_fast.line1_39 cfg w s) (Engine.process_block_fast.line1_39 cfg w₂ t) := by
  rintro ⟨_, _⟩ ⟨_, _⟩ ⟨h0, h1⟩
  unfold Engine.process_block_fast.line1_39
  try dsimp only at *
  repeat same_step

theorem Engine.process_block_fast.line1_40_same (cfg : Cfg) {w w₂ : List (BitVec 32)} (hw : Len w w₂) : ∀ s t, Engine.process_block_fast.Alike1 s t →
    Tr.SameSeen Engine.process_block_fast.Alike1 (Engine.process_block_fast.line1_40 cfg w s) (Engine.process_block_fast.line1_40 cfg w₂ t) := by
  rintro ⟨_, _⟩ ⟨_, _⟩ ⟨h0, h1⟩
  unfold Engine.process_block_fast.line1_40
  try dsimp only at *
  repeat same_step

theorem Engine.process_block_fast.line1_41_same (cfg : Cfg) {w w₂ : List (BitVec 32)} (hw : Len w w₂) : ∀ s t, Engine.process_block_fast.Alike1 s t →
    Tr.SameSeen Engine.process_block_fast.Alike1 (Engine.process_block_fast.line1_41 cfg w s) (Engine.process_block_fast.line1_41 cfg w₂ t) := by
  rintro ⟨_, _⟩ ⟨_, _⟩ ⟨h0, h1⟩
  unfold Engine.process_block_fast.line1_41
  try dsimp only at *
  repeat same_step

theorem Engine.process_block_fast.line1_42_same (cfg : Cfg) {w w₂ : List (BitVec 32)} (hw : Len w w₂) : ∀ s t, Engine.process_block_fast.Alike1 s t →
    Tr.SameSeen Engine.process_block_fast.Alike1 (Engine.process_block_fast.line1_42 cfg w s) (Engine.process_block_fast.line1_42 cfg w₂ t) := by
  rintro ⟨_, _⟩ ⟨_, _⟩ ⟨h0, h1⟩
  unfold Engine.process_block_fast.line1_42
  try dsimp only at *
  repeat same_step

theorem Engine.process_block_fast.line1_43_same (cfg : Cfg) {w w₂ : List (BitVec 32)} (hw : Len w w₂) : ∀ s t, Engine.process_block_fast.Alike1 s t →
    Tr.SameSeen Engine.process_block_fast.Alike1 (Engine.process_block_fast.line1_43 cfg w s) (Engine.process_block_fast.line1_43 cfg w₂ t) := by
  rintro ⟨_, _⟩ ⟨_, _⟩ ⟨h0, h1⟩
  unfold Engine.process_block_fast.line1_43
  try dsimp only at *
  repeat same_step

theorem Engine.process_block_fast.line1_44_same (cfg : Cfg) {w w₂ : List (BitVec 32)} (hw : Len w w₂) : ∀ s t, Engine.process_block_fast.Alike1 s t →
    Tr.SameSeen Engine.process_block_fast.Alike1 (Engine.process_block_fast.line1_44 cfg w s) (Engine.process_block_fast.line1_44 cfg w₂ t) := by
  rintro ⟨_, _⟩ ⟨_, _⟩ ⟨h0, h1⟩
  unfold Engine.process_block_fast.line1_44
  try dsimp only at *
  repeat same_step

theorem Engine.process_block_fast.line1_45_same (cfg : Cfg) {w w₂ : List (BitVec 32)} (hw : Len w w₂) : ∀ s t, Engine.process_block_fast.Alike1 s t →
    Tr.SameSeen Engine.process_block_fast.Alike1 (Engine.process_block_fast.line1_45 cfg w s) (Engine.process_block_fast.line1_45 cfg w₂ t) := by
  rintro ⟨_, _⟩ ⟨_, _⟩ ⟨h0, h1⟩
  unfold Engine.process_block_fast.line1_45
  try dsimp only at *
  repeat same_step

theorem Engine.process_block_fast.line1_46_same (cfg : Cfg) {w w₂ : List (BitVec 32)} (hw : Len w w₂) : ∀ s t, Engine.process_block_fast.Alike1 s t →
    Tr.SameSeen Engine.process_block_fast.Alike1 (Engine.process_block_fast.line1_46 cfg w s) (Engine.process_block_fast.line1_46 cfg w₂ t) := by
  rintro ⟨_, _⟩ ⟨_, _⟩ ⟨h0, h1⟩
  unfold Engine.process_block_fast.line1_46
  try dsimp only at *
  repeat same_step

theorem Engine.process_block_fast.line1_47_same (cfg : Cfg) {w w₂ : List (BitVec 32)} (hw : Len w w₂) : ∀ s t, Engine.process_block_fast.Alike1 s t →
    Tr.SameSeen Engine.process_block_fast.Alike1 (Engine.process_block_fast.line1_47 cfg w s) (Engine.process_block_fast.line1_47 cfg w₂ t) := by
  rintro ⟨_, _⟩ ⟨_, _⟩ ⟨h0, h1⟩
  unfold Engine.process_block_fast.line1_47
  try dsimp only at *
  repeat same_step

theorem Engine.process_block_fast.line1_48_same (cfg : Cfg) {w w₂ : List (BitVec 32)} (hw : Len w w₂) : ∀ s t, Engine.process_block_fast.Alike1 s t →
    Tr.SameSeen Engine.process_block_fast.Alike1 (Engine.process_block_fast.line1_48 cfg w s) (Engine.process_block_fast.line1_48 cfg w₂ t) := by
  rintro ⟨_, _⟩ ⟨_, _⟩ ⟨h0, h1⟩
  unfold Engine.process_block_fast.line1_48
  try dsimp only at *
  repeat same_step

theorem Engine.process_block_fast.line1_49_same (cfg : Cfg) {w w₂ : List (BitVec 32)} (hw : Len w w₂) : ∀ s t, Engine.process_block_fast.Alike1 s t →
    Tr.SameSeen Engine.process_block_fast.Alike1 (Engine.process_block_fast.line1_49 cfg w s) (Engine.process_block_fast.line1_49 cfg w₂ t) := by
  rintro ⟨_, _⟩ ⟨_, _⟩ ⟨h0, h1⟩
  unfold Engine.process_block_fast.line1_49
  try dsimp only at *
  repeat same_step

theorem Engine.process_block_fast.line1_50_same (cfg : Cfg) {w w₂ : List (BitVec 32)} (hw : Len w w₂) : ∀ s t, Engine.process_block_fast.Alike1 s t →
    Tr.SameSeen Engine.process_block_fast.Alike1 (Engine.process_block_fast.line1_50 cfg w s) (Engine.process_block_fast.line1_50 cfg w₂ t) := by
  rintro ⟨_, _⟩ ⟨_, _⟩ ⟨h0, h1⟩
  unfold Engine.process_block_fast.line1_50
  try dsimp only at *
  repeat same_step

theorem Engine.process_block_fast.line1_51_same (cfg : Cfg) {w w₂ : List (BitVec 32)} (hw : Len w w₂) : ∀ s t, Engine.process_block_fast.Alike1 s t →
    Tr.SameSeen Engine.process_block_fast.Alike1 (Engine.process_block_fast.line1_51 cfg w s) (Engine.process_block_fast.line1_51 cfg w₂ t) := by
  rintro ⟨_, _⟩ ⟨_, _⟩ ⟨h0, h1⟩
  unfold Engine.process_block_fast.line1_51
  try dsimp only at *
  repeat same_step

theorem Engine.process_block_fast.line1_52_same (cfg : Cfg) {w w₂ : List (BitVec 32)} (hw : Len w w₂) : ∀ s t, Engine.process_block_fast.Alike1 s t →
    Tr.SameSeen Engine.process_block_fast.Alike1 (Engine.process_block_fast.line1_52 cfg w s) (Engine.process_block_fast.line1_52 cfg w₂ t) := by
  rintro ⟨_, _⟩ ⟨_, _⟩ ⟨h0, h1⟩
  unfold Engine.process_block_fast.line1_52
  try dsimp only at *
  repeat same_step

theorem Engine.process_block_fast.line1_53_same (cfg : Cfg) {w w₂ : List (BitVec 32)} (hw : Len w w₂) : ∀ s t, Engine.process_block_fast.Alike1 s t →
    Tr.SameSeen Engine.process_block_fast.Alike1 (Engine.process_block_fast.line1_53 cfg w s) (Engine.process_block_fast.line1_53 cfg w₂ t) := by
  rintro ⟨_, _⟩ ⟨_, _⟩ ⟨h0, h1⟩
  unfold Engine.process_block_fast.line1_53
  try dsimp only at *
  repeat same_step

theorem Engine.process_block_fast.line1_54_same (cfg : Cfg) {w w₂ : List (BitVec 32)} (hw : Len w w₂) : ∀ s t, Engine.process_block_fast.Alike1 s t →
    Tr.SameSeen Engine.process_block_fast.Alike1 (Engine.process_block_fast.line1_54 cfg w s) (Engine.process_block_fast.line1_54 cfg w₂ t) := by
  rintro ⟨_, _⟩ ⟨_, _⟩ ⟨h0, h1⟩
  unfold Engine.process_block_fast.line1_54
  try dsimp only at *
  repeat same_step

theorem Engine.process_block_fast.line1_55_same (cfg : Cfg) {w w₂ : List (BitVec 32)} (hw : Len w w₂) : ∀ s t, Engine.process_block_fast.Alike1 s t →
    Tr.SameSeen Engine.process_block_fast.Alike1 (Engine.process_block_fast.line1_55 cfg w s) (Engine.process_block_fast.line1_55 cfg w₂ t) := by
  rintro ⟨_, _⟩ ⟨_, _⟩ ⟨h0, h1⟩
  unfold Engine.process_block_fast.line1_55
  try dsimp only at *
  repeat same_step

theorem Engine.process_block_fast.line1_56_same (cfg : Cfg) {w w₂ : List (BitVec 32)} (hw : Len w w₂) : ∀ s t, Engine.process_block_fast.Alike1 s t →
    Tr.SameSeen Engine.process_block_fast.Alike1 (Engine.process_block_fast.line1_56 cfg w s) (Engine.process_block_fast.line1_56 cfg w₂ t) := by
  rintro ⟨_, _⟩ ⟨_, _⟩ ⟨h0, h1⟩
  unfold Engine.process_block_fast.line1_56
  try dsimp only at *
  repeat same_step

theorem Engine.process_block_fast.line1_57_same (cfg : Cfg) {w w₂ : List (BitVec 32)} (hw : Len w w₂) : ∀ s t, Engine.process_block_fast.Alike1 s t →
    Tr.SameSeen Engine.process_block_fast.Alike1 (Engine.process_block_fast.line1_57 cfg w s) (Engine.process_block_fast.line1_57 cfg w₂ t) := by
  rintro ⟨_, _⟩ ⟨_, _⟩ ⟨h0, h1⟩
  unfold Engine.process_block_fast.line1_57
  try dsimp only at *
  repeat same_step

theorem Engine.process_block_fast.line1_58_same (cfg : Cfg) {w w₂ : List (BitVec 32)} (hw : Len w w₂) : ∀ s t, Engine.process_block_fast.Alike1 s t →
    Tr.SameSeen Engine.process_block_fast.Alike1 (Engine.process_block_fast.line1_58 cfg w s) (Engine.process_block_fast.line1_58 cfg w₂ t) := by
  rintro ⟨_, _⟩ ⟨_, _⟩ ⟨h0, h1⟩
  unfold Engine.process_block_fast.line1_58
  try dsimp only at *
  repeat same_step

theorem Engine.process_block_fast.line1_59_same (cfg : Cfg) {w w₂ : List (BitVec 32)} (hw : Len w w₂) : ∀ s t, Engine.process_block_fast.Alike1 s t →
    Tr.SameSeen Engine.process_block_fast.Alike1 (Engine.process_block_fast.line1_59 cfg w s) (Engine.process_block_fast.line1_59 cfg w₂ t) := by
  rintro ⟨_, _⟩ ⟨_, _⟩ ⟨h0, h1⟩
  unfold Engine.process_block_fast.line1_59
  try dsimp only at *
  repeat same_step

theorem Engine.process_block_fast.line1_60_same (cfg : Cfg) {w w₂ : List (BitVec 32)} (hw : Len w w₂) : ∀ s t, Engine.process_block_fast.Alike1 s t →
    Tr.SameSeen Engine.process_block_fast.Alike1 (Engine.process_block_fast.line1_60 cfg w s) (Engine.process_block_fast.line1_60 cfg w₂ t) := by
  rintro ⟨_, _⟩ ⟨_, _⟩ ⟨h0, h1⟩
  unfold Engine.process_block_fast.line1_60
  try dsimp only at *
  repeat same_step

theorem Engine.process_block_fast.line1_61_same (cfg : Cfg) {w w₂ : List (BitVec 32)} (hw : Len w w₂) : ∀ s t, Engine.process_block_fast.Alike1 s t →
    Tr.SameSeen Engine.process_block_fast.Alike1 (Engine.process_block_fast.line1_61 cfg w s) (Engine.process_block_fast.line1_61 cfg w₂ t) := by
  rintro ⟨_, _⟩ ⟨_, _⟩ ⟨h0, h1⟩
  unfold Engine.process_block_fast.line1_61
  try dsimp only at *
  repeat same_step

theorem Engine.process_block_fast.line1_62_same (cfg : Cfg) {w w₂ : List (BitVec 32)} (hw : Len w w₂) : ∀ s t, Engine.process_block_fast.Alike1 s t →
    Tr.SameSeen Engine.process_block_fast.Alike1 (Engine.process_block_fast.line1_62 cfg w s) (Engine.process_block_fast.line1_62 cfg w₂ t) := by
  rintro ⟨_, _⟩ ⟨_, _⟩ ⟨h0, h1⟩
  unfold Engine.process_block_fast.line1_62
  try dsimp only at *
  repeat same_step

theorem Engine.process_block_fast.line1_63_same (cfg : Cfg) {w w₂ : List (BitVec 32)} (hw : Len w w₂) : ∀ s t, Engine.process_block_fast.Alike1 s t →
    Tr.SameSeen Engine.process_block_fast.Alike1 (Engine.process_block_fast.line1_63 cfg w s) (Engine.process_block_fast.line1_63 cfg w₂ t) := by
  rintro ⟨_, _⟩ ⟨_, _⟩ ⟨h0, h1⟩
  unfold Engine.process_block_fast.line1_63
  try dsimp only at *
  repeat same_step

theorem Engine.process_block_fast.line1_64_same (cfg : Cfg) {w w₂ : List (BitVec 32)} (hw : Len w w₂) : ∀ s t, Engine.process_block_fast.Alike1 s t →
    Tr.SameSeen Engine.process_block_fast.Alike1 (Engine.process_block_fast.line1_64 cfg w s) (Engine.process_block_fast.line1_64 cfg w₂ t) := by
  rintro ⟨_, _⟩ ⟨_, _⟩ ⟨h0, h1⟩
  unfold Engine.process_block_fast.line1_64
  try dsimp only at *
  repeat same_step

theorem Engine.process_block_fast.line1_65_same (cfg : Cfg) {w w₂ : List (BitVec 32)} (hw : Len w w₂) : ∀ s t, Engine.process_block_fast.Alike1 s t →
    Tr.SameSeen Engine.process_block_fast.Alike1 (Engine.process_block_fast.line1_65 cfg w s) (Engine.process_block_fast.line1_65 cfg w₂ t) := by
  rintro ⟨_, _⟩ ⟨_, _⟩ ⟨h0, h1⟩
  unfold Engine.process_block_fast.line1_65
  try dsimp only at *
  repeat same_step

theorem Engine.process_block_fast.line1_66_same (cfg : Cfg) {w w₂ : List (BitVec 32)} (hw : Len w w₂) : ∀ s t, Engine.process_block_fast.Alike1 s t →
    Tr.SameSeen Engine.process_block_fast.Alike1 (Engine.process_block_fast.line1_66 cfg w s) (Engine.process_block_fast.line1_66 cfg w₂ t) := by
  rintro ⟨_, _⟩ ⟨_, _⟩ ⟨h0, h1⟩
  unfold Engine.process_block_fast.line1_66
  try dsimp only at *
  repeat same_step

theorem Engine.process_block_fast.line1_67_same (cfg : Cfg) {w w₂ : List (BitVec 32)} (hw : Len w w₂) : ∀ s t, Engine.process_block_fast.Alike1 s t →
    Tr.SameSeen Engine.process_block_fast.Alike1 (Engine.process_block_fast.line1_67 cfg w s) (Engine.process_block_fast.line1_67 cfg w₂ t) := by
  rintro ⟨_, _⟩ ⟨_, _⟩ ⟨h0, h1⟩
  unfold Engine.process_block_fast.line1_67
  try dsimp only at *
  repeat same_step

theorem Engine.process_block_fast.line1_68_same (cfg : Cfg) {w w₂ : List (BitVec 32)} (hw : Len w w₂) : ∀ s t, Engine.process_block_fast.Alike1 s t →
    Tr.SameSeen Engine.process_block_fast.Alike1 (Engine.process_block_fast.line1_68 cfg w s) (Engine.process_block_fast.line1_68 cfg w₂ t) := by
  rintro ⟨_, _⟩ ⟨_, _⟩ ⟨h0, h1⟩
  unfold Engine.process_block_fast.line1_68
  try dsimp only at *
  repeat same_step

theorem Engine.process_block_fast.line1_69_same (cfg : Cfg) {w w₂ : List (BitVec 32)} (hw : Len w w₂) : ∀ s t, Engine.process_block_fast.Alike1 s t →
    Tr.SameSeen Engine.process_block_fast.Alike1 (Engine.process_block_fast.line1_69 cfg w s) (Engine.process_block_fast.line1_69 cfg w₂ t) := by
  rintro ⟨_, _⟩ ⟨_, _⟩ ⟨h0, h1⟩
  unfold Engine.process_block_fast.line1_69
  try dsimp only at *
  repeat same_step

theorem Engine.process_block_fast.line1_70_same (cfg : Cfg) {w w₂ : List (BitVec 32)} (hw : Len w w₂) : ∀ s t, Engine.process_block_fast.Alike1 s t →
    Tr.SameSeen Engine.process_block_fast.Alike1 (Engine.process_block_fast.line1_70 cfg w s) (Engine.process_block_fast.line1_70 cfg w₂ t) := by
  rintro ⟨_, _⟩ ⟨_, _⟩ ⟨h0, h1⟩
  unfold Engine.process_block_fast.line1_70
  try dsimp only at *
  repeat same_step

theorem Engine.process_block_fast.line1_71_same (cfg : Cfg) {w w₂ : List (BitVec 32)} (hw : Len w w₂) : ∀ s t, Engine.process_block_fast.Alike1 s t →
    Tr.SameSeen Engine.process_block_fast.Alike1 (Engine.process_block_fast.line1_71 cfg w s) (Engine.process_block_fast.line1_71 cfg w₂ t) := by
  rintro ⟨_, _⟩ ⟨_, _⟩ ⟨h0, h1⟩
  unfold Engine.process_block_fast.line1_71
  try dsimp only at *
  repeat same_step

theorem Engine.process_block_fast.line1_72_same (cfg : Cfg) {w w₂ : List (BitVec 32)} (hw : Len w w₂) : ∀ s t, Engine.process_block_fast.Alike1 s t →
    Tr.SameSeen Engine.process_block_fast.Alike1 (Engine.process_block_fast.line1_72 cfg w s) (Engine.process_block_fast.line1_72 cfg w₂ t) := by
  rintro ⟨_, _⟩ ⟨_, _⟩ ⟨h0, h1⟩
  unfold Engine.process_block_fast.line1_72
  try dsimp only at *
  repeat same_step

theorem Engine.process_block_fast.line1_73_same (cfg : Cfg) {w w₂ : List (BitVec 32)} (hw : Len w w₂) : ∀ s t, Engine.process_block_fast.Alike1 s t →
    Tr.SameSeen Engine.process_block_fast.Alike1 (Engine.process_block_fast.line1_73 cfg w s) (Engine.process_block_fast.line1_73 cfg w₂ t) := by
  rintro ⟨_, _⟩ ⟨_, _⟩ ⟨h0, h1⟩
  unfold Engine.process_block_fast.line1_73
  try dsimp only at *
  repeat same_step

theorem Engine.process_block_fast.line1_74_same (cfg : Cfg) {w w₂ : List (BitVec 32)} (hw : Len w w₂) : ∀ s t, Engine.process_block_fast.Alike1 s t →
    Tr.SameSeen Engine.process_block_fast.Alike1 (Engine.process_block_fast.line1_74 cfg w s) (Engine.process_block_fast.line1_74 cfg w₂ t) := by
  rintro ⟨_, _⟩ ⟨_, _⟩ ⟨h0, h1⟩
  unfold Engine.process_block_fast.line1_74
  try dsimp only at *
  repeat same_step

theorem Engine.process_block_fast.line1_75_same (cfg : Cfg) {w w₂ : List (BitVec 32)} (hw : Len w w₂) : ∀ s t, Engine.process_block_fast.Alike1 s t →
    Tr.SameSeen Engine.process_block_fast.Alike1 (Engine.process_block_fast.line1_75 cfg w s) (Engine.process_block_fast.line1_75 cfg w₂ t) := by
  rintro ⟨_, _⟩ ⟨_, _⟩ ⟨h0, h1⟩
  unfold Engine.process_block_fast.line1_75
  try dsimp only at *
  repeat same_step

theorem Engine.process_block_fast.line1_76_same (cfg : Cfg) {w w₂ : List (BitVec 32)} (hw : Len w w₂) : ∀ s t, Engine.process_block_fast.Alike1 s t →
    Tr.SameSeen Engine.process_block_fast.Alike1 (Engine.process_block_fast.line1_76 cfg w s) (Engine.process_block_fast.line1_76 cfg w₂ t) := by
  rintro ⟨_, _⟩ ⟨_, _⟩ ⟨h0, h1⟩
  unfold Engine.process_block_fast.line1_76
  try dsimp only at *
  repeat same_step

theorem Engine.process_block_fast.line1_77_same (cfg : Cfg) {w w₂ : List (BitVec 32)} (hw : Len w w₂) : ∀ s t, Engine.process_block_fast.Alike1 s t →
    Tr.SameSeen Engine.process_block_fast.Alike1 (Engine.process_block_fast.line1_77 cfg w s) (Engine.process_block_fast.line1_77 cfg w₂ t) := by
  rintro ⟨_, _⟩ ⟨_, _⟩ ⟨h0, h1⟩
  unfold Engine.process_block_fast.line1_77
  try dsimp only at *
  repeat same_step

theorem Engine.process_block_fast.line1_78_same (cfg : Cfg) {w w₂ : List (BitVec 32)} (hw : Len w w₂) : ∀ s t, Engine.process_block_fast.Alike1 s t →
    Tr.SameSeen Engine.process_block_fast.Alike1 (Engine.process_block_fast.line1_78 cfg w s) (Engine.process_block_fast.line1_78 cfg w₂ t) := by
  rintro ⟨_, _⟩ ⟨_, _⟩ ⟨h0, h1⟩
  unfold Engine.process_block_fast.line1_78
  try dsimp only at *
  repeat same_step

theorem Engine.process_block_fast.line1_79_same (cfg : Cfg) {w w₂ : List (BitVec 32)} (hw : Len w w₂) : ∀ s t, Engine.process_block_fast.Alike1 s t →
    Tr.SameSeen Engine.process_block_fast.Alike1 (Engine.process_block_fast.line1_79 cfg w s) (Engine.process_block_fast.line1_79 cfg w₂ t) := by
  rintro ⟨_, _⟩ ⟨_, _⟩ ⟨h0, h1⟩
  unfold Engine.process_block_fast.line1_79
  try dsimp only at *
  repeat same_step

theorem Engine.process_block_fast.line1_80_same (cfg : Cfg) {w w₂ : List (BitVec 32)} (hw : Len w w₂) : ∀ s t, Engine.process_block_fast.Alike1 s t →
    Tr.SameSeen Engine.process_block_fast.Alike1 (Engine.process_block_fast.line1_80 cfg w s) (Engine.process_block_fast.line1_80 cfg w₂ t) := by
  rintro ⟨_, _⟩ ⟨_, _⟩ ⟨h0, h1⟩
  unfold Engine.process_block_fast.line1_80
  try dsimp only at *
  repeat same_step

theorem Engine.process_block_fast.line1_81_same (cfg : Cfg) {w w₂ : List (BitVec 32)} (hw : Len w w₂) : ∀ s t, Engine.process_block_fast.Alike1 s t →
    Tr.SameSeen Engine.process_block_fast.Alike1 (Engine.process_block_fast.line1_81 cfg w s) (Engine.process_block_fast.line1_81 cfg w₂ t) := by
  rintro ⟨_, _⟩ ⟨_, _⟩ ⟨h0, h1⟩
  unfold Engine.process_block_fast.line1_81
  try dsimp only at *
  repeat same_step

theorem Engine.process_block_fast.line1_82_same (cfg : Cfg) {w w₂ : List (BitVec 32)} (hw : Len w w₂) : ∀ s t, Engine.process_block_fast.Alike1 s t →
    Tr.SameSeen Engine.process_block_fast.Alike1 (Engine.process_block_fast.line1_82 cfg w s) (Engine.process_block_fast.line1_82 cfg w₂ t) := by
  rintro ⟨_, _⟩ ⟨_, _⟩ ⟨h0, h1⟩
  unfold Engine.process_block_fast.line1_82
  try dsimp only at *
  repeat same_step

theorem Engine.process_block_fast.line1_83_same (cfg : Cfg) {w w₂ : List (BitVec 32)} (hw : Len w w₂) : ∀ s t, Engine.process_block_fast.Alike1 s t →
    Tr.SameSeen Engine.process_block_fast.Alike1 (Engine.process_block_fast.line1_83 cfg w s) (Engine.process_block_fast.line1_83 cfg w₂ t) := by
  rintro ⟨_, _⟩ ⟨_, _⟩ ⟨h0, h1⟩
  unfold Engine.process_block_fast.line1_83
  try dsimp only at *
  repeat same_step

theorem Engine.process_block_fast.line1_84_same (cfg : Cfg) {w w₂ : List (BitVec 32)} (hw : Len w w₂) : ∀ s t, Engine.process_block_fast.Alike1 s t →
    Tr.SameSeen Engine.process_block_fast.Alike1 (Engine.process_block_fast.line1_84 cfg w s) (Engine.process_block_fast.line1_84 cfg w₂ t) := by
  rintro ⟨_, _⟩ ⟨_, _⟩ ⟨h0, h1⟩
  unfold Engine.process_block_fast.line1_84
  try dsimp only at *
  repeat same_step

theorem Engine.process_block_fast.line1_85_same (cfg : Cfg) {w w₂ : List (BitVec 32)} (hw : Len w w₂) : ∀ s t, Engine.process_block_fast.Alike1 s t →
    Tr.SameSeen Engine.process_block_fast.Alike1 (Engine.process_block_fast.line1_85 cfg w s) (Engine.process_block_fast.line1_85 cfg w₂ t) := by
  rintro ⟨_, _⟩ ⟨_, _⟩ ⟨h0, h1⟩
  unfold Engine.process_block_fast.line1_85
  try dsimp only at *
  repeat same_step

theorem Engine.process_block_fast.line1_86_same (cfg : Cfg) {w w₂ : List (BitVec 32)} (hw : Len w w₂) : ∀ s t, Engine.process_block_fast.Alike1 s t →
    Tr.SameSeen Engine.process_block_fast.Alike1 (Engine.process_block_fast.line1_86 cfg w s) (Engine.process_block_fast.line1_86 cfg w₂ t) := by
  rintro ⟨_, _⟩ ⟨_, _⟩ ⟨h0, h1⟩
  unfold Engine.process_block_fast.line1_86
  try dsimp only at *
  repeat same_step

theorem Engine.process_block_fast.line1_87_same (cfg : Cfg) {w w₂ : List (BitVec 32)} (hw : Len w w₂) : ∀ s t, Engine.process_block_fast.Alike1 s t →
    Tr.SameSeen Engine.process_block_fast.Alike1 (Engine.process_block_fast.line1_87 cfg w s) (Engine.process_block_fast.line1_87 cfg w₂ t) := by
  rintro ⟨_, _⟩ ⟨_, _⟩ ⟨h0, h1⟩
  unfold Engine.process_block_fast.line1_87
  try dsimp only at *
  repeat same_step

theorem Engine.process_block_fast.line1_88_same (cfg : Cfg) {w w₂ : List (BitVec 32)} (hw : Len w w₂) : ∀ s t, Engine.process_block_fast.Alike1 s t →
    Tr.SameSeen Engine.process_block_fast.Alike1 (Engine.process_block_fast.line1_88 cfg w s) (Engine.process_block_fast.line1_88 cfg w₂ t) := by
  rintro ⟨_, _⟩ ⟨_, _⟩ ⟨h0, h1⟩
  unfold Engine.process_block_fast.line1_88
  try dsimp only at *
  repeat same_step

theorem Engine.process_block_fast.line1_89_same (cfg : Cfg) {w w₂ : List (BitVec 32)} (hw : Len w w₂) : ∀ s t, Engine.process_block_fast.Alike1 s t →
    Tr.SameSeen Engine.process_block_fast.Alike1 (Engine.process_block_fast.line1_89 cfg w s) (Engine.process_block_fast.line1_89 cfg w₂ t) := by
  rintro ⟨_, _⟩ ⟨_, _⟩ ⟨h0, h1⟩
  unfold Engine.process_block_fast.line1_89
  try dsimp only at *
  repeat same_step

theorem Engine.process_block_fast.line1_90_same (cfg : Cfg) {w w₂ : List (BitVec 32)} (hw : Len w w₂) : ∀ s t, Engine.process_block_fast.Alike1 s t →
    Tr.SameSeen Engine.process_block_fast.Alike1 (Engine.process_block_fast.line1_90 cfg w s) (Engine.process_block_fast.line1_90 cfg w₂ t) := by
  rintro ⟨_, _⟩ ⟨_, _⟩ ⟨h0, h1⟩
  unfold Engine.process_block_fast.line1_90
  try dsimp only at *
  repeat same_step

theorem Engine.process_block_fast.line1_91_same (cfg : Cfg) {w w₂ : List (BitVec 32)} (hw : Len w w₂) : ∀ s t, Engine.process_block_fast.Alike1 s t →
    Tr.SameSeen Engine.process_block_fast.Alike1 (Engine.process_block_fast.line1_91 cfg w s) (Engine.process_block_fast.line1_91 cfg w₂ t) := by
  rintro ⟨_, _⟩ ⟨_, _⟩ ⟨h0, h1⟩
  unfold Engine.process_block_fast.line1_91
  try dsimp only at *
  repeat same_step

theorem Engine.process_block_fast.line1_92_same (cfg : Cfg) {w w₂ : List (BitVec 32)} (hw : Len w w₂) : ∀ s t, Engine.process_block_fast.Alike1 s t →
    Tr.SameSeen Engine.process_block_fast.Alike1 (Engine.process_block_fast.line1_92 cfg w s) (Engine.process_block_fast.line1_92 cfg w₂ t) := by
  rintro ⟨_, _⟩ ⟨_, _⟩ ⟨h0, h1⟩
  unfold Engine.process_block_fast.line1_92
  try dsimp only at *
  repeat same_step

theorem Engine.process_block_fast.line1_93_same (cfg : Cfg) {w w₂ : List (BitVec 32)} (hw : Len w w₂) : ∀ s t, Engine.process_block_fast.Alike1 s t →
    Tr.SameSeen Engine.process_block_fast.Alike1 (Engine.process_block_fast.line1_93 cfg w s) (Engine.process_block_fast.line1_93 cfg w₂ t) := by
  rintro ⟨_, _⟩ ⟨_, _⟩ ⟨h0, h1⟩
  unfold Engine.process_block_fast.line1_93
  try dsimp only at *
  repeat same_step

theorem Engine.process_block_fast.line1_94_same (cfg : Cfg) {w w₂ : List (BitVec 32)} (hw : Len w w₂) : ∀ s t, Engine.process_block_fast.Alike1 s t →
    Tr.SameSeen Engine.process_block_fast.Alike1 (Engine.process_block_fast.line1_94 cfg w s) (Engine.process_block_fast.line1_94 cfg w₂ t) := by
  rintro ⟨_, _⟩ ⟨_, _⟩ ⟨h0, h1⟩
  unfold Engine.process_block_fast.line1_94
  try dsimp only at *
  repeat same_step

theorem Engine.process_block_fast.line1_95_same (cfg : Cfg) {w w₂ : List (BitVec 32)} (hw : Len w w₂) : ∀ s t, Engine.process_block_fast.Alike1 s t →
    Tr.SameSeen Engine.process_block_fast.Alike1 (Engine.process_block_fast.line1_95 cfg w s) (Engine.process_block_fast.line1_95 cfg w₂ t) := by
  rintro ⟨_, _⟩ ⟨_, _⟩ ⟨h0, h1⟩
  unfold Engine.process_block_fast.line1_95
  try dsimp only at *
  repeat same_step

theorem Engine.process_block_fast.line1_96_same (cfg : Cfg) {w w₂ : List (BitVec 32)} (hw : Len w w₂) : ∀ s t, Engine.process_block_fast.Alike1 s t →
    Tr.SameSeen Engine.process_block_fast.Alike1 (Engine.process_block_fast.line1_96 cfg w s) (Engine.process_block_fast.line1_96 cfg w₂ t) := by
  rintro ⟨_, _⟩ ⟨_, _⟩ ⟨h0, h1⟩
  unfold Engine.process_block_fast.line1_96
  try dsimp only at *
  repeat same_step

theorem Engine.process_block_fast.line1_97_same (cfg : Cfg) {w w₂ : List (BitVec 32)} (hw : Len w w₂) : ∀ s t, Engine.process_block_fast.Alike1 s t →
    Tr.SameSeen Engine.process_block_fast.Alike1 (Engine.process_block_fast.line1_97 cfg w s) (Engine.process_block_fast.line1_97 cfg w₂ t) := by
  rintro ⟨_, _⟩ ⟨_, _⟩ ⟨h0, h1⟩
  unfold Engine.process_block_fast.line1_97
  try dsimp only at *
  repeat same_step

theorem Engine.process_block_fast.line1_98_same (cfg : Cfg) {w w₂ : List (BitVec 32)} (hw : Len w w₂) : ∀ s t, Engine.process_block_fast.Alike1 s t →
    Tr.SameSeen Engine.process_block_fast.Alike1 (Engine.process_block_fast.line1_98 cfg w s) (Engine.process_block_fast.line1_98 cfg w₂ t) := by
  rintro ⟨_, _⟩ ⟨_, _⟩ ⟨h0, h1⟩
  unfold Engine.process_block_fast.line1_98
  try dsimp only at *
  repeat same_step

theorem Engine.process_block_fast.line1_99_same (cfg : Cfg) {w w₂ : List (BitVec 32)} (hw : Len w w₂) : ∀ s t, Engine.process_block_fast.Alike1 s t →
    Tr.SameSeen Engine.process_block_fast.Alike1 (Engine.process_block_fast.line1_99 cfg w s) (Engine.process_block_fast.line1_99 cfg w₂ t) := by
  rintro ⟨_, _⟩ ⟨_, _⟩ ⟨h0, h1⟩
  unfold Engine.process_block_fast.line1_99
  try dsimp only at *
  repeat same_step

theorem Engine.process_block_fast.line1_100_same (cfg : Cfg) {w w₂ : List (BitVec 32)} (hw : Len w w₂) : ∀ s t, Engine.process_block_fast.Alike1 s t →
    Tr.SameSeen Engine.process_block_fast.Alike1 (Engine.process_block_fast.line1_100 cfg w s) (Engine.process_block_fast.line1_100 cfg w₂ t) := by
  rintro ⟨_, _⟩ ⟨_, _⟩ ⟨h0, h1⟩
  unfold Engine.process_block_fast.line1_100
  try dsimp only at *
  repeat same_step

theorem Engine.process_block_fast.line1_101_same (cfg : Cfg) {w w₂ : List (BitVec 32)} (hw : Len w w₂) : ∀ s t, Engine.process_block_fast.Alike1 s t →
    Tr.SameSeen Engine.process_block_fast.Alike1 (Engine.process_block_fast.line1_101 cfg w s) (Engine.process_block_fast.line1_101 cfg w₂ t) := by
  rintro ⟨_, _⟩ ⟨_, _⟩ ⟨h0, h1⟩
  unfold Engine.process_block_fast.line1_101
  try dsimp only at *
  repeat same_step

theorem Engine.process_block_fast.line1_102_same (cfg : Cfg) {w w₂ : List (BitVec 32)} (hw : Len w w₂) : ∀ s t, Engine.process_block_fast.Alike1 s t →
    Tr.SameSeen Engine.process_block_fast.Alike1 (Engine.process_block_fast.line1_102 cfg w s) (Engine.process_block_fast.line1_102 cfg w₂ t) := by
  rintro ⟨_, _⟩ ⟨_, _⟩ ⟨h0, h1⟩
  unfold Engine.process_block_fast.line1_102
  try dsimp only at *
  repeat same_step

theorem Engine.process_block_fast.line1_103_same (cfg : Cfg) {w w₂ : List (BitVec 32)} (hw : Len w w₂) : ∀ s t, Engine.process_block_fast.Alike1 s t →
    Tr.SameSeen Engine.process_block_fast.Alike1 (Engine.process_block_fast.line1_103 cfg w s) (Engine.process_block_fast.line1_103 cfg w₂ t) := by
  rintro ⟨_, _⟩ ⟨_, _⟩ ⟨h0, h1⟩
  unfold Engine.process_block_fast.line1_103
  try dsimp only at *
  repeat same_step

theorem Engine.process_block_fast.line1_104_same (cfg : Cfg) {w w₂ : List (BitVec 32)} (hw : Len w w₂) : ∀ s t, Engine.process_block_fast.Alike1 s t →
    Tr.SameSeen Engine.process_block_fast.Alike1 (Engine.process_block_fast.line1_104 cfg w s) (Engine.process_block_fast.line1_104 cfg w₂ t) := by
  rintro ⟨_, _⟩ ⟨_, _⟩ ⟨h0, h1⟩
  unfold Engine.process_block_fast.line1_104
  try dsimp only at *
  repeat same_step

theorem Engine.process_block_fast.line1_105_same (cfg : Cfg) {w w₂ : List (BitVec 32)} (hw : Len w w₂) : ∀ s t, Engine.process_block_fast.Alike1 s t →
    Tr.SameSeen Engine.process_block_fast.Alike1 (Engine.process_block_fast.line1_105 cfg w s) (Engine.process_block_fast.line1_105 cfg w₂ t) := by
  rintro ⟨_, _⟩ ⟨_, _⟩ ⟨h0, h1⟩
  unfold Engine.process_block_fast.line1_105
  try dsimp only at *
  repeat same_step

theorem Engine.process_block_fast.line1_106_same (cfg : Cfg) {w w₂ : List (BitVec 32)} (hw : Len w w₂) : ∀ s t, Engine.process_block_fast.Alike1 s t →
    Tr.SameSeen Engine.process_block_fast.Alike1 (Engine.process_block_fast.line1_106 cfg w s) (Engine.process_block_fast.line1_106 cfg w₂ t) := by
  rintro ⟨_, _⟩ ⟨_, _⟩ ⟨h0, h1⟩
  unfold Engine.process_block_fast.line1_106
  try dsimp only at *
  repeat same_step

theorem Engine.process_block_fast.line1_107_same (cfg : Cfg) {w w₂ : List (BitVec 32)} (hw : Len w w₂) : ∀ s t, Engine.process_block_fast.Alike1 s t →
    Tr.SameSeen Engine.process_block_fast.Alike1 (Engine.process_block_fast.line1_107 cfg w s) (Engine.process_block_fast.line1_107 cfg w₂ t) := by
  rintro ⟨_, _⟩ ⟨_, _⟩ ⟨h0, h1⟩
  unfold Engine.process_block_fast.line1_107
  try dsimp only at *
  repeat same_step

theorem Engine.process_block_fast.line1_108_same (cfg : Cfg) {w w₂ : List (BitVec 32)} (hw : Len w w₂) : ∀ s t, Engine.process_block_fast.Alike1 s t →
    Tr.SameSeen Engine.process_block_fast.Alike1 (Engine.process_block_fast.line1_108 cfg w s) (Engine.process_block_fast.line1_108 cfg w₂ t) := by
  rintro ⟨_, _⟩ ⟨_, _⟩ ⟨h0, h1⟩
  unfold Engine.process_block_fast.line1_108
  try dsimp only at *
  repeat same_step

theorem Engine.process_block_fast.line1_109_same (cfg : Cfg) {w w₂ : List (BitVec 32)} (hw : Len w w₂) : ∀ s t, Engine.process_block_fast.Alike1 s t →
    Tr.SameSeen Engine.process_block_fast.Alike1 (Engine.process_block_fast.line1_109 cfg w s) (Engine.process_block_fast.line1_109 cfg w₂ t) := by
  rintro ⟨_, _⟩ ⟨_, _⟩ ⟨h0, h1⟩
  unfold Engine.process_block_fast.line1_109
  try dsimp only at *
  repeat same_step

theorem Engine.process_block_fast.line1_110_same (cfg : Cfg) {w w₂ : List (BitVec 32)} (hw : Len w w₂) : ∀ s t, Engine.process_block_fast.Alike1 s t →
    Tr.SameSeen Engine.process_block_fast.Alike1 (Engine.process_block_fast.line1_110 cfg w s) (Engine.process_block_fast.line1_110 cfg w₂ t) := by
  rintro ⟨_, _⟩ ⟨_, _⟩ ⟨h0, h1⟩
  unfold Engine.process_block_fast.line1_110
  try dsimp only at *
  repeat same_step

theorem Engine.process_block_fast.line1_111_same (cfg : Cfg) {w w₂ : List (BitVec 32)} (hw : Len w w₂) : ∀ s t, Engine.process_block_fast.Alike1 s t →
    Tr.SameSeen Engine.process_block_fast.Alike1 (Engine.process_block_fast.line1_111 cfg w s) (Engine.process_block_fast.line1_111 cfg w₂ t) := by
  rintro ⟨_, _⟩ ⟨_, _⟩ ⟨h0, h1⟩
  unfold Engine.process_block_fast.line1_111
  try dsimp only at *
  repeat same_step

theorem Engine.process_block_fast.line1_112_same (cfg : Cfg) {w w₂ : List (BitVec 32)} (hw : Len w w₂) : ∀ s t, Engine.process_block_fast.Alike1 s t →
    Tr.SameSeen Engine.process_block_fast.Alike1 (Engine.process_block_fast.line1_112 cfg w s) (Engine.process_block_fast.line1_112 cfg w₂ t) := by
  rintro ⟨_, _⟩ ⟨_, _⟩ ⟨h0, h1⟩
  unfold Engine.process_block_fast.line1_112
  try dsimp only at *
  repeat same_step

theorem Engine.process_block_fast.line1_113_same (cfg : Cfg) {w w₂ : List (BitVec 32)} (hw : Len w w₂) : ∀ s t, Engine.process_block_fast.Alike1 s t →
    Tr.SameSeen Engine.process_block_fast.Alike1 (Engine.process_block_fast.line1_113 cfg w s) (Engine.process_block_fast.line1_113 cfg w₂ t) := by
  rintro ⟨_, _⟩ ⟨_, _⟩ ⟨h0, h1⟩
  unfold Engine.process_block_fast.line1_113
  try dsimp only at *
  repeat same_step

theorem Engine.process_block_fast.line1_114_same (cfg : Cfg) {w w₂ : List (BitVec 32)} (hw : Len w w₂) : ∀ s t, Engine.process_block_fast.Alike1 s t →
    Tr.SameSeen Engine.process_block_fast.Alike1 (Engine.process_block_fast.line1_114 cfg w s) (Engine.process_block_fast.line1_114 cfg w₂ t) := by
  rintro ⟨_, _⟩ ⟨_, _⟩ ⟨h0, h1⟩
  unfold Engine.process_block_fast.line1_114
  try dsimp only at *
  repeat same_step

theorem Engine.process_block_fast.line1_115_same (cfg : Cfg) {w w₂ : List (BitVec 32)} (hw : Len w w₂) : ∀ s t, Engine.process_block_fast.Alike1 s t →
    Tr.SameSeen Engine.process_block_fast.Alike1 (Engine.process_block_fast.line1_115 cfg w s) (Engine.process_block_fast.line1_115 cfg w₂ t) := by
  rintro ⟨_, _⟩ ⟨_, _⟩ ⟨h0, h1⟩
  unfold Engine.process_block_fast.line1_115
  try dsimp only at *
  repeat same_step

theorem Engine.process_block_fast.line1_116_same (cfg : Cfg) {w w₂ : List (BitVec 32)} (hw : Len w w₂) : ∀ s t, Engine.process_block_fast.Alike1 s t →
    Tr.SameSeen Engine.process_block_fast.Alike1 (Engine.process_block_fast.line1_116 cfg w s) (Engine.process_block_fast.line1_116 cfg w₂ t) := by
  rintro ⟨_, _⟩ ⟨_, _⟩ ⟨h0, h1⟩
  unfold Engine.process_block_fast.line1_116
  try dsimp only at *
  repeat same_step

theorem Engine.process_block_fast.line1_117_same (cfg : Cfg) {w w₂ : List (BitVec 32)} (hw : Len w w₂) : ∀ s t, Engine.process_block_fast.Alike1 s t →
    Tr.SameSeen Engine.process_block_fast.Alike1 (Engine.process_block_fast.line1_117 cfg w s) (Engine.process_block_fast.line1_117 cfg w₂ t) := by
  rintro ⟨_, _⟩ ⟨_, _⟩ ⟨h0, h1⟩
  unfold Engine.process_block_fast.line1_117
  try dsimp only at *
  repeat same_step

theorem Engine.process_block_fast.line1_118_same (cfg : Cfg) {w w₂ : List (BitVec 32)} (hw : Len w w₂) : ∀ s t, Engine.process_block_fast.Alike1 s t →
    Tr.SameSeen Engine.process_block_fast.Alike1 (Engine.process_block_fast.line1_118 cfg w s) (Engine.process_block_fast.line1_118 cfg w₂ t) := by
  rintro ⟨_, _⟩ ⟨_, _⟩ ⟨h0, h1⟩
  unfold Engine.process_block_fast.line1_118
  try dsimp only at *
  repeat same_step

theorem Engine.process_block_fast.line1_119_same (cfg : Cfg) {w w₂ : List (BitVec 32)} (hw : Len w w₂) : ∀ s t, Engine.process_block_fast.Alike1 s t →
    Tr.SameSeen Engine.process_block_fast.Alike1 (Engine.process_block_fast.line1_119 cfg w s) (Engine.process_block_fast.line1_119 cfg w₂ t) := by
  rintro ⟨_, _⟩ ⟨_, _⟩ ⟨h0, h1⟩
  unfold Engine.process_block_fast.line1_119
  try dsimp only at *
  repeat same_step

theorem Engine.process_block_fast.line1_120_same (cfg : Cfg) {w w₂ : List (BitVec 32)} (hw : Len w w₂) : ∀ s t, Engine.process_block_fast.Alike1 s t →
    Tr.SameSeen Engine.process_block_fast.Alike1 (Engine.process_block_fast.line1_120 cfg w s) (Engine.process_block_fast.line1_120 cfg w₂ t) := by
  rintro ⟨_, _⟩ ⟨_, _⟩ ⟨h0, h1⟩
  unfold Engine.process_block_fast.line1_120
  try dsimp only at *
  repeat same_step

theorem Engine.process_block_fast.line1_121_same (cfg : Cfg) {w w₂ : List (BitVec 32)} (hw : Len w w₂) : ∀ s t, Engine.process_block_fast.Alike1 s t →
    Tr.SameSeen Engine.process_block_fast.Alike1 (Engine.process_block_fast.line1_121 cfg w s) (Engine.process_block_fast.line1_121 cfg w₂ t) := by
  rintro ⟨_, _⟩ ⟨_, _⟩ ⟨h0, h1⟩
  unfold Engine.process_block_fast.line1_121
  try dsimp only at *
  repeat same_step

theorem Engine.process_block_fast.line1_122_same (cfg : Cfg) {w w₂ : List (BitVec 32)} (hw : Len w w₂) : ∀ s t, Engine.process_block_fast.Alike1 s t →
    Tr.SameSeen Engine.process_block_fast.Alike1 (Engine.process_block_fast.line1_122 cfg w s) (Engine.process_block_fast.line1_122 cfg w₂ t) := by
  rintro ⟨_, _⟩ ⟨_, _⟩ ⟨h0, h1⟩
  unfold Engine.process_block_fast.line1_122
  try dsimp only at *
  repeat same_step

theorem Engine.process_block_fast.line1_123_same (cfg : Cfg) {w w₂ : List (BitVec 32)} (hw : Len w w₂) : ∀ s t, Engine.process_block_fast.Alike1 s t →
    Tr.SameSeen Engine.process_block_fast.Alike1 (Engine.process_block_fast.line1_123 cfg w s) (Engine.process_block_fast.line1_123 cfg w₂ t) := by
  rintro ⟨_, _⟩ ⟨_, _⟩ ⟨h0, h1⟩
  unfold Engine.process_block_fast.line1_123
  try dsimp only at *
  repeat same_step

theorem Engine.process_block_fast.line1_124_same (cfg : Cfg) {w w₂ : List (BitVec 32)} (hw : Len w w₂) : ∀ s t, Engine.process_block_fast.Alike1 s t →
    Tr.SameSeen Engine.process_block_fast.Alike1 (Engine.process_block_fast.line1_124 cfg w s) (Engine.process_block_fast.line1_124 cfg w₂ t) := by
  rintro ⟨_, _⟩ ⟨_, _⟩ ⟨h0, h1⟩
  unfold Engine.process_block_fast.line1_124
  try dsimp only at *
  repeat same_step

theorem Engine.process_block_fast.line1_125_same (cfg : Cfg) {w w₂ : List (BitVec 32)} (hw : Len w w₂) : ∀ s t, Engine.process_block_fast.Alike1 s t →
    Tr.SameSeen Engine.process_block_fast.Alike1 (Engine.process_block_fast.line1_125 cfg w s) (Engine.process_block_fast.line1_125 cfg w₂ t) := by
  rintro ⟨_, _⟩ ⟨_, _⟩ ⟨h0, h1⟩
  unfold Engine.process_block_fast.line1_125
  try dsimp only at *
  repeat same_step

theorem Engine.process_block_fast.line1_126_same (cfg : Cfg) {w w₂ : List (BitVec 32)} (hw : Len w w₂) : ∀ s t, Engine.process_block_fast.Alike1 s t →
    Tr.SameSeen Engine.process_block_fast.Alike1 (Engine.process_block_fast.line1_126 cfg w s) (Engine.process_block_fast.line1_126 cfg w₂ t) := by
  rintro ⟨_, _⟩ ⟨_, _⟩ ⟨h0, h1⟩
  unfold Engine.process_block_fast.line1_126
  try dsimp only at *
  repeat same_step

theorem Engine.process_block_fast.line1_127_same (cfg : Cfg) {w w₂ : List (BitVec 32)} (hw : Len w w₂) : ∀ s t, Engine.process_block_fast.Alike1 s t →
    Tr.SameSeen Engine.process_block_fast.Alike1 (Engine.process_block_fast.line1_127 cfg w s) (Engine.process_block_fast.line1_127 cfg w₂ t) := by
  rintro ⟨_, _⟩ ⟨_, _⟩ ⟨h0, h1⟩
  unfold Engine.process_block_fast.line1_127
  try dsimp only at *
  repeat same_step

theorem Engine.process_block_fast.line1_128_same (cfg : Cfg) {w w₂ : List (BitVec 32)} (hw : Len w w₂) : ∀ s t, Engine.process_block_fast.Alike1 s t →
    Tr.SameSeen Engine.process_block_fast.Alike1 (Engine.process_block_fast.line1_128 cfg w s) (Engine.process_block_fast.line1_128 cfg w₂ t) := by
  rintro ⟨_, _⟩ ⟨_, _⟩ ⟨h0, h1⟩
  unfold Engine.process_block_fast.line1_128
  try dsimp only at *
  repeat same_step

theorem Engine.process_block_fast.line1_129_same (cfg : Cfg) {w w₂ : List (BitVec 32)} (hw : Len w w₂) : ∀ s t, Engine.process_block_fast.Alike1 s t →
    Tr.SameSeen Engine.process_block_fast.Alike1 (Engine.process_block_fast.line1_129 cfg w s) (Engine.process_block_fast.line1_129 cfg w₂ t) := by
  rintro ⟨_, _⟩ ⟨_, _⟩ ⟨h0, h1⟩
  unfold Engine.process_block_fast.line1_129
  try dsimp only at *
  repeat same_step

theorem Engine.process_block_fast.line1_130_same (cfg : Cfg) {w w₂ : List (BitVec 32)} (hw : Len w w₂) : ∀ s t, Engine.process_block_fast.Alike1 s t →
    Tr.SameSeen Engine.process_block_fast.Alike1 (Engine.process_block_fast.line1_130 cfg w s) (Engine.process_block_fast.line1_130 cfg w₂ t) := by
  rintro ⟨_, _⟩ ⟨_, _⟩ ⟨h0, h1⟩
  unfold Engine.process_block_fast.line1_130
  try dsimp only at *
  repeat same_step

theorem Engine.process_block_fast.line1_131_same (cfg : Cfg) {w w₂ : List (BitVec 32)} (hw : Len w w₂) : ∀ s t, Engine.process_block_fast.Alike1 s t →
    Tr.SameSeen Engine.process_block_fast.Alike1 (Engine.process_block_fast.line1_131 cfg w s) (Engine.process_block_fast.line1_131 cfg w₂ t) := by
  rintro ⟨_, _⟩ ⟨_, _⟩ ⟨h0, h1⟩
  unfold Engine.process_block_fast.line1_131
  try dsimp only at *
  repeat same_step

theorem Engine.process_block_fast.line1_132_same (cfg : Cfg) {w w₂ : List (BitVec 32)} (hw : Len w w₂) : ∀ s t, Engine.process_block_fast.Alike1 s t →
    Tr.SameSeen Engine.process_block_fast.Alike1 (Engine.process_block_fast.line1_132 cfg w s) (Engine.process_block_fast.line1_132 cfg w₂ t) := by
  rintro ⟨_, _⟩ ⟨_, _⟩ ⟨h0, h1⟩
  unfold Engine.process_block_fast.line1_132
  try dsimp only at *
  repeat same_step

theorem Engine.process_block_fast.line1_133_same (cfg : Cfg) {w w₂ : List (BitVec 32)} (hw : Len w w₂) : ∀ s t, Engine.process_block_fast.Alike1 s t →
    Tr.SameSeen Engine.process_block_fast.Alike1 (Engine.process_block_fast.line1_133 cfg w s) (Engine.process_block_fast.line1_133 cfg w₂ t) := by
  rintro ⟨_, _⟩ ⟨_, _⟩ ⟨h0, h1⟩
  unfold Engine.process_block_fast.line1_133
  try dsimp only at *
  repeat same_step

theorem Engine.process_block_fast.line1_134_same (cfg : Cfg) {w w₂ : List (BitVec 32)} (hw : Len w w₂) : ∀ s t, Engine.process_block_fast.Alike1 s t →
    Tr.SameSeen Engine.process_block_fast.Alike1 (Engine.process_block_fast.line1_134 cfg w s) (Engine.process_block_fast.line1_134 cfg w₂ t) := by
  rintro ⟨_, _⟩ ⟨_, _⟩ ⟨h0, h1⟩
  unfold Engine.process_block_fast.line1_134
  try dsimp only at *
  repeat same_step

theorem Engine.process_block_fast.line1_135_same (cfg : Cfg) {w w₂ : List (BitVec 32)} (hw : Len w w₂) : ∀ s t, Engine.process_block_fast.Alike1 s t →
    Tr.SameSeen Engine.process_block_fast.Alike1 (Engine.process_block_fast.line1_135 cfg w s) (Engine.process_block_fast.line1_135 cfg w₂ t) := by
  rintro ⟨_, _⟩ ⟨_, _⟩ ⟨h0, h1⟩
  unfold Engine.process_block_fast.line1_135
  try dsimp only at *
  repeat same_step

theorem Engine.process_block_fast.line1_136_same (cfg : Cfg) {w w₂ : List (BitVec 32)} (hw : Len w w₂) : ∀ s t, Engine.process_block_fast.Alike1 s t →
    Tr.SameSeen Engine.process_block_fast.Alike1 (Engine.process_block_fast.line1_136 cfg w s) (Engine.process_block_fast.line1_136 cfg w₂ t) := by
  rintro ⟨_, _⟩ ⟨_, _⟩ ⟨h0, h1⟩
  unfold Engine.process_block_fast.line1_136
  try dsimp only at *
  repeat same_step

theorem Engine.process_block_fast.line1_137_same (cfg : Cfg) {w w₂ : List (BitVec 32)} (hw : Len w w₂) : ∀ s t, Engine.process_block_fast.Alike1 s t →
    Tr.SameSeen Engine.process_block_fast.Alike1 (Engine.process_block_fast.line1_137 cfg w s) (Engine.process_block_fast.line1_137 cfg w₂ t) := by
  rintro ⟨_, _⟩ ⟨_, _⟩ ⟨h0, h1⟩
  unfold Engine.process_block_fast.line1_137
  try dsimp only at *
  repeat same_step

theorem Engine.process_block_fast.line1_138_same (cfg : Cfg) {w w₂ : List (BitVec 32)} (hw : Len w w₂) : ∀ s t, Engine.process_block_fast.Alike1 s t →
    Tr.SameSeen Engine.process_block_fast.Alike1 (Engine.process_block_fast.line1_138 cfg w s) (Engine.process_block_fast.line1_138 cfg w₂ t) := by
  rintro ⟨_, _⟩ ⟨_, _⟩ ⟨h0, h1⟩
  unfold Engine.process_block_fast.line1_138
  try dsimp only at *
  repeat same_step

theorem Engine.process_block_fast.line1_139_same (cfg : Cfg) {w w₂ : List (BitVec 32)} (hw : Len w w₂) : ∀ s t, Engine.process_block_fast.Alike1 s t →
    Tr.SameSeen Engine.process_block_fast.Alike1 (Engine.process_block_fast.line1_139 cfg w s) (Engine.process_block_fast.line1_139 cfg w₂ t) := by
  rintro ⟨_, _⟩ ⟨_, _⟩ ⟨h0, h1⟩
  unfold Engine.process_block_fast.line1_139
  try dsimp only at *
  repeat same_step

theorem Engine.process_block_fast.line1_140_same (cfg : Cfg) {w w₂ : List (BitVec 32)} (hw : Len w w₂) : ∀ s t, Engine.process_block_fast.Alike1 s t →
    Tr.SameSeen Engine.process_block_fast.Alike1 (Engine.process_block_fast.line1_140 cfg w s) (Engine.process_block_fast.line1_140 cfg w₂ t) := by
  rintro ⟨_, _⟩ ⟨_, _⟩ ⟨h0, h1⟩
  unfold Engine.process_block_fast.line1_140
  try dsimp only at *
  repeat same_step

theorem Engine.process_block_fast.line1_141_same (cfg : Cfg) {w w₂ : List (BitVec 32)} (hw : Len w w₂) : ∀ s t, Engine.process_block_fast.Alike1 s t →
    Tr.SameSeen Engine.process_block_fast.Alike1 (Engine.process_block_fast.line1_141 cfg w s) (Engine.process_block_fast.line1_141 cfg w₂ t) := by
  rintro ⟨_, _⟩ ⟨_, _⟩ ⟨h0, h1⟩
  unfold Engine.process_block_fast.line1_141
  try dsimp only at *
  repeat same_step

theorem Engine.process_block_fast.line1_142_same (cfg : Cfg) {w w₂ : List (BitVec 32)} (hw : Len w w₂) : ∀ s t, Engine.process_block_fast.Alike1 s t →
    Tr.SameSeen Engine.process_block_fast.Alike1 (Engine.process_block_fast.line1_142 cfg w s) (Engine.process_block_fast.line1_142 cfg w₂ t) := by
  rintro ⟨_, _⟩ ⟨_, _⟩ ⟨h0, h1⟩
  unfold Engine.process_block_fast.line1_142
  try dsimp only at *
  repeat same_step

theorem Engine.process_block_fast.line1_143_same (cfg : Cfg) {w w₂ : List (BitVec 32)} (hw : Len w w₂) : ∀ s t, Engine.process_block_fast.Alike1 s t →
    Tr.SameSeen Engine.process_block_fast.Alike1 (Engine.process_block_fast.line1_143 cfg w s) (Engine.process_block_fast.line1_143 cfg w₂ t) := by
  rintro ⟨_, _⟩ ⟨_, _⟩ ⟨h0, h1⟩
  unfold Engine.process_block_fast.line1_143
  try dsimp only at *
  repeat same_step

theorem Engine.process_block_fast.line1_144_same (cfg : Cfg) {w w₂ : List (BitVec 32)} (hw : Len w w₂) : ∀ s t, Engine.process_block_fast.Alike1 s t →
    Tr.SameSeen Engine.process_block_fast.Alike1 (Engine.process_block_fast.line1_144 cfg w s) (Engine.process_block_fast.line1_144 cfg w₂ t) := by
  rintro ⟨_, _⟩ ⟨_, _⟩ ⟨h0, h1⟩
  unfold Engine.process_block_fast.line1_144
  try dsimp only at *
  repeat same_step

theorem Engine.process_block_fast.line1_145_same (cfg : Cfg) {w w₂ : List (BitVec 32)} (hw : Len w w₂) : ∀ s t, Engine.process_block_fast.Alike1 s t →
    Tr.SameSeen Engine.process_block_fast.Alike1 (Engine.process_block_fast.line1_145 cfg w s) (Engine.process_block_fast.line1_145 cfg w₂ t) := by
  rintro ⟨_, _⟩ ⟨_, _⟩ ⟨h0, h1⟩
  unfold Engine.process_block_fast.line1_145
  try dsimp only at *
  repeat same_step

theorem Engine.process_block_fast.line1_146_same (cfg : Cfg) {w w₂ : List (BitVec 32)} (hw : Len w w₂) : ∀ s t, Engine.process_block_fast.Alike1 s t →
    Tr.SameSeen Engine.process_block_fast.Alike1 (Engine.process_block_fast.line1_146 cfg w s) (Engine.process_block_fast.line1_146 cfg w₂ t) := by
  rintro ⟨_, _⟩ ⟨_, _⟩ ⟨h0, h1⟩
  unfold Engine.process_block_fast.line1_146
  try dsimp only at *
  repeat same_step

theorem Engine.process_block_fast.line1_147_same (cfg : Cfg) {w w₂ : List (BitVec 32)} (hw : Len w w₂) : ∀ s t, Engine.process_block_fast.Alike1 s t →
    Tr.SameSeen Engine.process_block_fast.Alike1 (Engine.process_block_fast.line1_147 cfg w s) (Engine.process_block_fast.line1_147 cfg w₂ t) := by
  rintro ⟨_, _⟩ ⟨_, _⟩ ⟨h0, h1⟩
  unfold Engine.process_block_fast.line1_147
  try dsimp only at *
  repeat same_step

theorem Engine.process_block_fast.line1_148_same (cfg : Cfg) {w w₂ : List (BitVec 32)} (hw : Len w w₂) : ∀ s t, Engine.process_block_fast.Alike1 s t →
    Tr.SameSeen Engine.process_block_fast.Alike1 (Engine.process_block_fast.line1_148 cfg w s) (Engine.process_block_fast.line1_148 cfg w₂ t) := by
  rintro ⟨_, _⟩ ⟨_, _⟩ ⟨h0, h1⟩
  unfold Engine.process_block_fast.line1_148
  try dsimp only at *
  repeat same_step

theorem Engine.process_block_fast.line1_149_same (cfg : Cfg) {w w₂ : List (BitVec 32)} (hw : Len w w₂) : ∀ s t, Engine.process_block_fast.Alike1 s t →
    Tr.SameSeen Engine.process_block_fast.Alike1 (Engine.process_block_fast.line1_149 cfg w s) (Engine.process_block_fast.line1_149 cfg w₂ t) := by
  rintro ⟨_, _⟩ ⟨_, _⟩ ⟨h0, h1⟩
  unfold Engine.process_block_fast.line1_149
  try dsimp only at *
  repeat same_step

theorem Engine.process_block_fast.line1_150_same (cfg : Cfg) {w w₂ : List (BitVec 32)} (hw : Len w w₂) : ∀ s t, Engine.process_block_fast.Alike1 s t →
    Tr.SameSeen Engine.process_block_fast.Alike1 (Engine.process_block_fast.line1_150 cfg w s) (Engine.process_block_fast.line1_150 cfg w₂ t) := by
  rintro ⟨_, _⟩ ⟨_, _⟩ ⟨h0, h1⟩
  unfold Engine.process_block_fast.line1_150
  try dsimp only at *
  repeat same_step

theorem Engine.process_block_fast.line1_151_same (cfg : Cfg) {w w₂ : List (BitVec 32)} (hw : Len w w₂) : ∀ s t, Engine.process_block_fast.Alike1 s t →
    Tr.SameSeen Engine.process_block_fast.Alike1 (Engine.process_block_fast.line1_151 cfg w s) (Engine.process_block_fast.line1_151 cfg w₂ t) := by
  rintro ⟨_, _⟩ ⟨_, _⟩ ⟨h0, h1⟩
  unfold Engine.process_block_fast.line1_151
  try dsimp only at *
  repeat same_step

theorem Engine.process_block_fast.line1_152_same (cfg : Cfg) {w w₂ : List (BitVec 32)} (hw : Len w w₂) : ∀ s t, Engine.process_block_fast.Alike1 s t →
    Tr.SameSeen Engine.process_block_fast.Alike1 (Engine.process_block_fast.line1_152 cfg w s) (Engine.process_block_fast.line1_152 cfg w₂ t) := by
  rintro ⟨_, _⟩ ⟨_, _⟩ ⟨h0, h1⟩
  unfold Engine.process_block_fast.line1_152
  try dsimp only at *
  repeat same_step

theorem Engine.process_block_fast.line1_153_same (cfg : Cfg) {w w₂ : List (BitVec 32)} (hw : Len w w₂) : ∀ s t, Engine.process_block_fast.Alike1 s t →
    Tr.SameSeen Engine.process_block_fast.Alike1 (Engine.process_block_fast.line1_153 cfg w s) (Engine.process_block_fast.line1_153 cfg w₂ t) := by
  rintro ⟨_, _⟩ ⟨_, _⟩ ⟨h0, h1⟩
  unfold Engine.process_block_fast.line1_153
  try dsimp only at *
  repeat same_step

theorem Engine.process_block_fast.line1_154_same (cfg : Cfg) {w w₂ : List (BitVec 32)} (hw : Len w w₂) : ∀ s t, Engine.process_block_fast.Alike1 s t →
    Tr.SameSeen Engine.process_block_fast.Alike1 (Engine.process_block_fast.line1_154 cfg w s) (Engine.process_block_fast.line1_154 cfg w₂ t) := by
  rintro ⟨_, _⟩ ⟨_, _⟩ ⟨h0, h1⟩
  unfold Engine.process_block_fast.line1_154
  try dsimp only at *
  repeat same_step

theorem Engine.process_block_fast.line1_155_same (cfg : Cfg) {w w₂ : List (BitVec 32)} (hw : Len w w₂) : ∀ s t, Engine.process_block_fast.Alike1 s t →
    Tr.SameSeen Engine.process_block_fast.Alike1 (Engine.process_block_fast.line1_155 cfg w s) (Engine.process_block_fast.line1_155 cfg w₂ t) := by
  rintro ⟨_, _⟩ ⟨_, _⟩ ⟨h0, h1⟩
  unfold Engine.process_block_fast.line1_155
  try dsimp only at *
  repeat same_step

theorem Engine.process_block_fast.line1_156_same (cfg : Cfg) {w w₂ : List (BitVec 32)} (hw : Len w w₂) : ∀ s t, Engine.process_block_fast.Alike1 s t →
    Tr.SameSeen Engine.process_block_fast.Alike1 (Engine.process_block_fast.line1_156 cfg w s) (Engine.process_block_fast.line1_156 cfg w₂ t) := by
  rintro ⟨_, _⟩ ⟨_, _⟩ ⟨h0, h1⟩
  unfold Engine.process_block_fast.line1_156
  try dsimp only at *
  repeat same_step

theorem Engine.process_block_fast.line1_157_same (cfg : Cfg) {w w₂ : List (BitVec 32)} (hw : Len w w₂) : ∀ s t, Engine.process_block_fast.Alike1 s t →
    Tr.SameSeen Engine.process_block_fast.Alike1 (Engine.process_block_fast.line1_157 cfg w s) (Engine.process_block_fast.line1_157 cfg w₂ t) := by
  rintro ⟨_, _⟩ ⟨_, _⟩ ⟨h0, h1⟩
  unfold Engine.process_block_fast.line1_157
  try dsimp only at *
  repeat same_step

theorem Engine.process_block_fast.line1_158_same (cfg : Cfg) {w w₂ : List (BitVec 32)} (hw : Len w w₂) : ∀ s t, Engine.process_block_fast.Alike1 s t →
    Tr.SameSeen Engine.process_block_fast.Alike1 (Engine.process_block_fast.line1_158 cfg w s) (Engine.process_block_fast.line1_158 cfg w₂ t) := by
  rintro ⟨_, _⟩ ⟨_, _⟩ ⟨h0, h1⟩
  unfold Engine.process_block_fast.line1_158
  try dsimp only at *
  repeat same_step

theorem Engine.process_block_fast.line1_159_same (cfg : Cfg) {w w₂ : List (BitVec 32)} (hw : Len w w₂) : ∀ s t, Engine.process_block_fast.Alike1 s t →
    Tr.SameSeen Engine.process_block_fast.Alike1 (Engine.process_block_fast.line1_159 cfg w s) (Engine.process_block_fast.line1_159 cfg w₂ t) := by
  rintro ⟨_, _⟩ ⟨_, _⟩ ⟨h0, h1⟩
  unfold Engine.process_block_fast.line1_159
  try dsimp only at *
  repeat same_step

set_option maxRecDepth 10000 in
theorem Engine.process_block_fast.lines1_same (cfg : Cfg) {w w₂ : List (BitVec 32)} (hw : Len w w₂) :
    Tr.SameSeen.Each (fun f g => ∀ s t, Engine.process_block_fast.Alike1 s t → Tr.SameSeen Engine.process_block_fast.Alike1 (f s) (g t))
      (Engine.process_block_fast.lines1 cfg w) (Engine.process_block_fast.lines1 cfg w₂) :=
  ⟨Engine.process_block_fast.line1_0_same cfg hw,
   Engine.process_block_fast.line1_1_same cfg hw,
   Engine.process_block_fast.line1_2_same cfg hw,
   Engine.process_block_fast.line1_3_same cfg hw,
   Engine.process_block_fast.line1_4_same cfg hw,
   Engine.process_block_fast.line1_5_same cfg hw,
   Engine.process_block_fast.line1_6_same cfg hw,
   Engine.process_block_fast.line1_7_same cfg hw,
   Engine.process_block_fast.line1_8_same cfg hw,
   Engine.process_block_fast.line1_9_same cfg hw,
   Engine.process_block_fast.line1_10_same cfg hw,
   Engine.process_block_fast.line1_11_same cfg hw,
   Engine.process_block_fast.line1_12_same cfg hw,
   Engine.process_block_fast.line1_13_same cfg hw,
   Engine.process_block_fast.line1_14_same cfg hw,
   Engine.process_block_fast.line1_15_same cfg hw,
   Engine.process_block_fast.line1_16_same cfg hw,
   Engine.process_block_fast.line1_17_same cfg hw,
   Engine.process_block_fast.line1_18_same cfg hw,
   Engine.process_block_fast.line1_19_same cfg hw,
   Engine.process_block_fast.line1_20_same cfg hw,
   Engine.process_block_fast.line1_21_same cfg hw,
   Engine.process_block_fast.line1_22_same cfg hw,
   Engine.process_block_fast.line1_23_same cfg hw,
   Engine.process_block_fast.line1_24_same cfg hw,
   Engine.process_block_fast.line1_25_same cfg hw,
   Engine.process_block_fast.line1_26_same cfg hw,
   Engine.process_block_fast.line1_27_same cfg hw,
   Engine.process_block_fast.line1_28_same cfg hw,
   Engine.process_block_fast.line1_29_same cfg hw,
   Engine.process_block_fast.line1_30_same cfg hw,
   Engine.process_block_fast.line1_31_same cfg hw,
   Engine.process_block_fast.line1_32_same cfg hw,
   Engine.process_block_fast.line1_33_same cfg hw,
   Engine.process_block_fast.line1_34_same cfg hw,
   Engine.process_block_fast.line1_35_same cfg hw,
   Engine.process_block_fast.line1_36_same cfg hw,
   Engine.process_block_fast.line1_37_same cfg hw,
   Engine.process_block_fast.line1_38_same cfg hw,
   Engine.process_block_fast.line1_39_same cfg hw,
   Engine.process_block_fast.line1_40_same cfg hw,
   Engine.process_block_fast.line1_41_same cfg hw,
   Engine.process_block_fast.line1_42_same cfg hw,
   Engine.process_block_fast.line1_43_same cfg hw,
   Engine.process_block_fast.line1_44_same cfg hw,
   Engine.process_block_fast.line1_45_same cfg hw,
   Engine.process_block_fast.line1_46_same cfg hw,
   Engine.process_block_fast.line1_47_same cfg hw,
   Engine.process_block_fast.line1_48_same cfg hw,
   Engine.process_block_fast.line1_49_same cfg hw,
   Engine.process_block_fast.line1_50_same cfg hw,
   Engine.process_block_fast.line1_51_same cfg hw,
   Engine.process_block_fast.line1_52_same cfg hw,
   Engine.process_block_fast.line1_53_same cfg hw,
   Engine.process_block_fast.line1_54_same cfg hw,
   Engine.process_block_fast.line1_55_same cfg hw,
   Engine.process_block_fast.line1_56_same cfg hw,
   Engine.process_block_fast.line1_57_same cfg hw,
   Engine.process_block_fast.line1_58_same cfg hw,
   Engine.process_block_fast.line1_59_same cfg hw,
   Engine.process_block_fast.line1_60_same cfg hw,
   Engine.process_block_fast.line1_61_same cfg hw,
   Engine.process_block_fast.line1_62_same cfg hw,
   Engine.process_block_fast.line1_63_same cfg hw,
   Engine.process_block_fast.line1_64_same cfg hw,
   Engine.process_block_fast.line1_65_same cfg hw,
   Engine.process_block_fast.line1_66_same cfg hw,
   Engine.process_block_fast.line1_67_same cfg hw,
   Engine.process_block_fast.line1_68_same cfg hw,
   Engine.process_block_fast.line1_69_same cfg hw,
   Engine.process_block_fast.line1_70_same cfg hw,
   Engine.process_block_fast.line1_71_same cfg hw,
   Engine.process_block_fast.line1_72_same cfg hw,
   Engine.process_block_fast.line1_73_same cfg hw,
   Engine.process_block_fast.line1_74_same cfg hw,
   Engine.process_block_fast.line1_75_same cfg hw,
   Engine.process_block_fast.line1_76_same cfg hw,
   Engine.process_block_fast.line1_77_same cfg hw,
   Engine.process_block_fast.line1_78_same cfg hw,
   Engine.process_block_fast.line1_79_same cfg hw,
   Engine.process_block_fast.line1_80_same cfg hw,
   Engine.process_block_fast.line1_81_same cfg hw,
   Engine.process_block_fast.line1_82_same cfg hw,
   Engine.process_block_fast.line1_83_same cfg hw,
   Engine.process_block_fast.line1_84_same cfg hw,
   Engine.process_block_fast.line1_85_same cfg hw,
   Engine.process_block_fast.line1_86_same cfg hw,
   Engine.process_block_fast.line1_87_same cfg hw,
   Engine.process_block_fast.line1_88_same cfg hw,
   Engine.process_block_fast.line1_89_same cfg hw,
   Engine.process_block_fast.line1_90_same cfg hw,
   Engine.process_block_fast.line1_91_same cfg hw,
   Engine.process_block_fast.line1_92_same cfg hw,
   Engine.process_block_fast.line1_93_same cfg hw,
   Engine.process_block_fast.line1_94_same cfg hw,
   Engine.process_block_fast.line1_95_same cfg hw,
   Engine.process_block_fast.line1_96_same cfg hw,
   Engine.process_block_fast.line1_97_same cfg hw,
   Engine.process_block_fast.line1_98_same cfg hw,
   Engine.process_block_fast.line1_99_same cfg hw,
   Engine.process_block_fast.line1_100_same cfg hw,
   Engine.process_block_fast.line1_101_same cfg hw,
   Engine.process_block_fast.line1_102_same cfg hw,
   Engine.process_block_fast.line1_103_same cfg hw,
   Engine.process_block_fast.line1_104_same cfg hw,
   Engine.process_block_fast.line1_105_same cfg hw,
   Engine.process_block_fast.line1_106_same cfg hw,
   Engine.process_block_fast.line1_107_same cfg hw,
   Engine.process_block_fast.line1_108_same cfg hw,
   Engine.process_block_fast.line1_109_same cfg hw,
   Engine.process_block_fast.line1_110_same cfg hw,
   Engine.process_block_fast.line1_111_same cfg hw,
   Engine.process_block_fast.line1_112_same cfg hw,
   Engine.process_block_fast.line1_113_same cfg hw,
   Engine.process_block_fast.line1_114_same cfg hw,
   Engine.process_block_fast.line1_115_same cfg hw,
   Engine.process_block_fast.line1_116_same cfg hw,
   Engine.process_block_fast.line1_117_same cfg hw,
   Engine.process_block_fast.line1_118_same cfg hw,
   Engine.process_block_fast.line1_119_same cfg hw,
   Engine.process_block_fast.line1_120_same cfg hw,
   Engine.process_block_fast.line1_121_same cfg hw,
   Engine.process_block_fast.line1_122_same cfg hw,
   Engine.process_block_fast.line1_123_same cfg hw,
   Engine.process_block_fast.line1_124_same cfg hw,
   Engine.process_block_fast.line1_125_same cfg hw,
   Engine.process_block_fast.line1_126_same cfg hw,
   Engine.process_block_fast.line1_127_same cfg hw,
   Engine.process_block_fast.line1_128_same cfg hw,
   Engine.process_block_fast.line1_129_same cfg hw,
   Engine.process_block_fast.line1_130_same cfg hw,
   Engine.process_block_fast.line1_131_same cfg hw,
   Engine.process_block_fast.line1_132_same cfg hw,
   Engine.process_block_fast.line1_133_same cfg hw,
   Engine.process_block_fast.line1_134_same cfg hw,
   Engine.process_block_fast.line1_135_same cfg hw,
   Engine.process_block_fast.line1_136_same cfg hw,
   Engine.process_block_fast.line1_137_same cfg hw,
   Engine.process_block_fast.line1_138_same cfg hw,
   Engine.process_block_fast.line1_139_same cfg hw,
   Engine.process_block_fast.line1_140_same cfg hw,
   Engine.process_block_fast.line1_141_same cfg hw,
   Engine.process_block_fast.line1_142_same cfg hw,
   Engine.process_block_fast.line1_143_same cfg hw,
   Engine.process_block_fast.line1_144_same cfg hw,
   Engine.process_block_fast.line1_145_same cfg hw,
   Engine.process_block_fast.line1_146_same cfg hw,
   Engine.process_block_fast.line1_147_same cfg hw,
   Engine.process_block_fast.line1_148_same cfg hw,
   Engine.process_block_fast.line1_149_same cfg hw,
   Engine.process_block_fast.line1_150_same cfg hw,
   Engine.process_block_fast.line1_151_same cfg hw,
   Engine.process_block_fast.line1_152_same cfg hw,
   Engine.process_block_fast.line1_153_same cfg hw,
   Engine.process_block_fast.line1_154_same cfg hw,
   Engine.process_block_fast.line1_155_same cfg hw,
   Engine.process_block_fast.line1_156_same cfg hw,
   Engine.process_block_fast.line1_157_same cfg hw,
   Engine.process_block_fast.line1_158_same cfg hw,
   Engine.process_block_fast.line1_159_same cfg hw, trivial⟩

set_option maxRecDepth 10000 in
theorem Engine.process_block_fast.lines1_res (cfg : Cfg) (w : List (BitVec 32)) :
    (Engine.process_block_fast.lines1 cfg w).map (fun f s => (f s).res) = Source.Ripemd160.Engine.process_block_fast.lines1 cfg w := rfl

/-- The states of these statements are alike. -/
abbrev Engine.process_block_small.Alike1 :=
  fun s t : Source.Ripemd160.Engine.process_block_small.State1 => Len s.1 t.1 ∧ Len s.2 t.2

theorem Engine.process_block_small.line1_0_same (cfg : Cfg) {w w₂ : List (BitVec 32)} (hw : Len w w₂) : ∀ s t, Engine.process_block_small.Alike1 s t →
    Tr.SameSeen Engine.process_block_small.Alike1 (Engine.process_block_small.line1_0 cfg w s) (Engine.process_block_small.line1_0 cfg w₂ t) := by
  rintro ⟨_, _⟩ ⟨_, _⟩ ⟨h0, h1⟩
  unfold Engine.process_block_small.line1_0
  try dsimp only at *
  repeat same_step

theorem Engine.process_block_small.line1_1_same (cfg : Cfg) {w w₂ : List (BitVec 32)} (hw : Len w w₂) : ∀ s t, Engine.process_block_small.Alike1 s t →
    Tr.SameSeen Engine.process_block_small.Alike1 (Engine.process_block_small.line1_1 cfg w s) (Engine.process_block_small.line1_1 cfg w₂ t) := by
  rintro ⟨_, _⟩ ⟨_, _⟩ ⟨h0, h1⟩
  unfold Engine.process_block_small.line1_1
  try dsimp only at *
  repeat same_step

theorem Engine.process_block_small.line1_2_same (cfg : Cfg) {w w₂ : List (BitVec 32)} (hw : Len w w₂) : ∀ s t, Engine.process_block_small.Alike1 s t →
    Tr.SameSeen Engine.process_block_small.Alike1 (Engine.process_block_small.line1_2 cfg w s) (Engine.process_block_small.line1_2 cfg w₂ t) := by
  rintro ⟨_, _⟩ ⟨_, _⟩ ⟨h0, h1⟩
  unfold Engine.process_block_small.line1_2
  try dsimp only at *
  repeat same_step

theorem Engine.process_block_small.line1_3_same (cfg : Cfg) {w w₂ : List (BitVec 32)} (hw : Len w w₂) : ∀ s t, Engine.process_block_small.Alike1 s t →
    Tr.SameSeen Engine.process_block_small.Alike1 (Engine.process_block_small.line1_3 cfg w s) (Engine.process_block_small.line1_3 cfg w₂ t) := by
  rintro ⟨_, _⟩ ⟨_, _⟩ ⟨h0, h1⟩
  unfold Engine.process_block_small.line1_3
  try dsimp only at *
  repeat same_step

theorem Engine.process_block_small.line1_4_same (cfg : Cfg) {w w₂ : List (BitVec 32)} (hw : Len w w₂) : ∀ s t, Engine.process_block_small.Alike1 s t →
    Tr.SameSeen Engine.process_block_small.Alike1 (Engine.process_block_small.line1_4 cfg w s) (Engine.process_block_small.line1_4 cfg w₂ t) := by
  rintro ⟨_, _⟩ ⟨_, _⟩ ⟨h0, h1⟩
  unfold Engine.process_block_small.line1_4
  try dsimp only at *
  repeat same_step

theorem Engine.process_block_small.line1_5_same (cfg : Cfg) {w w₂ : List (BitVec 32)} (hw : Len w w₂) : ∀ s t, Engine.process_block_small.Alike1 s t →
    Tr.SameSeen Engine.process_block_small.Alike1 (Engine.process_block_small.line1_5 cfg w s) (Engine.process_block_small.line1_5 cfg w₂ t) := by
  rintro ⟨_, _⟩ ⟨_, _⟩ ⟨h0, h1⟩
  unfold Engine.process_block_small.line1_5
  try dsimp only at *
  repeat same_step

theorem Engine.process_block_small.line1_6_same (cfg : Cfg) {w w₂ : List (BitVec 32)} (hw : Len w w₂) : ∀ s t, Engine.process_block_small.Alike1 s t →
    Tr.SameSeen Engine.process_block_small.Alike1 (Engine.process_block_small.line1_6 cfg w s) (Engine.process_block_small.line1_6 cfg w₂ t) := by
  rintro ⟨_, _⟩ ⟨_, _⟩ ⟨h0, h1⟩
  unfold Engine.process_block_small.line1_6
  try dsimp only at *
  repeat same_step

theorem Engine.process_block_small.line1_7_same (cfg : Cfg) {w w₂ : List (BitVec 32)} (hw : Len w w₂) : ∀ s t, Engine.process_block_small.Alike1 s t →
    Tr.SameSeen Engine.process_block_small.Alike1 (Engine.process_block_small.line1_7 cfg w s) (Engine.process_block_small.line1_7 cfg w₂ t) := by
  rintro ⟨_, _⟩ ⟨_, _⟩ ⟨h0, h1⟩
  unfold Engine.process_block_small.line1_7
  try dsimp only at *
  repeat same_step

theorem Engine.process_block_small.line1_8_same (cfg : Cfg) {w w₂ : List (BitVec 32)} (hw : Len w w₂) : ∀ s t, Engine.process_block_small.Alike1 s t →
    Tr.SameSeen Engine.process_block_small.Alike1 (Engine.process_block_small.line1_8 cfg w s) (Engine.process_block_small.line1_8 cfg w₂ t) := by
  rintro ⟨_, _⟩ ⟨_, _⟩ ⟨h0, h1⟩
  unfold Engine.process_block_small.line1_8
  try dsimp only at *
  repeat same_step

theorem Engine.process_block_small.line1_9_same (cfg : Cfg) {w w₂ : List (BitVec 32)} (hw : Len w w₂) : ∀ s t, Engine.process_block_small.Alike1 s t →
    Tr.SameSeen Engine.process_block_small.Alike1 (Engine.process_block_small.line1_9 cfg w s) (Engine.process_block_small.line1_9 cfg w₂ t) := by
  rintro ⟨_, _⟩ ⟨_, _⟩ ⟨h0, h1⟩
  unfold Engine.process_block_small.line1_9
  try dsimp only at *
  repeat same_step

theorem Engine.process_block_small.line1_10_same (cfg : Cfg) {w w₂ : List (BitVec 32)} (hw : Len w w₂) : ∀ s t, Engine.process_block_small.Alike1 s t →
    Tr.SameSeen Engine.process_block_small.Alike1 (Engine.process_block_small.line1_10 cfg w s) (Engine.process_block_small.line1_10 cfg w₂ t) := by
  rintro ⟨_, _⟩ ⟨_, _⟩ ⟨h0, h1⟩
  unfold Engine.process_block_small.line1_10
  try dsimp only at *
  repeat same_step

theorem Engine.process_block_small.line1_11_same (cfg : Cfg) {w w₂ : List (BitVec 32)} (hw : Len w w₂) : ∀ s t, Engine.process_block_small.Alike1 s t →
    Tr.SameSeen Engine.process_block_small.Alike1 (Engine.process_block_small.line1_11 cfg w s) (Engine.process_block_small.line1_11 cfg w₂ t) := by
  rintro ⟨_, _⟩ ⟨_, _⟩ ⟨h0, h1⟩
  unfold Engine.process_block_small.line1_11
  try dsimp only at *
  repeat same_step

theorem Engine.process_block_small.line1_12_same (cfg : Cfg) {w w₂ : List (BitVec 32)} (hw : Len w w₂) : ∀ s t, Engine.process_block_small.Alike1 s t →
    Tr.SameSeen Engine.process_block_small.Alike1 (Engine.process_block_small.line1_12 cfg w s) (Engine.process_block_small.line1_12 cfg w₂ t) := by
  rintro ⟨_, _⟩ ⟨_, _⟩ ⟨h0, h1⟩
  unfold Engine.process_block_small.line1_12
  try dsimp only at *
  repeat same_step

theorem Engine.process_block_small.line1_13_same (cfg : Cfg) {w w₂ : List (BitVec 32)} (hw : Len w w₂) : ∀ s t, Engine.process_block_small.Alike1 s t →
    Tr.SameSeen Engine.process_block_small.Alike1 (Engine.process_block_small.line1_13 cfg w s) (Engine.process_block_small.line1_13 cfg w₂ t) := by
  rintro ⟨_, _⟩ ⟨_, _⟩ ⟨h0, h1⟩
  unfold Engine.process_block_small.line1_13
  try dsimp only at *
  repeat same_step

theorem Engine.process_block_small.line1_14_same (cfg : Cfg) {w w₂ : List (BitVec 32)} (hw : Len w w₂) : ∀ s t, Engine.process_block_small.Alike1 s t →
    Tr.SameSeen Engine.process_block_small.Alike1 (Engine.process_block_small.line1_14 cfg w s) (Engine.process_block_small.line1_14 cfg w₂ t) := by
  rintro ⟨_, _⟩ ⟨_, _⟩ ⟨h0, h1⟩
  unfold Engine.process_block_small.line1_14
  try dsimp only at *
  repeat same_step

theorem Engine.process_block_small.line1_15_same (cfg : Cfg) {w w₂ : List (BitVec 32)} (hw : Len w w₂) : ∀ s t, Engine.process_block_small.Alike1 s t →
    Tr.SameSeen Engine.process_block_small.Alike1 (Engine.process_block_small.line1_15 cfg w s) (Engine.process_block_small.line1_15 cfg w₂ t) := by
  rintro ⟨_, _⟩ ⟨_, _⟩ ⟨h0, h1⟩
  unfold Engine.process_block_small.line1_15
  try dsimp only at *
  repeat same_step

theorem Engine.process_block_small.line1_16_same (cfg : Cfg) {w w₂ : List (BitVec 32)} (hw : Len w w₂) : ∀ s t, Engine.process_block_small.Alike1 s t →
    Tr.SameSeen Engine.process_block_small.Alike1 (Engine.process_block_small.line1_16 cfg w s) (Engine.process_block_small.line1_16 cfg w₂ t) := by
  rintro ⟨_, _⟩ ⟨_, _⟩ ⟨h0, h1⟩
  unfold Engine.process_block_small.line1_16
  try dsimp only at *
  repeat same_step

theorem Engine.process_block_small.line1_17_same (cfg : Cfg) {w w₂ : List (BitVec 32)} (hw : Len w w₂) : ∀ s t, Engine.process_block_small.Alike1 s t →
    Tr.SameSeen Engine.process_block_small.Alike1 (Engine.process_block_small.line1_17 cfg w s) (Engine.process_block_small.line1_17 cfg w₂ t) := by
  rintro ⟨_, _⟩ ⟨_, _⟩ ⟨h0, h1⟩
  unfold Engine.process_block_small.line1_17
  try dsimp only at *
  repeat same_step

theorem Engine.process_block_small.line1_18_same (cfg : Cfg) {w w₂ : List (BitVec 32)} (hw : Len w w₂) : ∀ s t, Engine.process_block_small.Alike1 s t →
    Tr.SameSeen Engine.process_block_small.Alike1 (Engine.process_block_small.line1_18 cfg w s) (Engine.process_block_small.line1_18 cfg w₂ t) := by
  rintro ⟨_, _⟩ ⟨_, _⟩ ⟨h0, h1⟩
  unfold Engine.process_block_small.line1_18
  try dsimp only at *
  repeat same_step

theorem Engine.process_block_small.line1_19_same (cfg : Cfg) {w w₂ : List (BitVec 32)} (hw : Len w w₂) : ∀ s t, Engine.process_block_small.Alike1 s t →
    Tr.SameSeen Engine.process_block_small.Alike1 (Engine.process_block_small.line1_19 cfg w s) (Engine.process_block_small.line1_19 cfg w₂ t) := by
  rintro ⟨_, _⟩ ⟨_, _⟩ ⟨h0, h1⟩
  unfold Engine.process_block_small.line1_19
  try dsimp only at *
  repeat same_step

theorem Engine.process_block_small.line1_20_same (cfg : Cfg) {w w₂ : List (BitVec 32)} (hw : Len w w₂) : ∀ s t, Engine.process_block_small.Alike1 s t →
    Tr.SameSeen Engine.process_block_small.Alike1 (Engine.process_block_small.line1_20 cfg w s) (Engine.process_block_small.line1_20 cfg w₂ t) := by
  rintro ⟨_, _⟩ ⟨_, _⟩ ⟨h0, h1⟩
  unfold Engine.process_block_small.line1_20
  try dsimp only at *
  repeat same_step

theorem Engine.process_block_small.line1_21_same (cfg : Cfg) {w w₂ : List (BitVec 32)} (hw : Len w w₂) : ∀ s t, Engine.process_block_small.Alike1 s t →
    Tr.SameSeen Engine.process_block_small.Alike1 (Engine.process_block_small.line1_21 cfg w s) (Engine.process_block_small.line1_21 cfg w₂ t) := by
  rintro ⟨_, _⟩ ⟨_, _⟩ ⟨h0, h1⟩
  unfold Engine.process_block_small.line1_21
  try dsimp only at *
  repeat same_step

theorem Engine.process_block_small.line1_22_same (cfg : Cfg) {w w₂ : List (BitVec 32)} (hw : Len w w₂) : ∀ s t, Engine.process_block_small.Alike1 s t →
    Tr.SameSeen Engine.process_block_small.Alike1 (Engine.process_block_small.line1_22 cfg w s) (Engine.process_block_small.line1_22 cfg w₂ t) := by
  rintro ⟨_, _⟩ ⟨_, _⟩ ⟨h0, h1⟩
  unfold Engine.process_block_small.line1_22
  try dsimp only at *
  repeat same_step

theorem Engine.process_block_small.line1_23_same (cfg : Cfg) {w w₂ : List (BitVec 32)} (hw : Len w w₂) : ∀ s t, Engine.process_block_small.Alike1 s t →
    Tr.SameSeen Engine.process_block_small.Alike1 (Engine.process_block_small.line1_23 cfg w s) (Engine.process_block_small.line1_23 cfg w₂ t) := by
  rintro ⟨_, _⟩ ⟨_, _⟩ ⟨h0, h1⟩
  unfold Engine.process_block_small.line1_23
  try dsimp only at *
  repeat same_step

theorem Engine.process_block_small.line1_24_same (cfg : Cfg) {w w₂ : List (BitVec 32)} (hw : Len w w₂) : ∀ s t, Engine.process_block_small.Alike1 s t →
    Tr.SameSeen Engine.process_block_small.Alike1 (Engine.process_block_small.line1_24 cfg w s) (Engine.process_block_small.line1_24 cfg w₂ t) := by
  rintro ⟨_, _⟩ ⟨_, _⟩ ⟨h0, h1⟩
  unfold Engine.process_block_small.line1_24
  try dsimp only at *
  repeat same_step

theorem Engine.process_block_small.line1_25_same (cfg : Cfg) {w w₂ : List (BitVec 32)} (hw : Len w w₂) : ∀ s t, Engine.process_block_small.Alike1 s t →
    Tr.SameSeen Engine.process_block_small.Alike1 (Engine.process_block_small.line1_25 cfg w s) (Engine.process_block_small.line1_25 cfg w₂ t) := by
  rintro ⟨_, _⟩ ⟨_, _⟩ ⟨h0, h1⟩
  unfold Engine.process_block_small.line1_25
  try dsimp only at *
  repeat same_step

theorem Engine.process_block_small.line1_26_same (cfg : Cfg) {w w₂ : List (BitVec 32)} (hw : Len w w₂) : ∀ s t, Engine.process_block_small.Alike1 s t →
    Tr.SameSeen Engine.process_block_small.Alike1 (Engine.process_block_small.line1_26 cfg w s) (Engine.process_block_small.line1_26 cfg w₂ t) := by
  rintro ⟨_, _⟩ ⟨_, _⟩ ⟨h0, h1⟩
  unfold Engine.process_block_small.line1_26
  try dsimp only at *
  repeat same_step

theorem Engine.process_block_small.line1_27_same (cfg : Cfg) {w w₂ : List (BitVec 32)} (hw : Len w w₂) : ∀ s t, Engine.process_block_small.Alike1 s t →
    Tr.SameSeen Engine.process_block_small.Alike1 (Engine.process_block_small.line1_27 cfg w s) (Engine.process_block_small.line1_27 cfg w₂ t) := by
  rintro ⟨_, _⟩ ⟨_, _⟩ ⟨h0, h1⟩
  unfold Engine.process_block_small.line1_27
  try dsimp only at *
  repeat same_step

theorem Engine.process_block_small.line1_28_same (cfg : Cfg) {w w₂ : List (BitVec 32)} (hw : Len w w₂) : ∀ s t, Engine.process_block_small.Alike1 s t →
    Tr.SameSeen Engine.process_block_small.Alike1 (Engine.process_block_small.line1_28 cfg w s) (Engine.process_block_small.line1_28 cfg w₂ t) := by
  rintro ⟨_, _⟩ ⟨_, _⟩ ⟨h0, h1⟩
  unfold Engine.process_block_small.line1_28
  try dsimp only at *
  repeat same_step

theorem Engine.process_block_small.line1_29_same (cfg : Cfg) {w w₂ : List (BitVec 32)} (hw : Len w w₂) : ∀ s t, Engine.process_block_small.Alike1 s t →
    Tr.SameSeen Engine.process_block_small.Alike1 (Engine.process_block_small.line1_29 cfg w s) (Engine.process_block_small.line1_29 cfg w₂ t) := by
  rintro ⟨_, _⟩ ⟨_, _⟩ ⟨h0, h1⟩
  unfold Engine.process_block_small.line1_29
  try dsimp only at *
  repeat same_step

theorem Engine.process_block_small.line1_30_same (cfg : Cfg) {w w₂ : List (BitVec 32)} (hw : Len w w₂) : ∀ s t, Engine.process_block_small.Alike1 s t →
    Tr.SameSeen Engine.process_block_small.Alike1 (Engine.process_block_small.line1_30 cfg w s) (Engine.process_block_small.line1_30 cfg w₂ t) := by
  rintro ⟨_, _⟩ ⟨_, _⟩ ⟨h0, h1⟩
  unfold Engine.process_block_small.line1_30
  try dsimp only at *
  repeat same_step

theorem Engine.process_block_small.line1_31_same (cfg : Cfg) {w w₂ : List (BitVec 32)} (hw : Len w w₂) : ∀ s t, Engine.process_block_small.Alike1 s t →
    Tr.SameSeen Engine.process_block_small.Alike1 (Engine.process_block_small.line1_31 cfg w s) (Engine.process_block_small.line1_31 cfg w₂ t) := by
  rintro ⟨_, _⟩ ⟨_, _⟩ ⟨h0, h1⟩
  unfold Engine.process_block_small.line1_31
  try dsimp only at *
  repeat same_step

theorem Engine.process_block_small.line1_32_same (cfg : Cfg) {w w₂ : List (BitVec 32)} (hw : Len w w₂) : ∀ s t, Engine.process_block_small.Alike1 s t →
    Tr.SameSeen Engine.process_block_small.Alike1 (Engine.process_block_small.line1_32 cfg w s) (Engine.process_block_small.line1_32 cfg w₂ t) := by
  rintro ⟨_, _⟩ ⟨_, _⟩ ⟨h0, h1⟩
  unfold Engine.process_block_small.line1_32
  try dsimp only at *
  repeat same_step

theorem Engine.process_block_small.line1_33_same (cfg : Cfg) {w w₂ : List (BitVec 32)} (hw : Len w w₂) : ∀ s t, Engine.process_block_small.Alike1 s t →
    Tr.SameSeen Engine.process_block_small.Alike1 (Engine.process_block_small.line1_33 cfg w s) (Engine.process_block_small.line1_33 cfg w₂ t) := by
  rintro ⟨_, _⟩ ⟨_, _⟩ ⟨h0, h1⟩
  unfold Engine.process_block_small.line1_33
  try dsimp only at *
  repeat same_step

theorem Engine.process_block_small.line1_34_same (cfg : Cfg) {w w₂ : List (BitVec 32)} (hw : Len w w₂) : ∀ s t, Engine.process_block_small.Alike1 s t →
    Tr.SameSeen Engine.process_block_small.Alike1 (Engine.process_block_small.line1_34 cfg w s) (Engine.process_block_small.line1_34 cfg w₂ t) := by
  rintro ⟨_, _⟩ ⟨_, _⟩ ⟨h0, h1⟩
  unfold Engine.process_block_small.line1_34
  try dsimp only at *
  repeat same_step

theorem Engine.process_block_small.line1_35_same (cfg : Cfg) {w w₂ : List (BitVec 32)} (hw : Len w w₂) : ∀ s t, Engine.process_block_small.Alike1 s t →
    Tr.SameSeen Engine.process_block_small.Alike1 (Engine.process_block_small.line1_35 cfg w s) (Engine.process_block_small.line1_35 cfg w₂ t) := by
  rintro ⟨_, _⟩ ⟨_, _⟩ ⟨h0, h1⟩
  unfold Engine.process_block_small.line1_35
  try dsimp only at *
  repeat same_step

theorem Engine.process_block_small.line1_36_same (cfg : Cfg) {w w₂ : List (BitVec 32)} (hw : Len w w₂) : ∀ s t, Engine.process_block_small.Alike1 s t →
    Tr.SameSeen Engine.process_block_small.Alike1 (Engine.process_block_small.line1_36 cfg w s) (Engine.process_block_small.line1_36 cfg w₂ t) := by
  rintro ⟨_, _⟩ ⟨_, _⟩ ⟨h0, h1⟩
  unfold Engine.process_block_small.line1_36
  try dsimp only at *
  repeat same_step

theorem Engine.process_block_small.line1_37_same (cfg : Cfg) {w w₂ : List (BitVec 32)} (hw : Len w w₂) : ∀ s t, Engine.process_block_small.Alike1 s t →
    Tr.SameSeen Engine.process_block_small.Alike1 (Engine.process_block_small.line1_37 cfg w s) (Engine.process_block_small.line1_37 cfg w₂ t) := by
  rintro ⟨_, _⟩ ⟨_, _⟩ ⟨h0, h1⟩
  unfold Engine.process_block_small.line1_37
  try dsimp only at *
  repeat same_step

theorem Engine.process_block_small.line1_38_same (cfg : Cfg) {w w₂ : List (BitVec 32)} (hw : Len w w₂) : ∀ s t, Engine.process_block_small.Alike1 s t →
    Tr.SameSeen Engine.process_block_small.Alike1 (Engine.process_block_small.line1_38 cfg w s) (Engine.process_block_small.line1_38 cfg w₂ t) := by
  rintro ⟨_, _⟩ ⟨_, _⟩ ⟨h0, h1⟩
  unfold Engine.process_block_small.line1_38
  try dsimp only at *
  repeat same_step

theorem Engine.process_block_small.line1_39_same (cfg : Cfg) {w w₂ : List (BitVec 32)} (hw : Len w w₂) : ∀ s t, Engine.process_block_small.Alike1 s t →
    Tr.SameSeen Engine.process_block_small.Alike1 (Engine.process_block_small.line1_39 cfg w s) (Engine.process_block_small.line1_39 cfg w₂ t) := by
  rintro ⟨_, _⟩ ⟨_, _⟩ ⟨h0, h1⟩
  unfold Engine.process_block_small.line1_39
  try dsimp only at *
  repeat same_step

theorem Engine.process_block_small.line1_40_same (cfg : Cfg) {w w₂ : List (BitVec 32)} (hw : Len w w₂) : ∀ s t, Engine.process_block_small.Alike1 s t →
    Tr.SameSeen Engine.process_block_small.Alike1 (Engine.process_block_small.line1_40 cfg w s) (Engine.process_block_small.line1_40 cfg w₂ t) := by
  rintro ⟨_, _⟩ ⟨_, _⟩ ⟨h0, h1⟩
  unfold Engine.process_block_small.line1_40
  try dsimp only at *
  repeat same_step

theorem Engine.process_block_small.line1_41_same (cfg : Cfg) {w w₂ : List (BitVec 32)} (hw : Len w w₂) : ∀ s t, Engine.process_block_small.Alike1 s t →
    Tr.SameSeen Engine.process_block_small.Alike1 (Engine.process_block_small.line1_41 cfg w s) (Engine.process_block_small.line1_41 cfg w₂ t) := by
  rintro ⟨_, _⟩ ⟨_, _⟩ ⟨h0, h1⟩
  unfold Engine.process_block_small.line1_41
  try dsimp only at *
  repeat same_step

theorem Engine.process_block_small.line1_42_same (cfg : Cfg) {w w₂ : List (BitVec 32)} (hw : Len w w₂) : ∀ s t, Engine.process_block_small.Alike1 s t →
    Tr.SameSeen Engine.process_block_small.Alike1 (Engine.process_block_small.line1_42 cfg w s) (Engine.process_block_small.line1_42 cfg w₂ t) := by
  rintro ⟨_, _⟩ ⟨_, _⟩ ⟨h0, h1⟩
  unfold Engine.process_block_small.line1_42
  try dsimp only at *
  repeat same_step

theorem Engine.process_block_small.line1_43_same (cfg : Cfg) {w w₂ : List (BitVec 32)} (hw : Len w w₂) : ∀ s t, Engine.process_block_small.Alike1 s t →
    Tr.SameSeen Engine.process_block_small.Alike1 (Engine.process_block_small.line1_43 cfg w s) (Engine.process_block_small.line1_43 cfg w₂ t) := by
  rintro ⟨_, _⟩ ⟨_, _⟩ ⟨h0, h1⟩
  unfold Engine.process_block_small.line1_43
  try dsimp only at *
  repeat same_step

theorem Engine.process_block_small.line1_44_same (cfg : Cfg) {w w₂ : List (BitVec 32)} (hw : Len w w₂) : ∀ s t, Engine.process_block_small.Alike1 s t →
    Tr.SameSeen Engine.process_block_small.Alike1 (Engine.process_block_small.line1_44 cfg w s) (Engine.process_block_small.line1_44 cfg w₂ t) := by
  rintro ⟨_, _⟩ ⟨_, _⟩ ⟨h0, h1⟩
  unfold Engine.process_block_small.line1_44
  try dsimp only at *
  repeat same_step

theorem Engine.process_block_small.line1_45_same (cfg : Cfg) {w w₂ : List (BitVec 32)} (hw : Len w w₂) : ∀ s t, Engine.process_block_small.Alike1 s t →
    Tr.SameSeen Engine.process_block_small.Alike1 (Engine.process_block_small.line1_45 cfg w s) (Engine.process_block_small.line1_45 cfg w₂ t) := by
  rintro ⟨_, _⟩ ⟨_, _⟩ ⟨h0, h1⟩
  unfold Engine.process_block_small.line1_45
  try dsimp only at *
  repeat same_step

theorem Engine.process_block_small.line1_46_same (cfg : Cfg) {w w₂ : List (BitVec 32)} (hw : Len w w₂) : ∀ s t, Engine.process_block_small.Alike1 s t →
    Tr.SameSeen Engine.process_block_small.Alike1 (Engine.process_block_small.line1_46 cfg w s) (Engine.process_block_small.line1_46 cfg w₂ t) := by
  rintro ⟨_, _⟩ ⟨_, _⟩ ⟨h0, h1⟩
  unfold Engine.process_block_small.line1_46
  try dsimp only at *
  repeat same_step

theorem Engine.process_block_small.line1_47_same (cfg : Cfg) {w w₂ : List (BitVec 32)} (hw : Len w w₂) : ∀ s t, Engine.process_block_small.Alike1 s t →
    Tr.SameSeen Engine.process_block_small.Alike1 (Engine.process_block_small.line1_47 cfg w s) (Engine.process_block_small.line1_47 cfg w₂ t) := by
  rintro ⟨_, _⟩ ⟨_, _⟩ ⟨h0, h1⟩
  unfold Engine.process_block_small.line1_47
  try dsimp only at *
  repeat same_step

theorem Engine.process_block_small.line1_48_same (cfg : Cfg) {w w₂ : List (BitVec 32)} (hw : Len w w₂) : ∀ s t, Engine.process_block_small.Alike1 s t →
    Tr.SameSeen Engine.process_block_small.Alike1 (Engine.process_block_small.line1_48 cfg w s) (Engine.process_block_small.line1_48 cfg w₂ t) := by
  rintro ⟨_, _⟩ ⟨_, _⟩ ⟨h0, h1⟩
  unfold Engine.process_block_small.line1_48
  try dsimp only at *
  repeat same_step

theorem Engine.process_block_small.line1_49_same (cfg : Cfg) {w w₂ : List (BitVec 32)} (hw : Len w w₂) : ∀ s t, Engine.process_block_small.Alike1 s t →
    Tr.SameSeen Engine.process_block_small.Alike1 (Engine.process_block_small.line1_49 cfg w s) (Engine.process_block_small.line1_49 cfg w₂ t) := by
  rintro ⟨_, _⟩ ⟨_, _⟩ ⟨h0, h1⟩
  unfold Engine.process_block_small.line1_49
  try dsimp only at *
  repeat same_step

theorem Engine.process_block_small.line1_50_same (cfg : Cfg) {w w₂ : List (BitVec 32)} (hw : Len w w₂) : ∀ s t, Engine.process_block_small.Alike1 s t →
    Tr.SameSeen Engine.process_block_small.Alike1 (Engine.process_block_small.line1_50 cfg w s) (Engine.process_block_small.line1_50 cfg w₂ t) := by
  rintro ⟨_, _⟩ ⟨_, _⟩ ⟨h0, h1⟩
  unfold Engine.process_block_small.line1_50
  try dsimp only at *
  repeat same_step

theorem Engine.process_block_small.line1_51_same (cfg : Cfg) {w w₂ : List (BitVec 32)} (hw : Len w w₂) : ∀ s t, Engine.process_block_small.Alike1 s t →
    Tr.SameSeen Engine.process_block_small.Alike1 (Engine.process_block_small.line1_51 cfg w s) (Engine.process_block_small.line1_51 cfg w₂ t) := by
  rintro ⟨_, _⟩ ⟨_, _⟩ ⟨h0, h1⟩
  unfold Engine.process_block_small.line1_51
  try dsimp only at *
  repeat same_step

theorem Engine.process_block_small.line1_52_same (cfg : Cfg) {w w₂ : List (BitVec 32)} (hw : Len w w₂) : ∀ s t, Engine.process_block_small.Alike1 s t →
    Tr.SameSeen Engine.process_block_small.Alike1 (Engine.process_block_small.line1_52 cfg w s) (Engine.process_block_small.line1_52 cfg w₂ t) := by
  rintro ⟨_, _⟩ ⟨_, _⟩ ⟨h0, h1⟩
  unfold Engine.process_block_small.line1_52
  try dsimp only at *
  repeat same_step

theorem Engine.process_block_small.line1_53_same (cfg : Cfg) {w w₂ : List (BitVec 32)} (hw : Len w w₂) : ∀ s t, Engine.process_block_small.Alike1 s t →
    Tr.SameSeen Engine.process_block_small.Alike1 (Engine.process_block_small.line1_53 cfg w s) (Engine.process_block_small.line1_53 cfg w₂ t) := by
  rintro ⟨_, _⟩ ⟨_, _⟩ ⟨h0, h1⟩
  unfold Engine.process_block_small.line1_53
  try dsimp only at *
  repeat same_step

theorem Engine.process_block_small.line1_54_same (cfg : Cfg) {w w₂ : List (BitVec 32)} (hw : Len w w₂) : ∀ s t, Engine.process_block_small.Alike1 s t →
    Tr.SameSeen Engine.process_block_small.Alike1 (Engine.process_block_small.line1_54 cfg w s) (Engine.process_block_small.line1_54 cfg w₂ t) := by
  rintro ⟨_, _⟩ ⟨_, _⟩ ⟨h0, h1⟩
  unfold Engine.process_block_small.line1_54
  try dsimp only at *
  repeat same_step

theorem Engine.process_block_small.line1_55_same (cfg : Cfg) {w w₂ : List (BitVec 32)} (hw : Len w w₂) : ∀ s t, Engine.process_block_small.Alike1 s t →
    Tr.SameSeen Engine.process_block_small.Alike1 (Engine.process_block_small.line1_55 cfg w s) (Engine.process_block_small.line1_55 cfg w₂ t) := by
  rintro ⟨_, _⟩ ⟨_, _⟩ ⟨h0, h1⟩
  unfold Engine.process_block_small.line1_55
  try dsimp only at *
  repeat same_step

theorem Engine.process_block_small.line1_56_same (cfg : Cfg) {w w₂ : List (BitVec 32)} (hw : Len w w₂) : ∀ s t, Engine.process_block_small.Alike1 s t →
    Tr.SameSeen Engine.process_block_small.Alike1 (Engine.process_block_small.line1_56 cfg w s) (Engine.process_block_small.line1_56 cfg w₂ t) := by
  rintro ⟨_, _⟩ ⟨_, _⟩ ⟨h0, h1⟩
  unfold Engine.process_block_small.line1_56
  try dsimp only at *
  repeat same_step

theorem Engine.process_block_small.line1_57_same (cfg : Cfg) {w w₂ : List (BitVec 32)} (hw : Len w w₂) : ∀ s t, Engine.process_block_small.Alike1 s t →
    Tr.SameSeen Engine.process_block_small.Alike1 (Engine.process_block_small.line1_57 cfg w s) (Engine.process_block_small.line1_57 cfg w₂ t) := by
  rintro ⟨_, _⟩ ⟨_, _⟩ ⟨h0, h1⟩
  unfold Engine.process_block_small.line1_57
  try dsimp only at *
  repeat same_step

theorem Engine.process_block_small.line1_58_same (cfg : Cfg) {w w₂ : List (BitVec 32)} (hw : Len w w₂) : ∀ s t, Engine.process_block_small.Alike1 s t →
    Tr.SameSeen Engine.process_block_small.Alike1 (Engine.process_block_small.line1_58 cfg w s) (Engine.process_block_small.line1_58 cfg w₂ t) := by
  rintro ⟨_, _⟩ ⟨_, _⟩ ⟨h0, h1⟩
  unfold Engine.process_block_small.line1_58
  try dsimp only at *
  repeat same_step

theorem Engine.process_block_small.line1_59_same (cfg : Cfg) {w w₂ : List (BitVec 32)} (hw : Len w w₂) : ∀ s t, Engine.process_block_small.Alike1 s t →
    Tr.SameSeen Engine.process_block_small.Alike1 (Engine.process_block_small.line1_59 cfg w s) (Engine.process_block_small.line1_59 cfg w₂ t) := by
  rintro ⟨_, _⟩ ⟨_, _⟩ ⟨h0, h1⟩
  unfold Engine.process_block_small.line1_59
  try dsimp only at *
  repeat same_step

theorem Engine.process_block_small.line1_60_same (cfg : Cfg) {w w₂ : List (BitVec 32)} (hw : Len w w₂) : ∀ s t, Engine.process_block_small.Alike1 s t →
    Tr.SameSeen Engine.process_block_small.Alike1 (Engine.process_block_small.line1_60 cfg w s) (Engine.process_block_small.line1_60 cfg w₂ t) := by
  rintro ⟨_, _⟩ ⟨_, _⟩ ⟨h0, h1⟩
  unfold Engine.process_block_small.line1_60
  try dsimp only at *
  repeat same_step

theorem Engine.process_block_small.line1_61_same (cfg : Cfg) {w w₂ : List (BitVec 32)} (hw : Len w w₂) : ∀ s t, Engine.process_block_small.Alike1 s t →
    Tr.SameSeen Engine.process_block_small.Alike1 (Engine.process_block_small.line1_61 cfg w s) (Engine.process_block_small.line1_61 cfg w₂ t) := by
  rintro ⟨_, _⟩ ⟨_, _⟩ ⟨h0, h1⟩
  unfold Engine.process_block_small.line1_61
  try dsimp only at *
  repeat same_step

theorem Engine.process_block_small.line1_62_same (cfg : Cfg) {w w₂ : List (BitVec 32)} (hw : Len w w₂) : ∀ s t, Engine.process_block_small.Alike1 s t →
    Tr.SameSeen Engine.process_block_small.Alike1 (Engine.process_block_small.line1_62 cfg w s) (Engine.process_block_small.line1_62 cfg w₂ t) := by
  rintro ⟨_, _⟩ ⟨_, _⟩ ⟨h0, h1⟩
  unfold Engine.process_block_small.line1_62
  try dsimp only at *
  repeat same_step

theorem Engine.process_block_small.line1_63_same (cfg : Cfg) {w w₂ : List (BitVec 32)} (hw : Len w w₂) : ∀ s t, Engine.process_block_small.Alike1 s t →
    Tr.SameSeen Engine.process_block_small.Alike1 (Engine.process_block_small.line1_63 cfg w s) (Engine.process_block_small.line1_63 cfg w₂ t) := by
  rintro ⟨_, _⟩ ⟨_, _⟩ ⟨h0, h1⟩
  unfold Engine.process_block_small.line1_63
  try dsimp only at *
  repeat same_step

theorem Engine.process_block_small.line1_64_same (cfg : Cfg) {w w₂ : List (BitVec 32)} (hw : Len w w₂) : ∀ s t, Engine.process_block_small.Alike1 s t →
    Tr.SameSeen Engine.process_block_small.Alike1 (Engine.process_block_small.line1_64 cfg w s) (Engine.process_block_small.line1_64 cfg w₂ t) := by
  rintro ⟨_, _⟩ ⟨_, _⟩ ⟨h0, h1⟩
  unfold Engine.process_block_small.line1_64
  try dsimp only at *
  repeat same_step

theorem Engine.process_block_small.line1_65_same (cfg : Cfg) {w w₂ : List (BitVec 32)} (hw : Len w w₂) : ∀ s t, Engine.process_block_small.Alike1 s t →
    Tr.SameSeen Engine.process_block_small.Alike1 (Engine.process_block_small.line1_65 cfg w s) (Engine.process_block_small.line1_65 cfg w₂ t) := by
  rintro ⟨_, _⟩ ⟨_, _⟩ ⟨h0, h1⟩
  unfold Engine.process_block_small.line1_65
  try dsimp only at *
  repeat same_step

theorem Engine.process_block_small.line1_66_same (cfg : Cfg) {w w₂ : List (BitVec 32)} (hw : Len w w₂) : ∀ s t, Engine.process_block_small.Alike1 s t →
    Tr.SameSeen Engine.process_block_small.Alike1 (Engine.process_block_small.line1_66 cfg w s) (Engine.process_block_small.line1_66 cfg w₂ t) := by
  rintro ⟨_, _⟩ ⟨_, _⟩ ⟨h0, h1⟩
  unfold Engine.process_block_small.line1_66
  try dsimp only at *
  repeat same_step

theorem Engine.process_block_small.line1_67_same (cfg : Cfg) {w w₂ : List (BitVec 32)} (hw : Len w w₂) : ∀ s t, Engine.process_block_small.Alike1 s t →
    Tr.SameSeen Engine.process_block_small.Alike1 (Engine.process_block_small.line1_67 cfg w s) (Engine.process_block_small.line1_67 cfg w₂ t) := by
  rintro ⟨_, _⟩ ⟨_, _⟩ ⟨h0, h1⟩
  unfold Engine.process_block_small.line1_67
  try dsimp only at *
  repeat same_step

theorem Engine.process_block_small.line1_68_same (cfg : Cfg) {w w₂ : List (BitVec 32)} (hw : Len w w₂) : ∀ s t, Engine.process_block_small.Alike1 s t →
    Tr.SameSeen Engine.process_block_small.Alike1 (Engine.process_block_small.line1_68 cfg w s) (Engine.process_block_small.line1_68 cfg w₂ t) := by
  rintro ⟨_, _⟩ ⟨_, _⟩ ⟨h0, h1⟩
  unfold Engine.process_block_small.line1_68
  try dsimp only at *
  repeat same_step

theorem Engine.process_block_small.line1_69_same (cfg : Cfg) {w w₂ : List (BitVec 32)} (hw : Len w w₂) : ∀ s t, Engine.process_block_small.Alike1 s t →
    Tr.SameSeen Engine.process_block_small.Alike1 (Engine.process_block_small.line1_69 cfg w s) (Engine.process_block_small.line1_69 cfg w₂ t) := by
  rintro ⟨_, _⟩ ⟨_, _⟩ ⟨h0, h1⟩
  unfold Engine.process_block_small.line1_69
  try dsimp only at *
  repeat same_step

theorem Engine.process_block_small.line1_70_same (cfg : Cfg) {w w₂ : List (BitVec 32)} (hw : Len w w₂) : ∀ s t, Engine.process_block_small.Alike1 s t →
    Tr.SameSeen Engine.process_block_small.Alike1 (Engine.process_block_small.line1_70 cfg w s) (Engine.process_block_small.line1_70 cfg w₂ t) := by
  rintro ⟨_, _⟩ ⟨_, _⟩ ⟨h0, h1⟩
  unfold Engine.process_block_small.line1_70
  try dsimp only at *
  repeat same_step

theorem Engine.process_block_small.line1_71_same (cfg : Cfg) {w w₂ : List (BitVec 32)} (hw : Len w w₂) : ∀ s t, Engine.process_block_small.Alike1 s t →
    Tr.SameSeen Engine.process_block_small.Alike1 (Engine.process_block_small.line1_71 cfg w s) (Engine.process_block_small.line1_71 cfg w₂ t) := by
  rintro ⟨_, _⟩ ⟨_, _⟩ ⟨h0, h1⟩
  unfold Engine.process_block_small.line1_71
  try dsimp only at *
  repeat same_step

theorem Engine.process_block_small.line1_72_same (cfg : Cfg) {w w₂ : List (BitVec 32)} (hw : Len w w₂) : ∀ s t, Engine.process_block_small.Alike1 s t →
    Tr.SameSeen Engine.process_block_small.Alike1 (Engine.process_block_small.line1_72 cfg w s) (Engine.process_block_small.line1_72 cfg w₂ t) := by
  rintro ⟨_, _⟩ ⟨_, _⟩ ⟨h0, h1⟩
  unfold Engine.process_block_small.line1_72
  try dsimp only at *
  repeat same_step

theorem Engine.process_block_small.line1_73_same (cfg : Cfg) {w w₂ : List (BitVec 32)} (hw : Len w w₂) : ∀ s t, Engine.process_block_small.Alike1 s t →
    Tr.SameSeen Engine.process_block_small.Alike1 (Engine.process_block_small.line1_73 cfg w s) (Engine.process_block_small.line1_73 cfg w₂ t) := by
  rintro ⟨_, _⟩ ⟨_, _⟩ ⟨h0, h1⟩
  unfold Engine.process_block_small.line1_73
  try dsimp only at *
  repeat same_step

theorem Engine.process_block_small.line1_74_same (cfg : Cfg) {w w₂ : List (BitVec 32)} (hw : Len w w₂) : ∀ s t, Engine.process_block_small.Alike1 s t →
    Tr.SameSeen Engine.process_block_small.Alike1 (Engine.process_block_small.line1_74 cfg w s) (Engine.process_block_small.line1_74 cfg w₂ t) := by
  rintro ⟨_, _⟩ ⟨_, _⟩ ⟨h0, h1⟩
  unfold Engine.process_block_small.line1_74
  try dsimp only at *
  repeat same_step

theorem Engine.process_block_small.line1_75_same (cfg : Cfg) {w w₂ : List (BitVec 32)} (hw : Len w w₂) : ∀ s t, Engine.process_block_small.Alike1 s t →
    Tr.SameSeen Engine.process_block_small.Alike1 (Engine.process_block_small.line1_75 cfg w s) (Engine.process_block_small.line1_75 cfg w₂ t) := by
  rintro ⟨_, _⟩ ⟨_, _⟩ ⟨h0, h1⟩
  unfold Engine.process_block_small.line1_75
  try dsimp only at *
  repeat same_step

theorem Engine.process_block_small.line1_76_same (cfg : Cfg) {w w₂ : List (BitVec 32)} (hw : Len w w₂) : ∀ s t, Engine.process_block_small.Alike1 s t →
    Tr.SameSeen Engine.process_block_small.Alike1 (Engine.process_block_small.line1_76 cfg w s) (Engine.process_block_small.line1_76 cfg w₂ t) := by
  rintro ⟨_, _⟩ ⟨_, _⟩ ⟨h0, h1⟩
  unfold Engine.process_block_small.line1_76
  try dsimp only at *
  repeat same_step

theorem Engine.process_block_small.line1_77_same (cfg : Cfg) {w w₂ : List (BitVec 32)} (hw : Len w w₂) : ∀ s t, Engine.process_block_small.Alike1 s t →
    Tr.SameSeen Engine.process_block_small.Alike1 (Engine.process_block_small.line1_77 cfg w s) (Engine.process_block_small.line1_77 cfg w₂ t) := by
  rintro ⟨_, _⟩ ⟨_, _⟩ ⟨h0, h1⟩
  unfold Engine.process_block_small.line1_77
  try dsimp only at *
  repeat same_step

theorem Engine.process_block_small.line1_78_same (cfg : Cfg) {w w₂ : List (BitVec 32)} (hw : Len w w₂) : ∀ s t, Engine.process_block_small.Alike1 s t →
    Tr.SameSeen Engine.process_block_small.Alike1 (Engine.process_block_small.line1_78 cfg w s) (Engine.process_block_small.line1_78 cfg w₂ t) := by
  rintro ⟨_, _⟩ ⟨_, _⟩ ⟨h0, h1⟩
  unfold Engine.process_block_small.line1_78
  try dsimp only at *
  repeat same_step

theorem Engine.process_block_small.line1_79_same (cfg : Cfg) {w w₂ : List (BitVec 32)} (hw : Len w w₂) : ∀ s t, Engine.process_block_small.Alike1 s t →
    Tr.SameSeen Engine.process_block_small.Alike1 (Engine.process_block_small.line1_79 cfg w s) (Engine.process_block_small.line1_79 cfg w₂ t) := by
  rintro ⟨_, _⟩ ⟨_, _⟩ ⟨h0, h1⟩
  unfold Engine.process_block_small.line1_79
  try dsimp only at *
  repeat same_step

theorem Engine.process_block_small.line1_80_same (cfg : Cfg) {w w₂ : List (BitVec 32)} (hw : Len w w₂) : ∀ s t, Engine.process_block_small.Alike1 s t →
    Tr.SameSeen Engine.process_block_small.Alike1 (Engine.process_block_small.line1_80 cfg w s) (Engine.process_block_small.line1_80 cfg w₂ t) := by
  rintro ⟨_, _⟩ ⟨_, _⟩ ⟨h0, h1⟩
  unfold Engine.process_block_small.line1_80
  try dsimp only at *
  repeat same_step

theorem Engine.process_block_small.line1_81_same (cfg : Cfg) {w w₂ : List (BitVec 32)} (hw : Len w w₂) : ∀ s t, Engine.process_block_small.Alike1 s t →
    Tr.SameSeen Engine.process_block_small.Alike1 (Engine.process_block_small.line1_81 cfg w s) (Engine.process_block_small.line1_81 cfg w₂ t) := by
  rintro ⟨_, _⟩ ⟨_, _⟩ ⟨h0, h1⟩
  unfold Engine.process_block_small.line1_81
  try dsimp only at *
  repeat same_step

theorem Engine.process_block_small.line1_82_same (cfg : Cfg) {w w₂ : List (BitVec 32)} (hw : Len w w₂) : ∀ s t, Engine.process_block_small.Alike1 s t →
    Tr.SameSeen Engine.process_block_small.Alike1 (Engine.process_block_small.line1_82 cfg w s) (Engine.process_block_small.line1_82 cfg w₂ t) := by
  rintro ⟨_, _⟩ ⟨_, _⟩ ⟨h0, h1⟩
  unfold Engine.process_block_small.line1_82
  try dsimp only at *
  repeat same_step

theorem Engine.process_block_small.line1_83_same (cfg : Cfg) {w w₂ : List (BitVec 32)} (hw : Len w w₂) : ∀ s t, Engine.process_block_small.Alike1 s t →
    Tr.SameSeen Engine.process_block_small.Alike1 (Engine.process_block_small.line1_83 cfg w s) (Engine.process_block_small.line1_83 cfg w₂ t) := by
  rintro ⟨_, _⟩ ⟨_, _⟩ ⟨h0, h1⟩
  unfold Engine.process_block_small.line1_83
  try dsimp only at *
  repeat same_step

theorem Engine.process_block_small.line1_84_same (cfg : Cfg) {w w₂ : List (BitVec 32)} (hw : Len w w₂) : ∀ s t, Engine.process_block_small.Alike1 s t →
    Tr.SameSeen Engine.process_block_small.Alike1 (Engine.process_block_small.line1_84 cfg w s) (Engine.process_block_small.line1_84 cfg w₂ t) := by
  rintro ⟨_, _⟩ ⟨_, _⟩ ⟨h0, h1⟩
  unfold Engine.process_block_small.line1_84
  try dsimp only at *
  repeat same_step

theorem Engine.process_block_small.line1_85_same (cfg : Cfg) {w w₂ : List (BitVec 32)} (hw : Len w w₂) : ∀ s t, Engine.process_block_small.Alike1 s t →
    Tr.SameSeen Engine.process_block_small.Alike1 (Engine.process_block_small.line1_85 cfg w s) (Engine.process_block_small.line1_85 cfg w₂ t) := by
  rintro ⟨_, _⟩ ⟨_, _⟩ ⟨h0, h1⟩
  unfold Engine.process_block_small.line1_85
  try dsimp only at *
  repeat same_step

theorem Engine.process_block_small.line1_86_same (cfg : Cfg) {w w₂ : List (BitVec 32)} (hw : Len w w₂) : ∀ s t, Engine.process_block_small.Alike1 s t →
    Tr.SameSeen Engine.process_block_small.Alike1 (Engine.process_block_small.line1_86 cfg w s) (Engine.process_block_small.line1_86 cfg w₂ t) := by
  rintro ⟨_, _⟩ ⟨_, _⟩ ⟨h0, h1⟩
  unfold Engine.process_block_small.line1_86
  try dsimp only at *
  repeat same_step

theorem Engine.process_block_small.line1_87_same (cfg : Cfg) {w w₂ : List (BitVec 32)} (hw : Len w w₂) : ∀ s t, Engine.process_block_small.Alike1 s t →
    Tr.SameSeen Engine.process_block_small.Alike1 (Engine.process_block_small.line1_87 cfg w s) (Engine.process_block_small.line1_87 cfg w₂ t) := by
  rintro ⟨_, _⟩ ⟨_, _⟩ ⟨h0, h1⟩
  unfold Engine.process_block_small.line1_87
  try dsimp only at *
  repeat same_step

theorem Engine.process_block_small.line1_88_same (cfg : Cfg) {w w₂ : List (BitVec 32)} (hw : Len w w₂) : ∀ s t, Engine.process_block_small.Alike1 s t →
    Tr.SameSeen Engine.process_block_small.Alike1 (Engine.process_block_small.line1_88 cfg w s) (Engine.process_block_small.line1_88 cfg w₂ t) := by
  rintro ⟨_, _⟩ ⟨_, _⟩ ⟨h0, h1⟩
  unfold Engine.process_block_small.line1_88
  try dsimp only at *
  repeat same_step

theorem Engine.process_block_small.line1_89_same (cfg : Cfg) {w w₂ : List (BitVec 32)} (hw : Len w w₂) : ∀ s t, Engine.process_block_small.Alike1 s t →
    Tr.SameSeen Engine.process_block_small.Alike1 (Engine.process_block_small.line1_89 cfg w s) (Engine.process_block_small.line1_89 cfg w₂ t) := by
  rintro ⟨_, _⟩ ⟨_, _⟩ ⟨h0, h1⟩
  unfold Engine.process_block_small.line1_89
  try dsimp only at *
  repeat same_step

theorem Engine.process_block_small.line1_90_same (cfg : Cfg) {w w₂ : List (BitVec 32)} (hw : Len w w₂) : ∀ s t, Engine.process_block_small.Alike1 s t →
    Tr.SameSeen Engine.process_block_small.Alike1 (Engine.process_block_small.line1_90 cfg w s) (Engine.process_block_small.line1_90 cfg w₂ t) := by
  rintro ⟨_, _⟩ ⟨_, _⟩ ⟨h0, h1⟩
  unfold Engine.process_block_small.line1_90
  try dsimp only at *
  repeat same_step

theorem Engine.process_block_small.line1_91_same (cfg : Cfg) {w w₂ : List (BitVec 32)} (hw : Len w w₂) : ∀ s t, Engine.process_block_small.Alike1 s t →
    Tr.SameSeen Engine.process_block_small.Alike1 (Engine.process_block_small.line1_91 cfg w s) (Engine.process_block_small.line1_91 cfg w₂ t) := by
  rintro ⟨_, _⟩ ⟨_, _⟩ ⟨h0, h1⟩
  unfold Engine.process_block_small.line1_91
  try dsimp only at *
  repeat same_step

theorem Engine.process_block_small.line1_92_same (cfg : Cfg) {w w₂ : List (BitVec 32)} (hw : Len w w₂) : ∀ s t, Engine.process_block_small.Alike1 s t →
    Tr.SameSeen Engine.process_block_small.Alike1 (Engine.process_block_small.line1_92 cfg w s) (Engine.process_block_small.line1_92 cfg w₂ t) := by
  rintro ⟨_, _⟩ ⟨_, _⟩ ⟨h0, h1⟩
  unfold Engine.process_block_small.line1_92
  try dsimp only at *
  repeat same_step

theorem Engine.process_block_small.line1_93_same (cfg : Cfg) {w w₂ : List (BitVec 32)} (hw : Len w w₂) : ∀ s t, Engine.process_block_small.Alike1 s t →
    Tr.SameSeen Engine.process_block_small.Alike1 (Engine.process_block_small.line1_93 cfg w s) (Engine.process_block_small.line1_93 cfg w₂ t) := by
  rintro ⟨_, _⟩ ⟨_, _⟩ ⟨h0, h1⟩
  unfold Engine.process_block_small.line1_93
  try dsimp only at *
  repeat same_step

theorem Engine.process_block_small.line1_94_same (cfg : Cfg) {w w₂ : List (BitVec 32)} (hw : Len w w₂) : ∀ s t, Engine.process_block_small.Alike1 s t →
    Tr.SameSeen Engine.process_block_small.Alike1 (Engine.process_block_small.line1_94 cfg w s) (Engine.process_block_small.line1_94 cfg w₂ t) := by
  rintro ⟨_, _⟩ ⟨_, _⟩ ⟨h0, h1⟩
  unfold Engine.process_block_small.line1_94
  try dsimp only at *
  repeat same_step

theorem Engine.process_block_small.line1_95_same (cfg : Cfg) {w w₂ : List (BitVec 32)} (hw : Len w w₂) : ∀ s t, Engine.process_block_small.Alike1 s t →
    Tr.SameSeen Engine.process_block_small.Alike1 (Engine.process_block_small.line1_95 cfg w s) (Engine.process_block_small.line1_95 cfg w₂ t) := by
  rintro ⟨_, _⟩ ⟨_, _⟩ ⟨h0, h1⟩
  unfold Engine.process_block_small.line1_95
  try dsimp only at *
  repeat same_step

theorem Engine.process_block_small.line1_96_same (cfg : Cfg) {w w₂ : List (BitVec 32)} (hw : Len w w₂) : ∀ s t, Engine.process_block_small.Alike1 s t →
    Tr.SameSeen Engine.process_block_small.Alike1 (Engine.process_block_small.line1_96 cfg w s) (Engine.process_block_small.line1_96 cfg w₂ t) := by
  rintro ⟨_, _⟩ ⟨_, _⟩ ⟨h0, h1⟩
  unfold Engine.process_block_small.line1_96
  try dsimp only at *
  repeat same_step

theorem Engine.process_block_small.line1_97_same (cfg : Cfg) {w w₂ : List (BitVec 32)} (hw : Len w w₂) : ∀ s t, Engine.process_block_small.Alike1 s t →
    Tr.SameSeen Engine.process_block_small.Alike1 (Engine.process_block_small.line1_97 cfg w s) (Engine.process_block_small.line1_97 cfg w₂ t) := by
  rintro ⟨_, _⟩ ⟨_, _⟩ ⟨h0, h1⟩
  unfold Engine.process_block_small.line1_97
  try dsimp only at *
  repeat same_step

theorem Engine.process_block_small.line1_98_same (cfg : Cfg) {w w₂ : List (BitVec 32)} (hw : Len w w₂) : ∀ s t, Engine.process_block_small.Alike1 s t →
    Tr.SameSeen Engine.process_block_small.Alike1 (Engine.process_block_small.line1_98 cfg w s) (Engine.process_block_small.line1_98 cfg w₂ t) := by
  rintro ⟨_, _⟩ ⟨_, _⟩ ⟨h0, h1⟩
  unfold Engine.process_block_small.line1_98
  try dsimp only at *
  repeat same_step

theorem Engine.process_block_small.line1_99_same (cfg : Cfg) {w w₂ : List (BitVec 32)} (hw : Len w w₂) : ∀ s t, Engine.process_block_small.Alike1 s t →
    Tr.SameSeen Engine.process_block_small.Alike1 (Engine.process_block_small.line1_99 cfg w s) (Engine.process_block_small.line1_99 cfg w₂ t) := by
  rintro ⟨_, _⟩ ⟨_, _⟩ ⟨h0, h1⟩
  unfold Engine.process_block_small.line1_99
  try dsimp only at *
  repeat same_step

theorem Engine.process_block_small.line1_100_same (cfg : Cfg) {w w₂ : List (BitVec 32)} (hw : Len w w₂) : ∀ s t, Engine.process_block_small.Alike1 s t →
    Tr.SameSeen Engine.process_block_small.Alike1 (Engine.process_block_small.line1_100 cfg w s) (Engine.process_block_small.line1_100 cfg w₂ t) := by
  rintro ⟨_, _⟩ ⟨_, _⟩ ⟨h0, h1⟩
  unfold Engine.process_block_small.line1_100
  try dsimp only at *
  repeat same_step

theorem Engine.process_block_small.line1_101_same (cfg : Cfg) {w w₂ : List (BitVec 32)} (hw : Len w w₂) : ∀ s t, Engine.process_block_small.Alike1 s t →
    Tr.SameSeen Engine.process_block_small.Alike1 (Engine.process_block_small.line1_101 cfg w s) (Engine.process_block_small.line1_101 cfg w₂ t) := by
  rintro ⟨_, _⟩ ⟨_, _⟩ ⟨h0, h1⟩
  unfold Engine.process_block_small.line1_101
  try dsimp only at *
  repeat same_step

theorem Engine.process_block_small.line1_102_same (cfg : Cfg) {w w₂ : List (BitVec 32)} (hw : Len w w₂) : ∀ s t, Engine.process_block_small.Alike1 s t →
    Tr.SameSeen Engine.process_block_small.Alike1 (Engine.process_block_small.line1_102 cfg w s) (Engine.process_block_small.line1_102 cfg w₂ t) := by
  rintro ⟨_, _⟩ ⟨_, _⟩ ⟨h0, h1⟩
  unfold Engine.process_block_small.line1_102
  try dsimp only at *
  repeat same_step

theorem Engine.process_block_small.line1_103_same (cfg : Cfg) {w w₂ : List (BitVec 32)} (hw : Len w w₂) : ∀ s t, Engine.process_block_small.Alike1 s t →
    Tr.SameSeen Engine.process_block_small.Alike1 (Engine.process_block_small.line1_103 cfg w s) (Engine.process_block_small.line1_103 cfg w₂ t) := by
  rintro ⟨_, _⟩ ⟨_, _⟩ ⟨h0, h1⟩
  unfold Engine.process_block_small.line1_103
  try dsimp only at *
  repeat same_step

theorem Engine.process_block_small.line1_104_same (cfg : Cfg) {w w₂ : List (BitVec 32)} (hw : Len w w₂) : ∀ s t, Engine.process_block_small.Alike1 s t →
    Tr.SameSeen Engine.process_block_small.Alike1 (Engine.process_block_small.line1_104 cfg w s) (Engine.process_block_small.line1_104 cfg w₂ t) := by
  rintro ⟨_, _⟩ ⟨_, _⟩ ⟨h0, h1⟩
  unfold Engine.process_block_small.line1_104
  try dsimp only at *
  repeat same_step

theorem Engine.process_block_small.line1_105_same (cfg : Cfg) {w w₂ : List (BitVec 32)} (hw : Len w w₂) : ∀ s t, Engine.process_block_small.Alike1 s t →
    Tr.SameSeen Engine.process_block_small.Alike1 (Engine.process_block_small.line1_105 cfg w s) (Engine.process_block_small.line1_105 cfg w₂ t) := by
  rintro ⟨_, _⟩ ⟨_, _⟩ ⟨h0, h1⟩
  unfold Engine.process_block_small.line1_105
  try dsimp only at *
  repeat same_step

theorem Engine.process_block_small.line1_106_same (cfg : Cfg) {w w₂ : List (BitVec 32)} (hw : Len w w₂) : ∀ s t, Engine.process_block_small.Alike1 s t →
    Tr.SameSeen Engine.process_block_small.Alike1 (Engine.process_block_small.line1_106 cfg w s) (Engine.process_block_small.line1_106 cfg w₂ t) := by
  rintro ⟨_, _⟩ ⟨_, _⟩ ⟨h0, h1⟩
  unfold Engine.process_block_small.line1_106
  try dsimp only at *
  repeat same_step

theorem Engine.process_block_small.line1_107_same (cfg : Cfg) {w w₂ : List (BitVec 32)} (hw : Len w w₂) : ∀ s t, Engine.process_block_small.Alike1 s t →
    Tr.SameSeen Engine.process_block_small.Alike1 (Engine.process_block_small.line1_107 cfg w s) (Engine.process_block_small.line1_107 cfg w₂ t) := by
  rintro ⟨_, _⟩ ⟨_, _⟩ ⟨h0, h1⟩
  unfold Engine.process_block_small.line1_107
  try dsimp only at *
  repeat same_step

theorem Engine.process_block_small.line1_108_same (cfg : Cfg) {w w₂ : List (BitVec 32)} (hw : Len w w₂) : ∀ s t, Engine.process_block_small.Alike1 s t →
    Tr.SameSeen Engine.process_block_small.Alike1 (Engine.process_block_small.line1_108 cfg w s) (Engine.process_block_small.line1_108 cfg w₂ t) := by
  rintro ⟨_, _⟩ ⟨_, _⟩ ⟨h0, h1⟩
  unfold Engine.process_block_small.line1_108
  try dsimp only at *
  repeat same_step

theorem Engine.process_block_small.line1_109_same (cfg : Cfg) {w w₂ : List (BitVec 32)} (hw : Len w w₂) : ∀ s t, Engine.process_block_small.Alike1 s t →
    Tr.SameSeen Engine.process_block_small.Alike1 (Engine.process_block_small.line1_109 cfg w s) (Engine.process_block_small.line1_109 cfg w₂ t) := by
  rintro ⟨_, _⟩ ⟨_, _⟩ ⟨h0, h1⟩
  unfold Engine.process_block_small.line1_109
  try dsimp only at *
  repeat same_step

theorem Engine.process_block_small.line1_110_same (cfg : Cfg) {w w₂ : List (BitVec 32)} (hw : Len w w₂) : ∀ s t, Engine.process_block_small.Alike1 s t →
    Tr.SameSeen Engine.process_block_small.Alike1 (Engine.process_block_small.line1_110 cfg w s) (Engine.process_block_small.line1_110 cfg w₂ t) := by
  rintro ⟨_, _⟩ ⟨_, _⟩ ⟨h0, h1⟩
  unfold Engine.process_block_small.line1_110
  try dsimp only at *
  repeat same_step

theorem Engine.process_block_small.line1_111_same (cfg : Cfg) {w w₂ : List (BitVec 32)} (hw : Len w w₂) : ∀ s t, Engine.process_block_small.Alike1 s t →
    Tr.SameSeen Engine.process_block_small.Alike1 (Engine.process_block_small.line1_111 cfg w s) (Engine.process_block_small.line1_111 cfg w₂ t) := by
  rintro ⟨_, _⟩ ⟨_, _⟩ ⟨h0, h1⟩
  unfold Engine.process_block_small.line1_111
  try dsimp only at *
  repeat same_step

theorem Engine.process_block_small.line1_112_same (cfg : Cfg) {w w₂ : List (BitVec 32)} (hw : Len w w₂) : ∀ s t, Engine.process_block_small.Alike1 s t →
    Tr.SameSeen Engine.process_block_small.Alike1 (Engine.process_block_small.line1_112 cfg w s) (Engine.process_block_small.line1_112 cfg w₂ t) := by
  rintro ⟨_, _⟩ ⟨_, _⟩ ⟨h0, h1⟩
  unfold Engine.process_block_small.line1_112
  try dsimp only at *
  repeat same_step

theorem Engine.process_block_small.line1_113_same (cfg : Cfg) {w w₂ : List (BitVec 32)} (hw : Len w w₂) : ∀ s t, Engine.process_block_small.Alike1 s t →
    Tr.SameSeen Engine.process_block_small.Alike1 (Engine.process_block_small.line1_113 cfg w s) (Engine.process_block_small.line1_113 cfg w₂ t) := by
  rintro ⟨_, _⟩ ⟨_, _⟩ ⟨h0, h1⟩
  unfold Engine.process_block_small.line1_113
  try dsimp only at *
  repeat same_step

theorem Engine.process_block_small.line1_114_same (cfg : Cfg) {w w₂ : List (BitVec 32)} (hw : Len w w₂) : ∀ s t, Engine.process_block_small.Alike1 s t →
    Tr.SameSeen Engine.process_block_small.Alike1 (Engine.process_block_small.line1_114 cfg w s) (Engine.process_block_small.line1_114 cfg w₂ t) := by
  rintro ⟨_, _⟩ ⟨_, _⟩ ⟨h0, h1⟩
  unfold Engine.process_block_small.line1_114
  try dsimp only at *
  repeat same_step

theorem Engine.process_block_small.line1_115_same (cfg : Cfg) {w w₂ : List (BitVec 32)} (hw : Len w w₂) : ∀ s t, Engine.process_block_small.Alike1 s t →
    Tr.SameSeen Engine.process_block_small.Alike1 (Engine.process_block_small.line1_115 cfg w s) (Engine.process_block_small.line1_115 cfg w₂ t) := by
  rintro ⟨_, _⟩ ⟨_, _⟩ ⟨h0, h1⟩
  unfold Engine.process_block_small.line1_115
  try dsimp only at *
  repeat same_step

theorem Engine.process_block_small.line1_116_same (cfg : Cfg) {w w₂ : List (BitVec 32)} (hw : Len w w₂) : ∀ s t, Engine.process_block_small.Alike1 s t →
    Tr.SameSeen Engine.process_block_small.Alike1 (Engine.process_block_small.line1_116 cfg w s) (Engine.process_block_small.line1_116 cfg w₂ t) := by
  rintro ⟨_, _⟩ ⟨_, _⟩ ⟨h0, h1⟩
  unfold Engine.process_block_small.line1_116
  try dsimp only at *
  repeat same_step

theorem Engine.process_block_small.line1_117_same (cfg : Cfg) {w w₂ : List (BitVec 32)} (hw : Len w w₂) : ∀ s t, Engine.process_block_small.Alike1 s t →
    Tr.SameSeen Engine.process_block_small.Alike1 (Engine.process_block_small.line1_117 cfg w s) (Engine.process_block_small.line1_117 cfg w₂ t) := by
  rintro ⟨_, _⟩ ⟨_, _⟩ ⟨h0, h1⟩
  unfold Engine.process_block_small.line1_117
  try dsimp only at *
  repeat same_step

theorem Engine.process_block_small.line1_118_same (cfg : Cfg) {w w₂ : List (BitVec 32)} (hw : Len w w₂) : ∀ s t, Engine.process_block_small.Alike1 s t →
    Tr.SameSeen Engine.process_block_small.Alike1 (Engine.process_block_small.line1_118 cfg w s) (Engine.process_block_small.line1_118 cfg w₂ t) := by
  rintro ⟨_, _⟩ ⟨_, _⟩ ⟨h0, h1⟩
  unfold Engine.process_block_small.line1_118
  try dsimp only at *
  repeat same_step

theorem Engine.process_block_small.line1_119_same (cfg : Cfg) {w w₂ : List (BitVec 32)} (hw : Len w w₂) : ∀ s t, Engine.process_block_small.Alike1 s t →
    Tr.SameSeen Engine.process_block_small.Alike1 (Engine.process_block_small.line1_119 cfg w s) (Engine.process_block_small.line1_119 cfg w₂ t) := by
  rintro ⟨_, _⟩ ⟨_, _⟩ ⟨h0, h1⟩
  unfold Engine.process_block_small.line1_119
  try dsimp only at *
  repeat same_step

theorem Engine.process_block_small.line1_120_same (cfg : Cfg) {w w₂ : List (BitVec 32)} (hw : Len w w₂) : ∀ s t, Engine.process_block_small.Alike1 s t →
    Tr.SameSeen Engine.process_block_small.Alike1 (Engine.process_block_small.line1_120 cfg w s) (Engine.process_block_small.line1_120 cfg w₂ t) := by
  rintro ⟨_, _⟩ ⟨_, _⟩ ⟨h0, h1⟩
  unfold Engine.process_block_small.line1_120
  try dsimp only at *
  repeat same_step

theorem Engine.process_block_small.line1_121_same (cfg : Cfg) {w w₂ : List (BitVec 32)} (hw : Len w w₂) : ∀ s t, Engine.process_block_small.Alike1 s t →
    Tr.SameSeen Engine.process_block_small.Alike1 (Engine.process_block_small.line1_121 cfg w s) (Engine.process_block_small.line1_121 cfg w₂ t) := by
  rintro ⟨_, _⟩ ⟨_, _⟩ ⟨h0, h1⟩
  unfold Engine.process_block_small.line1_121
  try dsimp only at *
  repeat same_step

theorem Engine.process_block_small.line1_122_same (cfg : Cfg) {w w₂ : List (BitVec 32)} (hw : Len w w₂) : ∀ s t, Engine.process_block_small.Alike1 s t →
    Tr.SameSeen Engine.process_block_small.Alike1 (Engine.process_block_small.line1_122 cfg w s) (Engine.process_block_small.line1_122 cfg w₂ t) := by
  rintro ⟨_, _⟩ ⟨_, _⟩ ⟨h0, h1⟩
  unfold Engine.process_block_small.line1_122
  try dsimp only at *
  repeat same_step

theorem Engine.process_block_small.line1_123_same (cfg : Cfg) {w w₂ : List (BitVec 32)} (hw : Len w w₂) : ∀ s t, Engine.process_block_small.Alike1 s t →
    Tr.SameSeen Engine.process_block_small.Alike1 (Engine.process_block_small.line1_123 cfg w s) (Engine.process_block_small.line1_123 cfg w₂ t) := by
  rintro ⟨_, _⟩ ⟨_, _⟩ ⟨h0, h1⟩
  unfold Engine.process_block_small.line1_123
  try dsimp only at *
  repeat same_step

theorem Engine.process_block_small.line1_124_same (cfg : Cfg) {w w₂ : List (BitVec 32)} (hw : Len w w₂) : ∀ s t, Engine.process_block_small.Alike1 s t →
    Tr.SameSeen Engine.process_block_small.Alike1 (Engine.process_block_small.line1_124 cfg w s) (Engine.process_block_small.line1_124 cfg w₂ t) := by
  rintro ⟨_, _⟩ ⟨_, _⟩ ⟨h0, h1⟩
  unfold Engine.process_block_small.line1_124
  try dsimp only at *
  repeat same_step

theorem Engine.process_block_small.line1_125_same (cfg : Cfg) {w w₂ : List (BitVec 32)} (hw : Len w w₂) : ∀ s t, Engine.process_block_small.Alike1 s t →
    Tr.SameSeen Engine.process_block_small.Alike1 (Engine.process_block_small.line1_125 cfg w s) (Engine.process_block_small.line1_125 cfg w₂ t) := by
  rintro ⟨_, _⟩ ⟨_, _⟩ ⟨h0, h1⟩
  unfold Engine.process_block_small.line1_125
  try dsimp only at *
  repeat same_step

theorem Engine.process_block_small.line1_126_same (cfg : Cfg) {w w₂ : List (BitVec 32)} (hw : Len w w₂) : ∀ s t, Engine.process_block_small.Alike1 s t →
    Tr.SameSeen Engine.process_block_small.Alike1 (Engine.process_block_small.line1_126 cfg w s) (Engine.process_block_small.line1_126 cfg w₂ t) := by
  rintro ⟨_, _⟩ ⟨_, _⟩ ⟨h0, h1⟩
  unfold Engine.process_block_small.line1_126
  try dsimp only at *
  repeat same_step

theorem Engine.process_block_small.line1_127_same (cfg : Cfg) {w w₂ : List (BitVec 32)} (hw : Len w w₂) : ∀ s t, Engine.process_block_small.Alike1 s t →
    Tr.SameSeen Engine.process_block_small.Alike1 (Engine.process_block_small.line1_127 cfg w s) (Engine.process_block_small.line1_127 cfg w₂ t) := by
  rintro ⟨_, _⟩ ⟨_, _⟩ ⟨h0, h1⟩
  unfold Engine.process_block_small.line1_127
  try dsimp only at *
  repeat same_step

theorem Engine.process_block_small.line1_128_same (cfg : Cfg) {w w₂ : List (BitVec 32)} (hw : Len w w₂) : ∀ s t, Engine.process_block_small.Alike1 s t →
    Tr.SameSeen Engine.process_block_small.Alike1 (Engine.process_block_small.line1_128 cfg w s) (Engine.process_block_small.line1_128 cfg w₂ t) := by
  rintro ⟨_, _⟩ ⟨_, _⟩ ⟨h0, h1⟩
  unfold Engine.process_block_small.line1_128
  try dsimp only at *
  repeat same_step

theorem Engine.process_block_small.line1_129_same (cfg : Cfg) {w w₂ : List (BitVec 32)} (hw : Len w w₂) : ∀ s t, Engine.process_block_small.Alike1 s t →
    Tr.SameSeen Engine.process_block_small.Alike1 (Engine.process_block_small.line1_129 cfg w s) (Engine.process_block_small.line1_129 cfg w₂ t) := by
  rintro ⟨_, _⟩ ⟨_, _⟩ ⟨h0, h1⟩
  unfold Engine.process_block_small.line1_129
  try dsimp only at *
  repeat same_step

theorem Engine.process_block_small.line1_130_same (cfg : Cfg) {w w₂ : List (BitVec 32)} (hw : Len w w₂) : ∀ s t, Engine.process_block_small.Alike1 s t →
    Tr.SameSeen Engine.process_block_small.Alike1 (Engine.process_block_small.line1_130 cfg w s) (Engine.process_block_small.line1_130 cfg w₂ t) := by
  rintro ⟨_, _⟩ ⟨_, _⟩ ⟨h0, h1⟩
  unfold Engine.process_block_small.line1_130
  try dsimp only at *
  repeat same_step

theorem Engine.process_block_small.line1_131_same (cfg : Cfg) {w w₂ : List (BitVec 32)} (hw : Len w w₂) : ∀ s t, Engine.process_block_small.Alike1 s t →
    Tr.SameSeen Engine.process_block_small.Alike1 (Engine.process_block_small.line1_131 cfg w s) (Engine.process_block_small.line1_131 cfg w₂ t) := by
  rintro ⟨_, _⟩ ⟨_, _⟩ ⟨h0, h1⟩
  unfold Engine.process_block_small.line1_131
  try dsimp only at *
  repeat same_step

theorem Engine.process_block_small.line1_132_same (cfg : Cfg) {w w₂ : List (BitVec 32)} (hw : Len w w₂) : ∀ s t, Engine.process_block_small.Alike1 s t →
    Tr.SameSeen Engine.process_block_small.Alike1 (Engine.process_block_small.line1_132 cfg w s) (Engine.process_block_small.line1_132 cfg w₂ t) := by
  rintro ⟨_, _⟩ ⟨_, _⟩ ⟨h0, h1⟩
  unfold Engine.process_block_small.line1_132
  try dsimp only at *
  repeat same_step

theorem Engine.process_block_small.line1_133_same (cfg : Cfg) {w w₂ : List (BitVec 32)} (hw : Len w w₂) : ∀ s t, Engine.process_block_small.Alike1 s t →
    Tr.SameSeen Engine.process_block_small.Alike1 (Engine.process_block_small.line1_133 cfg w s) (Engine.process_block_small.line1_133 cfg w₂ t) := by
  rintro ⟨_, _⟩ ⟨_, _⟩ ⟨h0, h1⟩
  unfold Engine.process_block_small.line1_133
  try dsimp only at *
  repeat same_step

theorem Engine.process_block_small.line1_134_same (cfg : Cfg) {w w₂ : List (BitVec 32)} (hw : Len w w₂) : ∀ s t, Engine.process_block_small.Alike1 s t →
    Tr.SameSeen Engine.process_block_small.Alike1 (Engine.process_block_small.line1_134 cfg w s) (Engine.process_block_small.line1_134 cfg w₂ t) := by
  rintro ⟨_, _⟩ ⟨_, _⟩ ⟨h0, h1⟩
  unfold Engine.process_block_small.line1_134
  try dsimp only at *
  repeat same_step

theorem Engine.process_block_small.line1_135_same (cfg : Cfg) {w w₂ : List (BitVec 32)} (hw : Len w w₂) : ∀ s t, Engine.process_block_small.Alike1 s t →
    Tr.SameSeen Engine.process_block_small.Alike1 (Engine.process_block_small.line1_135 cfg w s) (Engine.process_block_small.line1_135 cfg w₂ t) := by
  rintro ⟨_, _⟩ ⟨_, _⟩ ⟨h0, h1⟩
  unfold Engine.process_block_small.line1_135
  try dsimp only at *
  repeat same_step

theorem Engine.process_block_small.line1_136_same (cfg : Cfg) {w w₂ : List (BitVec 32)} (hw : Len w w₂) : ∀ s t, Engine.process_block_small.Alike1 s t →
    Tr.SameSeen Engine.process_block_small.Alike1 (Engine.process_block_small.line1_136 cfg w s) (Engine.process_block_small.line1_136 cfg w₂ t) := by
  rintro ⟨_, _⟩ ⟨_, _⟩ ⟨h0, h1⟩
  unfold Engine.process_block_small.line1_136
  try dsimp only at *
  repeat same_step

theorem Engine.process_block_small.line1_137_same (cfg : Cfg) {w w₂ : List (BitVec 32)} (hw : Len w w₂) : ∀ s t, Engine.process_block_small.Alike1 s t →
    Tr.SameSeen Engine.process_block_small.Alike1 (Engine.process_block_small.line1_137 cfg w s) (Engine.process_block_small.line1_137 cfg w₂ t) := by
  rintro ⟨_, _⟩ ⟨_, _⟩ ⟨h0, h1⟩
  unfold Engine.process_block_small.line1_137
  try dsimp only at *
  repeat same_step

theorem Engine.process_block_small.line1_138_same (cfg : Cfg) {w w₂ : List (BitVec 32)} (hw : Len w w₂) : ∀ s t, Engine.process_block_small.Alike1 s t →
    Tr.SameSeen Engine.process_block_small.Alike1 (Engine.process_block_small.line1_138 cfg w s) (Engine.process_block_small.line1_138 cfg w₂ t) := by
  rintro ⟨_, _⟩ ⟨_, _⟩ ⟨h0, h1⟩
  unfold Engine.process_block_small.line1_138
  try dsimp only at *
  repeat same_step

theorem Engine.process_block_small.line1_139_same (cfg : Cfg) {w w₂ : List (BitVec 32)} (hw : Len w w₂) : ∀ s t, Engine.process_block_small.Alike1 s t →
    Tr.SameSeen Engine.process_block_small.Alike1 (Engine.process_block_small.line1_139 cfg w s) (Engine.process_block_small.line1_139 cfg w₂ t) := by
  rintro ⟨_, _⟩ ⟨_, _⟩ ⟨h0, h1⟩
  unfold Engine.process_block_small.line1_139
  try dsimp only at *
  repeat same_step

theorem Engine.process_block_small.line1_140_same (cfg : Cfg) {w w₂ : List (BitVec 32)} (hw : Len w w₂) : ∀ s t, Engine.process_block_small.Alike1 s t →
    Tr.SameSeen Engine.process_block_small.Alike1 (Engine.process_block_small.line1_140 cfg w s) (Engine.process_block_small.line1_140 cfg w₂ t) := by
  rintro ⟨_, _⟩ ⟨_, _⟩ ⟨h0, h1⟩
  unfold Engine.process_block_small.line1_140
  try dsimp only at *
  repeat same_step

theorem Engine.process_block_small.line1_141_same (cfg : Cfg) {w w₂ : List (BitVec 32)} (hw : Len w w₂) : ∀ s t, Engine.process_block_small.Alike1 s t →
    Tr.SameSeen Engine.process_block_small.Alike1 (Engine.process_block_small.line1_141 cfg w s) (Engine.process_block_small.line1_141 cfg w₂ t) := by
  rintro ⟨_, _⟩ ⟨_, _⟩ ⟨h0, h1⟩
  unfold Engine.process_block_small.line1_141
  try dsimp only at *
  repeat same_step

theorem Engine.process_block_small.line1_142_same (cfg : Cfg) {w w₂ : List (BitVec 32)} (hw : Len w w₂) : ∀ s t, Engine.process_block_small.Alike1 s t →
    Tr.SameSeen Engine.process_block_small.Alike1 (Engine.process_block_small.line1_142 cfg w s) (Engine.process_block_small.line1_142 cfg w₂ t) := by
  rintro ⟨_, _⟩ ⟨_, _⟩ ⟨h0, h1⟩
  unfold Engine.process_block_small.line1_142
  try dsimp only at *
  repeat same_step

theorem Engine.process_block_small.line1_143_same (cfg : Cfg) {w w₂ : List (BitVec 32)} (hw : Len w w₂) : ∀ s t, Engine.process_block_small.Alike1 s t →
    Tr.SameSeen Engine.process_block_small.Alike1 (Engine.process_block_small.line1_143 cfg w s) (Engine.process_block_small.line1_143 cfg w₂ t) := by
  rintro ⟨_, _⟩ ⟨_, _⟩ ⟨h0, h1⟩
  unfold Engine.process_block_small.line1_143
  try dsimp only at *
  repeat same_step

theorem Engine.process_block_small.line1_144_same (cfg : Cfg) {w w₂ : List (BitVec 32)} (hw : Len w w₂) : ∀ s t, Engine.process_block_small.Alike1 s t →
    Tr.SameSeen Engine.process_block_small.Alike1 (Engine.process_block_small.line1_144 cfg w s) (Engine.process_block_small.line1_144 cfg w₂ t) := by
  rintro ⟨_, _⟩ ⟨_, _⟩ ⟨h0, h1⟩
  unfold Engine.process_block_small.line1_144
  try dsimp only at *
  repeat same_step

theorem Engine.process_block_small.line1_145_same (cfg : Cfg) {w w₂ : List (BitVec 32)} (hw : Len w w₂) : ∀ s t, Engine.process_block_small.Alike1 s t →
    Tr.SameSeen Engine.process_block_small.Alike1 (Engine.process_block_small.line1_145 cfg w s) (Engine.process_block_small.line1_145 cfg w₂ t) := by
  rintro ⟨_, _⟩ ⟨_, _⟩ ⟨h0, h1⟩
  unfold Engine.process_block_small.line1_145
  try dsimp only at *
  repeat same_step

theorem Engine.process_block_small.line1_146_same (cfg : Cfg) {w w₂ : List (BitVec 32)} (hw : Len w w₂) : ∀ s t, Engine.process_block_small.Alike1 s t →
    Tr.SameSeen Engine.process_block_small.Alike1 (Engine.process_block_small.line1_146 cfg w s) (Engine.process_block_small.line1_146 cfg w₂ t) := by
  rintro ⟨_, _⟩ ⟨_, _⟩ ⟨h0, h1⟩
  unfold Engine.process_block_small.line1_146
  try dsimp only at *
  repeat same_step

theorem Engine.process_block_small.line1_147_same (cfg : Cfg) {w w₂ : List (BitVec 32)} (hw : Len w w₂) : ∀ s t, Engine.process_block_small.Alike1 s t →
    Tr.SameSeen Engine.process_block_small.Alike1 (Engine.process_block_small.line1_147 cfg w s) (Engine.process_block_small.line1_147 cfg w₂ t) := by
  rintro ⟨_, _⟩ ⟨_, _⟩ ⟨h0, h1⟩
  unfold Engine.process_block_small.line1_147
  try dsimp only at *
  repeat same_step

theorem Engine.process_block_small.line1_148_same (cfg : Cfg) {w w₂ : List (BitVec 32)} (hw : Len w w₂) : ∀ s t, Engine.process_block_small.Alike1 s t →
    Tr.SameSeen Engine.process_block_small.Alike1 (Engine.process_block_small.line1_148 cfg w s) (Engine.process_block_small.line1_148 cfg w₂ t) := by
  rintro ⟨_, _⟩ ⟨_, _⟩ ⟨h0, h1⟩
  unfold Engine.process_block_small.line1_148
  try dsimp only at *
  repeat same_step

theorem Engine.process_block_small.line1_149_same (cfg : Cfg) {w w₂ : List (BitVec 32)} (hw : Len w w₂) : ∀ s t, Engine.process_block_small.Alike1 s t →
    Tr.SameSeen Engine.process_block_small.Alike1 (Engine.process_block_small.line1_149 cfg w s) (Engine.process_block_small.line1_149 cfg w₂ t) := by
  rintro ⟨_, _⟩ ⟨_, _⟩ ⟨h0, h1⟩
  unfold Engine.process_block_small.line1_149
  try dsimp only at *
  repeat same_step

theorem Engine.process_block_small.line1_150_same (cfg : Cfg) {w w₂ : List (BitVec 32)} (hw : Len w w₂) : ∀ s t, Engine.process_block_small.Alike1 s t →
    Tr.SameSeen Engine.process_block_small.Alike1 (Engine.process_block_small.line1_150 cfg w s) (Engine.process_block_small.line1_150 cfg w₂ t) := by
  rintro ⟨_, _⟩ ⟨_, _⟩ ⟨h0, h1⟩
  unfold Engine.process_block_small.line1_150
  try dsimp only at *
  repeat same_step

theorem Engine.process_block_small.line1_151_same (cfg : Cfg) {w w₂ : List (BitVec 32)} (hw : Len w w₂) : ∀ s t, Engine.process_block_small.Alike1 s t →
    Tr.SameSeen Engine.process_block_small.Alike1 (Engine.process_block_small.line1_151 cfg w s) (Engine.process_block_small.line1_151 cfg w₂ t) := by
  rintro ⟨_, _⟩ ⟨_, _⟩ ⟨h0, h1⟩
  unfold Engine.process_block_small.line1_151
  try dsimp only at *
  repeat same_step

theorem Engine.process_block_small.line1_152_same (cfg : Cfg) {w w₂ : List (BitVec 32)} (hw : Len w w₂) : ∀ s t, Engine.process_block_small.Alike1 s t →
    Tr.SameSeen Engine.process_block_small.Alike1 (Engine.process_block_small.line1_152 cfg w s) (Engine.process_block_small.line1_152 cfg w₂ t) := by
  rintro ⟨_, _⟩ ⟨_, _⟩ ⟨h0, h1⟩
  unfold Engine.process_block_small.line1_152
  try dsimp only at *
  repeat same_step

theorem Engine.process_block_small.line1_153_same (cfg : Cfg) {w w₂ : List (BitVec 32)} (hw : Len w w₂) : ∀ s t, Engine.process_block_small.Alike1 s t →
    Tr.SameSeen Engine.process_block_small.Alike1 (Engine.process_block_small.line1_153 cfg w s) (Engine.process_block_small.line1_153 cfg w₂ t) := by
  rintro ⟨_, _⟩ ⟨_, _⟩ ⟨h0, h1⟩
  unfold Engine.process_block_small.line1_153
  try dsimp only at *
  repeat same_step

theorem Engine.process_block_small.line1_154_same (cfg : Cfg) {w w₂ : List (BitVec 32)} (hw : Len w w₂) : ∀ s t, Engine.process_block_small.Alike1 s t →
    Tr.SameSeen Engine.process_block_small.Alike1 (Engine.process_block_small.line1_154 cfg w s) (Engine.process_block_small.line1_154 cfg w₂ t) := by
  rintro ⟨_, _⟩ ⟨_, _⟩ ⟨h0, h1⟩
  unfold Engine.process_block_small.line1_154
  try dsimp only at *
  repeat same_step

theorem Engine.process_block_small.line1_155_same (cfg : Cfg) {w w₂ : List (BitVec 32)} (hw : Len w w₂) : ∀ s t, Engine.process_block_small.Alike1 s t →
    Tr.SameSeen Engine.process_block_small.Alike1 (Engine.process_block_small.line1_155 cfg w s) (Engine.process_block_small.line1_155 cfg w₂ t) := by
  rintro ⟨_, _⟩ ⟨_, _⟩ ⟨h0, h1⟩
  unfold Engine.process_block_small.line1_155
  try dsimp only at *
  repeat same_step

theorem Engine.process_block_small.line1_156_same (cfg : Cfg) {w w₂ : List (BitVec 32)} (hw : Len w w₂) : ∀ s t, Engine.process_block_small.Alike1 s t →
    Tr.SameSeen Engine.process_block_small.Alike1 (Engine.process_block_small.line1_156 cfg w s) (Engine.process_block_small.line1_156 cfg w₂ t) := by
  rintro ⟨_, _⟩ ⟨_, _⟩ ⟨h0, h1⟩
  unfold Engine.process_block_small.line1_156
  try dsimp only at *
  repeat same_step

theorem Engine.process_block_small.line1_157_same (cfg : Cfg) {w w₂ : List (BitVec 32)} (hw : Len w w₂) : ∀ s t, Engine.process_block_small.Alike1 s t →
    Tr.SameSeen Engine.process_block_small.Alike1 (Engine.process_block_small.line1_157 cfg w s) (Engine.process_block_small.line1_157 cfg w₂ t) := by
  rintro ⟨_, _⟩ ⟨_, _⟩ ⟨h0, h1⟩
  unfold Engine.process_block_small.line1_157
  try dsimp only at *
  repeat same_step

theorem Engine.process_block_small.line1_158_same (cfg : Cfg) {w w₂ : List (BitVec 32)} (hw : Len w w₂) : ∀ s t, Engine.process_block_small.Alike1 s t →
    Tr.SameSeen Engine.process_block_small.Alike1 (Engine.process_block_small.line1_158 cfg w s) (Engine.process_block_small.line1_158 cfg w₂ t) := by
  rintro ⟨_, _⟩ ⟨_, _⟩ ⟨h0, h1⟩
  unfold Engine.process_block_small.line1_158
  try dsimp only at *
  repeat same_step

theorem Engine.process_block_small.line1_159_same (cfg : Cfg) {w w₂ : List (BitVec 32)} (hw : Len w w₂) : ∀ s t, Engine.process_block_small.Alike1 s t →
    Tr.SameSeen Engine.process_block_small.Alike1 (Engine.process_block_small.line1_159 cfg w s) (Engine.process_block_small.line1_159 cfg w₂ t) := by
  rintro ⟨_, _⟩ ⟨_, _⟩ ⟨h0, h1⟩
  unfold Engine.process_block_small.line1_159
  try dsimp only at *
  repeat same_step

set_option maxRecDepth 10000 in
theorem Engine.process_block_small.lines1_same (cfg : Cfg) {w w₂ : List (BitVec 32)} (hw : Len w w₂) :
    Tr.SameSeen.Each (fun f g => ∀ s t, Engine.process_block_small.Alike1 s t → Tr.SameSeen Engine.process_block_small.Alike1 (f s) (g t))
      (Engine.process_block_small.lines1 cfg w) (Engine.process_block_small.lines1 cfg w₂) :=
  ⟨Engine.process_block_small.line1_0_same cfg hw,
   Engine.process_block_small.line1_1_same cfg hw,
   Engine.process_block_small.line1_2_same cfg hw,
   Engine.process_block_small.line1_3_same cfg hw,
   Engine.process_block_small.line1_4_same cfg hw,
   Engine.process_block_small.line1_5_same cfg hw,
   Engine.process_block_small.line1_6_same cfg hw,
   Engine.process_block_small.line1_7_same cfg hw,
   Engine.process_block_small.line1_8_same cfg hw,
   Engine.process_block_small.line1_9_same cfg hw,
   Engine.process_block_small.line1_10_same cfg hw,
   Engine.process_block_small.line1_11_same cfg hw,
   Engine.process_block_small.line1_12_same cfg hw,
   Engine.process_block_small.line1_13_same cfg hw,
   Engine.process_block_small.line1_14_same cfg hw,
   Engine.process_block_small.line1_15_same cfg hw,
   Engine.process_block_small.line1_16_same cfg hw,
   Engine.process_block_small.line1_17_same cfg hw,
   Engine.process_block_small.line1_18_same cfg hw,
   Engine.process_block_small.line1_19_same cfg hw,
   Engine.process_block_small.line1_20_same cfg hw,
   Engine.process_block_small.line1_21_same cfg hw,
   Engine.process_block_small.line1_22_same cfg hw,
   Engine.process_block_small.line1_23_same cfg hw,
   Engine.process_block_small.line1_24_same cfg hw,
   Engine.process_block_small.line1_25_same cfg hw,
   Engine.process_block_small.line1_26_same cfg hw,
   Engine.process_block_small.line1_27_same cfg hw,
   Engine.process_block_small.line1_28_same cfg hw,
   Engine.process_block_small.line1_29_same cfg hw,
   Engine.process_block_small.line1_30_same cfg hw,
   Engine.process_block_small.line1_31_same cfg hw,
   Engine.process_block_small.line1_32_same cfg hw,
   Engine.process_block_small.line1_33_same cfg hw,
   Engine.process_block_small.line1_34_same cfg hw,
   Engine.process_block_small.line1_35_same cfg hw,
   Engine.process_block_small.line1_36_same cfg hw,
   Engine.process_block_small.line1_37_same cfg hw,
   Engine.process_block_small.line1_38_same cfg hw,
   Engine.process_block_small.line1_39_same cfg hw,
   Engine.process_block_small.line1_40_same cfg hw,
   Engine.process_block_small.line1_41_same cfg hw,
   Engine.process_block_small.line1_42_same cfg hw,
   Engine.process_block_small.line1_43_same cfg hw,
   Engine.process_block_small.line1_44_same cfg hw,
   Engine.process_block_small.line1_45_same cfg hw,
   Engine.process_block_small.line1_46_same cfg hw,
   Engine.process_block_small.line1_47_same cfg hw,
   Engine.process_block_small.line1_48_same cfg hw,
   Engine.process_block_small.line1_49_same cfg hw,
   Engine.process_block_small.line1_50_same cfg hw,
   Engine.process_block_small.line1_51_same cfg hw,
   Engine.process_block_small.line1_52_same cfg hw,
   Engine.process_block_small.line1_53_same cfg hw,
   Engine.process_block_small.line1_54_same cfg hw,
   Engine.process_block_small.line1_55_same cfg hw,
   Engine.process_block_small.line1_56_same cfg hw,
   Engine.process_block_small.line1_57_same cfg hw,
   Engine.process_block_small.line1_58_same cfg hw,
   Engine.process_block_small.line1_59_same cfg hw,
   Engine.process_block_small.line1_60_same cfg hw,
   Engine.process_block_small.line1_61_same cfg hw,
   Engine.process_block_small.line1_62_same cfg hw,
   Engine.process_block_small.line1_63_same cfg hw,
   Engine.process_block_small.line1_64_same cfg hw,
   Engine.process_block_small.line1_65_same cfg hw,
   Engine.process_block_small.line1_66_same cfg hw,
   Engine.process_block_small.line1_67_same cfg hw,
   Engine.process_block_small.line1_68_same cfg hw,
   Engine.process_block_small.line1_69_same cfg hw,
   Engine.process_block_small.line1_70_same cfg hw,
   Engine.process_block_small.line1_71_same cfg hw,
   Engine.process_block_small.line1_72_same cfg hw,
   Engine.process_block_small.line1_73_same cfg hw,
   Engine.process_block_small.line1_74_same cfg hw,
   Engine.process_block_small.line1_75_same cfg hw,
   Engine.process_block_small.line1_76_same cfg hw,
   Engine.process_block_small.line1_77_same cfg hw,
   Engine.process_block_small.line1_78_same cfg hw,
   Engine.process_block_small.line1_79_same cfg hw,
   Engine.process_block_small.line1_80_same cfg hw,
   Engine.process_block_small.line1_81_same cfg hw,
   Engine.process_block_small.line1_82_same cfg hw,
   Engine.process_block_small.line1_83_same cfg hw,
   Engine.process_block_small.line1_84_same cfg hw,
   Engine.process_block_small.line1_85_same cfg hw,
   Engine.process_block_small.line1_86_same cfg hw,
   Engine.process_block_small.line1_87_same cfg hw,
   Engine.process_block_small.line1_88_same cfg hw,
   Engine.process_block_small.line1_89_same cfg hw,
   Engine.process_block_small.line1_90_same cfg hw,
   Engine.process_block_small.line1_91_same cfg hw,
   Engine.process_block_small.line1_92_same cfg hw,
   Engine.process_block_small.line1_93_same cfg hw,
   Engine.process_block_small.line1_94_same cfg hw,
   Engine.process_block_small.line1_95_same cfg hw,
   Engine.process_block_small.line1_96_same cfg hw,
   Engine.process_block_small.line1_97_same cfg hw,
   Engine.process_block_small.line1_98_same cfg hw,
   Engine.process_block_small.line1_99_same cfg hw,
   Engine.process_block_small.line1_100_same cfg hw,
   Engine.process_block_small.line1_101_same cfg hw,
   Engine.process_block_small.line1_102_same cfg hw,
   Engine.process_block_small.line1_103_same cfg hw,
   Engine.process_block_small.line1_104_same cfg hw,
   Engine.process_block_small.line1_105_same cfg hw,
   Engine.process_block_small.line1_106_same cfg hw,
   Engine.process_block_small.line1_107_same cfg hw,
   Engine.process_block_small.line1_108_same cfg hw,
   Engine.process_block_small.line1_109_same cfg hw,
   Engine.process_block_small.line1_110_same cfg hw,
   Engine.process_block_small.line1_111_same cfg hw,
   Engine.process_block_small.line1_112_same cfg hw,
   Engine.process_block_small.line1_113_same cfg hw,
   Engine.process_block_small.line1_114_same cfg hw,
   Engine.process_block_small.line1_115_same cfg hw,
   Engine.process_block_small.line1_116_same cfg hw,
   Engine.process_block_small.line1_117_same cfg hw,
   Engine.process_block_small.line1_118_same cfg hw,
   Engine.process_block_small.line1_119_same cfg hw,
   Engine.process_block_small.line1_120_same cfg hw,
   Engine.process_block_small.line1_121_same cfg hw,
   Engine.process_block_small.line1_122_same cfg hw,
   Engine.process_block_small.line1_123_same cfg hw,
   Engine.process_block_small.line1_124_same cfg hw,
   Engine.process_block_small.line1_125_same cfg hw,
   Engine.process_block_small.line1_126_same cfg hw,
   Engine.process_block_small.line1_127_same cfg hw,
   Engine.process_block_small.line1_128_same cfg hw,
   Engine.process_block_small.line1_129_same cfg hw,
   Engine.process_block_small.line1_130_same cfg hw,
   Engine.process_block_small.line1_131_same cfg hw,
   Engine.process_block_small.line1_132_same cfg hw,
   Engine.process_block_small.line1_133_same cfg hw,
   Engine.process_block_small.line1_134_same cfg hw,
   Engine.process_block_small.line1_135_same cfg hw,
   Engine.process_block_small.line1_136_same cfg hw,
   Engine.process_block_small.line1_137_same cfg hw,
   Engine.process_block_small.line1_138_same cfg hw,
   Engine.process_block_small.line1_139_same cfg hw,
   Engine.process_block_small.line1_140_same cfg hw,
   Engine.process_block_small.line1_141_same cfg hw,
   Engine.process_block_small.line1_142_same cfg hw,
   Engine.process_block_small.line1_143_same cfg hw,
   Engine.process_block_small.line1_144_same cfg hw,
   Engine.process_block_small.line1_145_same cfg hw,
   Engine.process_block_small.line1_146_same cfg hw,
   Engine.process_block_small.line1_147_same cfg hw,
   Engine.process_block_small.line1_148_same cfg hw,
   Engine.process_block_small.line1_149_same cfg hw,
   Engine.process_block_small.line1_150_same cfg hw,
   Engine.process_block_small.line1_151_same cfg hw,
   Engine.process_block_small.line1_152_same cfg hw,
   Engine.process_block_small.line1_153_same cfg hw,
   Engine.process_block_small.line1_154_same cfg hw,
   Engine.process_block_small.line1_155_same cfg hw,
   Engine.process_block_small.line1_156_same cfg hw,
   Engine.process_block_small.line1_157_same cfg hw,
   Engine.process_block_small.line1_158_same cfg hw,
   Engine.process_block_small.line1_159_same cfg hw, trivial⟩

set_option maxRecDepth 10000 in
theorem Engine.process_block_small.lines1_res (cfg : Cfg) (w : List (BitVec 32)) :
    (Engine.process_block_small.lines1 cfg w).map (fun f s => (f s).res) = Source.Ripemd160.Engine.process_block_small.lines1 cfg w := rfl

end Chf.Seen.Ripemd160
