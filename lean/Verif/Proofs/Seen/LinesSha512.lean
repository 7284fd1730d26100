/- Generated by tools/rust2lean.py; do not edit. -/
import Verif.Seen.Sha512
import Verif.Proofs.Seen.Tactic

/-! The numbered statements of the translated text: what is seen of each does not depend on the
contents of words and arrays, and it computes what the translated statement computes. -/

namespace Chf.Seen.Sha512
open Chf

/-- The states of these statements are alike. -/
abbrev Engine.process_block_fast.Alike1 :=
  fun s t : Source.Sha512.Engine.process_block_fast.State1 => Len s.1 t.1

theorem Engine.process_block_fast.line1_0_same (cfg : Cfg) : ∀ s t, Engine.process_block_fast.Alike1 s t →
    Tr.SameSeen Engine.process_block_fast.Alike1 (Engine.process_block_fast.line1_0 cfg s) (Engine.process_block_fast.line1_0 cfg t) := by
  rintro ⟨_, _, _, _, _, _, _, _, _⟩ ⟨_, _, _, _, _, _, _, _, _⟩ h
  unfold Engine.process_block_fast.line1_0
  try dsimp only at *
  repeat same_step

theorem Engine.process_block_fast.line1_1_same (cfg : Cfg) : ∀ s t, Engine.process_block_fast.Alike1 s t →
    Tr.SameSeen Engine.process_block_fast.Alike1 (Engine.process_block_fast.line1_1 cfg s) (Engine.process_block_fast.line1_1 cfg t) := by
  rintro ⟨_, _, _, _, _, _, _, _, _⟩ ⟨_, _, _, _, _, _, _, _, _⟩ h
  unfold Engine.process_block_fast.line1_1
  try dsimp only at *
  repeat same_step

theorem Engine.process_block_fast.line1_2_same (cfg : Cfg) : ∀ s t, Engine.process_block_fast.Alike1 s t →
    Tr.SameSeen Engine.process_block_fast.Alike1 (Engine.process_block_fast.line1_2 cfg s) (Engine.process_block_fast.line1_2 cfg t) := by
  rintro ⟨_, _, _, _, _, _, _, _, _⟩ ⟨_, _, _, _, _, _, _, _, _⟩ h
  unfold Engine.process_block_fast.line1_2
  try dsimp only at *
  repeat same_step

theorem Engine.process_block_fast.line1_3_same (cfg : Cfg) : ∀ s t, Engine.process_block_fast.Alike1 s t →
    Tr.SameSeen Engine.process_block_fast.Alike1 (Engine.process_block_fast.line1_3 cfg s) (Engine.process_block_fast.line1_3 cfg t) := by
  rintro ⟨_, _, _, _, _, _, _, _, _⟩ ⟨_, _, _, _, _, _, _, _, _⟩ h
  unfold Engine.process_block_fast.line1_3
  try dsimp only at *
  repeat same_step

theorem Engine.process_block_fast.line1_4_same (cfg : Cfg) : ∀ s t, Engine.process_block_fast.Alike1 s t →
    Tr.SameSeen Engine.process_block_fast.Alike1 (Engine.process_block_fast.line1_4 cfg s) (Engine.process_block_fast.line1_4 cfg t) := by
  rintro ⟨_, _, _, _, _, _, _, _, _⟩ ⟨_, _, _, _, _, _, _, _, _⟩ h
  unfold Engine.process_block_fast.line1_4
  try dsimp only at *
  repeat same_step

theorem Engine.process_block_fast.line1_5_same (cfg : Cfg) : ∀ s t, Engine.process_block_fast.Alike1 s t →
    Tr.SameSeen Engine.process_block_fast.Alike1 (Engine.process_block_fast.line1_5 cfg s) (Engine.process_block_fast.line1_5 cfg t) := by
  rintro ⟨_, _, _, _, _, _, _, _, _⟩ ⟨_, _, _, _, _, _, _, _, _⟩ h
  unfold Engine.process_block_fast.line1_5
  try dsimp only at *
  repeat same_step

theorem Engine.process_block_fast.line1_6_same (cfg : Cfg) : ∀ s t, Engine.process_block_fast.Alike1 s t →
    Tr.SameSeen Engine.process_block_fast.Alike1 (Engine.process_block_fast.line1_6 cfg s) (Engine.process_block_fast.line1_6 cfg t) := by
  rintro ⟨_, _, _, _, _, _, _, _, _⟩ ⟨_, _, _, _, _, _, _, _, _⟩ h
  unfold Engine.process_block_fast.line1_6
  try dsimp only at *
  repeat same_step

theorem Engine.process_block_fast.line1_7_same (cfg : Cfg) : ∀ s t, Engine.process_block_fast.Alike1 s t →
    Tr.SameSeen Engine.process_block_fast.Alike1 (Engine.process_block_fast.line1_7 cfg s) (Engine.process_block_fast.line1_7 cfg t) := by
  rintro ⟨_, _, _, _, _, _, _, _, _⟩ ⟨_, _, _, _, _, _, _, _, _⟩ h
  unfold Engine.process_block_fast.line1_7
  try dsimp only at *
  repeat same_step

theorem Engine.process_block_fast.line1_8_same (cfg : Cfg) : ∀ s t, Engine.process_block_fast.Alike1 s t →
    Tr.SameSeen Engine.process_block_fast.Alike1 (Engine.process_block_fast.line1_8 cfg s) (Engine.process_block_fast.line1_8 cfg t) := by
  rintro ⟨_, _, _, _, _, _, _, _, _⟩ ⟨_, _, _, _, _, _, _, _, _⟩ h
  unfold Engine.process_block_fast.line1_8
  try dsimp only at *
  repeat same_step

theorem Engine.process_block_fast.line1_9_same (cfg : Cfg) : ∀ s t, Engine.process_block_fast.Alike1 s t →
    Tr.SameSeen Engine.process_block_fast.Alike1 (Engine.process_block_fast.line1_9 cfg s) (Engine.process_block_fast.line1_9 cfg t) := by
  rintro ⟨_, _, _, _, _, _, _, _, _⟩ ⟨_, _, _, _, _, _, _, _, _⟩ h
  unfold Engine.process_block_fast.line1_9
  try dsimp only at *
  repeat same_step

theorem Engine.process_block_fast.line1_10_same (cfg : Cfg) : ∀ s t, Engine.process_block_fast.Alike1 s t →
    Tr.SameSeen Engine.process_block_fast.Alike1 (Engine.process_block_fast.line1_10 cfg s) (Engine.process_block_fast.line1_10 cfg t) := by
  rintro ⟨_, _, _, _, _, _, _, _, _⟩ ⟨_, _, _, _, _, _, _, _, _⟩ h
  unfold Engine.process_block_fast.line1_10
  try dsimp only at *
  repeat same_step

theorem Engine.process_block_fast.line1_11_same (cfg : Cfg) : ∀ s t, Engine.process_block_fast.Alike1 s t →
    Tr.SameSeen Engine.process_block_fast.Alike1 (Engine.process_block_fast.line1_11 cfg s) (Engine.process_block_fast.line1_11 cfg t) := by
  rintro ⟨_, _, _, _, _, _, _, _, _⟩ ⟨_, _, _, _, _, _, _, _, _⟩ h
  unfold Engine.process_block_fast.line1_11
  try dsimp only at *
  repeat same_step

theorem Engine.process_block_fast.line1_12_same (cfg : Cfg) : ∀ s t, Engine.process_block_fast.Alike1 s t →
    Tr.SameSeen Engine.process_block_fast.Alike1 (Engine.process_block_fast.line1_12 cfg s) (Engine.process_block_fast.line1_12 cfg t) := by
  rintro ⟨_, _, _, _, _, _, _, _, _⟩ ⟨_, _, _, _, _, _, _, _, _⟩ h
  unfold Engine.process_block_fast.line1_12
  try dsimp only at *
  repeat same_step

theorem Engine.process_block_fast.line1_13_same (cfg : Cfg) : ∀ s t, Engine.process_block_fast.Alike1 s t →
    Tr.SameSeen Engine.process_block_fast.Alike1 (Engine.process_block_fast.line1_13 cfg s) (Engine.process_block_fast.line1_13 cfg t) := by
  rintro ⟨_, _, _, _, _, _, _, _, _⟩ ⟨_, _, _, _, _, _, _, _, _⟩ h
  unfold Engine.process_block_fast.line1_13
  try dsimp only at *
  repeat same_step

theorem Engine.process_block_fast.line1_14_same (cfg : Cfg) : ∀ s t, Engine.process_block_fast.Alike1 s t →
    Tr.SameSeen Engine.process_block_fast.Alike1 (Engine.process_block_fast.line1_14 cfg s) (Engine.process_block_fast.line1_14 cfg t) := by
  rintro ⟨_, _, _, _, _, _, _, _, _⟩ ⟨_, _, _, _, _, _, _, _, _⟩ h
  unfold Engine.process_block_fast.line1_14
  try dsimp only at *
  repeat same_step

theorem Engine.process_block_fast.line1_15_same (cfg : Cfg) : ∀ s t, Engine.process_block_fast.Alike1 s t →
    Tr.SameSeen Engine.process_block_fast.Alike1 (Engine.process_block_fast.line1_15 cfg s) (Engine.process_block_fast.line1_15 cfg t) := by
  rintro ⟨_, _, _, _, _, _, _, _, _⟩ ⟨_, _, _, _, _, _, _, _, _⟩ h
  unfold Engine.process_block_fast.line1_15
  try dsimp only at *
  repeat same_step

theorem Engine.process_block_fast.line1_16_same (cfg : Cfg) : ∀ s t, Engine.process_block_fast.Alike1 s t →
    Tr.SameSeen Engine.process_block_fast.Alike1 (Engine.process_block_fast.line1_16 cfg s) (Engine.process_block_fast.line1_16 cfg t) := by
  rintro ⟨_, _, _, _, _, _, _, _, _⟩ ⟨_, _, _, _, _, _, _, _, _⟩ h
  unfold Engine.process_block_fast.line1_16
  try dsimp only at *
  repeat same_step

theorem Engine.process_block_fast.line1_17_same (cfg : Cfg) : ∀ s t, Engine.process_block_fast.Alike1 s t →
    Tr.SameSeen Engine.process_block_fast.Alike1 (Engine.process_block_fast.line1_17 cfg s) (Engine.process_block_fast.line1_17 cfg t) := by
  rintro ⟨_, _, _, _, _, _, _, _, _⟩ ⟨_, _, _, _, _, _, _, _, _⟩ h
  unfold Engine.process_block_fast.line1_17
  try dsimp only at *
  repeat same_step

theorem Engine.process_block_fast.line1_18_same (cfg : Cfg) : ∀ s t, Engine.process_block_fast.Alike1 s t →
    Tr.SameSeen Engine.process_block_fast.Alike1 (Engine.process_block_fast.line1_18 cfg s) (Engine.process_block_fast.line1_18 cfg t) := by
  rintro ⟨_, _, _, _, _, _, _, _, _⟩ ⟨_, _, _, _, _, _, _, _, _⟩ h
  unfold Engine.process_block_fast.line1_18
  try dsimp only at *
  repeat same_step

theorem Engine.process_block_fast.line1_19_same (cfg : Cfg) : ∀ s t, Engine.process_block_fast.Alike1 s t →
    Tr.SameSeen Engine.process_block_fast.Alike1 (Engine.process_block_fast.line1_19 cfg s) (Engine.process_block_fast.line1_19 cfg t) := by
  rintro ⟨_, _, _, _, _, _, _, _, _⟩ ⟨_, _, _, _, _, _, _, _, _⟩ h
  unfold Engine.process_block_fast.line1_19
  try dsimp only at *
  repeat same_step

theorem Engine.process_block_fast.line1_20_same (cfg : Cfg) : ∀ s t, Engine.process_block_fast.Alike1 s t →
    Tr.SameSeen Engine.process_block_fast.Alike1 (Engine.process_block_fast.line1_20 cfg s) (Engine.process_block_fast.line1_20 cfg t) := by
  rintro ⟨_, _, _, _, _, _, _, _, _⟩ ⟨_, _, _, _, _, _, _, _, _⟩ h
  unfold Engine.process_block_fast.line1_20
  try dsimp only at *
  repeat same_step

theorem Engine.process_block_fast.line1_21_same (cfg : Cfg) : ∀ s t, Engine.process_block_fast.Alike1 s t →
    Tr.SameSeen Engine.process_block_fast.Alike1 (Engine.process_block_fast.line1_21 cfg s) (Engine.process_block_fast.line1_21 cfg t) := by
  rintro ⟨_, _, _, _, _, _, _, _, _⟩ ⟨_, _, _, _, _, _, _, _, _⟩ h
  unfold Engine.process_block_fast.line1_21
  try dsimp only at *
  repeat same_step

theorem Engine.process_block_fast.line1_22_same (cfg : Cfg) : ∀ s t, Engine.process_block_fast.Alike1 s t →
    Tr.SameSeen Engine.process_block_fast.Alike1 (Engine.process_block_fast.line1_22 cfg s) (Engine.process_block_fast.line1_22 cfg t) := by
  rintro ⟨_, _, _, _, _, _, _, _, _⟩ ⟨_, _, _, _, _, _, _, _, _⟩ h
  unfold Engine.process_block_fast.line1_22
  try dsimp only at *
  repeat same_step

theorem Engine.process_block_fast.line1_23_same (cfg : Cfg) : ∀ s t, Engine.process_block_fast.Alike1 s t →
    Tr.SameSeen Engine.process_block_fast.Alike1 (Engine.process_block_fast.line1_23 cfg s) (Engine.process_block_fast.line1_23 cfg t) := by
  rintro ⟨_, _, _, _, _, _, _, _, _⟩ ⟨_, _, _, _, _, _, _, _, _⟩ h
  unfold Engine.process_block_fast.line1_23
  try dsimp only at *
  repeat same_step

theorem Engine.process_block_fast.line1_24_same (cfg : Cfg) : ∀ s t, Engine.process_block_fast.Alike1 s t →
    Tr.SameSeen Engine.process_block_fast.Alike1 (Engine.process_block_fast.line1_24 cfg s) (Engine.process_block_fast.line1_24 cfg t) := by
  rintro ⟨_, _, _, _, _, _, _, _, _⟩ ⟨_, _, _, _, _, _, _, _, _⟩ h
  unfold Engine.process_block_fast.line1_24
  try dsimp only at *
  repeat same_step

theorem Engine.process_block_fast.line1_25_same (cfg : Cfg) : ∀ s t, Engine.process_block_fast.Alike1 s t →
    Tr.SameSeen Engine.process_block_fast.Alike1 (Engine.process_block_fast.line1_25 cfg s) (Engine.process_block_fast.line1_25 cfg t) := by
  rintro ⟨_, _, _, _, _, _, _, _, _⟩ ⟨_, _, _, _, _, _, _, _, _⟩ h
  unfold Engine.process_block_fast.line1_25
  try dsimp only at *
  repeat same_step

theorem Engine.process_block_fast.line1_26_same (cfg : Cfg) : ∀ s t, Engine.process_block_fast.Alike1 s t →
    Tr.SameSeen Engine.process_block_fast.Alike1 (Engine.process_block_fast.line1_26 cfg s) (Engine.process_block_fast.line1_26 cfg t) := by
  rintro ⟨_, _, _, _, _, _, _, _, _⟩ ⟨_, _, _, _, _, _, _, _, _⟩ h
  unfold Engine.process_block_fast.line1_26
  try dsimp only at *
  repeat same_step

theorem Engine.process_block_fast.line1_27_same (cfg : Cfg) : ∀ s t, Engine.process_block_fast.Alike1 s t →
    Tr.SameSeen Engine.process_block_fast.Alike1 (Engine.process_block_fast.line1_27 cfg s) (Engine.process_block_fast.line1_27 cfg t) := by
  rintro ⟨_, _, _, _, _, _, _, _, _⟩ ⟨_, _, _, _, _, _, _, _, _⟩ h
  unfold Engine.process_block_fast.line1_27
  try dsimp only at *
  repeat same_step

theorem Engine.process_block_fast.line1_28_same (cfg : Cfg) : ∀ s t, Engine.process_block_fast.Alike1 s t →
    Tr.SameSeen Engine.process_block_fast.Alike1 (Engine.process_block_fast.line1_28 cfg s) (Engine.process_block_fast.line1_28 cfg t) := by
  rintro ⟨_, _, _, _, _, _, _, _, _⟩ ⟨_, _, _, _, _, _, _, _, _⟩ h
  unfold Engine.process_block_fast.line1_28
  try dsimp only at *
  repeat same_step

theorem Engine.process_block_fast.line1_29_same (cfg : Cfg) : ∀ s t, Engine.process_block_fast.Alike1 s t →
    Tr.SameSeen Engine.process_block_fast.Alike1 (Engine.process_block_fast.line1_29 cfg s) (Engine.process_block_fast.line1_29 cfg t) := by
  rintro ⟨_, _, _, _, _, _, _, _, _⟩ ⟨_, _, _, _, _, _, _, _, _⟩ h
  unfold Engine.process_block_fast.line1_29
  try dsimp only at *
  repeat same_step

theorem Engine.process_block_fast.line1_30_same (cfg : Cfg) : ∀ s t, Engine.process_block_fast.Alike1 s t →
    Tr.SameSeen Engine.process_block_fast.Alike1 (Engine.process_block_fast.line1_30 cfg s) (Engine.process_block_fast.line1_30 cfg t) := by
  rintro ⟨_, _, _, _, _, _, _, _, _⟩ ⟨_, _, _, _, _, _, _, _, _⟩ h
  unfold Engine.process_block_fast.line1_30
  try dsimp only at *
  repeat same_step

theorem Engine.process_block_fast.line1_31_same (cfg : Cfg) : ∀ s t, Engine.process_block_fast.Alike1 s t →
    Tr.SameSeen Engine.process_block_fast.Alike1 (Engine.process_block_fast.line1_31 cfg s) (Engine.process_block_fast.line1_31 cfg t) := by
  rintro ⟨_, _, _, _, _, _, _, _, _⟩ ⟨_, _, _, _, _, _, _, _, _⟩ h
  unfold Engine.process_block_fast.line1_31
  try dsimp only at *
  repeat same_step

theorem Engine.process_block_fast.line1_32_same (cfg : Cfg) : ∀ s t, Engine.process_block_fast.Alike1 s t →
    Tr.SameSeen Engine.process_block_fast.Alike1 (Engine.process_block_fast.line1_32 cfg s) (Engine.process_block_fast.line1_32 cfg t) := by
  rintro ⟨_, _, _, _, _, _, _, _, _⟩ ⟨_, _, _, _, _, _, _, _, _⟩ h
  unfold Engine.process_block_fast.line1_32
  try dsimp only at *
  repeat same_step

theorem Engine.process_block_fast.line1_33_same (cfg : Cfg) : ∀ s t, Engine.process_block_fast.Alike1 s t →
    Tr.SameSeen Engine.process_block_fast.Alike1 (Engine.process_block_fast.line1_33 cfg s) (Engine.process_block_fast.line1_33 cfg t) := by
  rintro ⟨_, _, _, _, _, _, _, _, _⟩ ⟨_, _, _, _, _, _, _, _, _⟩ h
  unfold Engine.process_block_fast.line1_33
  try dsimp only at *
  repeat same_step

theorem Engine.process_block_fast.line1_34_same (cfg : Cfg) : ∀ s t, Engine.process_block_fast.Alike1 s t →
    Tr.SameSeen Engine.process_block_fast.Alike1 (Engine.process_block_fast.line1_34 cfg s) (Engine.process_block_fast.line1_34 cfg t) := by
  rintro ⟨_, _, _, _, _, _, _, _, _⟩ ⟨_, _, _, _, _, _, _, _, _⟩ h
  unfold Engine.process_block_fast.line1_34
  try dsimp only at *
  repeat same_step

theorem Engine.process_block_fast.line1_35_same (cfg : Cfg) : ∀ s t, Engine.process_block_fast.Alike1 s t →
    Tr.SameSeen Engine.process_block_fast.Alike1 (Engine.process_block_fast.line1_35 cfg s) (Engine.process_block_fast.line1_35 cfg t) := by
  rintro ⟨_, _, _, _, _, _, _, _, _⟩ ⟨_, _, _, _, _, _, _, _, _⟩ h
  unfold Engine.process_block_fast.line1_35
  try dsimp only at *
  repeat same_step

theorem Engine.process_block_fast.line1_36_same (cfg : Cfg) : ∀ s t, Engine.process_block_fast.Alike1 s t →
    Tr.SameSeen Engine.process_block_fast.Alike1 (Engine.process_block_fast.line1_36 cfg s) (Engine.process_block_fast.line1_36 cfg t) := by
  rintro ⟨_, _, _, _, _, _, _, _, _⟩ ⟨_, _, _, _, _, _, _, _, _⟩ h
  unfold Engine.process_block_fast.line1_36
  try dsimp only at *
  repeat same_step

theorem Engine.process_block_fast.line1_37_same (cfg : Cfg) : ∀ s t, Engine.process_block_fast.Alike1 s t →
    Tr.SameSeen Engine.process_block_fast.Alike1 (Engine.process_block_fast.line1_37 cfg s) (Engine.process_block_fast.line1_37 cfg t) := by
  rintro ⟨_, _, _, _, _, _, _, _, _⟩ ⟨_, _, _, _, _, _, _, _, _⟩ h
  unfold Engine.process_block_fast.line1_37
  try dsimp only at *
  repeat same_step

theorem Engine.process_block_fast.line1_38_same (cfg : Cfg) : ∀ s t, Engine.process_block_fast.Alike1 s t →
    Tr.SameSeen Engine.process_block_fast.Alike1 (Engine.process_block_fast.line1_38 cfg s) (Engine.process_block_fast.line1_38 cfg t) := by
  rintro ⟨_, _, _, _, _, _, _, _, _⟩ ⟨_, _, _, _, _, _, _, _, _⟩ h
  unfold Engine.process_block_fast.line1_38
  try dsimp only at *
  repeat same_step

theorem Engine.process_block_fast.line1_39_same (cfg : Cfg) : ∀ s t, Engine.process_block_fast.Alike1 s t →
    Tr.SameSeen Engine.process_block_fast.Alike1 (Engine.process_block_fast.line1_39 cfg s) (Engine.process_block_fast.line1_39 cfg t) := by
  rintro ⟨_, _, _, _, _, _, _, _, _⟩ ⟨_, _, _, _, _, _, _, _, _⟩ h
  unfold Engine.process_block_fast.line1_39
  try dsimp only at *
  repeat same_step

theorem Engine.process_block_fast.line1_40_same (cfg : Cfg) : ∀ s t, Engine.process_block_fast.Alike1 s t →
    Tr.SameSeen Engine.process_block_fast.Alike1 (Engine.process_block_fast.line1_40 cfg s) (Engine.process_block_fast.line1_40 cfg t) := by
  rintro ⟨_, _, _, _, _, _, _, _, _⟩ ⟨_, _, _, _, _, _, _, _, _⟩ h
  unfold Engine.process_block_fast.line1_40
  try dsimp only at *
  repeat same_step

theorem Engine.process_block_fast.line1_41_same (cfg : Cfg) : ∀ s t, Engine.process_block_fast.Alike1 s t →
    Tr.SameSeen Engine.process_block_fast.Alike1 (Engine.process_block_fast.line1_41 cfg s) (Engine.process_block_fast.line1_41 cfg t) := by
  rintro ⟨_, _, _, _, _, _, _, _, _⟩ ⟨_, _, _, _, _, _, _, _, _⟩ h
  unfold Engine.process_block_fast.line1_41
  try dsimp only at *
  repeat same_step

theorem Engine.process_block_fast.line1_42_same (cfg : Cfg) : ∀ s t, Engine.process_block_fast.Alike1 s t →
    Tr.SameSeen Engine.process_block_fast.Alike1 (Engine.process_block_fast.line1_42 cfg s) (Engine.process_block_fast.line1_42 cfg t) := by
  rintro ⟨_, _, _, _, _, _, _, _, _⟩ ⟨_, _, _, _, _, _, _, _, _⟩ h
  unfold Engine.process_block_fast.line1_42
  try dsimp only at *
  repeat same_step

theorem Engine.process_block_fast.line1_43_same (cfg : Cfg) : ∀ s t, Engine.process_block_fast.Alike1 s t →
    Tr.SameSeen Engine.process_block_fast.Alike1 (Engine.process_block_fast.line1_43 cfg s) (Engine.process_block_fast.line1_43 cfg t) := by
  rintro ⟨_, _, _, _, _, _, _, _, _⟩ ⟨_, _, _, _, _, _, _, _, _⟩ h
  unfold Engine.process_block_fast.line1_43
  try dsimp only at *
  repeat same_step

theorem Engine.process_block_fast.line1_44_same (cfg : Cfg) : ∀ s t, Engine.process_block_fast.Alike1 s t →
    Tr.SameSeen Engine.process_block_fast.Alike1 (Engine.process_block_fast.line1_44 cfg s) (Engine.process_block_fast.line1_44 cfg t) := by
  rintro ⟨_, _, _, _, _, _, _, _, _⟩ ⟨_, _, _, _, _, _, _, _, _⟩ h
  unfold Engine.process_block_fast.line1_44
  try dsimp only at *
  repeat same_step

theorem Engine.process_block_fast.line1_45_same (cfg : Cfg) : ∀ s t, Engine.process_block_fast.Alike1 s t →
    Tr.SameSeen Engine.process_block_fast.Alike1 (Engine.process_block_fast.line1_45 cfg s) (Engine.process_block_fast.line1_45 cfg t) := by
  rintro ⟨_, _, _, _, _, _, _, _, _⟩ ⟨_, _, _, _, _, _, _, _, _⟩ h
  unfold Engine.process_block_fast.line1_45
  try dsimp only at *
  repeat same_step

theorem Engine.process_block_fast.line1_46_same (cfg : Cfg) : ∀ s t, Engine.process_block_fast.Alike1 s t →
    Tr.SameSeen Engine.process_block_fast.Alike1 (Engine.process_block_fast.line1_46 cfg s) (Engine.process_block_fast.line1_46 cfg t) := by
  rintro ⟨_, _, _, _, _, _, _, _, _⟩ ⟨_, _, _, _, _, _, _, _, _⟩ h
  unfold Engine.process_block_fast.line1_46
  try dsimp only at *
  repeat same_step

theorem Engine.process_block_fast.line1_47_same (cfg : Cfg) : ∀ s t, Engine.process_block_fast.Alike1 s t →
    Tr.SameSeen Engine.process_block_fast.Alike1 (Engine.process_block_fast.line1_47 cfg s) (Engine.process_block_fast.line1_47 cfg t) := by
  rintro ⟨_, _, _, _, _, _, _, _, _⟩ ⟨_, _, _, _, _, _, _, _, _⟩ h
  unfold Engine.process_block_fast.line1_47
  try dsimp only at *
  repeat same_step

theorem Engine.process_block_fast.line1_48_same (cfg : Cfg) : ∀ s t, Engine.process_block_fast.Alike1 s t →
    Tr.SameSeen Engine.process_block_fast.Alike1 (Engine.process_block_fast.line1_48 cfg s) (Engine.process_block_fast.line1_48 cfg t) := by
  rintro ⟨_, _, _, _, _, _, _, _, _⟩ ⟨_, _, _, _, _, _, _, _, _⟩ h
  unfold Engine.process_block_fast.line1_48
  try dsimp only at *
  repeat same_step

theorem Engine.process_block_fast.line1_49_same (cfg : Cfg) : ∀ s t, Engine.process_block_fast.Alike1 s t →
    Tr.SameSeen Engine.process_block_fast.Alike1 (Engine.process_block_fast.line1_49 cfg s) (Engine.process_block_fast.line1_49 cfg t) := by
  rintro ⟨_, _, _, _, _, _, _, _, _⟩ ⟨_, _, _, _, _, _, _, _, _⟩ h
  unfold Engine.process_block_fast.line1_49
  try dsimp only at *
  repeat same_step

theorem Engine.process_block_fast.line1_50_same (cfg : Cfg) : ∀ s t, Engine.process_block_fast.Alike1 s t →
    Tr.SameSeen Engine.process_block_fast.Alike1 (Engine.process_block_fast.line1_50 cfg s) (Engine.process_block_fast.line1_50 cfg t) := by
  rintro ⟨_, _, _, _, _, _, _, _, _⟩ ⟨_, _, _, _, _, _, _, _, _⟩ h
  unfold Engine.process_block_fast.line1_50
  try dsimp only at *
  repeat same_step

theorem Engine.process_block_fast.line1_51_same (cfg : Cfg) : ∀ s t, Engine.process_block_fast.Alike1 s t →
    Tr.SameSeen Engine.process_block_fast.Alike1 (Engine.process_block_fast.line1_51 cfg s) (Engine.process_block_fast.line1_51 cfg t) := by
  rintro ⟨_, _, _, _, _, _, _, _, _⟩ ⟨_, _, _, _, _, _, _, _, _⟩ h
  unfold Engine.process_block_fast.line1_51
  try dsimp only at *
  repeat same_step

theorem Engine.process_block_fast.line1_52_same (cfg : Cfg) : ∀ s t, Engine.process_block_fast.Alike1 s t →
    Tr.SameSeen Engine.process_block_fast.Alike1 (Engine.process_block_fast.line1_52 cfg s) (Engine.process_block_fast.line1_52 cfg t) := by
  rintro ⟨_, _, _, _, _, _, _, _, _⟩ ⟨_, _, _, _, _, _, _, _, _⟩ h
  unfold Engine.process_block_fast.line1_52
  try dsimp only at *
  repeat same_step

theorem Engine.process_block_fast.line1_53_same (cfg : Cfg) : ∀ s t, Engine.process_block_fast.Alike1 s t →
    Tr.SameSeen Engine.process_block_fast.Alike1 (Engine.process_block_fast.line1_53 cfg s) (Engine.process_block_fast.line1_53 cfg t) := by
  rintro ⟨_, _, _, _, _, _, _, _, _⟩ ⟨_, _, _, _, _, _, _, _, _⟩ h
  unfold Engine.process_block_fast.line1_53
  try dsimp only at *
  repeat same_step

theorem Engine.process_block_fast.line1_54_same (cfg : Cfg) : ∀ s t, Engine.process_block_fast.Alike1 s t →
    Tr.SameSeen Engine.process_block_fast.Alike1 (Engine.process_block_fast.line1_54 cfg s) (Engine.process_block_fast.line1_54 cfg t) := by
  rintro ⟨_, _, _, _, _, _, _, _, _⟩ ⟨_, _, _, _, _, _, _, _, _⟩ h
  unfold Engine.process_block_fast.line1_54
  try dsimp only at *
  repeat same_step

theorem Engine.process_block_fast.line1_55_same (cfg : Cfg) : ∀ s t, Engine.process_block_fast.Alike1 s t →
    Tr.SameSeen Engine.process_block_fast.Alike1 (Engine.process_block_fast.line1_55 cfg s) (Engine.process_block_fast.line1_55 cfg t) := by
  rintro ⟨_, _, _, _, _, _, _, _, _⟩ ⟨_, _, _, _, _, _, _, _, _⟩ h
  unfold Engine.process_block_fast.line1_55
  try dsimp only at *
  repeat same_step

theorem Engine.process_block_fast.line1_56_same (cfg : Cfg) : ∀ s t, Engine.process_block_fast.Alike1 s t →
    Tr.SameSeen Engine.process_block_fast.Alike1 (Engine.process_block_fast.line1_56 cfg s) (Engine.process_block_fast.line1_56 cfg t) := by
  rintro ⟨_, _, _, _, _, _, _, _, _⟩ ⟨_, _, _, _, _, _, _, _, _⟩ h
  unfold Engine.process_block_fast.line1_56
  try dsimp only at *
  repeat same_step

theorem Engine.process_block_fast.line1_57_same (cfg : Cfg) : ∀ s t, Engine.process_block_fast.Alike1 s t →
    Tr.SameSeen Engine.process_block_fast.Alike1 (Engine.process_block_fast.line1_57 cfg s) (Engine.process_block_fast.line1_57 cfg t) := by
  rintro ⟨_, _, _, _, _, _, _, _, _⟩ ⟨_, _, _, _, _, _, _, _, _⟩ h
  unfold Engine.process_block_fast.line1_57
  try dsimp only at *
  repeat same_step

theorem Engine.process_block_fast.line1_58_same (cfg : Cfg) : ∀ s t, Engine.process_block_fast.Alike1 s t →
    Tr.SameSeen Engine.process_block_fast.Alike1 (Engine.process_block_fast.line1_58 cfg s) (Engine.process_block_fast.line1_58 cfg t) := by
  rintro ⟨_, _, _, _, _, _, _, _, _⟩ ⟨_, _, _, _, _, _, _, _, _⟩ h
  unfold Engine.process_block_fast.line1_58
  try dsimp only at *
  repeat same_step

theorem Engine.process_block_fast.line1_59_same (cfg : Cfg) : ∀ s t, Engine.process_block_fast.Alike1 s t →
    Tr.SameSeen Engine.process_block_fast.Alike1 (Engine.process_block_fast.line1_59 cfg s) (Engine.process_block_fast.line1_59 cfg t) := by
  rintro ⟨_, _, _, _, _, _, _, _, _⟩ ⟨_, _, _, _, _, _, _, _, _⟩ h
  unfold Engine.process_block_fast.line1_59
  try dsimp only at *
  repeat same_step

theorem Engine.process_block_fast.line1_60_same (cfg : Cfg) : ∀ s t, Engine.process_block_fast.Alike1 s t →
    Tr.SameSeen Engine.process_block_fast.Alike1 (Engine.process_block_fast.line1_60 cfg s) (Engine.process_block_fast.line1_60 cfg t) := by
  rintro ⟨_, _, _, _, _, _, _, _, _⟩ ⟨_, _, _, _, _, _, _, _, _⟩ h
  unfold Engine.process_block_fast.line1_60
  try dsimp only at *
  repeat same_step

theorem Engine.process_block_fast.line1_61_same (cfg : Cfg) : ∀ s t, Engine.process_block_fast.Alike1 s t →
    Tr.SameSeen Engine.process_block_fast.Alike1 (Engine.process_block_fast.line1_61 cfg s) (Engine.process_block_fast.line1_61 cfg t) := by
  rintro ⟨_, _, _, _, _, _, _, _, _⟩ ⟨_, _, _, _, _, _, _, _, _⟩ h
  unfold Engine.process_block_fast.line1_61
  try dsimp only at *
  repeat same_step

theorem Engine.process_block_fast.line1_62_same (cfg : Cfg) : ∀ s t, Engine.process_block_fast.Alike1 s t →
    Tr.SameSeen Engine.process_block_fast.Alike1 (Engine.process_block_fast.line1_62 cfg s) (Engine.process_block_fast.line1_62 cfg t) := by
  rintro ⟨_, _, _, _, _, _, _, _, _⟩ ⟨_, _, _, _, _, _, _, _, _⟩ h
  unfold Engine.process_block_fast.line1_62
  try dsimp only at *
  repeat same_step

theorem Engine.process_block_fast.line1_63_same (cfg : Cfg) : ∀ s t, Engine.process_block_fast.Alike1 s t →
    Tr.SameSeen Engine.process_block_fast.Alike1 (Engine.process_block_fast.line1_63 cfg s) (Engine.process_block_fast.line1_63 cfg t) := by
  rintro ⟨_, _, _, _, _, _, _, _, _⟩ ⟨_, _, _, _, _, _, _, _, _⟩ h
  unfold Engine.process_block_fast.line1_63
  try dsimp only at *
  repeat same_step

theorem Engine.process_block_fast.line1_64_same (cfg : Cfg) : ∀ s t, Engine.process_block_fast.Alike1 s t →
    Tr.SameSeen Engine.process_block_fast.Alike1 (Engine.process_block_fast.line1_64 cfg s) (Engine.process_block_fast.line1_64 cfg t) := by
  rintro ⟨_, _, _, _, _, _, _, _, _⟩ ⟨_, _, _, _, _, _, _, _, _⟩ h
  unfold Engine.process_block_fast.line1_64
  try dsimp only at *
  repeat same_step

theorem Engine.process_block_fast.line1_65_same (cfg : Cfg) : ∀ s t, Engine.process_block_fast.Alike1 s t →
    Tr.SameSeen Engine.process_block_fast.Alike1 (Engine.process_block_fast.line1_65 cfg s) (Engine.process_block_fast.line1_65 cfg t) := by
  rintro ⟨_, _, _, _, _, _, _, _, _⟩ ⟨_, _, _, _, _, _, _, _, _⟩ h
  unfold Engine.process_block_fast.line1_65
  try dsimp only at *
  repeat same_step

theorem Engine.process_block_fast.line1_66_same (cfg : Cfg) : ∀ s t, Engine.process_block_fast.Alike1 s t →
    Tr.SameSeen Engine.process_block_fast.Alike1 (Engine.process_block_fast.line1_66 cfg s) (Engine.process_block_fast.line1_66 cfg t) := by
  rintro ⟨_, _, _, _, _, _, _, _, _⟩ ⟨_, _, _, _, _, _, _, _, _⟩ h
  unfold Engine.process_block_fast.line1_66
  try dsimp only at *
  repeat same_step

theorem Engine.process_block_fast.line1_67_same (cfg : Cfg) : ∀ s t, Engine.process_block_fast.Alike1 s t →
    Tr.SameSeen Engine.process_block_fast.Alike1 (Engine.process_block_fast.line1_67 cfg s) (Engine.process_block_fast.line1_67 cfg t) := by
  rintro ⟨_, _, _, _, _, _, _, _, _⟩ ⟨_, _, _, _, _, _, _, _, _⟩ h
  unfold Engine.process_block_fast.line1_67
  try dsimp only at *
  repeat same_step

theorem Engine.process_block_fast.line1_68_same (cfg : Cfg) : ∀ s t, Engine.process_block_fast.Alike1 s t →
    Tr.SameSeen Engine.process_block_fast.Alike1 (Engine.process_block_fast.line1_68 cfg s) (Engine.process_block_fast.line1_68 cfg t) := by
  rintro ⟨_, _, _, _, _, _, _, _, _⟩ ⟨_, _, _, _, _, _, _, _, _⟩ h
  unfold Engine.process_block_fast.line1_68
  try dsimp only at *
  repeat same_step

theorem Engine.process_block_fast.line1_69_same (cfg : Cfg) : ∀ s t, Engine.process_block_fast.Alike1 s t →
    Tr.SameSeen Engine.process_block_fast.Alike1 (Engine.process_block_fast.line1_69 cfg s) (Engine.process_block_fast.line1_69 cfg t) := by
  rintro ⟨_, _, _, _, _, _, _, _, _⟩ ⟨_, _, _, _, _, _, _, _, _⟩ h
  unfold Engine.process_block_fast.line1_69
  try dsimp only at *
  repeat same_step

theorem Engine.process_block_fast.line1_70_same (cfg : Cfg) : ∀ s t, Engine.process_block_fast.Alike1 s t →
    Tr.SameSeen Engine.process_block_fast.Alike1 (Engine.process_block_fast.line1_70 cfg s) (Engine.process_block_fast.line1_70 cfg t) := by
  rintro ⟨_, _, _, _, _, _, _, _, _⟩ ⟨_, _, _, _, _, _, _, _, _⟩ h
  unfold Engine.process_block_fast.line1_70
  try dsimp only at *
  repeat same_step

theorem Engine.process_block_fast.line1_71_same (cfg : Cfg) : ∀ s t, Engine.process_block_fast.Alike1 s t →
    Tr.SameSeen Engine.process_block_fast.Alike1 (Engine.process_block_fast.line1_71 cfg s) (Engine.process_block_fast.line1_71 cfg t) := by
  rintro ⟨_, _, _, _, _, _, _, _, _⟩ ⟨_, _, _, _, _, _, _, _, _⟩ h
  unfold Engine.process_block_fast.line1_71
  try dsimp only at *
  repeat same_step

theorem Engine.process_block_fast.line1_72_same (cfg : Cfg) : ∀ s t, Engine.process_block_fast.Alike1 s t →
    Tr.SameSeen Engine.process_block_fast.Alike1 (Engine.process_block_fast.line1_72 cfg s) (Engine.process_block_fast.line1_72 cfg t) := by
  rintro ⟨_, _, _, _, _, _, _, _, _⟩ ⟨_, _, _, _, _, _, _, _, _⟩ h
  unfold Engine.process_block_fast.line1_72
  try dsimp only at *
  repeat same_step

theorem Engine.process_block_fast.line1_73_same (cfg : Cfg) : ∀ s t, Engine.process_block_fast.Alike1 s t →
    Tr.SameSeen Engine.process_block_fast.Alike1 (Engine.process_block_fast.line1_73 cfg s) (Engine.process_block_fast.line1_73 cfg t) := by
  rintro ⟨_, _, _, _, _, _, _, _, _⟩ ⟨_, _, _, _, _, _, _, _, _⟩ h
  unfold Engine.process_block_fast.line1_73
  try dsimp only at *
  repeat same_step

theorem Engine.process_block_fast.line1_74_same (cfg : Cfg) : ∀ s t, Engine.process_block_fast.Alike1 s t →
    Tr.SameSeen Engine.process_block_fast.Alike1 (Engine.process_block_fast.line1_74 cfg s) (Engine.process_block_fast.line1_74 cfg t) := by
  rintro ⟨_, _, _, _, _, _, _, _, _⟩ ⟨_, _, _, _, _, _, _, _, _⟩ h
  unfold Engine.process_block_fast.line1_74
  try dsimp only at *
  repeat same_step

theorem Engine.process_block_fast.line1_75_same (cfg : Cfg) : ∀ s t, Engine.process_block_fast.Alike1 s t →
    Tr.SameSeen Engine.process_block_fast.Alike1 (Engine.process_block_fast.line1_75 cfg s) (Engine.process_block_fast.line1_75 cfg t) := by
  rintro ⟨_, _, _, _, _, _, _, _, _⟩ ⟨_, _, _, _, _, _, _, _, _⟩ h
  unfold Engine.process_block_fast.line1_75
  try dsimp only at *
  repeat same_step

theorem Engine.process_block_fast.line1_76_same (cfg : Cfg) : ∀ s t, Engine.process_block_fast.Alike1 s t →
    Tr.SameSeen Engine.process_block_fast.Alike1 (Engine.process_block_fast.line1_76 cfg s) (Engine.process_block_fast.line1_76 cfg t) := by
  rintro ⟨_, _, _, _, _, _, _, _, _⟩ ⟨_, _, _, _, _, _, _, _, _⟩ h
  unfold Engine.process_block_fast.line1_76
  try dsimp only at *
  repeat same_step

theorem Engine.process_block_fast.line1_77_same (cfg : Cfg) : ∀ s t, Engine.process_block_fast.Alike1 s t →
    Tr.SameSeen Engine.process_block_fast.Alike1 (Engine.process_block_fast.line1_77 cfg s) (Engine.process_block_fast.line1_77 cfg t) := by
  rintro ⟨_, _, _, _, _, _, _, _, _⟩ ⟨_, _, _, _, _, _, _, _, _⟩ h
  unfold Engine.process_block_fast.line1_77
  try dsimp only at *
  repeat same_step

theorem Engine.process_block_fast.line1_78_same (cfg : Cfg) : ∀ s t, Engine.process_block_fast.Alike1 s t →
    Tr.SameSeen Engine.process_block_fast.Alike1 (Engine.process_block_fast.line1_78 cfg s) (Engine.process_block_fast.line1_78 cfg t) := by
  rintro ⟨_, _, _, _, _, _, _, _, _⟩ ⟨_, _, _, _, _, _, _, _, _⟩ h
  unfold Engine.process_block_fast.line1_78
  try dsimp only at *
  repeat same_step

theorem Engine.process_block_fast.line1_79_same (cfg : Cfg) : ∀ s t, Engine.process_block_fast.Alike1 s t →
    Tr.SameSeen Engine.process_block_fast.Alike1 (Engine.process_block_fast.line1_79 cfg s) (Engine.process_block_fast.line1_79 cfg t) := by
  rintro ⟨_, _, _, _, _, _, _, _, _⟩ ⟨_, _, _, _, _, _, _, _, _⟩ h
  unfold Engine.process_block_fast.line1_79
  try dsimp only at *
  repeat same_step

set_option maxRecDepth 10000 in
theorem Engine.process_block_fast.lines1_same (cfg : Cfg) :
    Tr.SameSeen.Each (fun f g => ∀ s t, Engine.process_block_fast.Alike1 s t → Tr.SameSeen Engine.process_block_fast.Alike1 (f s) (g t))
      (Engine.process_block_fast.lines1 cfg) (Engine.process_block_fast.lines1 cfg) :=
  ⟨Engine.process_block_fast.line1_0_same cfg,
   Engine.process_block_fast.line1_1_same cfg,
   Engine.process_block_fast.line1_2_same cfg,
   Engine.process_block_fast.line1_3_same cfg,
   Engine.process_block_fast.line1_4_same cfg,
   Engine.process_block_fast.line1_5_same cfg,
   Engine.process_block_fast.line1_6_same cfg,
   Engine.process_block_fast.line1_7_same cfg,
   Engine.process_block_fast.line1_8_same cfg,
   Engine.process_block_fast.line1_9_same cfg,
   Engine.process_block_fast.line1_10_same cfg,
   Engine.process_block_fast.line1_11_same cfg,
   Engine.process_block_fast.line1_12_same cfg,
   Engine.process_block_fast.line1_13_same cfg,
   Engine.process_block_fast.line1_14_same cfg,
   Engine.process_block_fast.line1_15_same cfg,
   Engine.process_block_fast.line1_16_same cfg,
   Engine.process_block_fast.line1_17_same cfg,
   Engine.process_block_fast.line1_18_same cfg,
   Engine.process_block_fast.line1_19_same cfg,
   Engine.process_block_fast.line1_20_same cfg,
   Engine.process_block_fast.line1_21_same cfg,
   Engine.process_block_fast.line1_22_same cfg,
   Engine.process_block_fast.line1_23_same cfg,
   Engine.process_block_fast.line1_24_same cfg,
   Engine.process_block_fast.line1_25_same cfg,
   Engine.process_block_fast.line1_26_same cfg,
   Engine.process_block_fast.line1_27_same cfg,
   Engine.process_block_fast.line1_28_same cfg,
   Engine.process_block_fast.line1_29_same cfg,
   Engine.process_block_fast.line1_30_same cfg,
   Engine.process_block_fast.line1_31_same cfg,
   Engine.process_block_fast.line1_32_same cfg,
   Engine.process_block_fast.line1_33_same cfg,
   Engine.process_block_fast.line1_34_same cfg,
   Engine.process_block_fast.line1_35_same cfg,
   Engine.process_block_fast.line1_36_same cfg,
   Engine.process_block_fast.line1_37_same cfg,
   Engine.process_block_fast.line1_38_same cfg,
   Engine.process_block_fast.line1_39_same cfg,
   Engine.process_block_fast.line1_40_same cfg,
   Engine.process_block_fast.line1_41_same cfg,
   Engine.process_block_fast.line1_42_same cfg,
   Engine.process_block_fast.line1_43_same cfg,
   Engine.process_block_fast.line1_44_same cfg,
   Engine.process_block_fast.line1_45_same cfg,
   Engine.process_block_fast.line1_46_same cfg,
   Engine.process_block_fast.line1_47_same cfg,
   Engine.process_block_fast.line1_48_same cfg,
   Engine.process_block_fast.line1_49_same cfg,
   Engine.process_block_fast.line1_50_same cfg,
   Engine.process_block_fast.line1_51_same cfg,
   Engine.process_block_fast.line1_52_same cfg,
   Engine.process_block_fast.line1_53_same cfg,
   Engine.process_block_fast.line1_54_same cfg,
   Engine.process_block_fast.line1_55_same cfg,
   Engine.process_block_fast.line1_56_same cfg,
   Engine.process_block_fast.line1_57_same cfg,
   Engine.process_block_fast.line1_58_same cfg,
   Engine.process_block_fast.line1_59_same cfg,
   Engine.process_block_fast.line1_60_same cfg,
   Engine.process_block_fast.line1_61_same cfg,
   Engine.process_block_fast.line1_62_same cfg,
   Engine.process_block_fast.line1_63_same cfg,
   Engine.process_block_fast.line1_64_same cfg,
   Engine.process_block_fast.line1_65_same cfg,
   Engine.process_block_fast.line1_66_same cfg,
   Engine.process_block_fast.line1_67_same cfg,
   Engine.process_block_fast.line1_68_same cfg,
   Engine.process_block_fast.line1_69_same cfg,
   Engine.process_block_fast.line1_70_same cfg,
   Engine.process_block_fast.line1_71_same cfg,
   Engine.process_block_fast.line1_72_same cfg,
   Engine.process_block_fast.line1_73_same cfg,
   Engine.process_block_fast.line1_74_same cfg,
   Engine.process_block_fast.line1_75_same cfg,
   Engine.process_block_fast.line1_76_same cfg,
   Engine.process_block_fast.line1_77_same cfg,
   Engine.process_block_fast.line1_78_same cfg,
   Engine.process_block_fast.line1_79_same cfg, trivial⟩

set_option maxRecDepth 10000 in
theorem Engine.process_block_fast.lines1_res (cfg : Cfg) :
    (Engine.process_block_fast.lines1 cfg).map (fun f s => (f s).res) = Source.Sha512.Engine.process_block_fast.lines1 cfg := rfl

/-- The states of these statements are alike. -/
abbrev Engine.process_block_small.Alike1 :=
  fun s t : Source.Sha512.Engine.process_block_small.State1 => Len s.1 t.1

theorem Engine.process_block_small.line1_0_same (cfg : Cfg) : ∀ s t, Engine.process_block_small.Alike1 s t →
    Tr.SameSeen Engine.process_block_small.Alike1 (Engine.process_block_small.line1_0 cfg s) (Engine.process_block_small.line1_0 cfg t) := by
  rintro ⟨_, _, _, _, _, _, _, _, _⟩ ⟨_, _, _, _, _, _, _, _, _⟩ h
  unfold Engine.process_block_small.line1_0
  try dsimp only at *
  repeat same_step

theorem Engine.process_block_small.line1_1_same (cfg : Cfg) : ∀ s t, Engine.process_block_small.Alike1 s t →
    Tr.SameSeen Engine.process_block_small.Alike1 (Engine.process_block_small.line1_1 cfg s) (Engine.process_block_small.line1_1 cfg t) := by
  rintro ⟨_, _, _, _, _, _, _, _, _⟩ ⟨_, _, _, _, _, _, _, _, _⟩ h
  unfold Engine.process_block_small.line1_1
  try dsimp only at *
  repeat same_step

theorem Engine.process_block_small.line1_2_same (cfg : Cfg) : ∀ s t, Engine.process_block_small.Alike1 s t →
    Tr.SameSeen Engine.process_block_small.Alike1 (Engine.process_block_small.line1_2 cfg s) (Engine.process_block_small.line1_2 cfg t) := by
  rintro ⟨_, _, _, _, _, _, _, _, _⟩ ⟨_, _, _, _, _, _, _, _, _⟩ h
  unfold Engine.process_block_small.line1_2
  try dsimp only at *
  repeat same_step

theorem Engine.process_block_small.line1_3_same (cfg : Cfg) : ∀ s t, Engine.process_block_small.Alike1 s t →
    Tr.SameSeen Engine.process_block_small.Alike1 (Engine.process_block_small.line1_3 cfg s) (Engine.process_block_small.line1_3 cfg t) := by
  rintro ⟨_, _, _, _, _, _, _, _, _⟩ ⟨_, _, _, _, _, _, _, _, _⟩ h
  unfold Engine.process_block_small.line1_3
  try dsimp only at *
  repeat same_step

theorem Engine.process_block_small.line1_4_same (cfg : Cfg) : ∀ s t, Engine.process_block_small.Alike1 s t →
    Tr.SameSeen Engine.process_block_small.Alike1 (Engine.process_block_small.line1_4 cfg s) (Engine.process_block_small.line1_4 cfg t) := by
  rintro ⟨_, _, _, _, _, _, _, _, _⟩ ⟨_, _, _, _, _, _, _, _, _⟩ h
  unfold Engine.process_block_small.line1_4
  try dsimp only at *
  repeat same_step

theorem Engine.process_block_small.line1_5_same (cfg : Cfg) : ∀ s t, Engine.process_block_small.Alike1 s t →
    Tr.SameSeen Engine.process_block_small.Alike1 (Engine.process_block_small.line1_5 cfg s) (Engine.process_block_small.line1_5 cfg t) := by
  rintro ⟨_, _, _, _, _, _, _, _, _⟩ ⟨_, _, _, _, _, _, _, _, _⟩ h
  unfold Engine.process_block_small.line1_5
  try dsimp only at *
  repeat same_step

theorem Engine.process_block_small.line1_6_same (cfg : Cfg) : ∀ s t, Engine.process_block_small.Alike1 s t →
    Tr.SameSeen Engine.process_block_small.Alike1 (Engine.process_block_small.line1_6 cfg s) (Engine.process_block_small.line1_6 cfg t) := by
  rintro ⟨_, _, _, _, _, _, _, _, _⟩ ⟨_, _, _, _, _, _, _, _, _⟩ h
  unfold Engine.process_block_small.line1_6
  try dsimp only at *
  repeat same_step

theorem Engine.process_block_small.line1_7_same (cfg : Cfg) : ∀ s t, Engine.process_block_small.Alike1 s t →
    Tr.SameSeen Engine.process_block_small.Alike1 (Engine.process_block_small.line1_7 cfg s) (Engine.process_block_small.line1_7 cfg t) := by
  rintro ⟨_, _, _, _, _, _, _, _, _⟩ ⟨_, _, _, _, _, _, _, _, _⟩ h
  unfold Engine.process_block_small.line1_7
  try dsimp only at *
  repeat same_step

theorem Engine.process_block_small.line1_8_same (cfg : Cfg) : ∀ s t, Engine.process_block_small.Alike1 s t →
    Tr.SameSeen Engine.process_block_small.Alike1 (Engine.process_block_small.line1_8 cfg s) (Engine.process_block_small.line1_8 cfg t) := by
  rintro ⟨_, _, _, _, _, _, _, _, _⟩ ⟨_, _, _, _, _, _, _, _, _⟩ h
  unfold Engine.process_block_small.line1_8
  try dsimp only at *
  repeat same_step

theorem Engine.process_block_small.line1_9_same (cfg : Cfg) : ∀ s t, Engine.process_block_small.Alike1 s t →
    Tr.SameSeen Engine.process_block_small.Alike1 (Engine.process_block_small.line1_9 cfg s) (Engine.process_block_small.line1_9 cfg t) := by
  rintro ⟨_, _, _, _, _, _, _, _, _⟩ ⟨_, _, _, _, _, _, _, _, _⟩ h
  unfold Engine.process_block_small.line1_9
  try dsimp only at *
  repeat same_step

theorem Engine.process_block_small.line1_10_same (cfg : Cfg) : ∀ s t, Engine.process_block_small.Alike1 s t →
    Tr.SameSeen Engine.process_block_small.Alike1 (Engine.process_block_small.line1_10 cfg s) (Engine.process_block_small.line1_10 cfg t) := by
  rintro ⟨_, _, _, _, _, _, _, _, _⟩ ⟨_, _, _, _, _, _, _, _, _⟩ h
  unfold Engine.process_block_small.line1_10
  try dsimp only at *
  repeat same_step

theorem Engine.process_block_small.line1_11_same (cfg : Cfg) : ∀ s t, Engine.process_block_small.Alike1 s t →
    Tr.SameSeen Engine.process_block_small.Alike1 (Engine.process_block_small.line1_11 cfg s) (Engine.process_block_small.line1_11 cfg t) := by
  rintro ⟨_, _, _, _, _, _, _, _, _⟩ ⟨_, _, _, _, _, _, _, _, _⟩ h
  unfold Engine.process_block_small.line1_11
  try dsimp only at *
  repeat same_step

theorem Engine.process_block_small.line1_12_same (cfg : Cfg) : ∀ s t, Engine.process_block_small.Alike1 s t →
    Tr.SameSeen Engine.process_block_small.Alike1 (Engine.process_block_small.line1_12 cfg s) (Engine.process_block_small.line1_12 cfg t) := by
  rintro ⟨_, _, _, _, _, _, _, _, _⟩ ⟨_, _, _, _, _, _, _, _, _⟩ h
  unfold Engine.process_block_small.line1_12
  try dsimp only at *
  repeat same_step

theorem Engine.process_block_small.line1_13_same (cfg : Cfg) : ∀ s t, Engine.process_block_small.Alike1 s t →
    Tr.SameSeen Engine.process_block_small.Alike1 (Engine.process_block_small.line1_13 cfg s) (Engine.process_block_small.line1_13 cfg t) := by
  rintro ⟨_, _, _, _, _, _, _, _, _⟩ ⟨_, _, _, _, _, _, _, _, _⟩ h
  unfold Engine.process_block_small.line1_13
  try dsimp only at *
  repeat same_step

theorem Engine.process_block_small.line1_14_same (cfg : Cfg) : ∀ s t, Engine.process_block_small.Alike1 s t →
    Tr.SameSeen Engine.process_block_small.Alike1 (Engine.process_block_small.line1_14 cfg s) (Engine.process_block_small.line1_14 cfg t) := by
  rintro ⟨_, _, _, _, _, _, _, _, _⟩ ⟨_, _, _, _, _, _, _, _, _⟩ h
  unfold Engine.process_block_small.line1_14
  try dsimp only at *
  repeat same_step

theorem Engine.process_block_small.line1_15_same (cfg : Cfg) : ∀ s t, Engine.process_block_small.Alike1 s t →
    Tr.SameSeen Engine.process_block_small.Alike1 (Engine.process_block_small.line1_15 cfg s) (Engine.process_block_small.line1_15 cfg t) := by
  rintro ⟨_, _, _, _, _, _, _, _, _⟩ ⟨_, _, _, _, _, _, _, _, _⟩ h
  unfold Engine.process_block_small.line1_15
  try dsimp only at *
  repeat same_step

theorem Engine.process_block_small.line1_16_same (cfg : Cfg) : ∀ s t, Engine.process_block_small.Alike1 s t →
    Tr.SameSeen Engine.process_block_small.Alike1 (Engine.process_block_small.line1_16 cfg s) (Engine.process_block_small.line1_16 cfg t) := by
  rintro ⟨_, _, _, _, _, _, _, _, _⟩ ⟨_, _, _, _, _, _, _, _, _⟩ h
  unfold Engine.process_block_small.line1_16
  try dsimp only at *
  repeat same_step

theorem Engine.process_block_small.line1_17_same (cfg : Cfg) : ∀ s t, Engine.process_block_small.Alike1 s t →
    Tr.SameSeen Engine.process_block_small.Alike1 (Engine.process_block_small.line1_17 cfg s) (Engine.process_block_small.line1_17 cfg t) := by
  rintro ⟨_, _, _, _, _, _, _, _, _⟩ ⟨_, _, _, _, _, _, _, _, _⟩ h
  unfold Engine.process_block_small.line1_17
  try dsimp only at *
  repeat same_step

theorem Engine.process_block_small.line1_18_same (cfg : Cfg) : ∀ s t, Engine.process_block_small.Alike1 s t →
    Tr.SameSeen Engine.process_block_small.Alike1 (Engine.process_block_small.line1_18 cfg s) (Engine.process_block_small.line1_18 cfg t) := by
  rintro ⟨_, _, _, _, _, _, _, _, _⟩ ⟨_, _, _, _, _, _, _, _, _⟩ h
  unfold Engine.process_block_small.line1_18
  try dsimp only at *
  repeat same_step

theorem Engine.process_block_small.line1_19_same (cfg : Cfg) : ∀ s t, Engine.process_block_small.Alike1 s t →
    Tr.SameSeen Engine.process_block_small.Alike1 (Engine.process_block_small.line1_19 cfg s) (Engine.process_block_small.line1_19 cfg t) := by
  rintro ⟨_, _, _, _, _, _, _, _, _⟩ ⟨_, _, _, _, _, _, _, _, _⟩ h
  unfold Engine.process_block_small.line1_19
  try dsimp only at *
  repeat same_step

theorem Engine.process_block_small.line1_20_same (cfg : Cfg) : ∀ s t, Engine.process_block_small.Alike1 s t →
    Tr.SameSeen Engine.process_block_small.Alike1 (Engine.process_block_small.line1_20 cfg s) (Engine.process_block_small.line1_20 cfg t) := by
  rintro ⟨_, _, _, _, _, _, _, _, _⟩ ⟨_, _, _, _, _, _, _, _, _⟩ h
  unfold Engine.process_block_small.line1_20
  try dsimp only at *
  repeat same_step

theorem Engine.process_block_small.line1_21_same (cfg : Cfg) : ∀ s t, Engine.process_block_small.Alike1 s t →
    Tr.SameSeen Engine.process_block_small.Alike1 (Engine.process_block_small.line1_21 cfg s) (Engine.process_block_small.line1_21 cfg t) := by
  rintro ⟨_, _, _, _, _, _, _, _, _⟩ ⟨_, _, _, _, _, _, _, _, _⟩ h
  unfold Engine.process_block_small.line1_21
  try dsimp only at *
  repeat same_step

theorem Engine.process_block_small.line1_22_same (cfg : Cfg) : ∀ s t, Engine.process_block_small.Alike1 s t →
    Tr.SameSeen Engine.process_block_small.Alike1 (Engine.process_block_small.line1_22 cfg s) (Engine.process_block_small.line1_22 cfg t) := by
  rintro ⟨_, _, _, _, _, _, _, _, _⟩ ⟨_, _, _, _, _, _, _, _, _⟩ h
  unfold Engine.process_block_small.line1_22
  try dsimp only at *
  repeat same_step

theorem Engine.process_block_small.line1_23_same (cfg : Cfg) : ∀ s t, Engine.process_block_small.Alike1 s t →
    Tr.SameSeen Engine.process_block_small.Alike1 (Engine.process_block_small.line1_23 cfg s) (Engine.process_block_small.line1_23 cfg t) := by
  rintro ⟨_, _, _, _, _, _, _, _, _⟩ ⟨_, _, _, _, _, _, _, _, _⟩ h
  unfold Engine.process_block_small.line1_23
  try dsimp only at *
  repeat same_step

theorem Engine.process_block_small.line1_24_same (cfg : Cfg) : ∀ s t, Engine.process_block_small.Alike1 s t →
    Tr.SameSeen Engine.process_block_small.Alike1 (Engine.process_block_small.line1_24 cfg s) (Engine.process_block_small.line1_24 cfg t) := by
  rintro ⟨_, _, _, _, _, _, _, _, _⟩ ⟨_, _, _, _, _, _, _, _, _⟩ h
  unfold Engine.process_block_small.line1_24
  try dsimp only at *
  repeat same_step

theorem Engine.process_block_small.line1_25_same (cfg : Cfg) : ∀ s t, Engine.process_block_small.Alike1 s t →
    Tr.SameSeen Engine.process_block_small.Alike1 (Engine.process_block_small.line1_25 cfg s) (Engine.process_block_small.line1_25 cfg t) := by
  rintro ⟨_, _, _, _, _, _, _, _, _⟩ ⟨_, _, _, _, _, _, _, _, _⟩ h
  unfold Engine.process_block_small.line1_25
  try dsimp only at *
  repeat same_step

theorem Engine.process_block_small.line1_26_same (cfg : Cfg) : ∀ s t, Engine.process_block_small.Alike1 s t →
    Tr.SameSeen Engine.process_block_small.Alike1 (Engine.process_block_small.line1_26 cfg s) (Engine.process_block_small.line1_26 cfg t) := by
  rintro ⟨_, _, _, _, _, _, _, _, _⟩ ⟨_, _, _, _, _, _, _, _, _⟩ h
  unfold Engine.process_block_small.line1_26
  try dsimp only at *
  repeat same_step

theorem Engine.process_block_small.line1_27_same (cfg : Cfg) : ∀ s t, Engine.process_block_small.Alike1 s t →
    Tr.SameSeen Engine.process_block_small.Alike1 (Engine.process_block_small.line1_27 cfg s) (Engine.process_block_small.line1_27 cfg t) := by
  rintro ⟨_, _, _, _, _, _, _, _, _⟩ ⟨_, _, _, _, _, _, _, _, _⟩ h
  unfold Engine.process_block_small.line1_27
  try dsimp only at *
  repeat same_step

theorem Engine.process_block_small.line1_28_same (cfg : Cfg) : ∀ s t, Engine.process_block_small.Alike1 s t →
    Tr.SameSeen Engine.process_block_small.Alike1 (Engine.process_block_small.line1_28 cfg s) (Engine.process_block_small.line1_28 cfg t) := by
  rintro ⟨_, _, _, _, _, _, _, _, _⟩ ⟨_, _, _, _, _, _, _, _, _⟩ h
  unfold Engine.process_block_small.line1_28
  try dsimp only at *
  repeat same_step

theorem Engine.process_block_small.line1_29_same (cfg : Cfg) : ∀ s t, Engine.process_block_small.Alike1 s t →
    Tr.SameSeen Engine.process_block_small.Alike1 (Engine.process_block_small.line1_29 cfg s) (Engine.process_block_small.line1_29 cfg t) := by
  rintro ⟨_, _, _, _, _, _, _, _, _⟩ ⟨_, _, _, _, _, _, _, _, _⟩ h
  unfold Engine.process_block_small.line1_29
  try dsimp only at *
  repeat same_step

theorem Engine.process_block_small.line1_30_same (cfg : Cfg) : ∀ s t, Engine.process_block_small.Alike1 s t →
    Tr.SameSeen Engine.process_block_small.Alike1 (Engine.process_block_small.line1_30 cfg s) (Engine.process_block_small.line1_30 cfg t) := by
  rintro ⟨_, _, _, _, _, _, _, _, _⟩ ⟨_, _, _, _, _, _, _, _, _⟩ h
  unfold Engine.process_block_small.line1_30
  try dsimp only at *
  repeat same_step

theorem Engine.process_block_small.line1_31_same (cfg : Cfg) : ∀ s t, Engine.process_block_small.Alike1 s t →
    Tr.SameSeen Engine.process_block_small.Alike1 (Engine.process_block_small.line1_31 cfg s) (Engine.process_block_small.line1_31 cfg t) := by
  rintro ⟨_, _, _, _, _, _, _, _, _⟩ ⟨_, _, _, _, _, _, _, _, _⟩ h
  unfold Engine.process_block_small.line1_31
  try dsimp only at *
  repeat same_step

theorem Engine.process_block_small.line1_32_same (cfg : Cfg) : ∀ s t, Engine.process_block_small.Alike1 s t →
    Tr.SameSeen Engine.process_block_small.Alike1 (Engine.process_block_small.line1_32 cfg s) (Engine.process_block_small.line1_32 cfg t) := by
  rintro ⟨_, _, _, _, _, _, _, _, _⟩ ⟨_, _, _, _, _, _, _, _, _⟩ h
  unfold Engine.process_block_small.line1_32
  try dsimp only at *
  repeat same_step

theorem Engine.process_block_small.line1_33_same (cfg : Cfg) : ∀ s t, Engine.process_block_small.Alike1 s t →
    Tr.SameSeen Engine.process_block_small.Alike1 (Engine.process_block_small.line1_33 cfg s) (Engine.process_block_small.line1_33 cfg t) := by
  rintro ⟨_, _, _, _, _, _, _, _, _⟩ ⟨_, _, _, _, _, _, _, _, _⟩ h
  unfold Engine.process_block_small.line1_33
  try dsimp only at *
  repeat same_step

theorem Engine.process_block_small.line1_34_same (cfg : Cfg) : ∀ s t, Engine.process_block_small.Alike1 s t →
    Tr.SameSeen Engine.process_block_small.Alike1 (Engine.process_block_small.line1_34 cfg s) (Engine.process_block_small.line1_34 cfg t) := by
  rintro ⟨_, _, _, _, _, _, _, _, _⟩ ⟨_, _, _, _, _, _, _, _, _⟩ h
  unfold Engine.process_block_small.line1_34
  try dsimp only at *
  repeat same_step

theorem Engine.process_block_small.line1_35_same (cfg : Cfg) : ∀ s t, Engine.process_block_small.Alike1 s t →
    Tr.SameSeen Engine.process_block_small.Alike1 (Engine.process_block_small.line1_35 cfg s) (Engine.process_block_small.line1_35 cfg t) := by
  rintro ⟨_, _, _, _, _, _, _, _, _⟩ ⟨_, _, _, _, _, _, _, _, _⟩ h
  unfold Engine.process_block_small.line1_35
  try dsimp only at *
  repeat same_step

theorem Engine.process_block_small.line1_36_same (cfg : Cfg) : ∀ s t, Engine.process_block_small.Alike1 s t →
    Tr.SameSeen Engine.process_block_small.Alike1 (Engine.process_block_small.line1_36 cfg s) (Engine.process_block_small.line1_36 cfg t) := by
  rintro ⟨_, _, _, _, _, _, _, _, _⟩ ⟨_, _, _, _, _, _, _, _, _⟩ h
  unfold Engine.process_block_small.line1_36
  try dsimp only at *
  repeat same_step

theorem Engine.process_block_small.line1_37_same (cfg : Cfg) : ∀ s t, Engine.process_block_small.Alike1 s t →
    Tr.SameSeen Engine.process_block_small.Alike1 (Engine.process_block_small.line1_37 cfg s) (Engine.process_block_small.line1_37 cfg t) := by
  rintro ⟨_, _, _, _, _, _, _, _, _⟩ ⟨_, _, _, _, _, _, _, _, _⟩ h
  unfold Engine.process_block_small.line1_37
  try dsimp only at *
  repeat same_step

theorem Engine.process_block_small.line1_38_same (cfg : Cfg) : ∀ s t, Engine.process_block_small.Alike1 s t →
    Tr.SameSeen Engine.process_block_small.Alike1 (Engine.process_block_small.line1_38 cfg s) (Engine.process_block_small.line1_38 cfg t) := by
  rintro ⟨_, _, _, _, _, _, _, _, _⟩ ⟨_, _, _, _, _, _, _, _, _⟩ h
  unfold Engine.process_block_small.line1_38
  try dsimp only at *
  repeat same_step

theorem Engine.process_block_small.line1_39_same (cfg : Cfg) : ∀ s t, Engine.process_block_small.Alike1 s t →
    Tr.SameSeen Engine.process_block_small.Alike1 (Engine.process_block_small.line1_39 cfg s) (Engine.process_block_small.line1_39 cfg t) := by
  rintro ⟨_, _, _, _, _, _, _, _, _⟩ ⟨_, _, _, _, _, _, _, _, _⟩ h
  unfold Engine.process_block_small.line1_39
  try dsimp only at *
  repeat same_step

theorem Engine.process_block_small.line1_40_same (cfg : Cfg) : ∀ s t, Engine.process_block_small.Alike1 s t →
    Tr.SameSeen Engine.process_block_small.Alike1 (Engine.process_block_small.line1_40 cfg s) (Engine.process_block_small.line1_40 cfg t) := by
  rintro ⟨_, _, _, _, _, _, _, _, _⟩ ⟨_, _, _, _, _, _, _, _, _⟩ h
  unfold Engine.process_block_small.line1_40
  try dsimp only at *
  repeat same_step

theorem Engine.process_block_small.line1_41_same (cfg : Cfg) : ∀ s t, Engine.process_block_small.Alike1 s t →
    Tr.SameSeen Engine.process_block_small.Alike1 (Engine.process_block_small.line1_41 cfg s) (Engine.process_block_small.line1_41 cfg t) := by
  rintro ⟨_, _, _, _, _, _, _, _, _⟩ ⟨_, _, _, _, _, _, _, _, _⟩ h
  unfold Engine.process_block_small.line1_41
  try dsimp only at *
  repeat same_step

theorem Engine.process_block_small.line1_42_same (cfg : Cfg) : ∀ s t, Engine.process_block_small.Alike1 s t →
    Tr.SameSeen Engine.process_block_small.Alike1 (Engine.process_block_small.line1_42 cfg s) (Engine.process_block_small.line1_42 cfg t) := by
  rintro ⟨_, _, _, _, _, _, _, _, _⟩ ⟨_, _, _, _, _, _, _, _, _⟩ h
  unfold Engine.process_block_small.line1_42
  try dsimp only at *
  repeat same_step

theorem Engine.process_block_small.line1_43_same (cfg : Cfg) : ∀ s t, Engine.process_block_small.Alike1 s t →
    Tr.SameSeen Engine.process_block_small.Alike1 (Engine.process_block_small.line1_43 cfg s) (Engine.process_block_small.line1_43 cfg t) := by
  rintro ⟨_, _, _, _, _, _, _, _, _⟩ ⟨_, _, _, _, _, _, _, _, _⟩ h
  unfold Engine.process_block_small.line1_43
  try dsimp only at *
  repeat same_step

theorem Engine.process_block_small.line1_44_same (cfg : Cfg) : ∀ s t, Engine.process_block_small.Alike1 s t →
    Tr.SameSeen Engine.process_block_small.Alike1 (Engine.process_block_small.line1_44 cfg s) (Engine.process_block_small.line1_44 cfg t) := by
  rintro ⟨_, _, _, _, _, _, _, _, _⟩ ⟨_, _, _, _, _, _, _, _, _⟩ h
  unfold Engine.process_block_small.line1_44
  try dsimp only at *
  repeat same_step

theorem Engine.process_block_small.line1_45_same (cfg : Cfg) : ∀ s t, Engine.process_block_small.Alike1 s t →
    Tr.SameSeen Engine.process_block_small.Alike1 (Engine.process_block_small.line1_45 cfg s) (Engine.process_block_small.line1_45 cfg t) := by
  rintro ⟨_, _, _, _, _, _, _, _, _⟩ ⟨_, _, _, _, _, _, _, _, _⟩ h
  unfold Engine.process_block_small.line1_45
  try dsimp only at *
  repeat same_step

theorem Engine.process_block_small.line1_46_same (cfg : Cfg) : ∀ s t, Engine.process_block_small.Alike1 s t →
    Tr.SameSeen Engine.process_block_small.Alike1 (Engine.process_block_small.line1_46 cfg s) (Engine.process_block_small.line1_46 cfg t) := by
  rintro ⟨_, _, _, _, _, _, _, _, _⟩ ⟨_, _, _, _, _, _, _, _, _⟩ h
  unfold Engine.process_block_small.line1_46
  try dsimp only at *
  repeat same_step

theorem Engine.process_block_small.line1_47_same (cfg : Cfg) : ∀ s t, Engine.process_block_small.Alike1 s t →
    Tr.SameSeen Engine.process_block_small.Alike1 (Engine.process_block_small.line1_47 cfg s) (Engine.process_block_small.line1_47 cfg t) := by
  rintro ⟨_, _, _, _, _, _, _, _, _⟩ ⟨_, _, _, _, _, _, _, _, _⟩ h
  unfold Engine.process_block_small.line1_47
  try dsimp only at *
  repeat same_step

theorem Engine.process_block_small.line1_48_same (cfg : Cfg) : ∀ s t, Engine.process_block_small.Alike1 s t →
    Tr.SameSeen Engine.process_block_small.Alike1 (Engine.process_block_small.line1_48 cfg s) (Engine.process_block_small.line1_48 cfg t) := by
  rintro ⟨_, _, _, _, _, _, _, _, _⟩ ⟨_, _, _, _, _, _, _, _, _⟩ h
  unfold Engine.process_block_small.line1_48
  try dsimp only at *
  repeat same_step

theorem Engine.process_block_small.line1_49_same (cfg : Cfg) : ∀ s t, Engine.process_block_small.Alike1 s t →
    Tr.SameSeen Engine.process_block_small.Alike1 (Engine.process_block_small.line1_49 cfg s) (Engine.process_block_small.line1_49 cfg t) := by
  rintro ⟨_, _, _, _, _, _, _, _, _⟩ ⟨_, _, _, _, _, _, _, _, _⟩ h
  unfold Engine.process_block_small.line1_49
  try dsimp only at *
  repeat same_step

theorem Engine.process_block_small.line1_50_same (cfg : Cfg) : ∀ s t, Engine.process_block_small.Alike1 s t →
    Tr.SameSeen Engine.process_block_small.Alike1 (Engine.process_block_small.line1_50 cfg s) (Engine.process_block_small.line1_50 cfg t) := by
  rintro ⟨_, _, _, _, _, _, _, _, _⟩ ⟨_, _, _, _, _, _, _, _, _⟩ h
  unfold Engine.process_block_small.line1_50
  try dsimp only at *
  repeat same_step

theorem Engine.process_block_small.line1_51_same (cfg : Cfg) : ∀ s t, Engine.process_block_small.Alike1 s t →
    Tr.SameSeen Engine.process_block_small.Alike1 (Engine.process_block_small.line1_51 cfg s) (Engine.process_block_small.line1_51 cfg t) := by
  rintro ⟨_, _, _, _, _, _, _, _, _⟩ ⟨_, _, _, _, _, _, _, _, _⟩ h
  unfold Engine.process_block_small.line1_51
  try dsimp only at *
  repeat same_step

theorem Engine.process_block_small.line1_52_same (cfg : Cfg) : ∀ s t, Engine.process_block_small.Alike1 s t →
    Tr.SameSeen Engine.process_block_small.Alike1 (Engine.process_block_small.line1_52 cfg s) (Engine.process_block_small.line1_52 cfg t) := by
  rintro ⟨_, _, _, _, _, _, _, _, _⟩ ⟨_, _, _, _, _, _, _, _, _⟩ h
  unfold Engine.process_block_small.line1_52
  try dsimp only at *
  repeat same_step

theorem Engine.process_block_small.line1_53_same (cfg : Cfg) : ∀ s t, Engine.process_block_small.Alike1 s t →
    Tr.SameSeen Engine.process_block_small.Alike1 (Engine.process_block_small.line1_53 cfg s) (Engine.process_block_small.line1_53 cfg t) := by
  rintro ⟨_, _, _, _, _, _, _, _, _⟩ ⟨_, _, _, _, _, _, _, _, _⟩ h
  unfold Engine.process_block_small.line1_53
  try dsimp only at *
  repeat same_step

theorem Engine.process_block_small.line1_54_same (cfg : Cfg) : ∀ s t, Engine.process_block_small.Alike1 s t →
    Tr.SameSeen Engine.process_block_small.Alike1 (Engine.process_block_small.line1_54 cfg s) (Engine.process_block_small.line1_54 cfg t) := by
  rintro ⟨_, _, _, _, _, _, _, _, _⟩ ⟨_, _, _, _, _, _, _, _, _⟩ h
  unfold Engine.process_block_small.line1_54
  try dsimp only at *
  repeat same_step

theorem Engine.process_block_small.line1_55_same (cfg : Cfg) : ∀ s t, Engine.process_block_small.Alike1 s t →
    Tr.SameSeen Engine.process_block_small.Alike1 (Engine.process_block_small.line1_55 cfg s) (Engine.process_block_small.line1_55 cfg t) := by
  rintro ⟨_, _, _, _, _, _, _, _, _⟩ ⟨_, _, _, _, _, _, _, _, _⟩ h
  unfold Engine.process_block_small.line1_55
  try dsimp only at *
  repeat same_step

theorem Engine.process_block_small.line1_56_same (cfg : Cfg) : ∀ s t, Engine.process_block_small.Alike1 s t →
    Tr.SameSeen Engine.process_block_small.Alike1 (Engine.process_block_small.line1_56 cfg s) (Engine.process_block_small.line1_56 cfg t) := by
  rintro ⟨_, _, _, _, _, _, _, _, _⟩ ⟨_, _, _, _, _, _, _, _, _⟩ h
  unfold Engine.process_block_small.line1_56
  try dsimp only at *
  repeat same_step

theorem Engine.process_block_small.line1_57_same (cfg : Cfg) : ∀ s t, Engine.process_block_small.Alike1 s t →
    Tr.SameSeen Engine.process_block_small.Alike1 (Engine.process_block_small.line1_57 cfg s) (Engine.process_block_small.line1_57 cfg t) := by
  rintro ⟨_, _, _, _, _, _, _, _, _⟩ ⟨_, _, _, _, _, _, _, _, _⟩ h
  unfold Engine.process_block_small.line1_57
  try dsimp only at *
  repeat same_step

theorem Engine.process_block_small.line1_58_same (cfg : Cfg) : ∀ s t, Engine.process_block_small.Alike1 s t →
    Tr.SameSeen Engine.process_block_small.Alike1 (Engine.process_block_small.line1_58 cfg s) (Engine.process_block_small.line1_58 cfg t) := by
  rintro ⟨_, _, _, _, _, _, _, _, _⟩ ⟨_, _, _, _, _, _, _, _, _⟩ h
  unfold Engine.process_block_small.line1_58
  try dsimp only at *
  repeat same_step

theorem Engine.process_block_small.line1_59_same (cfg : Cfg) : ∀ s t, Engine.process_block_small.Alike1 s t →
    Tr.SameSeen Engine.process_block_small.Alike1 (Engine.process_block_small.line1_59 cfg s) (Engine.process_block_small.line1_59 cfg t) := by
  rintro ⟨_, _, _, _, _, _, _, _, _⟩ ⟨_, _, _, _, _, _, _, _, _⟩ h
  unfold Engine.process_block_small.line1_59
  try dsimp only at *
  repeat same_step

theorem Engine.process_block_small.line1_60_same (cfg : Cfg) : ∀ s t, Engine.process_block_small.Alike1 s t →
    Tr.SameSeen Engine.process_block_small.Alike1 (Engine.process_block_small.line1_60 cfg s) (Engine.process_block_small.line1_60 cfg t) := by
  rintro ⟨_, _, _, _, _, _, _, _, _⟩ ⟨_, _, _, _, _, _, _, _, _⟩ h
  unfold Engine.process_block_small.line1_60
  try dsimp only at *
  repeat same_step

theorem Engine.process_block_small.line1_61_same (cfg : Cfg) : ∀ s t, Engine.process_block_small.Alike1 s t →
    Tr.SameSeen Engine.process_block_small.Alike1 (Engine.process_block_small.line1_61 cfg s) (Engine.process_block_small.line1_61 cfg t) := by
  rintro ⟨_, _, _, _, _, _, _, _, _⟩ ⟨_, _, _, _, _, _, _, _, _⟩ h
  unfold Engine.process_block_small.line1_61
  try dsimp only at *
  repeat same_step

theorem Engine.process_block_small.line1_62_same (cfg : Cfg) : ∀ s t, Engine.process_block_small.Alike1 s t →
    Tr.SameSeen Engine.process_block_small.Alike1 (Engine.process_block_small.line1_62 cfg s) (Engine.process_block_small.line1_62 cfg t) := by
  rintro ⟨_, _, _, _, _, _, _, _, _⟩ ⟨_, _, _, _, _, _, _, _, _⟩ h
  unfold Engine.process_block_small.line1_62
  try dsimp only at *
  repeat same_step

theorem Engine.process_block_small.line1_63_same (cfg : Cfg) : ∀ s t, Engine.process_block_small.Alike1 s t →
    Tr.SameSeen Engine.process_block_small.Alike1 (Engine.process_block_small.line1_63 cfg s) (Engine.process_block_small.line1_63 cfg t) := by
  rintro ⟨_, _, _, _, _, _, _, _, _⟩ ⟨_, _, _, _, _, _, _, _, _⟩ h
  unfold Engine.process_block_small.line1_63
  try dsimp only at *
  repeat same_step

theorem Engine.process_block_small.line1_64_same (cfg : Cfg) : ∀ s t, Engine.process_block_small.Alike1 s t →
    Tr.SameSeen Engine.process_block_small.Alike1 (Engine.process_block_small.line1_64 cfg s) (Engine.process_block_small.line1_64 cfg t) := by
  rintro ⟨_, _, _, _, _, _, _, _, _⟩ ⟨_, _, _, _, _, _, _, _, _⟩ h
  unfold Engine.process_block_small.line1_64
  try dsimp only at *
  repeat same_step

theorem Engine.process_block_small.line1_65_same (cfg : Cfg) : ∀ s t, Engine.process_block_small.Alike1 s t →
    Tr.SameSeen Engine.process_block_small.Alike1 (Engine.process_block_small.line1_65 cfg s) (Engine.process_block_small.line1_65 cfg t) := by
  rintro ⟨_, _, _, _, _, _, _, _, _⟩ ⟨_, _, _, _, _, _, _, _, _⟩ h
  unfold Engine.process_block_small.line1_65
  try dsimp only at *
  repeat same_step

theorem Engine.process_block_small.line1_66_same (cfg : Cfg) : ∀ s t, Engine.process_block_small.Alike1 s t →
    Tr.SameSeen Engine.process_block_small.Alike1 (Engine.process_block_small.line1_66 cfg s) (Engine.process_block_small.line1_66 cfg t) := by
  rintro ⟨_, _, _, _, _, _, _, _, _⟩ ⟨_, _, _, _, _, _, _, _, _⟩ h
  unfold Engine.process_block_small.line1_66
  try dsimp only at *
  repeat same_step

theorem Engine.process_block_small.line1_67_same (cfg : Cfg) : ∀ s t, Engine.process_block_small.Alike1 s t →
    Tr.SameSeen Engine.process_block_small.Alike1 (Engine.process_block_small.line1_67 cfg s) (Engine.process_block_small.line1_67 cfg t) := by
  rintro ⟨_, _, _, _, _, _, _, _, _⟩ ⟨_, _, _, _, _, _, _, _, _⟩ h
  unfold Engine.process_block_small.line1_67
  try dsimp only at *
  repeat same_step

theorem Engine.process_block_small.line1_68_same (cfg : Cfg) : ∀ s t, Engine.process_block_small.Alike1 s t →
    Tr.SameSeen Engine.process_block_small.Alike1 (Engine.process_block_small.line1_68 cfg s) (Engine.process_block_small.line1_68 cfg t) := by
  rintro ⟨_, _, _, _, _, _, _, _, _⟩ ⟨_, _, _, _, _, _, _, _, _⟩ h
  unfold Engine.process_block_small.line1_68
  try dsimp only at *
  repeat same_step

theorem Engine.process_block_small.line1_69_same (cfg : Cfg) : ∀ s t, Engine.process_block_small.Alike1 s t →
    Tr.SameSeen Engine.process_block_small.Alike1 (Engine.process_block_small.line1_69 cfg s) (Engine.process_block_small.line1_69 cfg t) := by
  rintro ⟨_, _, _, _, _, _, _, _, _⟩ ⟨_, _, _, _, _, _, _, _, _⟩ h
  unfold Engine.process_block_small.line1_69
  try dsimp only at *
  repeat same_step

theorem Engine.process_block_small.line1_70_same (cfg : Cfg) : ∀ s t, Engine.process_block_small.Alike1 s t →
    Tr.SameSeen Engine.process_block_small.Alike1 (Engine.process_block_small.line1_70 cfg s) (Engine.process_block_small.line1_70 cfg t) := by
  rintro ⟨_, _, _, _, _, _, _, _, _⟩ ⟨_, _, _, _, _, _, _, _, _⟩ h
  unfold Engine.process_block_small.line1_70
  try dsimp only at *
  repeat same_step

theorem Engine.process_block_small.line1_71_same (cfg : Cfg) : ∀ s t, Engine.process_block_small.Alike1 s t →
    Tr.SameSeen Engine.process_block_small.Alike1 (Engine.process_block_small.line1_71 cfg s) (Engine.process_block_small.line1_71 cfg t) := by
  rintro ⟨_, _, _, _, _, _, _, _, _⟩ ⟨_, _, _, _, _, _, _, _, _⟩ h
  unfold Engine.process_block_small.line1_71
  try dsimp only at *
  repeat same_step

theorem Engine.process_block_small.line1_72_same (cfg : Cfg) : ∀ s t, Engine.process_block_small.Alike1 s t →
    Tr.SameSeen Engine.process_block_small.Alike1 (Engine.process_block_small.line1_72 cfg s) (Engine.process_block_small.line1_72 cfg t) := by
  rintro ⟨_, _, _, _, _, _, _, _, _⟩ ⟨_, _, _, _, _, _, _, _, _⟩ h
  unfold Engine.process_block_small.line1_72
  try dsimp only at *
  repeat same_step

theorem Engine.process_block_small.line1_73_same (cfg : Cfg) : ∀ s t, Engine.process_block_small.Alike1 s t →
    Tr.SameSeen Engine.process_block_small.Alike1 (Engine.process_block_small.line1_73 cfg s) (Engine.process_block_small.line1_73 cfg t) := by
  rintro ⟨_, _, _, _, _, _, _, _, _⟩ ⟨_, _, _, _, _, _, _, _, _⟩ h
  unfold Engine.process_block_small.line1_73
  try dsimp only at *
  repeat same_step

theorem Engine.process_block_small.line1_74_same (cfg : Cfg) : ∀ s t, Engine.process_block_small.Alike1 s t →
    Tr.SameSeen Engine.process_block_small.Alike1 (Engine.process_block_small.line1_74 cfg s) (Engine.process_block_small.line1_74 cfg t) := by
  rintro ⟨_, _, _, _, _, _, _, _, _⟩ ⟨_, _, _, _, _, _, _, _, _⟩ h
  unfold Engine.process_block_small.line1_74
  try dsimp only at *
  repeat same_step

theorem Engine.process_block_small.line1_75_same (cfg : Cfg) : ∀ s t, Engine.process_block_small.Alike1 s t →
    Tr.SameSeen Engine.process_block_small.Alike1 (Engine.process_block_small.line1_75 cfg s) (Engine.process_block_small.line1_75 cfg t) := by
  rintro ⟨_, _, _, _, _, _, _, _, _⟩ ⟨_, _, _, _, _, _, _, _, _⟩ h
  unfold Engine.process_block_small.line1_75
  try dsimp only at *
  repeat same_step

theorem Engine.process_block_small.line1_76_same (cfg : Cfg) : ∀ s t, Engine.process_block_small.Alike1 s t →
    Tr.SameSeen Engine.process_block_small.Alike1 (Engine.process_block_small.line1_76 cfg s) (Engine.process_block_small.line1_76 cfg t) := by
  rintro ⟨_, _, _, _, _, _, _, _, _⟩ ⟨_, _, _, _, _, _, _, _, _⟩ h
  unfold Engine.process_block_small.line1_76
  try dsimp only at *
  repeat same_step

theorem Engine.process_block_small.line1_77_same (cfg : Cfg) : ∀ s t, Engine.process_block_small.Alike1 s t →
    Tr.SameSeen Engine.process_block_small.Alike1 (Engine.process_block_small.line1_77 cfg s) (Engine.process_block_small.line1_77 cfg t) := by
  rintro ⟨_, _, _, _, _, _, _, _, _⟩ ⟨_, _, _, _, _, _, _, _, _⟩ h
  unfold Engine.process_block_small.line1_77
  try dsimp only at *
  repeat same_step

theorem Engine.process_block_small.line1_78_same (cfg : Cfg) : ∀ s t, Engine.process_block_small.Alike1 s t →
    Tr.SameSeen Engine.process_block_small.Alike1 (Engine.process_block_small.line1_78 cfg s) (Engine.process_block_small.line1_78 cfg t) := by
  rintro ⟨_, _, _, _, _, _, _, _, _⟩ ⟨_, _, _, _, _, _, _, _, _⟩ h
  unfold Engine.process_block_small.line1_78
  try dsimp only at *
  repeat same_step

theorem Engine.process_block_small.line1_79_same (cfg : Cfg) : ∀ s t, Engine.process_block_small.Alike1 s t →
    Tr.SameSeen Engine.process_block_small.Alike1 (Engine.process_block_small.line1_79 cfg s) (Engine.process_block_small.line1_79 cfg t) := by
  rintro ⟨_, _, _, _, _, _, _, _, _⟩ ⟨_, _, _, _, _, _, _, _, _⟩ h
  unfold Engine.process_block_small.line1_79
  try dsimp only at *
  repeat same_step

set_option maxRecDepth 10000 in
theorem Engine.process_block_small.lines1_same (cfg : Cfg) :
    Tr.SameSeen.Each (fun f g => ∀ s t, Engine.process_block_small.Alike1 s t → Tr.SameSeen Engine.process_block_small.Alike1 (f s) (g t))
      (Engine.process_block_small.lines1 cfg) (Engine.process_block_small.lines1 cfg) :=
  ⟨Engine.process_block_small.line1_0_same cfg,
   Engine.process_block_small.line1_1_same cfg,
   Engine.process_block_small.line1_2_same cfg,
   Engine.process_block_small.line1_3_same cfg,
   Engine.process_block_small.line1_4_same cfg,
   Engine.process_block_small.line1_5_same cfg,
   Engine.process_block_small.line1_6_same cfg,
   Engine.process_block_small.line1_7_same cfg,
   Engine.process_block_small.line1_8_same cfg,
   Engine.process_block_small.line1_9_same cfg,
   Engine.process_block_small.line1_10_same cfg,
   Engine.process_block_small.line1_11_same cfg,
   Engine.process_block_small.line1_12_same cfg,
   Engine.process_block_small.line1_13_same cfg,
   Engine.process_block_small.line1_14_same cfg,
   Engine.process_block_small.line1_15_same cfg,
   Engine.process_block_small.line1_16_same cfg,
   Engine.process_block_small.line1_17_same cfg,
   Engine.process_block_small.line1_18_same cfg,
   Engine.process_block_small.line1_19_same cfg,
   Engine.process_block_small.line1_20_same cfg,
   Engine.process_block_small.line1_21_same cfg,
   Engine.process_block_small.line1_22_same cfg,
   Engine.process_block_small.line1_23_same cfg,
   Engine.process_block_small.line1_24_same cfg,
   Engine.process_block_small.line1_25_same cfg,
   Engine.process_block_small.line1_26_same cfg,
   Engine.process_block_small.line1_27_same cfg,
   Engine.process_block_small.line1_28_same cfg,
   Engine.process_block_small.line1_29_same cfg,
   Engine.process_block_small.line1_30_same cfg,
   Engine.process_block_small.line1_31_same cfg,
   Engine.process_block_small.line1_32_same cfg,
   Engine.process_block_small.line1_33_same cfg,
   Engine.process_block_small.line1_34_same cfg,
   Engine.process_block_small.line1_35_same cfg,
   Engine.process_block_small.line1_36_same cfg,
   Engine.process_block_small.line1_37_same cfg,
   Engine.process_block_small.line1_38_same cfg,
   Engine.process_block_small.line1_39_same cfg,
   Engine.process_block_small.line1_40_same cfg,
   Engine.process_block_small.line1_41_same cfg,
   Engine.process_block_small.line1_42_same cfg,
   Engine.process_block_small.line1_43_same cfg,
   Engine.process_block_small.line1_44_same cfg,
   Engine.process_block_small.line1_45_same cfg,
   Engine.process_block_small.line1_46_same cfg,
   Engine.process_block_small.line1_47_same cfg,
   Engine.process_block_small.line1_48_same cfg,
   Engine.process_block_small.line1_49_same cfg,
   Engine.process_block_small.line1_50_same cfg,
   Engine.process_block_small.line1_51_same cfg,
   Engine.process_block_small.line1_52_same cfg,
   Engine.process_block_small.line1_53_same cfg,
   Engine.process_block_small.line1_54_same cfg,
   Engine.process_block_small.line1_55_same cfg,
   Engine.process_block_small.line1_56_same cfg,
   Engine.process_block_small.line1_57_same cfg,
   Engine.process_block_small.line1_58_same cfg,
   Engine.process_block_small.line1_59_same cfg,
   Engine.process_block_small.line1_60_same cfg,
   Engine.process_block_small.line1_61_same cfg,
   Engine.process_block_small.line1_62_same cfg,
   Engine.process_block_small.line1_63_same cfg,
   Engine.process_block_small.line1_64_same cfg,
   Engine.process_block_small.line1_65_same cfg,
   Engine.process_block_small.line1_66_same cfg,
   Engine.process_block_small.line1_67_same cfg,
   Engine.process_block_small.line1_68_same cfg,
   Engine.process_block_small.line1_69_same cfg,
   Engine.process_block_small.line1_70_same cfg,
   Engine.process_block_small.line1_71_same cfg,
   Engine.process_block_small.line1_72_same cfg,
   Engine.process_block_small.line1_73_same cfg,
   Engine.process_block_small.line1_74_same cfg,
   Engine.process_block_small.line1_75_same cfg,
   Engine.process_block_small.line1_76_same cfg,
   Engine.process_block_small.line1_77_same cfg,
   Engine.process_block_small.line1_78_same cfg,
   Engine.process_block_small.line1_79_same cfg, trivial⟩

set_option maxRecDepth 10000 in
theorem Engine.process_block_small.lines1_res (cfg : Cfg) :
    (Engine.process_block_small.lines1 cfg).map (fun f s => (f s).res) = Source.Sha512.Engine.process_block_small.lines1 cfg := rfl

end Chf.Seen.Sha512
