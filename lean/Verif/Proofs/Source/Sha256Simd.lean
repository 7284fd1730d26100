import Verif.Source.Sha256
import Verif.Model.Sha256Engine
import Verif.Proofs.Source.Rounds

/-!
# The x86 block function of the translation of `sha256.rs` against the model
-/

namespace Chf.Source.Sha256
open Chf Chf.Rs
open Chf.Sha256.Simd (Xmm loadBytes)
set_option linter.unusedSimpArgs false

theorem ofBytes_eq (l : List Byte) : Chf.Sha256.Simd.ofBytes l = BitVec.ofNat 128 (natOfLe l) := by
  induction l with
  | nil => rfl
  | cons x xs ih =>
    apply BitVec.eq_of_toNat_eq
    have hx := x.isLt
    rw [Chf.Sha256.Simd.ofBytes, ih, natOfLe]
    rw [BitVec.toNat_or, BitVec.toNat_shiftLeft, BitVec.toNat_setWidth, BitVec.toNat_ofNat,
      BitVec.toNat_ofNat, Nat.mod_eq_of_lt (a := x.toNat) (by omega), Nat.shiftLeft_eq]
    have : natOfLe xs % 2 ^ 128 * 2 ^ 8 % 2 ^ 128 = 2 ^ 8 * (natOfLe xs % 2 ^ 120) := by omega
    rw [this, ← Nat.two_pow_add_eq_or_of_lt (i := 8) hx]
    omega

theorem loadu8_eq (s : List Byte) (i : Nat) : loadu8 s i = loadBytes s i := by
  unfold loadu8 loadBytes
  rw [ofBytes_eq]

/-- The model's vector variables as the translated ones. -/
def xmm (abef cdgh : BitVec 128) (s : Xmm) : Engine.process_block_simd_x86_intrinsics.State1 :=
  (s.state0, s.state1, s.msg, s.tmp, s.msg0, s.msg1, s.msg2, s.msg3, abef, cdgh)

theorem runLines_append {σ : Type} (as bs : List (σ → Res σ)) (s : σ) :
    runLines (as ++ bs) s = runLines as s >>= runLines bs := by
  unfold runLines
  rw [List.foldlM_append]

section
variable (cfg : Cfg) (self : Engine) (a c : BitVec 128) (s : Xmm)
open Chf.Sha256.Simd
attribute [local irreducible] mm_add_epi32 mm_sha256rnds2_epu32 mm_shuffle_epi32 mm_alignr_epi8
  mm_sha256msg1_epu32 mm_sha256msg2_epu32 mm_shuffle_epi8 mm_set_epi64x mm_blend_epi16 mask

theorem rounds0_3_eq :
    runLines [Engine.process_block_simd_x86_intrinsics.line1_2 cfg self mask 0,
      Engine.process_block_simd_x86_intrinsics.line1_3 cfg self mask 0,
      Engine.process_block_simd_x86_intrinsics.line1_4 cfg self mask 0,
      Engine.process_block_simd_x86_intrinsics.line1_5 cfg self mask 0,
      Engine.process_block_simd_x86_intrinsics.line1_6 cfg self mask 0,
      Engine.process_block_simd_x86_intrinsics.line1_7 cfg self mask 0]
      (xmm a c s) =
      (rounds0_3 self.buffer s).map (xmm a c) := by
  obtain ⟨x0, x1, x2, x3, x4, x5, x6, x7⟩ := s
  dsimp only [rounds0_3]
  simp only [runLines, List.foldlM_cons, List.foldlM_nil, xmm, loadu8_eq, ok_bind,
    bind_assoc, pure_bind,
    Engine.process_block_simd_x86_intrinsics.line1_2,
    Engine.process_block_simd_x86_intrinsics.line1_3,
    Engine.process_block_simd_x86_intrinsics.line1_4,
    Engine.process_block_simd_x86_intrinsics.line1_5,
    Engine.process_block_simd_x86_intrinsics.line1_6,
    Engine.process_block_simd_x86_intrinsics.line1_7]
  cases loadBytes self.buffer 0 <;> rfl

theorem rounds4_7_eq (hc : cfg.Valid) :
    runLines [Engine.process_block_simd_x86_intrinsics.line1_8 cfg self mask 0,
      Engine.process_block_simd_x86_intrinsics.line1_9 cfg self mask 0,
      Engine.process_block_simd_x86_intrinsics.line1_10 cfg self mask 0,
      Engine.process_block_simd_x86_intrinsics.line1_11 cfg self mask 0,
      Engine.process_block_simd_x86_intrinsics.line1_12 cfg self mask 0,
      Engine.process_block_simd_x86_intrinsics.line1_13 cfg self mask 0,
      Engine.process_block_simd_x86_intrinsics.line1_14 cfg self mask 0]
      (xmm a c s) =
      (rounds4_7 self.buffer s).map (xmm a c) := by
  have hM := usizeMod_ge hc
  have hadd : addUsize cfg 0 16 = .ok 16 := by
    unfold addUsize
    rw [if_pos (by omega)]
  obtain ⟨x0, x1, x2, x3, x4, x5, x6, x7⟩ := s
  dsimp only [rounds4_7]
  simp only [runLines, List.foldlM_cons, List.foldlM_nil, xmm, loadu8_eq, hadd, ok_bind,
    bind_assoc, pure_bind,
    Engine.process_block_simd_x86_intrinsics.line1_8,
    Engine.process_block_simd_x86_intrinsics.line1_9,
    Engine.process_block_simd_x86_intrinsics.line1_10,
    Engine.process_block_simd_x86_intrinsics.line1_11,
    Engine.process_block_simd_x86_intrinsics.line1_12,
    Engine.process_block_simd_x86_intrinsics.line1_13,
    Engine.process_block_simd_x86_intrinsics.line1_14]
  cases loadBytes self.buffer 16 <;> rfl

theorem rounds8_11_eq (hc : cfg.Valid) :
    runLines [Engine.process_block_simd_x86_intrinsics.line1_15 cfg self mask 0,
      Engine.process_block_simd_x86_intrinsics.line1_16 cfg self mask 0,
      Engine.process_block_simd_x86_intrinsics.line1_17 cfg self mask 0,
      Engine.process_block_simd_x86_intrinsics.line1_18 cfg self mask 0,
      Engine.process_block_simd_x86_intrinsics.line1_19 cfg self mask 0,
      Engine.process_block_simd_x86_intrinsics.line1_20 cfg self mask 0,
      Engine.process_block_simd_x86_intrinsics.line1_21 cfg self mask 0]
      (xmm a c s) =
      (rounds8_11 self.buffer s).map (xmm a c) := by
  have hM := usizeMod_ge hc
  have hadd : addUsize cfg 0 32 = .ok 32 := by
    unfold addUsize
    rw [if_pos (by omega)]
  obtain ⟨x0, x1, x2, x3, x4, x5, x6, x7⟩ := s
  dsimp only [rounds8_11]
  simp only [runLines, List.foldlM_cons, List.foldlM_nil, xmm, loadu8_eq, hadd, ok_bind,
    bind_assoc, pure_bind,
    Engine.process_block_simd_x86_intrinsics.line1_15,
    Engine.process_block_simd_x86_intrinsics.line1_16,
    Engine.process_block_simd_x86_intrinsics.line1_17,
    Engine.process_block_simd_x86_intrinsics.line1_18,
    Engine.process_block_simd_x86_intrinsics.line1_19,
    Engine.process_block_simd_x86_intrinsics.line1_20,
    Engine.process_block_simd_x86_intrinsics.line1_21]
  cases loadBytes self.buffer 32 <;> rfl

theorem rounds12_15_eq (hc : cfg.Valid) :
    runLines [Engine.process_block_simd_x86_intrinsics.line1_22 cfg self mask 0,
      Engine.process_block_simd_x86_intrinsics.line1_23 cfg self mask 0,
      Engine.process_block_simd_x86_intrinsics.line1_24 cfg self mask 0,
      Engine.process_block_simd_x86_intrinsics.line1_25 cfg self mask 0,
      Engine.process_block_simd_x86_intrinsics.line1_26 cfg self mask 0,
      Engine.process_block_simd_x86_intrinsics.line1_27 cfg self mask 0,
      Engine.process_block_simd_x86_intrinsics.line1_28 cfg self mask 0,
      Engine.process_block_simd_x86_intrinsics.line1_29 cfg self mask 0,
      Engine.process_block_simd_x86_intrinsics.line1_30 cfg self mask 0,
      Engine.process_block_simd_x86_intrinsics.line1_31 cfg self mask 0]
      (xmm a c s) =
      (rounds12_15 self.buffer s).map (xmm a c) := by
  have hM := usizeMod_ge hc
  have hadd : addUsize cfg 0 48 = .ok 48 := by
    unfold addUsize
    rw [if_pos (by omega)]
  obtain ⟨x0, x1, x2, x3, x4, x5, x6, x7⟩ := s
  dsimp only [rounds12_15]
  simp only [runLines, List.foldlM_cons, List.foldlM_nil, xmm, loadu8_eq, hadd, ok_bind,
    bind_assoc, pure_bind,
    Engine.process_block_simd_x86_intrinsics.line1_22,
    Engine.process_block_simd_x86_intrinsics.line1_23,
    Engine.process_block_simd_x86_intrinsics.line1_24,
    Engine.process_block_simd_x86_intrinsics.line1_25,
    Engine.process_block_simd_x86_intrinsics.line1_26,
    Engine.process_block_simd_x86_intrinsics.line1_27,
    Engine.process_block_simd_x86_intrinsics.line1_28,
    Engine.process_block_simd_x86_intrinsics.line1_29,
    Engine.process_block_simd_x86_intrinsics.line1_30,
    Engine.process_block_simd_x86_intrinsics.line1_31]
  cases loadBytes self.buffer 48 <;> rfl

theorem rounds16_19_eq :
    runLines [Engine.process_block_simd_x86_intrinsics.line1_32 cfg self mask 0,
      Engine.process_block_simd_x86_intrinsics.line1_33 cfg self mask 0,
      Engine.process_block_simd_x86_intrinsics.line1_34 cfg self mask 0,
      Engine.process_block_simd_x86_intrinsics.line1_35 cfg self mask 0,
      Engine.process_block_simd_x86_intrinsics.line1_36 cfg self mask 0,
      Engine.process_block_simd_x86_intrinsics.line1_37 cfg self mask 0,
      Engine.process_block_simd_x86_intrinsics.line1_38 cfg self mask 0,
      Engine.process_block_simd_x86_intrinsics.line1_39 cfg self mask 0]
      (xmm a c s) =
      .ok (xmm a c (rounds16_19 s)) := by
  obtain ⟨x0, x1, x2, x3, x4, x5, x6, x7⟩ := s
  dsimp only [rounds16_19]
  simp only [runLines, List.foldlM_cons, List.foldlM_nil, xmm, ok_bind, pure_bind,
    Engine.process_block_simd_x86_intrinsics.line1_32,
    Engine.process_block_simd_x86_intrinsics.line1_33,
    Engine.process_block_simd_x86_intrinsics.line1_34,
    Engine.process_block_simd_x86_intrinsics.line1_35,
    Engine.process_block_simd_x86_intrinsics.line1_36,
    Engine.process_block_simd_x86_intrinsics.line1_37,
    Engine.process_block_simd_x86_intrinsics.line1_38,
    Engine.process_block_simd_x86_intrinsics.line1_39]
  rfl

theorem rounds20_23_eq :
    runLines [Engine.process_block_simd_x86_intrinsics.line1_40 cfg self mask 0,
      Engine.process_block_simd_x86_intrinsics.line1_41 cfg self mask 0,
      Engine.process_block_simd_x86_intrinsics.line1_42 cfg self mask 0,
      Engine.process_block_simd_x86_intrinsics.line1_43 cfg self mask 0,
      Engine.process_block_simd_x86_intrinsics.line1_44 cfg self mask 0,
      Engine.process_block_simd_x86_intrinsics.line1_45 cfg self mask 0,
      Engine.process_block_simd_x86_intrinsics.line1_46 cfg self mask 0,
      Engine.process_block_simd_x86_intrinsics.line1_47 cfg self mask 0]
      (xmm a c s) =
      .ok (xmm a c (rounds20_23 s)) := by
  obtain ⟨x0, x1, x2, x3, x4, x5, x6, x7⟩ := s
  dsimp only [rounds20_23]
  simp only [runLines, List.foldlM_cons, List.foldlM_nil, xmm, ok_bind, pure_bind,
    Engine.process_block_simd_x86_intrinsics.line1_40,
    Engine.process_block_simd_x86_intrinsics.line1_41,
    Engine.process_block_simd_x86_intrinsics.line1_42,
    Engine.process_block_simd_x86_intrinsics.line1_43,
    Engine.process_block_simd_x86_intrinsics.line1_44,
    Engine.process_block_simd_x86_intrinsics.line1_45,
    Engine.process_block_simd_x86_intrinsics.line1_46,
    Engine.process_block_simd_x86_intrinsics.line1_47]
  rfl

theorem rounds24_27_eq :
    runLines [Engine.process_block_simd_x86_intrinsics.line1_48 cfg self mask 0,
      Engine.process_block_simd_x86_intrinsics.line1_49 cfg self mask 0,
      Engine.process_block_simd_x86_intrinsics.line1_50 cfg self mask 0,
      Engine.process_block_simd_x86_intrinsics.line1_51 cfg self mask 0,
      Engine.process_block_simd_x86_intrinsics.line1_52 cfg self mask 0,
      Engine.process_block_simd_x86_intrinsics.line1_53 cfg self mask 0,
      Engine.process_block_simd_x86_intrinsics.line1_54 cfg self mask 0,
      Engine.process_block_simd_x86_intrinsics.line1_55 cfg self mask 0]
      (xmm a c s) =
      .ok (xmm a c (rounds24_27 s)) := by
  obtain ⟨x0, x1, x2, x3, x4, x5, x6, x7⟩ := s
  dsimp only [rounds24_27]
  simp only [runLines, List.foldlM_cons, List.foldlM_nil, xmm, ok_bind, pure_bind,
    Engine.process_block_simd_x86_intrinsics.line1_48,
    Engine.process_block_simd_x86_intrinsics.line1_49,
    Engine.process_block_simd_x86_intrinsics.line1_50,
    Engine.process_block_simd_x86_intrinsics.line1_51,
    Engine.process_block_simd_x86_intrinsics.line1_52,
    Engine.process_block_simd_x86_intrinsics.line1_53,
    Engine.process_block_simd_x86_intrinsics.line1_54,
    Engine.process_block_simd_x86_intrinsics.line1_55]
  rfl

theorem rounds28_31_eq :
    runLines [Engine.process_block_simd_x86_intrinsics.line1_56 cfg self mask 0,
      Engine.process_block_simd_x86_intrinsics.line1_57 cfg self mask 0,
      Engine.process_block_simd_x86_intrinsics.line1_58 cfg self mask 0,
      Engine.process_block_simd_x86_intrinsics.line1_59 cfg self mask 0,
      Engine.process_block_simd_x86_intrinsics.line1_60 cfg self mask 0,
      Engine.process_block_simd_x86_intrinsics.line1_61 cfg self mask 0,
      Engine.process_block_simd_x86_intrinsics.line1_62 cfg self mask 0,
      Engine.process_block_simd_x86_intrinsics.line1_63 cfg self mask 0]
      (xmm a c s) =
      .ok (xmm a c (rounds28_31 s)) := by
  obtain ⟨x0, x1, x2, x3, x4, x5, x6, x7⟩ := s
  dsimp only [rounds28_31]
  simp only [runLines, List.foldlM_cons, List.foldlM_nil, xmm, ok_bind, pure_bind,
    Engine.process_block_simd_x86_intrinsics.line1_56,
    Engine.process_block_simd_x86_intrinsics.line1_57,
    Engine.process_block_simd_x86_intrinsics.line1_58,
    Engine.process_block_simd_x86_intrinsics.line1_59,
    Engine.process_block_simd_x86_intrinsics.line1_60,
    Engine.process_block_simd_x86_intrinsics.line1_61,
    Engine.process_block_simd_x86_intrinsics.line1_62,
    Engine.process_block_simd_x86_intrinsics.line1_63]
  rfl

theorem rounds32_35_eq :
    runLines [Engine.process_block_simd_x86_intrinsics.line1_64 cfg self mask 0,
      Engine.process_block_simd_x86_intrinsics.line1_65 cfg self mask 0,
      Engine.process_block_simd_x86_intrinsics.line1_66 cfg self mask 0,
      Engine.process_block_simd_x86_intrinsics.line1_67 cfg self mask 0,
      Engine.process_block_simd_x86_intrinsics.line1_68 cfg self mask 0,
      Engine.process_block_simd_x86_intrinsics.line1_69 cfg self mask 0,
      Engine.process_block_simd_x86_intrinsics.line1_70 cfg self mask 0,
      Engine.process_block_simd_x86_intrinsics.line1_71 cfg self mask 0]
      (xmm a c s) =
      .ok (xmm a c (rounds32_35 s)) := by
  obtain ⟨x0, x1, x2, x3, x4, x5, x6, x7⟩ := s
  dsimp only [rounds32_35]
  simp only [runLines, List.foldlM_cons, List.foldlM_nil, xmm, ok_bind, pure_bind,
    Engine.process_block_simd_x86_intrinsics.line1_64,
    Engine.process_block_simd_x86_intrinsics.line1_65,
    Engine.process_block_simd_x86_intrinsics.line1_66,
    Engine.process_block_simd_x86_intrinsics.line1_67,
    Engine.process_block_simd_x86_intrinsics.line1_68,
    Engine.process_block_simd_x86_intrinsics.line1_69,
    Engine.process_block_simd_x86_intrinsics.line1_70,
    Engine.process_block_simd_x86_intrinsics.line1_71]
  rfl

theorem rounds36_39_eq :
    runLines [Engine.process_block_simd_x86_intrinsics.line1_72 cfg self mask 0,
      Engine.process_block_simd_x86_intrinsics.line1_73 cfg self mask 0,
      Engine.process_block_simd_x86_intrinsics.line1_74 cfg self mask 0,
      Engine.process_block_simd_x86_intrinsics.line1_75 cfg self mask 0,
      Engine.process_block_simd_x86_intrinsics.line1_76 cfg self mask 0,
      Engine.process_block_simd_x86_intrinsics.line1_77 cfg self mask 0,
      Engine.process_block_simd_x86_intrinsics.line1_78 cfg self mask 0,
      Engine.process_block_simd_x86_intrinsics.line1_79 cfg self mask 0]
      (xmm a c s) =
      .ok (xmm a c (rounds36_39 s)) := by
  obtain ⟨x0, x1, x2, x3, x4, x5, x6, x7⟩ := s
  dsimp only [rounds36_39]
  simp only [runLines, List.foldlM_cons, List.foldlM_nil, xmm, ok_bind, pure_bind,
    Engine.process_block_simd_x86_intrinsics.line1_72,
    Engine.process_block_simd_x86_intrinsics.line1_73,
    Engine.process_block_simd_x86_intrinsics.line1_74,
    Engine.process_block_simd_x86_intrinsics.line1_75,
    Engine.process_block_simd_x86_intrinsics.line1_76,
    Engine.process_block_simd_x86_intrinsics.line1_77,
    Engine.process_block_simd_x86_intrinsics.line1_78,
    Engine.process_block_simd_x86_intrinsics.line1_79]
  rfl

theorem rounds40_43_eq :
    runLines [Engine.process_block_simd_x86_intrinsics.line1_80 cfg self mask 0,
      Engine.process_block_simd_x86_intrinsics.line1_81 cfg self mask 0,
      Engine.process_block_simd_x86_intrinsics.line1_82 cfg self mask 0,
      Engine.process_block_simd_x86_intrinsics.line1_83 cfg self mask 0,
      Engine.process_block_simd_x86_intrinsics.line1_84 cfg self mask 0,
      Engine.process_block_simd_x86_intrinsics.line1_85 cfg self mask 0,
      Engine.process_block_simd_x86_intrinsics.line1_86 cfg self mask 0,
      Engine.process_block_simd_x86_intrinsics.line1_87 cfg self mask 0]
      (xmm a c s) =
      .ok (xmm a c (rounds40_43 s)) := by
  obtain ⟨x0, x1, x2, x3, x4, x5, x6, x7⟩ := s
  dsimp only [rounds40_43]
  simp only [runLines, List.foldlM_cons, List.foldlM_nil, xmm, ok_bind, pure_bind,
    Engine.process_block_simd_x86_intrinsics.line1_80,
    Engine.process_block_simd_x86_intrinsics.line1_81,
    Engine.process_block_simd_x86_intrinsics.line1_82,
    Engine.process_block_simd_x86_intrinsics.line1_83,
    Engine.process_block_simd_x86_intrinsics.line1_84,
    Engine.process_block_simd_x86_intrinsics.line1_85,
    Engine.process_block_simd_x86_intrinsics.line1_86,
    Engine.process_block_simd_x86_intrinsics.line1_87]
  rfl

theorem rounds44_47_eq :
    runLines [Engine.process_block_simd_x86_intrinsics.line1_88 cfg self mask 0,
      Engine.process_block_simd_x86_intrinsics.line1_89 cfg self mask 0,
      Engine.process_block_simd_x86_intrinsics.line1_90 cfg self mask 0,
      Engine.process_block_simd_x86_intrinsics.line1_91 cfg self mask 0,
      Engine.process_block_simd_x86_intrinsics.line1_92 cfg self mask 0,
      Engine.process_block_simd_x86_intrinsics.line1_93 cfg self mask 0,
      Engine.process_block_simd_x86_intrinsics.line1_94 cfg self mask 0,
      Engine.process_block_simd_x86_intrinsics.line1_95 cfg self mask 0]
      (xmm a c s) =
      .ok (xmm a c (rounds44_47 s)) := by
  obtain ⟨x0, x1, x2, x3, x4, x5, x6, x7⟩ := s
  dsimp only [rounds44_47]
  simp only [runLines, List.foldlM_cons, List.foldlM_nil, xmm, ok_bind, pure_bind,
    Engine.process_block_simd_x86_intrinsics.line1_88,
    Engine.process_block_simd_x86_intrinsics.line1_89,
    Engine.process_block_simd_x86_intrinsics.line1_90,
    Engine.process_block_simd_x86_intrinsics.line1_91,
    Engine.process_block_simd_x86_intrinsics.line1_92,
    Engine.process_block_simd_x86_intrinsics.line1_93,
    Engine.process_block_simd_x86_intrinsics.line1_94,
    Engine.process_block_simd_x86_intrinsics.line1_95]
  rfl

theorem rounds48_51_eq :
    runLines [Engine.process_block_simd_x86_intrinsics.line1_96 cfg self mask 0,
      Engine.process_block_simd_x86_intrinsics.line1_97 cfg self mask 0,
      Engine.process_block_simd_x86_intrinsics.line1_98 cfg self mask 0,
      Engine.process_block_simd_x86_intrinsics.line1_99 cfg self mask 0,
      Engine.process_block_simd_x86_intrinsics.line1_100 cfg self mask 0,
      Engine.process_block_simd_x86_intrinsics.line1_101 cfg self mask 0,
      Engine.process_block_simd_x86_intrinsics.line1_102 cfg self mask 0,
      Engine.process_block_simd_x86_intrinsics.line1_103 cfg self mask 0]
      (xmm a c s) =
      .ok (xmm a c (rounds48_51 s)) := by
  obtain ⟨x0, x1, x2, x3, x4, x5, x6, x7⟩ := s
  dsimp only [rounds48_51]
  simp only [runLines, List.foldlM_cons, List.foldlM_nil, xmm, ok_bind, pure_bind,
    Engine.process_block_simd_x86_intrinsics.line1_96,
    Engine.process_block_simd_x86_intrinsics.line1_97,
    Engine.process_block_simd_x86_intrinsics.line1_98,
    Engine.process_block_simd_x86_intrinsics.line1_99,
    Engine.process_block_simd_x86_intrinsics.line1_100,
    Engine.process_block_simd_x86_intrinsics.line1_101,
    Engine.process_block_simd_x86_intrinsics.line1_102,
    Engine.process_block_simd_x86_intrinsics.line1_103]
  rfl

theorem rounds52_55_eq :
    runLines [Engine.process_block_simd_x86_intrinsics.line1_104 cfg self mask 0,
      Engine.process_block_simd_x86_intrinsics.line1_105 cfg self mask 0,
      Engine.process_block_simd_x86_intrinsics.line1_106 cfg self mask 0,
      Engine.process_block_simd_x86_intrinsics.line1_107 cfg self mask 0,
      Engine.process_block_simd_x86_intrinsics.line1_108 cfg self mask 0,
      Engine.process_block_simd_x86_intrinsics.line1_109 cfg self mask 0,
      Engine.process_block_simd_x86_intrinsics.line1_110 cfg self mask 0]
      (xmm a c s) =
      .ok (xmm a c (rounds52_55 s)) := by
  obtain ⟨x0, x1, x2, x3, x4, x5, x6, x7⟩ := s
  dsimp only [rounds52_55]
  simp only [runLines, List.foldlM_cons, List.foldlM_nil, xmm, ok_bind, pure_bind,
    Engine.process_block_simd_x86_intrinsics.line1_104,
    Engine.process_block_simd_x86_intrinsics.line1_105,
    Engine.process_block_simd_x86_intrinsics.line1_106,
    Engine.process_block_simd_x86_intrinsics.line1_107,
    Engine.process_block_simd_x86_intrinsics.line1_108,
    Engine.process_block_simd_x86_intrinsics.line1_109,
    Engine.process_block_simd_x86_intrinsics.line1_110]
  rfl

theorem rounds56_59_eq :
    runLines [Engine.process_block_simd_x86_intrinsics.line1_111 cfg self mask 0,
      Engine.process_block_simd_x86_intrinsics.line1_112 cfg self mask 0,
      Engine.process_block_simd_x86_intrinsics.line1_113 cfg self mask 0,
      Engine.process_block_simd_x86_intrinsics.line1_114 cfg self mask 0,
      Engine.process_block_simd_x86_intrinsics.line1_115 cfg self mask 0,
      Engine.process_block_simd_x86_intrinsics.line1_116 cfg self mask 0,
      Engine.process_block_simd_x86_intrinsics.line1_117 cfg self mask 0]
      (xmm a c s) =
      .ok (xmm a c (rounds56_59 s)) := by
  obtain ⟨x0, x1, x2, x3, x4, x5, x6, x7⟩ := s
  dsimp only [rounds56_59]
  simp only [runLines, List.foldlM_cons, List.foldlM_nil, xmm, ok_bind, pure_bind,
    Engine.process_block_simd_x86_intrinsics.line1_111,
    Engine.process_block_simd_x86_intrinsics.line1_112,
    Engine.process_block_simd_x86_intrinsics.line1_113,
    Engine.process_block_simd_x86_intrinsics.line1_114,
    Engine.process_block_simd_x86_intrinsics.line1_115,
    Engine.process_block_simd_x86_intrinsics.line1_116,
    Engine.process_block_simd_x86_intrinsics.line1_117]
  rfl

theorem rounds60_63_eq :
    runLines [Engine.process_block_simd_x86_intrinsics.line1_118 cfg self mask 0,
      Engine.process_block_simd_x86_intrinsics.line1_119 cfg self mask 0,
      Engine.process_block_simd_x86_intrinsics.line1_120 cfg self mask 0,
      Engine.process_block_simd_x86_intrinsics.line1_121 cfg self mask 0]
      (xmm a c s) =
      .ok (xmm a c (rounds60_63 s)) := by
  obtain ⟨x0, x1, x2, x3, x4, x5, x6, x7⟩ := s
  dsimp only [rounds60_63]
  simp only [runLines, List.foldlM_cons, List.foldlM_nil, xmm, ok_bind, pure_bind,
    Engine.process_block_simd_x86_intrinsics.line1_118,
    Engine.process_block_simd_x86_intrinsics.line1_119,
    Engine.process_block_simd_x86_intrinsics.line1_120,
    Engine.process_block_simd_x86_intrinsics.line1_121]
  rfl

theorem combine_eq :
    runLines [Engine.process_block_simd_x86_intrinsics.line1_122 cfg self mask 0, Engine.process_block_simd_x86_intrinsics.line1_123 cfg self mask 0]
      (xmm a c s) = .ok (xmm a c (combine a c s)) := rfl

end

theorem loadu32_eq (h : Arr8 (BitVec 32)) (i : Nat) :
    loadu32 h.toList i = Chf.Sha256.Simd.loadH h i := by
  unfold loadu32 Chf.Sha256.Simd.loadH
  generalize h.toList.drop i = l
  match l with
  | [] => rfl
  | [_] => rfl
  | [_, _] => rfl
  | [_, _, _] => rfl
  | _ :: _ :: _ :: _ :: _ => rfl

/-- An engine of the model as an engine of the translated source. -/
def emb (e : Chf.Sha256.Engine) : Engine :=
  { buffer := e.buffer, h := e.h.toList, length := e.length }

set_option maxRecDepth 4000 in
theorem lines_split (cfg : Cfg) (self : Engine) (m : BitVec 128) (o : Nat) :
    Engine.process_block_simd_x86_intrinsics.lines1 cfg self m o =
      [Engine.process_block_simd_x86_intrinsics.line1_0 cfg self m o,
       Engine.process_block_simd_x86_intrinsics.line1_1 cfg self m o] ++
      ([Engine.process_block_simd_x86_intrinsics.line1_2 cfg self m o,
       Engine.process_block_simd_x86_intrinsics.line1_3 cfg self m o,
       Engine.process_block_simd_x86_intrinsics.line1_4 cfg self m o,
       Engine.process_block_simd_x86_intrinsics.line1_5 cfg self m o,
       Engine.process_block_simd_x86_intrinsics.line1_6 cfg self m o,
       Engine.process_block_simd_x86_intrinsics.line1_7 cfg self m o] ++
      ([Engine.process_block_simd_x86_intrinsics.line1_8 cfg self m o,
       Engine.process_block_simd_x86_intrinsics.line1_9 cfg self m o,
       Engine.process_block_simd_x86_intrinsics.line1_10 cfg self m o,
       Engine.process_block_simd_x86_intrinsics.line1_11 cfg self m o,
       Engine.process_block_simd_x86_intrinsics.line1_12 cfg self m o,
       Engine.process_block_simd_x86_intrinsics.line1_13 cfg self m o,
       Engine.process_block_simd_x86_intrinsics.line1_14 cfg self m o] ++
      ([Engine.process_block_simd_x86_intrinsics.line1_15 cfg self m o,
       Engine.process_block_simd_x86_intrinsics.line1_16 cfg self m o,
       Engine.process_block_simd_x86_intrinsics.line1_17 cfg self m o,
       Engine.process_block_simd_x86_intrinsics.line1_18 cfg self m o,
       Engine.process_block_simd_x86_intrinsics.line1_19 cfg self m o,
       Engine.process_block_simd_x86_intrinsics.line1_20 cfg self m o,
       Engine.process_block_simd_x86_intrinsics.line1_21 cfg self m o] ++
      ([Engine.process_block_simd_x86_intrinsics.line1_22 cfg self m o,
       Engine.process_block_simd_x86_intrinsics.line1_23 cfg self m o,
       Engine.process_block_simd_x86_intrinsics.line1_24 cfg self m o,
       Engine.process_block_simd_x86_intrinsics.line1_25 cfg self m o,
       Engine.process_block_simd_x86_intrinsics.line1_26 cfg self m o,
       Engine.process_block_simd_x86_intrinsics.line1_27 cfg self m o,
       Engine.process_block_simd_x86_intrinsics.line1_28 cfg self m o,
       Engine.process_block_simd_x86_intrinsics.line1_29 cfg self m o,
       Engine.process_block_simd_x86_intrinsics.line1_30 cfg self m o,
       Engine.process_block_simd_x86_intrinsics.line1_31 cfg self m o] ++
      ([Engine.process_block_simd_x86_intrinsics.line1_32 cfg self m o,
       Engine.process_block_simd_x86_intrinsics.line1_33 cfg self m o,
       Engine.process_block_simd_x86_intrinsics.line1_34 cfg self m o,
       Engine.process_block_simd_x86_intrinsics.line1_35 cfg self m o,
       Engine.process_block_simd_x86_intrinsics.line1_36 cfg self m o,
       Engine.process_block_simd_x86_intrinsics.line1_37 cfg self m o,
       Engine.process_block_simd_x86_intrinsics.line1_38 cfg self m o,
       Engine.process_block_simd_x86_intrinsics.line1_39 cfg self m o] ++
      ([Engine.process_block_simd_x86_intrinsics.line1_40 cfg self m o,
       Engine.process_block_simd_x86_intrinsics.line1_41 cfg self m o,
       Engine.process_block_simd_x86_intrinsics.line1_42 cfg self m o,
       Engine.process_block_simd_x86_intrinsics.line1_43 cfg self m o,
       Engine.process_block_simd_x86_intrinsics.line1_44 cfg self m o,
       Engine.process_block_simd_x86_intrinsics.line1_45 cfg self m o,
       Engine.process_block_simd_x86_intrinsics.line1_46 cfg self m o,
       Engine.process_block_simd_x86_intrinsics.line1_47 cfg self m o] ++
      ([Engine.process_block_simd_x86_intrinsics.line1_48 cfg self m o,
       Engine.process_block_simd_x86_intrinsics.line1_49 cfg self m o,
       Engine.process_block_simd_x86_intrinsics.line1_50 cfg self m o,
       Engine.process_block_simd_x86_intrinsics.line1_51 cfg self m o,
       Engine.process_block_simd_x86_intrinsics.line1_52 cfg self m o,
       Engine.process_block_simd_x86_intrinsics.line1_53 cfg self m o,
       Engine.process_block_simd_x86_intrinsics.line1_54 cfg self m o,
       Engine.process_block_simd_x86_intrinsics.line1_55 cfg self m o] ++
      ([Engine.process_block_simd_x86_intrinsics.line1_56 cfg self m o,
       Engine.process_block_simd_x86_intrinsics.line1_57 cfg self m o,
       Engine.process_block_simd_x86_intrinsics.line1_58 cfg self m o,
       Engine.process_block_simd_x86_intrinsics.line1_59 cfg self m o,
       Engine.process_block_simd_x86_intrinsics.line1_60 cfg self m o,
       Engine.process_block_simd_x86_intrinsics.line1_61 cfg self m o,
       Engine.process_block_simd_x86_intrinsics.line1_62 cfg self m o,
       Engine.process_block_simd_x86_intrinsics.line1_63 cfg self m o] ++
      ([Engine.process_block_simd_x86_intrinsics.line1_64 cfg self m o,
       Engine.process_block_simd_x86_intrinsics.line1_65 cfg self m o,
       Engine.process_block_simd_x86_intrinsics.line1_66 cfg self m o,
       Engine.process_block_simd_x86_intrinsics.line1_67 cfg self m o,
       Engine.process_block_simd_x86_intrinsics.line1_68 cfg self m o,
       Engine.process_block_simd_x86_intrinsics.line1_69 cfg self m o,
       Engine.process_block_simd_x86_intrinsics.line1_70 cfg self m o,
       Engine.process_block_simd_x86_intrinsics.line1_71 cfg self m o] ++
      ([Engine.process_block_simd_x86_intrinsics.line1_72 cfg self m o,
       Engine.process_block_simd_x86_intrinsics.line1_73 cfg self m o,
       Engine.process_block_simd_x86_intrinsics.line1_74 cfg self m o,
       Engine.process_block_simd_x86_intrinsics.line1_75 cfg self m o,
       Engine.process_block_simd_x86_intrinsics.line1_76 cfg self m o,
       Engine.process_block_simd_x86_intrinsics.line1_77 cfg self m o,
       Engine.process_block_simd_x86_intrinsics.line1_78 cfg self m o,
       Engine.process_block_simd_x86_intrinsics.line1_79 cfg self m o] ++
      ([Engine.process_block_simd_x86_intrinsics.line1_80 cfg self m o,
       Engine.process_block_simd_x86_intrinsics.line1_81 cfg self m o,
       Engine.process_block_simd_x86_intrinsics.line1_82 cfg self m o,
       Engine.process_block_simd_x86_intrinsics.line1_83 cfg self m o,
       Engine.process_block_simd_x86_intrinsics.line1_84 cfg self m o,
       Engine.process_block_simd_x86_intrinsics.line1_85 cfg self m o,
       Engine.process_block_simd_x86_intrinsics.line1_86 cfg self m o,
       Engine.process_block_simd_x86_intrinsics.line1_87 cfg self m o] ++
      ([Engine.process_block_simd_x86_intrinsics.line1_88 cfg self m o,
       Engine.process_block_simd_x86_intrinsics.line1_89 cfg self m o,
       Engine.process_block_simd_x86_intrinsics.line1_90 cfg self m o,
       Engine.process_block_simd_x86_intrinsics.line1_91 cfg self m o,
       Engine.process_block_simd_x86_intrinsics.line1_92 cfg self m o,
       Engine.process_block_simd_x86_intrinsics.line1_93 cfg self m o,
       Engine.process_block_simd_x86_intrinsics.line1_94 cfg self m o,
       Engine.process_block_simd_x86_intrinsics.line1_95 cfg self m o] ++
      ([Engine.process_block_simd_x86_intrinsics.line1_96 cfg self m o,
       Engine.process_block_simd_x86_intrinsics.line1_97 cfg self m o,
       Engine.process_block_simd_x86_intrinsics.line1_98 cfg self m o,
       Engine.process_block_simd_x86_intrinsics.line1_99 cfg self m o,
       Engine.process_block_simd_x86_intrinsics.line1_100 cfg self m o,
       Engine.process_block_simd_x86_intrinsics.line1_101 cfg self m o,
       Engine.process_block_simd_x86_intrinsics.line1_102 cfg self m o,
       Engine.process_block_simd_x86_intrinsics.line1_103 cfg self m o] ++
      ([Engine.process_block_simd_x86_intrinsics.line1_104 cfg self m o,
       Engine.process_block_simd_x86_intrinsics.line1_105 cfg self m o,
       Engine.process_block_simd_x86_intrinsics.line1_106 cfg self m o,
       Engine.process_block_simd_x86_intrinsics.line1_107 cfg self m o,
       Engine.process_block_simd_x86_intrinsics.line1_108 cfg self m o,
       Engine.process_block_simd_x86_intrinsics.line1_109 cfg self m o,
       Engine.process_block_simd_x86_intrinsics.line1_110 cfg self m o] ++
      ([Engine.process_block_simd_x86_intrinsics.line1_111 cfg self m o,
       Engine.process_block_simd_x86_intrinsics.line1_112 cfg self m o,
       Engine.process_block_simd_x86_intrinsics.line1_113 cfg self m o,
       Engine.process_block_simd_x86_intrinsics.line1_114 cfg self m o,
       Engine.process_block_simd_x86_intrinsics.line1_115 cfg self m o,
       Engine.process_block_simd_x86_intrinsics.line1_116 cfg self m o,
       Engine.process_block_simd_x86_intrinsics.line1_117 cfg self m o] ++
      ([Engine.process_block_simd_x86_intrinsics.line1_118 cfg self m o,
       Engine.process_block_simd_x86_intrinsics.line1_119 cfg self m o,
       Engine.process_block_simd_x86_intrinsics.line1_120 cfg self m o,
       Engine.process_block_simd_x86_intrinsics.line1_121 cfg self m o] ++
      ([Engine.process_block_simd_x86_intrinsics.line1_122 cfg self m o,
       Engine.process_block_simd_x86_intrinsics.line1_123 cfg self m o]))))))))))))))))) := rfl

theorem simd_eq (cfg : Cfg) (hc : cfg.Valid) (e : Chf.Sha256.Engine) :
    Engine.process_block_simd_x86_intrinsics cfg (emb e) =
      (Chf.Sha256.Simd.processBlock e.buffer e.h).map fun h => emb { e with h := h } := by
  have hs : ∀ s a c, runLines
      [Engine.process_block_simd_x86_intrinsics.line1_0 cfg (emb e) Chf.Sha256.Simd.mask 0,
       Engine.process_block_simd_x86_intrinsics.line1_1 cfg (emb e) Chf.Sha256.Simd.mask 0]
      (xmm a c s) = .ok (xmm s.state0 s.state1 s) := fun _ _ _ => rfl
  have hload : ∃ s, Chf.Sha256.Simd.loadState e.h ⟨0, 0, 0, 0, 0, 0, 0, 0⟩ = .ok s ∧
      Engine.process_block_simd_x86_intrinsics cfg (emb e) = (do
        let x ← runLines (Engine.process_block_simd_x86_intrinsics.lines1 cfg (emb e)
          Chf.Sha256.Simd.mask 0) (xmm uninit uninit s)
        let tmp := Chf.Sha256.Simd.mm_shuffle_epi32 x.1 0x1B
        let state1 := Chf.Sha256.Simd.mm_shuffle_epi32 x.2.1 0xB1
        let state0 := Chf.Sha256.Simd.mm_blend_epi16 tmp state1 0xF0
        let state1 := Chf.Sha256.Simd.mm_alignr_epi8 state1 tmp 8
        let x_10 ← Rs.storeu32 (emb e).h 0 state0
        let x_11 ← Rs.storeu32 x_10 4 state1
        pure { emb e with h := x_11 }) := ⟨_, rfl, rfl⟩
  obtain ⟨s, hs1, hs2⟩ := hload
  rw [hs2, lines_split]
  unfold Chf.Sha256.Simd.processBlock
  simp only [hs1, ok_bind, runLines_append, bind_assoc]
  rw [hs, ok_bind, rounds0_3_eq, map_bind_left, map_bind]
  refine bind_congr' fun s0 _ => ?_
  rw [rounds4_7_eq _ _ _ _ _ hc, map_bind_left, map_bind]
  refine bind_congr' fun s1 _ => ?_
  rw [rounds8_11_eq _ _ _ _ _ hc, map_bind_left, map_bind]
  refine bind_congr' fun s2 _ => ?_
  rw [rounds12_15_eq _ _ _ _ _ hc, map_bind_left, map_bind]
  refine bind_congr' fun s3 _ => ?_
  rw [rounds16_19_eq, ok_bind, rounds20_23_eq, ok_bind, rounds24_27_eq, ok_bind, rounds28_31_eq, ok_bind,
    rounds32_35_eq, ok_bind, rounds36_39_eq, ok_bind, rounds40_43_eq, ok_bind, rounds44_47_eq, ok_bind,
    rounds48_51_eq, ok_bind, rounds52_55_eq, ok_bind, rounds56_59_eq, ok_bind, rounds60_63_eq, ok_bind,
    combine_eq, ok_bind]
  rfl

end Chf.Source.Sha256
