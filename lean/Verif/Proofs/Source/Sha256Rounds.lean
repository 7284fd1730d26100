import Verif.Source.Sha256
import Verif.Model.Sha256Const
import Verif.Proofs.Source.Rounds

/-!
# The rounds of the translation of `sha256.rs` against the model
-/

namespace Chf.Source.Sha256
open Chf Chf.Rs
set_option linter.unusedSimpArgs false

theorem Sigma1_eq (cfg : Cfg) (x : BitVec 32) : Sigma1 cfg x = Chf.Sha256.bigSigma1 x := rfl
theorem Sigma0_eq (cfg : Cfg) (x : BitVec 32) : Sigma0 cfg x = Chf.Sha256.bigSigma0 x := rfl
theorem sigma1_eq (cfg : Cfg) (x : BitVec 32) : sigma1 cfg x = Chf.Sha256.sigma1 x := rfl
theorem sigma0_eq (cfg : Cfg) (x : BitVec 32) : sigma0 cfg x = Chf.Sha256.sigma0 x := rfl
theorem Ch_eq (cfg : Cfg) (x y z : BitVec 32) : Ch cfg x y z = Chf.Sha256.ch x y z := rfl
theorem Maj_eq (cfg : Cfg) (x y z : BitVec 32) : Maj cfg x y z = Chf.Sha256.maj x y z := rfl

theorem round_eq (cfg : Cfg) (a b c d e f g h k w : BitVec 32) :
    small_hash.round cfg a b c d e f g h k w = Chf.Sha256.smallRoundFn a b c d e f g h k w := rfl

theorem later_round_eq (cfg : Cfg) (a b c d e f g h k w w1 w2 w3 : BitVec 32) :
    small_hash.later_round cfg a b c d e f g h k w w1 w2 w3 =
      Chf.Sha256.smallLaterRoundFn a b c d e f g h k w w1 w2 w3 := rfl

theorem fast_lines (cfg : Cfg) :
    LinesAre Chf.Sha256.fastLine (Engine.software_process_block_fast.lines1 cfg)
      Chf.Sha256.blockLines := by
  unfold Engine.software_process_block_fast.lines1 Chf.Sha256.blockLines
  iterate 64
    refine ⟨fun s => ?_, ?_⟩
    · obtain ⟨⟨x0, x1, x2, x3, x4, x5, x6, x7⟩, win⟩ := s
      simp only [vars, index_win, indexSet_win, ok_bind, Nat.reduceLT, Chf.Sha256.fastLine,
        Chf.Sha256.fastRound, get_a, get_b, get_c, get_d, get_e, get_f, get_g, get_h, set_a, set_b, set_c,
        set_d, set_e, set_f, set_g, set_h, Sigma0_eq, Sigma1_eq, sigma0_eq, sigma1_eq, Ch_eq, Maj_eq,
        round_eq, later_round_eq,
        Engine.software_process_block_fast.line1_0, Engine.software_process_block_fast.line1_1,
        Engine.software_process_block_fast.line1_2, Engine.software_process_block_fast.line1_3,
        Engine.software_process_block_fast.line1_4, Engine.software_process_block_fast.line1_5,
        Engine.software_process_block_fast.line1_6, Engine.software_process_block_fast.line1_7,
        Engine.software_process_block_fast.line1_8, Engine.software_process_block_fast.line1_9,
        Engine.software_process_block_fast.line1_10, Engine.software_process_block_fast.line1_11,
        Engine.software_process_block_fast.line1_12, Engine.software_process_block_fast.line1_13,
        Engine.software_process_block_fast.line1_14, Engine.software_process_block_fast.line1_15,
        Engine.software_process_block_fast.line1_16, Engine.software_process_block_fast.line1_17,
        Engine.software_process_block_fast.line1_18, Engine.software_process_block_fast.line1_19,
        Engine.software_process_block_fast.line1_20, Engine.software_process_block_fast.line1_21,
        Engine.software_process_block_fast.line1_22, Engine.software_process_block_fast.line1_23,
        Engine.software_process_block_fast.line1_24, Engine.software_process_block_fast.line1_25,
        Engine.software_process_block_fast.line1_26, Engine.software_process_block_fast.line1_27,
        Engine.software_process_block_fast.line1_28, Engine.software_process_block_fast.line1_29,
        Engine.software_process_block_fast.line1_30, Engine.software_process_block_fast.line1_31,
        Engine.software_process_block_fast.line1_32, Engine.software_process_block_fast.line1_33,
        Engine.software_process_block_fast.line1_34, Engine.software_process_block_fast.line1_35,
        Engine.software_process_block_fast.line1_36, Engine.software_process_block_fast.line1_37,
        Engine.software_process_block_fast.line1_38, Engine.software_process_block_fast.line1_39,
        Engine.software_process_block_fast.line1_40, Engine.software_process_block_fast.line1_41,
        Engine.software_process_block_fast.line1_42, Engine.software_process_block_fast.line1_43,
        Engine.software_process_block_fast.line1_44, Engine.software_process_block_fast.line1_45,
        Engine.software_process_block_fast.line1_46, Engine.software_process_block_fast.line1_47,
        Engine.software_process_block_fast.line1_48, Engine.software_process_block_fast.line1_49,
        Engine.software_process_block_fast.line1_50, Engine.software_process_block_fast.line1_51,
        Engine.software_process_block_fast.line1_52, Engine.software_process_block_fast.line1_53,
        Engine.software_process_block_fast.line1_54, Engine.software_process_block_fast.line1_55,
        Engine.software_process_block_fast.line1_56, Engine.software_process_block_fast.line1_57,
        Engine.software_process_block_fast.line1_58, Engine.software_process_block_fast.line1_59,
        Engine.software_process_block_fast.line1_60, Engine.software_process_block_fast.line1_61,
        Engine.software_process_block_fast.line1_62, Engine.software_process_block_fast.line1_63]
      rfl
  trivial

theorem small_lines (cfg : Cfg) :
    LinesAre Chf.Sha256.smallLine (Engine.software_process_block_small.lines1 cfg)
      Chf.Sha256.blockLines := by
  unfold Engine.software_process_block_small.lines1 Chf.Sha256.blockLines
  iterate 64
    refine ⟨fun s => ?_, ?_⟩
    · obtain ⟨⟨x0, x1, x2, x3, x4, x5, x6, x7⟩, win⟩ := s
      simp only [vars, index_win, indexSet_win, ok_bind, Nat.reduceLT, Chf.Sha256.smallLine,
        get_a, get_b, get_c, get_d, get_e, get_f, get_g, get_h, set_a, set_b, set_c,
        set_d, set_e, set_f, set_g, set_h, Sigma0_eq, Sigma1_eq, sigma0_eq, sigma1_eq, Ch_eq, Maj_eq,
        round_eq, later_round_eq,
        Engine.software_process_block_small.line1_0, Engine.software_process_block_small.line1_1,
        Engine.software_process_block_small.line1_2, Engine.software_process_block_small.line1_3,
        Engine.software_process_block_small.line1_4, Engine.software_process_block_small.line1_5,
        Engine.software_process_block_small.line1_6, Engine.software_process_block_small.line1_7,
        Engine.software_process_block_small.line1_8, Engine.software_process_block_small.line1_9,
        Engine.software_process_block_small.line1_10, Engine.software_process_block_small.line1_11,
        Engine.software_process_block_small.line1_12, Engine.software_process_block_small.line1_13,
        Engine.software_process_block_small.line1_14, Engine.software_process_block_small.line1_15,
        Engine.software_process_block_small.line1_16, Engine.software_process_block_small.line1_17,
        Engine.software_process_block_small.line1_18, Engine.software_process_block_small.line1_19,
        Engine.software_process_block_small.line1_20, Engine.software_process_block_small.line1_21,
        Engine.software_process_block_small.line1_22, Engine.software_process_block_small.line1_23,
        Engine.software_process_block_small.line1_24, Engine.software_process_block_small.line1_25,
        Engine.software_process_block_small.line1_26, Engine.software_process_block_small.line1_27,
        Engine.software_process_block_small.line1_28, Engine.software_process_block_small.line1_29,
        Engine.software_process_block_small.line1_30, Engine.software_process_block_small.line1_31,
        Engine.software_process_block_small.line1_32, Engine.software_process_block_small.line1_33,
        Engine.software_process_block_small.line1_34, Engine.software_process_block_small.line1_35,
        Engine.software_process_block_small.line1_36, Engine.software_process_block_small.line1_37,
        Engine.software_process_block_small.line1_38, Engine.software_process_block_small.line1_39,
        Engine.software_process_block_small.line1_40, Engine.software_process_block_small.line1_41,
        Engine.software_process_block_small.line1_42, Engine.software_process_block_small.line1_43,
        Engine.software_process_block_small.line1_44, Engine.software_process_block_small.line1_45,
        Engine.software_process_block_small.line1_46, Engine.software_process_block_small.line1_47,
        Engine.software_process_block_small.line1_48, Engine.software_process_block_small.line1_49,
        Engine.software_process_block_small.line1_50, Engine.software_process_block_small.line1_51,
        Engine.software_process_block_small.line1_52, Engine.software_process_block_small.line1_53,
        Engine.software_process_block_small.line1_54, Engine.software_process_block_small.line1_55,
        Engine.software_process_block_small.line1_56, Engine.software_process_block_small.line1_57,
        Engine.software_process_block_small.line1_58, Engine.software_process_block_small.line1_59,
        Engine.software_process_block_small.line1_60, Engine.software_process_block_small.line1_61,
        Engine.software_process_block_small.line1_62, Engine.software_process_block_small.line1_63]
      rfl
  trivial

theorem const_fast_lines (cfg : Cfg) :
    LinesAre Chf.Sha256.fastLine (Midstate.const_hash_fast.lines1 cfg)
      Chf.Sha256.constLines := by
  unfold Midstate.const_hash_fast.lines1 Chf.Sha256.constLines
  iterate 64
    refine ⟨fun s => ?_, ?_⟩
    · obtain ⟨⟨x0, x1, x2, x3, x4, x5, x6, x7⟩, win⟩ := s
      simp only [vars, index_win, indexSet_win, ok_bind, Nat.reduceLT, Chf.Sha256.fastLine,
        Chf.Sha256.fastRound, get_a, get_b, get_c, get_d, get_e, get_f, get_g, get_h, set_a, set_b, set_c,
        set_d, set_e, set_f, set_g, set_h, Sigma0_eq, Sigma1_eq, sigma0_eq, sigma1_eq, Ch_eq, Maj_eq,
        round_eq, later_round_eq,
        Midstate.const_hash_fast.line1_0, Midstate.const_hash_fast.line1_1,
        Midstate.const_hash_fast.line1_2, Midstate.const_hash_fast.line1_3,
        Midstate.const_hash_fast.line1_4, Midstate.const_hash_fast.line1_5,
        Midstate.const_hash_fast.line1_6, Midstate.const_hash_fast.line1_7,
        Midstate.const_hash_fast.line1_8, Midstate.const_hash_fast.line1_9,
        Midstate.const_hash_fast.line1_10, Midstate.const_hash_fast.line1_11,
        Midstate.const_hash_fast.line1_12, Midstate.const_hash_fast.line1_13,
        Midstate.const_hash_fast.line1_14, Midstate.const_hash_fast.line1_15,
        Midstate.const_hash_fast.line1_16, Midstate.const_hash_fast.line1_17,
        Midstate.const_hash_fast.line1_18, Midstate.const_hash_fast.line1_19,
        Midstate.const_hash_fast.line1_20, Midstate.const_hash_fast.line1_21,
        Midstate.const_hash_fast.line1_22, Midstate.const_hash_fast.line1_23,
        Midstate.const_hash_fast.line1_24, Midstate.const_hash_fast.line1_25,
        Midstate.const_hash_fast.line1_26, Midstate.const_hash_fast.line1_27,
        Midstate.const_hash_fast.line1_28, Midstate.const_hash_fast.line1_29,
        Midstate.const_hash_fast.line1_30, Midstate.const_hash_fast.line1_31,
        Midstate.const_hash_fast.line1_32, Midstate.const_hash_fast.line1_33,
        Midstate.const_hash_fast.line1_34, Midstate.const_hash_fast.line1_35,
        Midstate.const_hash_fast.line1_36, Midstate.const_hash_fast.line1_37,
        Midstate.const_hash_fast.line1_38, Midstate.const_hash_fast.line1_39,
        Midstate.const_hash_fast.line1_40, Midstate.const_hash_fast.line1_41,
        Midstate.const_hash_fast.line1_42, Midstate.const_hash_fast.line1_43,
        Midstate.const_hash_fast.line1_44, Midstate.const_hash_fast.line1_45,
        Midstate.const_hash_fast.line1_46, Midstate.const_hash_fast.line1_47,
        Midstate.const_hash_fast.line1_48, Midstate.const_hash_fast.line1_49,
        Midstate.const_hash_fast.line1_50, Midstate.const_hash_fast.line1_51,
        Midstate.const_hash_fast.line1_52, Midstate.const_hash_fast.line1_53,
        Midstate.const_hash_fast.line1_54, Midstate.const_hash_fast.line1_55,
        Midstate.const_hash_fast.line1_56, Midstate.const_hash_fast.line1_57,
        Midstate.const_hash_fast.line1_58, Midstate.const_hash_fast.line1_59,
        Midstate.const_hash_fast.line1_60, Midstate.const_hash_fast.line1_61,
        Midstate.const_hash_fast.line1_62, Midstate.const_hash_fast.line1_63]
      rfl
  trivial

theorem const_small_lines (cfg : Cfg) :
    LinesAre Chf.Sha256.smallLine (Midstate.const_hash_small.lines1 cfg)
      Chf.Sha256.constLines := by
  unfold Midstate.const_hash_small.lines1 Chf.Sha256.constLines
  iterate 64
    refine ⟨fun s => ?_, ?_⟩
    · obtain ⟨⟨x0, x1, x2, x3, x4, x5, x6, x7⟩, win⟩ := s
      simp only [vars, index_win, indexSet_win, ok_bind, Nat.reduceLT, Chf.Sha256.smallLine,
        get_a, get_b, get_c, get_d, get_e, get_f, get_g, get_h, set_a, set_b, set_c,
        set_d, set_e, set_f, set_g, set_h, Sigma0_eq, Sigma1_eq, sigma0_eq, sigma1_eq, Ch_eq, Maj_eq,
        round_eq, later_round_eq,
        Midstate.const_hash_small.line1_0, Midstate.const_hash_small.line1_1,
        Midstate.const_hash_small.line1_2, Midstate.const_hash_small.line1_3,
        Midstate.const_hash_small.line1_4, Midstate.const_hash_small.line1_5,
        Midstate.const_hash_small.line1_6, Midstate.const_hash_small.line1_7,
        Midstate.const_hash_small.line1_8, Midstate.const_hash_small.line1_9,
        Midstate.const_hash_small.line1_10, Midstate.const_hash_small.line1_11,
        Midstate.const_hash_small.line1_12, Midstate.const_hash_small.line1_13,
        Midstate.const_hash_small.line1_14, Midstate.const_hash_small.line1_15,
        Midstate.const_hash_small.line1_16, Midstate.const_hash_small.line1_17,
        Midstate.const_hash_small.line1_18, Midstate.const_hash_small.line1_19,
        Midstate.const_hash_small.line1_20, Midstate.const_hash_small.line1_21,
        Midstate.const_hash_small.line1_22, Midstate.const_hash_small.line1_23,
        Midstate.const_hash_small.line1_24, Midstate.const_hash_small.line1_25,
        Midstate.const_hash_small.line1_26, Midstate.const_hash_small.line1_27,
        Midstate.const_hash_small.line1_28, Midstate.const_hash_small.line1_29,
        Midstate.const_hash_small.line1_30, Midstate.const_hash_small.line1_31,
        Midstate.const_hash_small.line1_32, Midstate.const_hash_small.line1_33,
        Midstate.const_hash_small.line1_34, Midstate.const_hash_small.line1_35,
        Midstate.const_hash_small.line1_36, Midstate.const_hash_small.line1_37,
        Midstate.const_hash_small.line1_38, Midstate.const_hash_small.line1_39,
        Midstate.const_hash_small.line1_40, Midstate.const_hash_small.line1_41,
        Midstate.const_hash_small.line1_42, Midstate.const_hash_small.line1_43,
        Midstate.const_hash_small.line1_44, Midstate.const_hash_small.line1_45,
        Midstate.const_hash_small.line1_46, Midstate.const_hash_small.line1_47,
        Midstate.const_hash_small.line1_48, Midstate.const_hash_small.line1_49,
        Midstate.const_hash_small.line1_50, Midstate.const_hash_small.line1_51,
        Midstate.const_hash_small.line1_52, Midstate.const_hash_small.line1_53,
        Midstate.const_hash_small.line1_54, Midstate.const_hash_small.line1_55,
        Midstate.const_hash_small.line1_56, Midstate.const_hash_small.line1_57,
        Midstate.const_hash_small.line1_58, Midstate.const_hash_small.line1_59,
        Midstate.const_hash_small.line1_60, Midstate.const_hash_small.line1_61,
        Midstate.const_hash_small.line1_62, Midstate.const_hash_small.line1_63]
      rfl
  trivial

end Chf.Source.Sha256
