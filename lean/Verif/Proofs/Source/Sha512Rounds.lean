import Verif.Source.Sha512
import Verif.Model.Sha512
import Verif.Proofs.Source.Rounds

/-!
# The rounds of the translation of `sha512.rs` against the model
-/

namespace Chf.Source.Sha512
open Chf Chf.Rs
set_option linter.unusedSimpArgs false

theorem Sigma1_eq (cfg : Cfg) (x : BitVec 64) : Sigma1 cfg x = Chf.Sha512.bigSigma1 x := rfl
theorem Sigma0_eq (cfg : Cfg) (x : BitVec 64) : Sigma0 cfg x = Chf.Sha512.bigSigma0 x := rfl
theorem sigma1_eq (cfg : Cfg) (x : BitVec 64) : sigma1 cfg x = Chf.Sha512.sigma1 x := rfl
theorem sigma0_eq (cfg : Cfg) (x : BitVec 64) : sigma0 cfg x = Chf.Sha512.sigma0 x := rfl
theorem Ch_eq (cfg : Cfg) (x y z : BitVec 64) : Ch cfg x y z = Chf.Sha512.ch x y z := rfl
theorem Maj_eq (cfg : Cfg) (x y z : BitVec 64) : Maj cfg x y z = Chf.Sha512.maj x y z := rfl

theorem round_eq (cfg : Cfg) (a b c d e f g h k w : BitVec 64) :
    small_hash.round cfg a b c d e f g h k w = Chf.Sha512.smallRoundFn a b c d e f g h k w := rfl

theorem later_round_eq (cfg : Cfg) (a b c d e f g h k w w1 w2 w3 : BitVec 64) :
    small_hash.later_round cfg a b c d e f g h k w w1 w2 w3 =
      ((Chf.Sha512.smallLaterRoundFn a b c d e f g h k w w1 w2 w3).2.2,
        (Chf.Sha512.smallLaterRoundFn a b c d e f g h k w w1 w2 w3).1,
        (Chf.Sha512.smallLaterRoundFn a b c d e f g h k w w1 w2 w3).2.1) := by
  simp only [small_hash.later_round, Chf.Sha512.smallLaterRoundFn, round_eq, sigma0_eq, sigma1_eq]

theorem fast_lines (cfg : Cfg) :
    LinesAre Chf.Sha512.fastLine (Engine.process_block_fast.lines1 cfg)
      Chf.Sha512.blockLines := by
  unfold Engine.process_block_fast.lines1 Chf.Sha512.blockLines
  iterate 80
    refine ⟨fun s => ?_, ?_⟩
    · obtain ⟨⟨x0, x1, x2, x3, x4, x5, x6, x7⟩, win⟩ := s
      simp only [vars, index_win, indexSet_win, ok_bind, Nat.reduceLT, Chf.Sha512.fastLine,
        Chf.Sha512.fastRound, get_a, get_b, get_c, get_d, get_e, get_f, get_g, get_h, set_a, set_b, set_c,
        set_d, set_e, set_f, set_g, set_h, Sigma0_eq, Sigma1_eq, sigma0_eq, sigma1_eq, Ch_eq, Maj_eq,
        round_eq, later_round_eq,
        Engine.process_block_fast.line1_0, Engine.process_block_fast.line1_1,
        Engine.process_block_fast.line1_2, Engine.process_block_fast.line1_3,
        Engine.process_block_fast.line1_4, Engine.process_block_fast.line1_5,
        Engine.process_block_fast.line1_6, Engine.process_block_fast.line1_7,
        Engine.process_block_fast.line1_8, Engine.process_block_fast.line1_9,
        Engine.process_block_fast.line1_10, Engine.process_block_fast.line1_11,
        Engine.process_block_fast.line1_12, Engine.process_block_fast.line1_13,
        Engine.process_block_fast.line1_14, Engine.process_block_fast.line1_15,
        Engine.process_block_fast.line1_16, Engine.process_block_fast.line1_17,
        Engine.process_block_fast.line1_18, Engine.process_block_fast.line1_19,
        Engine.process_block_fast.line1_20, Engine.process_block_fast.line1_21,
        Engine.process_block_fast.line1_22, Engine.process_block_fast.line1_23,
        Engine.process_block_fast.line1_24, Engine.process_block_fast.line1_25,
        Engine.process_block_fast.line1_26, Engine.process_block_fast.line1_27,
        Engine.process_block_fast.line1_28, Engine.process_block_fast.line1_29,
        Engine.process_block_fast.line1_30, Engine.process_block_fast.line1_31,
        Engine.process_block_fast.line1_32, Engine.process_block_fast.line1_33,
        Engine.process_block_fast.line1_34, Engine.process_block_fast.line1_35,
        Engine.process_block_fast.line1_36, Engine.process_block_fast.line1_37,
        Engine.process_block_fast.line1_38, Engine.process_block_fast.line1_39,
        Engine.process_block_fast.line1_40, Engine.process_block_fast.line1_41,
        Engine.process_block_fast.line1_42, Engine.process_block_fast.line1_43,
        Engine.process_block_fast.line1_44, Engine.process_block_fast.line1_45,
        Engine.process_block_fast.line1_46, Engine.process_block_fast.line1_47,
        Engine.process_block_fast.line1_48, Engine.process_block_fast.line1_49,
        Engine.process_block_fast.line1_50, Engine.process_block_fast.line1_51,
        Engine.process_block_fast.line1_52, Engine.process_block_fast.line1_53,
        Engine.process_block_fast.line1_54, Engine.process_block_fast.line1_55,
        Engine.process_block_fast.line1_56, Engine.process_block_fast.line1_57,
        Engine.process_block_fast.line1_58, Engine.process_block_fast.line1_59,
        Engine.process_block_fast.line1_60, Engine.process_block_fast.line1_61,
        Engine.process_block_fast.line1_62, Engine.process_block_fast.line1_63,
        Engine.process_block_fast.line1_64, Engine.process_block_fast.line1_65,
        Engine.process_block_fast.line1_66, Engine.process_block_fast.line1_67,
        Engine.process_block_fast.line1_68, Engine.process_block_fast.line1_69,
        Engine.process_block_fast.line1_70, Engine.process_block_fast.line1_71,
        Engine.process_block_fast.line1_72, Engine.process_block_fast.line1_73,
        Engine.process_block_fast.line1_74, Engine.process_block_fast.line1_75,
        Engine.process_block_fast.line1_76, Engine.process_block_fast.line1_77,
        Engine.process_block_fast.line1_78, Engine.process_block_fast.line1_79]
      rfl
  trivial

theorem small_lines (cfg : Cfg) :
    LinesAre Chf.Sha512.smallLine (Engine.process_block_small.lines1 cfg)
      Chf.Sha512.blockLines := by
  unfold Engine.process_block_small.lines1 Chf.Sha512.blockLines
  iterate 80
    refine ⟨fun s => ?_, ?_⟩
    · obtain ⟨⟨x0, x1, x2, x3, x4, x5, x6, x7⟩, win⟩ := s
      simp only [vars, index_win, indexSet_win, ok_bind, Nat.reduceLT, Chf.Sha512.smallLine,
        get_a, get_b, get_c, get_d, get_e, get_f, get_g, get_h, set_a, set_b, set_c,
        set_d, set_e, set_f, set_g, set_h, Sigma0_eq, Sigma1_eq, sigma0_eq, sigma1_eq, Ch_eq, Maj_eq,
        round_eq, later_round_eq,
        Engine.process_block_small.line1_0, Engine.process_block_small.line1_1,
        Engine.process_block_small.line1_2, Engine.process_block_small.line1_3,
        Engine.process_block_small.line1_4, Engine.process_block_small.line1_5,
        Engine.process_block_small.line1_6, Engine.process_block_small.line1_7,
        Engine.process_block_small.line1_8, Engine.process_block_small.line1_9,
        Engine.process_block_small.line1_10, Engine.process_block_small.line1_11,
        Engine.process_block_small.line1_12, Engine.process_block_small.line1_13,
        Engine.process_block_small.line1_14, Engine.process_block_small.line1_15,
        Engine.process_block_small.line1_16, Engine.process_block_small.line1_17,
        Engine.process_block_small.line1_18, Engine.process_block_small.line1_19,
        Engine.process_block_small.line1_20, Engine.process_block_small.line1_21,
        Engine.process_block_small.line1_22, Engine.process_block_small.line1_23,
        Engine.process_block_small.line1_24, Engine.process_block_small.line1_25,
        Engine.process_block_small.line1_26, Engine.process_block_small.line1_27,
        Engine.process_block_small.line1_28, Engine.process_block_small.line1_29,
        Engine.process_block_small.line1_30, Engine.process_block_small.line1_31,
        Engine.process_block_small.line1_32, Engine.process_block_small.line1_33,
        Engine.process_block_small.line1_34, Engine.process_block_small.line1_35,
        Engine.process_block_small.line1_36, Engine.process_block_small.line1_37,
        Engine.process_block_small.line1_38, Engine.process_block_small.line1_39,
        Engine.process_block_small.line1_40, Engine.process_block_small.line1_41,
        Engine.process_block_small.line1_42, Engine.process_block_small.line1_43,
        Engine.process_block_small.line1_44, Engine.process_block_small.line1_45,
        Engine.process_block_small.line1_46, Engine.process_block_small.line1_47,
        Engine.process_block_small.line1_48, Engine.process_block_small.line1_49,
        Engine.process_block_small.line1_50, Engine.process_block_small.line1_51,
        Engine.process_block_small.line1_52, Engine.process_block_small.line1_53,
        Engine.process_block_small.line1_54, Engine.process_block_small.line1_55,
        Engine.process_block_small.line1_56, Engine.process_block_small.line1_57,
        Engine.process_block_small.line1_58, Engine.process_block_small.line1_59,
        Engine.process_block_small.line1_60, Engine.process_block_small.line1_61,
        Engine.process_block_small.line1_62, Engine.process_block_small.line1_63,
        Engine.process_block_small.line1_64, Engine.process_block_small.line1_65,
        Engine.process_block_small.line1_66, Engine.process_block_small.line1_67,
        Engine.process_block_small.line1_68, Engine.process_block_small.line1_69,
        Engine.process_block_small.line1_70, Engine.process_block_small.line1_71,
        Engine.process_block_small.line1_72, Engine.process_block_small.line1_73,
        Engine.process_block_small.line1_74, Engine.process_block_small.line1_75,
        Engine.process_block_small.line1_76, Engine.process_block_small.line1_77,
        Engine.process_block_small.line1_78, Engine.process_block_small.line1_79]
      rfl
  trivial

end Chf.Source.Sha512
