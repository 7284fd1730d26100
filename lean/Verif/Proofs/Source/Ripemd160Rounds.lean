import Verif.Source.Ripemd160
import Verif.Model.Ripemd160
import Verif.Proofs.Source.Rounds

/-!
# The rounds of the translation of `ripemd160.rs` against the model
-/

namespace Chf.Source.Ripemd160
open Chf Chf.Rs
set_option linter.unusedSimpArgs false

/-- One `round!` of `process_block!`: whether it works on `bbb`, the constant, the function and the
argument line. -/
structure Step where
  par : Bool
  add : BitVec 32
  f : BitVec 32 → BitVec 32 → BitVec 32 → BitVec 32
  l : Chf.Ripemd160.RLine

/-- The local variables of the model. -/
abbrev Pair := Arr5 (BitVec 32) × Arr5 (BitVec 32)

/-- What one `round!` does in the model. -/
def step (round : Arr5 (BitVec 32) → Chf.Ripemd160.RLine → BitVec 32 → BitVec 32 → BitVec 32 →
    Arr5 (BitVec 32)) (w : Vector (BitVec 32) 16) (s : Pair) (t : Step) : Pair :=
  match t.par with
  | false => (round s.1 t.l w[t.l.d] t.add
      (t.f (Chf.Ripemd160.get s.1 t.l.i1) (Chf.Ripemd160.get s.1 t.l.i2)
        (Chf.Ripemd160.get s.1 t.l.i3)), s.2)
  | true => (s.1, round s.2 t.l w[t.l.d] t.add
      (t.f (Chf.Ripemd160.get s.2 t.l.i1) (Chf.Ripemd160.get s.2 t.l.i2)
        (Chf.Ripemd160.get s.2 t.l.i3)))

/-- The steps of `process_block!`, in order. -/
def steps : List Step :=
  Chf.Ripemd160.round1.map (Step.mk false Chf.Ripemd160.add1 Chf.Ripemd160.fn1) ++
  (Chf.Ripemd160.round2.map (Step.mk false Chf.Ripemd160.add2 Chf.Ripemd160.fn2) ++
  (Chf.Ripemd160.round3.map (Step.mk false Chf.Ripemd160.add3 Chf.Ripemd160.fn3) ++
  (Chf.Ripemd160.round4.map (Step.mk false Chf.Ripemd160.add4 Chf.Ripemd160.fn4) ++
  (Chf.Ripemd160.round5.map (Step.mk false Chf.Ripemd160.add5 Chf.Ripemd160.fn5) ++
  (Chf.Ripemd160.parRound1.map (Step.mk true Chf.Ripemd160.parAdd1 Chf.Ripemd160.fn5) ++
  (Chf.Ripemd160.parRound2.map (Step.mk true Chf.Ripemd160.parAdd2 Chf.Ripemd160.fn4) ++
  (Chf.Ripemd160.parRound3.map (Step.mk true Chf.Ripemd160.parAdd3 Chf.Ripemd160.fn3) ++
  (Chf.Ripemd160.parRound4.map (Step.mk true Chf.Ripemd160.parAdd4 Chf.Ripemd160.fn2) ++
  (Chf.Ripemd160.parRound5.map (Step.mk true Chf.Ripemd160.parAdd5 Chf.Ripemd160.fn1))))))))))

/-- The model's local variables as the translated ones. -/
def pair (s : Pair) : List (BitVec 32) × List (BitVec 32) := (s.1.toList, s.2.toList)

/-- The statements `fs` do what `step` does on the steps `ls`, one for one. -/
def StepsAre (st : Pair → Step → Pair) :
    List (List (BitVec 32) × List (BitVec 32) → Res (List (BitVec 32) × List (BitVec 32))) →
      List Step → Prop
  | [], [] => True
  | f :: fs, l :: ls => (∀ s, f (pair s) = .ok (pair (st s l))) ∧ StepsAre st fs ls
  | _, _ => False

theorem runSteps_eq {st : Pair → Step → Pair} (fs) (ls : List Step) (h : StepsAre st fs ls)
    (s : Pair) : runLines fs (pair s) = .ok (pair (ls.foldl st s)) := by
  induction fs generalizing ls s with
  | nil =>
    cases ls with
    | nil => rfl
    | cons l ls => exact absurd h id
  | cons f fs ih =>
    cases ls with
    | nil => exact absurd h id
    | cons l ls =>
      obtain ⟨h1, h2⟩ := h
      have := ih ls h2 (st s l)
      unfold runLines at *
      rw [List.foldlM_cons, h1, ok_bind, this, List.foldl_cons]

section
variable (x0 x1 x2 x3 x4 v : BitVec 32)
theorem toList5 : (Arr5.mk x0 x1 x2 x3 x4).toList = [x0, x1, x2, x3, x4] := rfl
theorem index5_0 : index [x0, x1, x2, x3, x4] 0 = .ok x0 := rfl
theorem indexSet5_0 : indexSet [x0, x1, x2, x3, x4] 0 v = .ok [v, x1, x2, x3, x4] := rfl
theorem get5_0 : Chf.Ripemd160.get ⟨x0, x1, x2, x3, x4⟩ 0 = x0 := rfl
theorem set5_0 : Chf.Ripemd160.set ⟨x0, x1, x2, x3, x4⟩ 0 v = ⟨v, x1, x2, x3, x4⟩ := rfl
theorem index5_1 : index [x0, x1, x2, x3, x4] 1 = .ok x1 := rfl
theorem indexSet5_1 : indexSet [x0, x1, x2, x3, x4] 1 v = .ok [x0, v, x2, x3, x4] := rfl
theorem get5_1 : Chf.Ripemd160.get ⟨x0, x1, x2, x3, x4⟩ 1 = x1 := rfl
theorem set5_1 : Chf.Ripemd160.set ⟨x0, x1, x2, x3, x4⟩ 1 v = ⟨x0, v, x2, x3, x4⟩ := rfl
theorem index5_2 : index [x0, x1, x2, x3, x4] 2 = .ok x2 := rfl
theorem indexSet5_2 : indexSet [x0, x1, x2, x3, x4] 2 v = .ok [x0, x1, v, x3, x4] := rfl
theorem get5_2 : Chf.Ripemd160.get ⟨x0, x1, x2, x3, x4⟩ 2 = x2 := rfl
theorem set5_2 : Chf.Ripemd160.set ⟨x0, x1, x2, x3, x4⟩ 2 v = ⟨x0, x1, v, x3, x4⟩ := rfl
theorem index5_3 : index [x0, x1, x2, x3, x4] 3 = .ok x3 := rfl
theorem indexSet5_3 : indexSet [x0, x1, x2, x3, x4] 3 v = .ok [x0, x1, x2, v, x4] := rfl
theorem get5_3 : Chf.Ripemd160.get ⟨x0, x1, x2, x3, x4⟩ 3 = x3 := rfl
theorem set5_3 : Chf.Ripemd160.set ⟨x0, x1, x2, x3, x4⟩ 3 v = ⟨x0, x1, x2, v, x4⟩ := rfl
theorem index5_4 : index [x0, x1, x2, x3, x4] 4 = .ok x4 := rfl
theorem indexSet5_4 : indexSet [x0, x1, x2, x3, x4] 4 v = .ok [x0, x1, x2, x3, v] := rfl
theorem get5_4 : Chf.Ripemd160.get ⟨x0, x1, x2, x3, x4⟩ 4 = x4 := rfl
theorem set5_4 : Chf.Ripemd160.set ⟨x0, x1, x2, x3, x4⟩ 4 v = ⟨x0, x1, x2, x3, v⟩ := rfl
end

theorem round_eq (cfg : Cfg) (a b c d e x : BitVec 32) (bits : BitVec 32) (add round : BitVec 32) :
    small_hash.round cfg a b c d e x bits add round =
      Chf.Ripemd160.smallRoundFn a b c d e x bits.toNat add round := rfl

theorem fast_steps (cfg : Cfg) (w : Vector (BitVec 32) 16) :
    StepsAre (step Chf.Ripemd160.fastRound w) (Engine.process_block_fast.lines1 cfg w.toList) steps := by
  unfold Engine.process_block_fast.lines1 steps Chf.Ripemd160.round1 Chf.Ripemd160.round2
    Chf.Ripemd160.round3 Chf.Ripemd160.round4 Chf.Ripemd160.round5 Chf.Ripemd160.parRound1
    Chf.Ripemd160.parRound2 Chf.Ripemd160.parRound3 Chf.Ripemd160.parRound4 Chf.Ripemd160.parRound5
  simp only [List.map_cons, List.map_nil, List.cons_append, List.nil_append]
  iterate 160
    refine ⟨fun s => ?_, ?_⟩
    · obtain ⟨⟨x0, x1, x2, x3, x4⟩, ⟨y0, y1, y2, y3, y4⟩⟩ := s
      simp only [pair, step, toList5, index_win, ok_bind, Nat.reduceLT, Chf.Ripemd160.fastRound,
        round_eq, BitVec.reduceToNat, Chf.Ripemd160.add1, Chf.Ripemd160.add2, Chf.Ripemd160.add3,
        Chf.Ripemd160.add4, Chf.Ripemd160.add5, Chf.Ripemd160.parAdd1, Chf.Ripemd160.parAdd2,
        Chf.Ripemd160.parAdd3, Chf.Ripemd160.parAdd4, Chf.Ripemd160.parAdd5, Chf.Ripemd160.fn1,
        Chf.Ripemd160.fn2, Chf.Ripemd160.fn3, Chf.Ripemd160.fn4, Chf.Ripemd160.fn5,
        index5_0, index5_1, index5_2, index5_3, index5_4, indexSet5_0, indexSet5_1, indexSet5_2,
        indexSet5_3, indexSet5_4, get5_0, get5_1, get5_2, get5_3, get5_4, set5_0, set5_1, set5_2,
        set5_3, set5_4,
        Engine.process_block_fast.line1_0, Engine.process_block_fast.line1_1,
        Engine.process_block_fast.line1_2, Engine.process_block_fast.line1_3,
        Engine.process_block_fast.line1_4, Engine.process_block_fast.line1_5,
        Engine.process_block_fast.line1_6, Engine.process_block_fast.line1_7,
        Engine.process_block_fast.line1_8, Engine.process_block_fast.line1_9,
        Engine.process_block_fast.line1_10, Engine.process_block_fast.line1_11,
        Engine.process_block_fast.line1_12, Engine.process_block_fast.line1_13,
        Engine.process_block_fast.line1_14, Engine.process_block_fast.line1_15,
        Engine.process_block_fast.line1_16, Engine.process_block_fast.line1_17,
        Engine.process_block_fast.line1_18, Engine.process_block_fast.line1_19,
        Engine.process_block_fast.line1_20, Engine.process_block_fast.line1_21,
        Engine.process_block_fast.line1_22, Engine.process_block_fast.line1_23,
        Engine.process_block_fast.line1_24, Engine.process_block_fast.line1_25,
        Engine.process_block_fast.line1_26, Engine.process_block_fast.line1_27,
        Engine.process_block_fast.line1_28, Engine.process_block_fast.line1_29,
        Engine.process_block_fast.line1_30, Engine.process_block_fast.line1_31,
        Engine.process_block_fast.line1_32, Engine.process_block_fast.line1_33,
        Engine.process_block_fast.line1_34, Engine.process_block_fast.line1_35,
        Engine.process_block_fast.line1_36, Engine.process_block_fast.line1_37,
        Engine.process_block_fast.line1_38, Engine.process_block_fast.line1_39,
        Engine.process_block_fast.line1_40, Engine.process_block_fast.line1_41,
        Engine.process_block_fast.line1_42, Engine.process_block_fast.line1_43,
        Engine.process_block_fast.line1_44, Engine.process_block_fast.line1_45,
        Engine.process_block_fast.line1_46, Engine.process_block_fast.line1_47,
        Engine.process_block_fast.line1_48, Engine.process_block_fast.line1_49,
        Engine.process_block_fast.line1_50, Engine.process_block_fast.line1_51,
        Engine.process_block_fast.line1_52, Engine.process_block_fast.line1_53,
        Engine.process_block_fast.line1_54, Engine.process_block_fast.line1_55,
        Engine.process_block_fast.line1_56, Engine.process_block_fast.line1_57,
        Engine.process_block_fast.line1_58, Engine.process_block_fast.line1_59,
        Engine.process_block_fast.line1_60, Engine.process_block_fast.line1_61,
        Engine.process_block_fast.line1_62, Engine.process_block_fast.line1_63,
        Engine.process_block_fast.line1_64, Engine.process_block_fast.line1_65,
        Engine.process_block_fast.line1_66, Engine.process_block_fast.line1_67,
        Engine.process_block_fast.line1_68, Engine.process_block_fast.line1_69,
        Engine.process_block_fast.line1_70, Engine.process_block_fast.line1_71,
        Engine.process_block_fast.line1_72, Engine.process_block_fast.line1_73,
        Engine.process_block_fast.line1_74, Engine.process_block_fast.line1_75,
        Engine.process_block_fast.line1_76, Engine.process_block_fast.line1_77,
        Engine.process_block_fast.line1_78, Engine.process_block_fast.line1_79,
        Engine.process_block_fast.line1_80, Engine.process_block_fast.line1_81,
        Engine.process_block_fast.line1_82, Engine.process_block_fast.line1_83,
        Engine.process_block_fast.line1_84, Engine.process_block_fast.line1_85,
        Engine.process_block_fast.line1_86, Engine.process_block_fast.line1_87,
        Engine.process_block_fast.line1_88, Engine.process_block_fast.line1_89,
        Engine.process_block_fast.line1_90, Engine.process_block_fast.line1_91,
        Engine.process_block_fast.line1_92, Engine.process_block_fast.line1_93,
        Engine.process_block_fast.line1_94, Engine.process_block_fast.line1_95,
        Engine.process_block_fast.line1_96, Engine.process_block_fast.line1_97,
        Engine.process_block_fast.line1_98, Engine.process_block_fast.line1_99,
        Engine.process_block_fast.line1_100, Engine.process_block_fast.line1_101,
        Engine.process_block_fast.line1_102, Engine.process_block_fast.line1_103,
        Engine.process_block_fast.line1_104, Engine.process_block_fast.line1_105,
        Engine.process_block_fast.line1_106, Engine.process_block_fast.line1_107,
        Engine.process_block_fast.line1_108, Engine.process_block_fast.line1_109,
        Engine.process_block_fast.line1_110, Engine.process_block_fast.line1_111,
        Engine.process_block_fast.line1_112, Engine.process_block_fast.line1_113,
        Engine.process_block_fast.line1_114, Engine.process_block_fast.line1_115,
        Engine.process_block_fast.line1_116, Engine.process_block_fast.line1_117,
        Engine.process_block_fast.line1_118, Engine.process_block_fast.line1_119,
        Engine.process_block_fast.line1_120, Engine.process_block_fast.line1_121,
        Engine.process_block_fast.line1_122, Engine.process_block_fast.line1_123,
        Engine.process_block_fast.line1_124, Engine.process_block_fast.line1_125,
        Engine.process_block_fast.line1_126, Engine.process_block_fast.line1_127,
        Engine.process_block_fast.line1_128, Engine.process_block_fast.line1_129,
        Engine.process_block_fast.line1_130, Engine.process_block_fast.line1_131,
        Engine.process_block_fast.line1_132, Engine.process_block_fast.line1_133,
        Engine.process_block_fast.line1_134, Engine.process_block_fast.line1_135,
        Engine.process_block_fast.line1_136, Engine.process_block_fast.line1_137,
        Engine.process_block_fast.line1_138, Engine.process_block_fast.line1_139,
        Engine.process_block_fast.line1_140, Engine.process_block_fast.line1_141,
        Engine.process_block_fast.line1_142, Engine.process_block_fast.line1_143,
        Engine.process_block_fast.line1_144, Engine.process_block_fast.line1_145,
        Engine.process_block_fast.line1_146, Engine.process_block_fast.line1_147,
        Engine.process_block_fast.line1_148, Engine.process_block_fast.line1_149,
        Engine.process_block_fast.line1_150, Engine.process_block_fast.line1_151,
        Engine.process_block_fast.line1_152, Engine.process_block_fast.line1_153,
        Engine.process_block_fast.line1_154, Engine.process_block_fast.line1_155,
        Engine.process_block_fast.line1_156, Engine.process_block_fast.line1_157,
        Engine.process_block_fast.line1_158, Engine.process_block_fast.line1_159]
      rfl
  trivial

theorem small_steps (cfg : Cfg) (w : Vector (BitVec 32) 16) :
    StepsAre (step Chf.Ripemd160.smallRound w) (Engine.process_block_small.lines1 cfg w.toList) steps := by
  unfold Engine.process_block_small.lines1 steps Chf.Ripemd160.round1 Chf.Ripemd160.round2
    Chf.Ripemd160.round3 Chf.Ripemd160.round4 Chf.Ripemd160.round5 Chf.Ripemd160.parRound1
    Chf.Ripemd160.parRound2 Chf.Ripemd160.parRound3 Chf.Ripemd160.parRound4 Chf.Ripemd160.parRound5
  simp only [List.map_cons, List.map_nil, List.cons_append, List.nil_append]
  iterate 160
    refine ⟨fun s => ?_, ?_⟩
    · obtain ⟨⟨x0, x1, x2, x3, x4⟩, ⟨y0, y1, y2, y3, y4⟩⟩ := s
      simp only [pair, step, toList5, index_win, ok_bind, Nat.reduceLT, Chf.Ripemd160.smallRound,
        round_eq, BitVec.reduceToNat, Chf.Ripemd160.add1, Chf.Ripemd160.add2, Chf.Ripemd160.add3,
        Chf.Ripemd160.add4, Chf.Ripemd160.add5, Chf.Ripemd160.parAdd1, Chf.Ripemd160.parAdd2,
        Chf.Ripemd160.parAdd3, Chf.Ripemd160.parAdd4, Chf.Ripemd160.parAdd5, Chf.Ripemd160.fn1,
        Chf.Ripemd160.fn2, Chf.Ripemd160.fn3, Chf.Ripemd160.fn4, Chf.Ripemd160.fn5,
        index5_0, index5_1, index5_2, index5_3, index5_4, indexSet5_0, indexSet5_1, indexSet5_2,
        indexSet5_3, indexSet5_4, get5_0, get5_1, get5_2, get5_3, get5_4, set5_0, set5_1, set5_2,
        set5_3, set5_4,
        Engine.process_block_small.line1_0, Engine.process_block_small.line1_1,
        Engine.process_block_small.line1_2, Engine.process_block_small.line1_3,
        Engine.process_block_small.line1_4, Engine.process_block_small.line1_5,
        Engine.process_block_small.line1_6, Engine.process_block_small.line1_7,
        Engine.process_block_small.line1_8, Engine.process_block_small.line1_9,
        Engine.process_block_small.line1_10, Engine.process_block_small.line1_11,
        Engine.process_block_small.line1_12, Engine.process_block_small.line1_13,
        Engine.process_block_small.line1_14, Engine.process_block_small.line1_15,
        Engine.process_block_small.line1_16, Engine.process_block_small.line1_17,
        Engine.process_block_small.line1_18, Engine.process_block_small.line1_19,
        Engine.process_block_small.line1_20, Engine.process_block_small.line1_21,
        Engine.process_block_small.line1_22, Engine.process_block_small.line1_23,
        Engine.process_block_small.line1_24, Engine.process_block_small.line1_25,
        Engine.process_block_small.line1_26, Engine.process_block_small.line1_27,
        Engine.process_block_small.line1_28, Engine.process_block_small.line1_29,
        Engine.process_block_small.line1_30, Engine.process_block_small.line1_31,
        Engine.process_block_small.line1_32, Engine.process_block_small.line1_33,
        Engine.process_block_small.line1_34, Engine.process_block_small.line1_35,
        Engine.process_block_small.line1_36, Engine.process_block_small.line1_37,
        Engine.process_block_small.line1_38, Engine.process_block_small.line1_39,
        Engine.process_block_small.line1_40, Engine.process_block_small.line1_41,
        Engine.process_block_small.line1_42, Engine.process_block_small.line1_43,
        Engine.process_block_small.line1_44, Engine.process_block_small.line1_45,
        Engine.process_block_small.line1_46, Engine.process_block_small.line1_47,
        Engine.process_block_small.line1_48, Engine.process_block_small.line1_49,
        Engine.process_block_small.line1_50, Engine.process_block_small.line1_51,
        Engine.process_block_small.line1_52, Engine.process_block_small.line1_53,
        Engine.process_block_small.line1_54, Engine.process_block_small.line1_55,
        Engine.process_block_small.line1_56, Engine.process_block_small.line1_57,
        Engine.process_block_small.line1_58, Engine.process_block_small.line1_59,
        Engine.process_block_small.line1_60, Engine.process_block_small.line1_61,
        Engine.process_block_small.line1_62, Engine.process_block_small.line1_63,
        Engine.process_block_small.line1_64, Engine.process_block_small.line1_65,
        Engine.process_block_small.line1_66, Engine.process_block_small.line1_67,
        Engine.process_block_small.line1_68, Engine.process_block_small.line1_69,
        Engine.process_block_small.line1_70, Engine.process_block_small.line1_71,
        Engine.process_block_small.line1_72, Engine.process_block_small.line1_73,
        Engine.process_block_small.line1_74, Engine.process_block_small.line1_75,
        Engine.process_block_small.line1_76, Engine.process_block_small.line1_77,
        Engine.process_block_small.line1_78, Engine.process_block_small.line1_79,
        Engine.process_block_small.line1_80, Engine.process_block_small.line1_81,
        Engine.process_block_small.line1_82, Engine.process_block_small.line1_83,
        Engine.process_block_small.line1_84, Engine.process_block_small.line1_85,
        Engine.process_block_small.line1_86, Engine.process_block_small.line1_87,
        Engine.process_block_small.line1_88, Engine.process_block_small.line1_89,
        Engine.process_block_small.line1_90, Engine.process_block_small.line1_91,
        Engine.process_block_small.line1_92, Engine.process_block_small.line1_93,
        Engine.process_block_small.line1_94, Engine.process_block_small.line1_95,
        Engine.process_block_small.line1_96, Engine.process_block_small.line1_97,
        Engine.process_block_small.line1_98, Engine.process_block_small.line1_99,
        Engine.process_block_small.line1_100, Engine.process_block_small.line1_101,
        Engine.process_block_small.line1_102, Engine.process_block_small.line1_103,
        Engine.process_block_small.line1_104, Engine.process_block_small.line1_105,
        Engine.process_block_small.line1_106, Engine.process_block_small.line1_107,
        Engine.process_block_small.line1_108, Engine.process_block_small.line1_109,
        Engine.process_block_small.line1_110, Engine.process_block_small.line1_111,
        Engine.process_block_small.line1_112, Engine.process_block_small.line1_113,
        Engine.process_block_small.line1_114, Engine.process_block_small.line1_115,
        Engine.process_block_small.line1_116, Engine.process_block_small.line1_117,
        Engine.process_block_small.line1_118, Engine.process_block_small.line1_119,
        Engine.process_block_small.line1_120, Engine.process_block_small.line1_121,
        Engine.process_block_small.line1_122, Engine.process_block_small.line1_123,
        Engine.process_block_small.line1_124, Engine.process_block_small.line1_125,
        Engine.process_block_small.line1_126, Engine.process_block_small.line1_127,
        Engine.process_block_small.line1_128, Engine.process_block_small.line1_129,
        Engine.process_block_small.line1_130, Engine.process_block_small.line1_131,
        Engine.process_block_small.line1_132, Engine.process_block_small.line1_133,
        Engine.process_block_small.line1_134, Engine.process_block_small.line1_135,
        Engine.process_block_small.line1_136, Engine.process_block_small.line1_137,
        Engine.process_block_small.line1_138, Engine.process_block_small.line1_139,
        Engine.process_block_small.line1_140, Engine.process_block_small.line1_141,
        Engine.process_block_small.line1_142, Engine.process_block_small.line1_143,
        Engine.process_block_small.line1_144, Engine.process_block_small.line1_145,
        Engine.process_block_small.line1_146, Engine.process_block_small.line1_147,
        Engine.process_block_small.line1_148, Engine.process_block_small.line1_149,
        Engine.process_block_small.line1_150, Engine.process_block_small.line1_151,
        Engine.process_block_small.line1_152, Engine.process_block_small.line1_153,
        Engine.process_block_small.line1_154, Engine.process_block_small.line1_155,
        Engine.process_block_small.line1_156, Engine.process_block_small.line1_157,
        Engine.process_block_small.line1_158, Engine.process_block_small.line1_159]
      rfl
  trivial

end Chf.Source.Ripemd160
