/- Generated from the translation of /repo/src by tools/rust2lean.py; do not edit. -/
import Verif.Seen.Prelude
import Verif.Source.Ripemd160

namespace Chf.Seen.Ripemd160
open Chf
set_option linter.unusedVariables false

/-- round!(bb[<expr>], bb[<expr>], bb[<expr>], bb[<expr>], bb[<expr>], <expr>[<expr>], <expr>, 0x00000000, bb[<expr>] ^ bb[<expr>] ^ bb[<expr>]) -/
def Engine.process_block_fast.line1_0 (cfg : Cfg) (w : List (BitVec 32)) : Source.Ripemd160.Engine.process_block_fast.State1 → Tr Source.Ripemd160.Engine.process_block_fast.State1 :=
  fun (bb', bbb') => do
    let x_2 ← Tr.index bb' 0
    let x_3 ← Tr.index bb' 1
    let x_4 ← Tr.index bb' 2
    let x_5 ← Tr.index bb' 3
    let x_6 ← Tr.index w 0
    let bb' ← Tr.indexSet bb' 0 (((x_2 + ((x_3 ^^^ x_4) ^^^ x_5)) + x_6) + 0x00000000#32)
    let x_8 ← Tr.index bb' 0
    let x_9 ← Tr.index bb' 4
    let bb' ← Tr.indexSet bb' 0 ((x_8.rotateLeft 11) + x_9)
    let x_11 ← Tr.index bb' 2
    let bb' ← Tr.indexSet bb' 2 (x_11.rotateLeft 10)
    pure (bb', bbb')

/-- round!(bb[<expr>], bb[<expr>], bb[<expr>], bb[<expr>], bb[<expr>], <expr>[<expr>], <expr>, 0x00000000, bb[<expr>] ^ bb[<expr>] ^ bb[<expr>]) -/
def Engine.process_block_fast.line1_1 (cfg : Cfg) (w : List (BitVec 32)) : Source.Ripemd160.Engine.process_block_fast.State1 → Tr Source.Ripemd160.Engine.process_block_fast.State1 :=
  fun (bb', bbb') => do
    let x_13 ← Tr.index bb' 4
    let x_14 ← Tr.index bb' 0
    let x_15 ← Tr.index bb' 1
    let x_16 ← Tr.index bb' 2
    let x_17 ← Tr.index w 1
    let bb' ← Tr.indexSet bb' 4 (((x_13 + ((x_14 ^^^ x_15) ^^^ x_16)) + x_17) + 0x00000000#32)
    let x_19 ← Tr.index bb' 4
    let x_20 ← Tr.index bb' 3
    let bb' ← Tr.indexSet bb' 4 ((x_19.rotateLeft 14) + x_20)
    let x_22 ← Tr.index bb' 1
    let bb' ← Tr.indexSet bb' 1 (x_22.rotateLeft 10)
    pure (bb', bbb')

/-- round!(bb[<expr>], bb[<expr>], bb[<expr>], bb[<expr>], bb[<expr>], <expr>[<expr>], <expr>, 0x00000000, bb[<expr>] ^ bb[<expr>] ^ bb[<expr>]) -/
def Engine.process_block_fast.line1_2 (cfg : Cfg) (w : List (BitVec 32)) : Source.Ripemd160.Engine.process_block_fast.State1 → Tr Source.Ripemd160.Engine.process_block_fast.State1 :=
  fun (bb', bbb') => do
    let x_24 ← Tr.index bb' 3
    let x_25 ← Tr.index bb' 4
    let x_26 ← Tr.index bb' 0
    let x_27 ← Tr.index bb' 1
    let x_28 ← Tr.index w 2
    let bb' ← Tr.indexSet bb' 3 (((x_24 + ((x_25 ^^^ x_26) ^^^ x_27)) + x_28) + 0x00000000#32)
    let x_30 ← Tr.index bb' 3
    let x_31 ← Tr.index bb' 2
    let bb' ← Tr.indexSet bb' 3 ((x_30.rotateLeft 15) + x_31)
    let x_33 ← Tr.index bb' 0
    let bb' ← Tr.indexSet bb' 0 (x_33.rotateLeft 10)
    pure (bb', bbb')

/-- round!(bb[<expr>], bb[<expr>], bb[<expr>], bb[<expr>], bb[<expr>], <expr>[<expr>], <expr>, 0x00000000, bb[<expr>] ^ bb[<expr>] ^ bb[<expr>]) -/
def Engine.process_block_fast.line1_3 (cfg : Cfg) (w : List (BitVec 32)) : Source.Ripemd160.Engine.process_block_fast.State1 → Tr Source.Ripemd160.Engine.process_block_fast.State1 :=
  fun (bb', bbb') => do
    let x_35 ← Tr.index bb' 2
    let x_36 ← Tr.index bb' 3
    let x_37 ← Tr.index bb' 4
    let x_38 ← Tr.index bb' 0
    let x_39 ← Tr.index w 3
    let bb' ← Tr.indexSet bb' 2 (((x_35 + ((x_36 ^^^ x_37) ^^^ x_38)) + x_39) + 0x00000000#32)
    let x_41 ← Tr.index bb' 2
    let x_42 ← Tr.index bb' 1
    let bb' ← Tr.indexSet bb' 2 ((x_41.rotateLeft 12) + x_42)
    let x_44 ← Tr.index bb' 4
    let bb' ← Tr.indexSet bb' 4 (x_44.rotateLeft 10)
    pure (bb', bbb')

/-- round!(bb[<expr>], bb[<expr>], bb[<expr>], bb[<expr>], bb[<expr>], <expr>[<expr>], <expr>, 0x00000000, bb[<expr>] ^ bb[<expr>] ^ bb[<expr>]) -/
def Engine.process_block_fast.line1_4 (cfg : Cfg) (w : List (BitVec 32)) : Source.Ripemd160.Engine.process_block_fast.State1 → Tr Source.Ripemd160.Engine.process_block_fast.State1 :=
  fun (bb', bbb') => do
    let x_46 ← Tr.index bb' 1
    let x_47 ← Tr.index bb' 2
    let x_48 ← Tr.index bb' 3
    let x_49 ← Tr.index bb' 4
    let x_50 ← Tr.index w 4
    let bb' ← Tr.indexSet bb' 1 (((x_46 + ((x_47 ^^^ x_48) ^^^ x_49)) + x_50) + 0x00000000#32)
    let x_52 ← Tr.index bb' 1
    let x_53 ← Tr.index bb' 0
    let bb' ← Tr.indexSet bb' 1 ((x_52.rotateLeft 5) + x_53)
    let x_55 ← Tr.index bb' 3
    let bb' ← Tr.indexSet bb' 3 (x_55.rotateLeft 10)
    pure (bb', bbb')

/-- round!(bb[<expr>], bb[<expr>], bb[<expr>], bb[<expr>], bb[<expr>], <expr>[<expr>], <expr>, 0x00000000, bb[<expr>] ^ bb[<expr>] ^ bb[<expr>]) -/
def Engine.process_block_fast.line1_5 (cfg : Cfg) (w : List (BitVec 32)) : Source.Ripemd160.Engine.process_block_fast.State1 → Tr Source.Ripemd160.Engine.process_block_fast.State1 :=
  fun (bb', bbb') => do
    let x_57 ← Tr.index bb' 0
    let x_58 ← Tr.index bb' 1
    let x_59 ← Tr.index bb' 2
    let x_60 ← Tr.index bb' 3
    let x_61 ← Tr.index w 5
    let bb' ← Tr.indexSet bb' 0 (((x_57 + ((x_58 ^^^ x_59) ^^^ x_60)) + x_61) + 0x00000000#32)
    let x_63 ← Tr.index bb' 0
    let x_64 ← Tr.index bb' 4
    let bb' ← Tr.indexSet bb' 0 ((x_63.rotateLeft 8) + x_64)
    let x_66 ← Tr.index bb' 2
    let bb' ← Tr.indexSet bb' 2 (x_66.rotateLeft 10)
    pure (bb', bbb')

/-- round!(bb[<expr>], bb[<expr>], bb[<expr>], bb[<expr>], bb[<expr>], <expr>[<expr>], <expr>, 0x00000000, bb[<expr>] ^ bb[<expr>] ^ bb[<expr>]) -/
def Engine.process_block_fast.line1_6 (cfg : Cfg) (w : List (BitVec 32)) : Source.Ripemd160.Engine.process_block_fast.State1 → Tr Source.Ripemd160.Engine.process_block_fast.State1 :=
  fun (bb', bbb') => do
    let x_68 ← Tr.index bb' 4
    let x_69 ← Tr.index bb' 0
    let x_70 ← Tr.index bb' 1
    let x_71 ← Tr.index bb' 2
    let x_72 ← Tr.index w 6
    let bb' ← Tr.indexSet bb' 4 (((x_68 + ((x_69 ^^^ x_70) ^^^ x_71)) + x_72) + 0x00000000#32)
    let x_74 ← Tr.index bb' 4
    let x_75 ← Tr.index bb' 3
    let bb' ← Tr.indexSet bb' 4 ((x_74.rotateLeft 7) + x_75)
    let x_77 ← Tr.index bb' 1
    let bb' ← Tr.indexSet bb' 1 (x_77.rotateLeft 10)
    pure (bb', bbb')

/-- round!(bb[<expr>], bb[<expr>], bb[<expr>], bb[<expr>], bb[<expr>], <expr>[<expr>], <expr>, 0x00000000, bb[<expr>] ^ bb[<expr>] ^ bb[<expr>]) -/
def Engine.process_block_fast.line1_7 (cfg : Cfg) (w : List (BitVec 32)) : Source.Ripemd160.Engine.process_block_fast.State1 → Tr Source.Ripemd160.Engine.process_block_fast.State1 :=
  fun (bb', bbb') => do
    let x_79 ← Tr.index bb' 3
    let x_80 ← Tr.index bb' 4
    let x_81 ← Tr.index bb' 0
    let x_82 ← Tr.index bb' 1
    let x_83 ← Tr.index w 7
    let bb' ← Tr.indexSet bb' 3 (((x_79 + ((x_80 ^^^ x_81) ^^^ x_82)) + x_83) + 0x00000000#32)
    let x_85 ← Tr.index bb' 3
    let x_86 ← Tr.index bb' 2
    let bb' ← Tr.indexSet bb' 3 ((x_85.rotateLeft 9) + x_86)
    let x_88 ← Tr.index bb' 0
    let bb' ← Tr.indexSet bb' 0 (x_88.rotateLeft 10)
    pure (bb', bbb')

/-- round!(bb[<expr>], bb[<expr>], bb[<expr>], bb[<expr>], bb[<expr>], <expr>[<expr>], <expr>, 0x00000000, bb[<expr>] ^ bb[<expr>] ^ bb[<expr>]) -/
def Engine.process_block_fast.line1_8 (cfg : Cfg) (w : List (BitVec 32)) : Source.Ripemd160.Engine.process_block_fast.State1 → Tr Source.Ripemd160.Engine.process_block_fast.State1 :=
  fun (bb', bbb') => do
    let x_90 ← Tr.index bb' 2
    let x_91 ← Tr.index bb' 3
    let x_92 ← Tr.index bb' 4
    let x_93 ← Tr.index bb' 0
    let x_94 ← Tr.index w 8
    let bb' ← Tr.indexSet bb' 2 (((x_90 + ((x_91 ^^^ x_92) ^^^ x_93)) + x_94) + 0x00000000#32)
    let x_96 ← Tr.index bb' 2
    let x_97 ← Tr.index bb' 1
    let bb' ← Tr.indexSet bb' 2 ((x_96.rotateLeft 11) + x_97)
    let x_99 ← Tr.index bb' 4
    let bb' ← Tr.indexSet bb' 4 (x_99.rotateLeft 10)
    pure (bb', bbb')

/-- round!(bb[<expr>], bb[<expr>], bb[<expr>], bb[<expr>], bb[<expr>], <expr>[<expr>], <expr>, 0x00000000, bb[<expr>] ^ bb[<expr>] ^ bb[<expr>]) -/
def Engine.process_block_fast.line1_9 (cfg : Cfg) (w : List (BitVec 32)) : Source.Ripemd160.Engine.process_block_fast.State1 → Tr Source.Ripemd160.Engine.process_block_fast.State1 :=
  fun (bb', bbb') => do
    let x_101 ← Tr.index bb' 1
    let x_102 ← Tr.index bb' 2
    let x_103 ← Tr.index bb' 3
    let x_104 ← Tr.index bb' 4
    let x_105 ← Tr.index w 9
    let bb' ← Tr.indexSet bb' 1 (((x_101 + ((x_102 ^^^ x_103) ^^^ x_104)) + x_105) + 0x00000000#32)
    let x_107 ← Tr.index bb' 1
    let x_108 ← Tr.index bb' 0
    let bb' ← Tr.indexSet bb' 1 ((x_107.rotateLeft 13) + x_108)
    let x_110 ← Tr.index bb' 3
    let bb' ← Tr.indexSet bb' 3 (x_110.rotateLeft 10)
    pure (bb', bbb')

/-- round!(bb[<expr>], bb[<expr>], bb[<expr>], bb[<expr>], bb[<expr>], <expr>[<expr>], <expr>, 0x00000000, bb[<expr>] ^ bb[<expr>] ^ bb[<expr>]) -/
def Engine.process_block_fast.line1_10 (cfg : Cfg) (w : List (BitVec 32)) : Source.Ripemd160.Engine.process_block_fast.State1 → Tr Source.Ripemd160.Engine.process_block_fast.State1 :=
  fun (bb', bbb') => do
    let x_112 ← Tr.index bb' 0
    let x_113 ← Tr.index bb' 1
    let x_114 ← Tr.index bb' 2
    let x_115 ← Tr.index bb' 3
    let x_116 ← Tr.index w 10
    let bb' ← Tr.indexSet bb' 0 (((x_112 + ((x_113 ^^^ x_114) ^^^ x_115)) + x_116) + 0x00000000#32)
    let x_118 ← Tr.index bb' 0
    let x_119 ← Tr.index bb' 4
    let bb' ← Tr.indexSet bb' 0 ((x_118.rotateLeft 14) + x_119)
    let x_121 ← Tr.index bb' 2
    let bb' ← Tr.indexSet bb' 2 (x_121.rotateLeft 10)
    pure (bb', bbb')

/-- round!(bb[<expr>], bb[<expr>], bb[<expr>], bb[<expr>], bb[<expr>], <expr>[<expr>], <expr>, 0x00000000, bb[<expr>] ^ bb[<expr>] ^ bb[<expr>]) -/
def Engine.process_block_fast.line1_11 (cfg : Cfg) (w : List (BitVec 32)) : Source.Ripemd160.Engine.process_block_fast.State1 → Tr Source.Ripemd160.Engine.process_block_fast.State1 :=
  fun (bb', bbb') => do
    let x_123 ← Tr.index bb' 4
    let x_124 ← Tr.index bb' 0
    let x_125 ← Tr.index bb' 1
    let x_126 ← Tr.index bb' 2
    let x_127 ← Tr.index w 11
    let bb' ← Tr.indexSet bb' 4 (((x_123 + ((x_124 ^^^ x_125) ^^^ x_126)) + x_127) + 0x00000000#32)
    let x_129 ← Tr.index bb' 4
    let x_130 ← Tr.index bb' 3
    let bb' ← Tr.indexSet bb' 4 ((x_129.rotateLeft 15) + x_130)
    let x_132 ← Tr.index bb' 1
    let bb' ← Tr.indexSet bb' 1 (x_132.rotateLeft 10)
    pure (bb', bbb')

/-- round!(bb[<expr>], bb[<expr>], bb[<expr>], bb[<expr>], bb[<expr>], <expr>[<expr>], <expr>, 0x00000000, bb[<expr>] ^ bb[<expr>] ^ bb[<expr>]) -/
def Engine.process_block_fast.line1_12 (cfg : Cfg) (w : List (BitVec 32)) : Source.Ripemd160.Engine.process_block_fast.State1 → Tr Source.Ripemd160.Engine.process_block_fast.State1 :=
  fun (bb', bbb') => do
    let x_134 ← Tr.index bb' 3
    let x_135 ← Tr.index bb' 4
    let x_136 ← Tr.index bb' 0
    let x_137 ← Tr.index bb' 1
    let x_138 ← Tr.index w 12
    let bb' ← Tr.indexSet bb' 3 (((x_134 + ((x_135 ^^^ x_136) ^^^ x_137)) + x_138) + 0x00000000#32)
    let x_140 ← Tr.index bb' 3
    let x_141 ← Tr.index bb' 2
    let bb' ← Tr.indexSet bb' 3 ((x_140.rotateLeft 6) + x_141)
    let x_143 ← Tr.index bb' 0
    let bb' ← Tr.indexSet bb' 0 (x_143.rotateLeft 10)
    pure (bb', bbb')

/-- round!(bb[<expr>], bb[<expr>], bb[<expr>], bb[<expr>], bb[<expr>], <expr>[<expr>], <expr>, 0x00000000, bb[<expr>] ^ bb[<expr>] ^ bb[<expr>]) -/
def Engine.process_block_fast.line1_13 (cfg : Cfg) (w : List (BitVec 32)) : Source.Ripemd160.Engine.process_block_fast.State1 → Tr Source.Ripemd160.Engine.process_block_fast.State1 :=
  fun (bb', bbb') => do
    let x_145 ← Tr.index bb' 2
    let x_146 ← Tr.index bb' 3
    let x_147 ← Tr.index bb' 4
    let x_148 ← Tr.index bb' 0
    let x_149 ← Tr.index w 13
    let bb' ← Tr.indexSet bb' 2 (((x_145 + ((x_146 ^^^ x_147) ^^^ x_148)) + x_149) + 0x00000000#32)
    let x_151 ← Tr.index bb' 2
    let x_152 ← Tr.index bb' 1
    let bb' ← Tr.indexSet bb' 2 ((x_151.rotateLeft 7) + x_152)
    let x_154 ← Tr.index bb' 4
    let bb' ← Tr.indexSet bb' 4 (x_154.rotateLeft 10)
    pure (bb', bbb')

/-- round!(bb[<expr>], bb[<expr>], bb[<expr>], bb[<expr>], bb[<expr>], <expr>[<expr>], <expr>, 0x00000000, bb[<expr>] ^ bb[<expr>] ^ bb[<expr>]) -/
def Engine.process_block_fast.line1_14 (cfg : Cfg) (w : List (BitVec 32)) : Source.Ripemd160.Engine.process_block_fast.State1 → Tr Source.Ripemd160.Engine.process_block_fast.State1 :=
  fun (bb', bbb') => do
    let x_156 ← Tr.index bb' 1
    let x_157 ← Tr.index bb' 2
    let x_158 ← Tr.index bb' 3
    let x_159 ← Tr.index bb' 4
    let x_160 ← Tr.index w 14
    let bb' ← Tr.indexSet bb' 1 (((x_156 + ((x_157 ^^^ x_158) ^^^ x_159)) + x_160) + 0x00000000#32)
    let x_162 ← Tr.index bb' 1
    let x_163 ← Tr.index bb' 0
    let bb' ← Tr.indexSet bb' 1 ((x_162.rotateLeft 9) + x_163)
    let x_165 ← Tr.index bb' 3
    let bb' ← Tr.indexSet bb' 3 (x_165.rotateLeft 10)
    pure (bb', bbb')

/-- round!(bb[<expr>], bb[<expr>], bb[<expr>], bb[<expr>], bb[<expr>], <expr>[<expr>], <expr>, 0x00000000, bb[<expr>] ^ bb[<expr>] ^ bb[<expr>]) -/
def Engine.process_block_fast.line1_15 (cfg : Cfg) (w : List (BitVec 32)) : Source.Ripemd160.Engine.process_block_fast.State1 → Tr Source.Ripemd160.Engine.process_block_fast.State1 :=
  fun (bb', bbb') => do
    let x_167 ← Tr.index bb' 0
    let x_168 ← Tr.index bb' 1
    let x_169 ← Tr.index bb' 2
    let x_170 ← Tr.index bb' 3
    let x_171 ← Tr.index w 15
    let bb' ← Tr.indexSet bb' 0 (((x_167 + ((x_168 ^^^ x_169) ^^^ x_170)) + x_171) + 0x00000000#32)
    let x_173 ← Tr.index bb' 0
    let x_174 ← Tr.index bb' 4
    let bb' ← Tr.indexSet bb' 0 ((x_173.rotateLeft 8) + x_174)
    let x_176 ← Tr.index bb' 2
    let bb' ← Tr.indexSet bb' 2 (x_176.rotateLeft 10)
    pure (bb', bbb')

/-- round!(bb[<expr>], bb[<expr>], bb[<expr>], bb[<expr>], bb[<expr>], <expr>[<expr>], <expr>, 0x5a827999,(bb[<expr>] & bb[<expr>]) |(! bb[<expr>] & bb[<expr>])) -/
def Engine.process_block_fast.line1_16 (cfg : Cfg) (w : List (BitVec 32)) : Source.Ripemd160.Engine.process_block_fast.State1 → Tr Source.Ripemd160.Engine.process_block_fast.State1 :=
  fun (bb', bbb') => do
    let x_178 ← Tr.index bb' 4
    let x_179 ← Tr.index bb' 0
    let x_180 ← Tr.index bb' 1
    let x_181 ← Tr.index bb' 0
    let x_182 ← Tr.index bb' 2
    let x_183 ← Tr.index w 7
    let bb' ← Tr.indexSet bb' 4 (((x_178 + ((x_179 &&& x_180) ||| ((~~~x_181) &&& x_182))) + x_183) + 0x5a827999#32)
    let x_185 ← Tr.index bb' 4
    let x_186 ← Tr.index bb' 3
    let bb' ← Tr.indexSet bb' 4 ((x_185.rotateLeft 7) + x_186)
    let x_188 ← Tr.index bb' 1
    let bb' ← Tr.indexSet bb' 1 (x_188.rotateLeft 10)
    pure (bb', bbb')

/-- round!(bb[<expr>], bb[<expr>], bb[<expr>], bb[<expr>], bb[<expr>], <expr>[<expr>], <expr>, 0x5a827999,(bb[<expr>] & bb[<expr>]) |(! bb[<expr>] & bb[<expr>])) -/
def Engine.process_block_fast.line1_17 (cfg : Cfg) (w : List (BitVec 32)) : Source.Ripemd160.Engine.process_block_fast.State1 → Tr Source.Ripemd160.Engine.process_block_fast.State1 :=
  fun (bb', bbb') => do
    let x_190 ← Tr.index bb' 3
    let x_191 ← Tr.index bb' 4
    let x_192 ← Tr.index bb' 0
    let x_193 ← Tr.index bb' 4
    let x_194 ← Tr.index bb' 1
    let x_195 ← Tr.index w 4
    let bb' ← Tr.indexSet bb' 3 (((x_190 + ((x_191 &&& x_192) ||| ((~~~x_193) &&& x_194))) + x_195) + 0x5a827999#32)
    let x_197 ← Tr.index bb' 3
    let x_198 ← Tr.index bb' 2
    let bb' ← Tr.indexSet bb' 3 ((x_197.rotateLeft 6) + x_198)
    let x_200 ← Tr.index bb' 0
    let bb' ← Tr.indexSet bb' 0 (x_200.rotateLeft 10)
    pure (bb', bbb')

/-- round!(bb[<expr>], bb[<expr>], bb[<expr>], bb[<expr>], bb[<expr>], <expr>[<expr>], <expr>, 0x5a827999,(bb[<expr>] & bb[<expr>]) |(! bb[<expr>] & bb[<expr>])) -/
def Engine.process_block_fast.line1_18 (cfg : Cfg) (w : List (BitVec 32)) : Source.Ripemd160.Engine.process_block_fast.State1 → Tr Source.Ripemd160.Engine.process_block_fast.State1 :=
  fun (bb', bbb') => do
    let x_202 ← Tr.index bb' 2
    let x_203 ← Tr.index bb' 3
    let x_204 ← Tr.index bb' 4
    let x_205 ← Tr.index bb' 3
    let x_206 ← Tr.index bb' 0
    let x_207 ← Tr.index w 13
    let bb' ← Tr.indexSet bb' 2 (((x_202 + ((x_203 &&& x_204) ||| ((~~~x_205) &&& x_206))) + x_207) + 0x5a827999#32)
    let x_209 ← Tr.index bb' 2
    let x_210 ← Tr.index bb' 1
    let bb' ← Tr.indexSet bb' 2 ((x_209.rotateLeft 8) + x_210)
    let x_212 ← Tr.index bb' 4
    let bb' ← Tr.indexSet bb' 4 (x_212.rotateLeft 10)
    pure (bb', bbb')

/-- round!(bb[<expr>], bb[<expr>], bb[<expr>], bb[<expr>], bb[<expr>], <expr>[<expr>], <expr>, 0x5a827999,(bb[<expr>] & bb[<expr>]) |(! bb[<expr>] & bb[<expr>])) -/
def Engine.process_block_fast.line1_19 (cfg : Cfg) (w : List (BitVec 32)) : Source.Ripemd160.Engine.process_block_fast.State1 → Tr Source.Ripemd160.Engine.process_block_fast.State1 :=
  fun (bb', bbb') => do
    let x_214 ← Tr.index bb' 1
    let x_215 ← Tr.index bb' 2
    let x_216 ← Tr.index bb' 3
    let x_217 ← Tr.index bb' 2
    let x_218 ← Tr.index bb' 4
    let x_219 ← Tr.index w 1
    let bb' ← Tr.indexSet bb' 1 (((x_214 + ((x_215 &&& x_216) ||| ((~~~x_217) &&& x_218))) + x_219) + 0x5a827999#32)
    let x_221 ← Tr.index bb' 1
    let x_222 ← Tr.index bb' 0
    let bb' ← Tr.indexSet bb' 1 ((x_221.rotateLeft 13) + x_222)
    let x_224 ← Tr.index bb' 3
    let bb' ← Tr.indexSet bb' 3 (x_224.rotateLeft 10)
    pure (bb', bbb')

/-- round!(bb[<expr>], bb[<expr>], bb[<expr>], bb[<expr>], bb[<expr>], <expr>[<expr>], <expr>, 0x5a827999,(bb[<expr>] & bb[<expr>]) |(! bb[<expr>] & bb[<expr>])) -/
def Engine.process_block_fast.line1_20 (cfg : Cfg) (w : List (BitVec 32)) : Source.Ripemd160.Engine.process_block_fast.State1 → Tr Source.Ripemd160.Engine.process_block_fast.State1 :=
  fun (bb', bbb') => do
    let x_226 ← Tr.index bb' 0
    let x_227 ← Tr.index bb' 1
    let x_228 ← Tr.index bb' 2
    let x_229 ← Tr.index bb' 1
    let x_230 ← Tr.index bb' 3
    let x_231 ← Tr.index w 10
    let bb' ← Tr.indexSet bb' 0 (((x_226 + ((x_227 &&& x_228) ||| ((~~~x_229) &&& x_230))) + x_231) + 0x5a827999#32)
    let x_233 ← Tr.index bb' 0
    let x_234 ← Tr.index bb' 4
    let bb' ← Tr.indexSet bb' 0 ((x_233.rotateLeft 11) + x_234)
    let x_236 ← Tr.index bb' 2
    let bb' ← Tr.indexSet bb' 2 (x_236.rotateLeft 10)
    pure (bb', bbb')

/-- round!(bb[<expr>], bb[<expr>], bb[<expr>], bb[<expr>], bb[<expr>], <expr>[<expr>], <expr>, 0x5a827999,(bb[<expr>] & bb[<expr>]) |(! bb[<expr>] & bb[<expr>])) -/
def Engine.process_block_fast.line1_21 (cfg : Cfg) (w : List (BitVec 32)) : Source.Ripemd160.Engine.process_block_fast.State1 → Tr Source.Ripemd160.Engine.process_block_fast.State1 :=
  fun (bb', bbb') => do
    let x_238 ← Tr.index bb' 4
    let x_239 ← Tr.index bb' 0
    let x_240 ← Tr.index bb' 1
    let x_241 ← Tr.index bb' 0
    let x_242 ← Tr.index bb' 2
    let x_243 ← Tr.index w 6
    let bb' ← Tr.indexSet bb' 4 (((x_238 + ((x_239 &&& x_240) ||| ((~~~x_241) &&& x_242))) + x_243) + 0x5a827999#32)
    let x_245 ← Tr.index bb' 4
    let x_246 ← Tr.index bb' 3
    let bb' ← Tr.indexSet bb' 4 ((x_245.rotateLeft 9) + x_246)
    let x_248 ← Tr.index bb' 1
    let bb' ← Tr.indexSet bb' 1 (x_248.rotateLeft 10)
    pure (bb', bbb')

/-- round!(bb[<expr>], bb[<expr>], bb[<expr>], bb[<expr>], bb[<expr>], <expr>[<expr>], <expr>, 0x5a827999,(bb[<expr>] & bb[<expr>]) |(! bb[<expr>] & bb[<expr>])) -/
def Engine.process_block_fast.line1_22 (cfg : Cfg) (w : List (BitVec 32)) : Source.Ripemd160.Engine.process_block_fast.State1 → Tr Source.Ripemd160.Engine.process_block_fast.State1 :=
  fun (bb', bbb') => do
    let x_250 ← Tr.index bb' 3
    let x_251 ← Tr.index bb' 4
    let x_252 ← Tr.index bb' 0
    let x_253 ← Tr.index bb' 4
    let x_254 ← Tr.index bb' 1
    let x_255 ← Tr.index w 15
    let bb' ← Tr.indexSet bb' 3 (((x_250 + ((x_251 &&& x_252) ||| ((~~~x_253) &&& x_254))) + x_255) + 0x5a827999#32)
    let x_257 ← Tr.index bb' 3
    let x_258 ← Tr.index bb' 2
    let bb' ← Tr.indexSet bb' 3 ((x_257.rotateLeft 7) + x_258)
    let x_260 ← Tr.index bb' 0
    let bb' ← Tr.indexSet bb' 0 (x_260.rotateLeft 10)
    pure (bb', bbb')

/-- round!(bb[<expr>], bb[<expr>], bb[<expr>], bb[<expr>], bb[<expr>], <expr>[<expr>], <expr>, 0x5a827999,(bb[<expr>] & bb[<expr>]) |(! bb[<expr>] & bb[<expr>])) -/
def Engine.process_block_fast.line1_23 (cfg : Cfg) (w : List (BitVec 32)) : Source.Ripemd160.Engine.process_block_fast.State1 → Tr Source.Ripemd160.Engine.process_block_fast.State1 :=
  fun (bb', bbb') => do
    let x_262 ← Tr.index bb' 2
    let x_263 ← Tr.index bb' 3
    let x_264 ← Tr.index bb' 4
    let x_265 ← Tr.index bb' 3
    let x_266 ← Tr.index bb' 0
    let x_267 ← Tr.index w 3
    let bb' ← Tr.indexSet bb' 2 (((x_262 + ((x_263 &&& x_264) ||| ((~~~x_265) &&& x_266))) + x_267) + 0x5a827999#32)
    let x_269 ← Tr.index bb' 2
    let x_270 ← Tr.index bb' 1
    let bb' ← Tr.indexSet bb' 2 ((x_269.rotateLeft 15) + x_270)
    let x_272 ← Tr.index bb' 4
    let bb' ← Tr.indexSet bb' 4 (x_272.rotateLeft 10)
    pure (bb', bbb')

/-- round!(bb[<expr>], bb[<expr>], bb[<expr>], bb[<expr>], bb[<expr>], <expr>[<expr>], <expr>, 0x5a827999,(bb[<expr>] & bb[<expr>]) |(! bb[<expr>] & bb[<expr>])) -/
def Engine.process_block_fast.line1_24 (cfg : Cfg) (w : List (BitVec 32)) : Source.Ripemd160.Engine.process_block_fast.State1 → Tr Source.Ripemd160.Engine.process_block_fast.State1 :=
  fun (bb', bbb') => do
    let x_274 ← Tr.index bb' 1
    let x_275 ← Tr.index bb' 2
    let x_276 ← Tr.index bb' 3
    let x_277 ← Tr.index bb' 2
    let x_278 ← Tr.index bb' 4
    let x_279 ← Tr.index w 12
    let bb' ← Tr.indexSet bb' 1 (((x_274 + ((x_275 &&& x_276) ||| ((~~~x_277) &&& x_278))) + x_279) + 0x5a827999#32)
    let x_281 ← Tr.index bb' 1
    let x_282 ← Tr.index bb' 0
    let bb' ← Tr.indexSet bb' 1 ((x_281.rotateLeft 7) + x_282)
    let x_284 ← Tr.index bb' 3
    let bb' ← Tr.indexSet bb' 3 (x_284.rotateLeft 10)
    pure (bb', bbb')

/-- round!(bb[<expr>], bb[<expr>], bb[<expr>], bb[<expr>], bb[<expr>], <expr>[<expr>], <expr>, 0x5a827999,(bb[<expr>] & bb[<expr>]) |(! bb[<expr>] & bb[<expr>])) -/
def Engine.process_block_fast.line1_25 (cfg : Cfg) (w : List (BitVec 32)) : Source.Ripemd160.Engine.process_block_fast.State1 → Tr Source.Ripemd160.Engine.process_block_fast.State1 :=
  fun (bb', bbb') => do
    let x_286 ← Tr.index bb' 0
    let x_287 ← Tr.index bb' 1
    let x_288 ← Tr.index bb' 2
    let x_289 ← Tr.index bb' 1
    let x_290 ← Tr.index bb' 3
    let x_291 ← Tr.index w 0
    let bb' ← Tr.indexSet bb' 0 (((x_286 + ((x_287 &&& x_288) ||| ((~~~x_289) &&& x_290))) + x_291) + 0x5a827999#32)
    let x_293 ← Tr.index bb' 0
    let x_294 ← Tr.index bb' 4
    let bb' ← Tr.indexSet bb' 0 ((x_293.rotateLeft 12) + x_294)
    let x_296 ← Tr.index bb' 2
    let bb' ← Tr.indexSet bb' 2 (x_296.rotateLeft 10)
    pure (bb', bbb')

/-- round!(bb[<expr>], bb[<expr>], bb[<expr>], bb[<expr>], bb[<expr>], <expr>[<expr>], <expr>, 0x5a827999,(bb[<expr>] & bb[<expr>]) |(! bb[<expr>] & bb[<expr>])) -/
def Engine.process_block_fast.line1_26 (cfg : Cfg) (w : List (BitVec 32)) : Source.Ripemd160.Engine.process_block_fast.State1 → Tr Source.Ripemd160.Engine.process_block_fast.State1 :=
  fun (bb', bbb') => do
    let x_298 ← Tr.index bb' 4
    let x_299 ← Tr.index bb' 0
    let x_300 ← Tr.index bb' 1
    let x_301 ← Tr.index bb' 0
    let x_302 ← Tr.index bb' 2
    let x_303 ← Tr.index w 9
    let bb' ← Tr.indexSet bb' 4 (((x_298 + ((x_299 &&& x_300) ||| ((~~~x_301) &&& x_302))) + x_303) + 0x5a827999#32)
    let x_305 ← Tr.index bb' 4
    let x_306 ← Tr.index bb' 3
    let bb' ← Tr.indexSet bb' 4 ((x_305.rotateLeft 15) + x_306)
    let x_308 ← Tr.index bb' 1
    let bb' ← Tr.indexSet bb' 1 (x_308.rotateLeft 10)
    pure (bb', bbb')

/-- round!(bb[<expr>], bb[<expr>], bb[<expr>], bb[<expr>], bb[<expr>], <expr>[<expr>], <expr>, 0x5a827999,(bb[<expr>] & bb[<expr>]) |(! bb[<expr>] & bb[<expr>])) -/
def Engine.process_block_fast.line1_27 (cfg : Cfg) (w : List (BitVec 32)) : Source.Ripemd160.Engine.process_block_fast.State1 → Tr Source.Ripemd160.Engine.process_block_fast.State1 :=
  fun (bb', bbb') => do
    let x_310 ← Tr.index bb' 3
    let x_311 ← Tr.index bb' 4
    let x_312 ← Tr.index bb' 0
    let x_313 ← Tr.index bb' 4
    let x_314 ← Tr.index bb' 1
    let x_315 ← Tr.index w 5
    let bb' ← Tr.indexSet bb' 3 (((x_310 + ((x_311 &&& x_312) ||| ((~~~x_313) &&& x_314))) + x_315) + 0x5a827999#32)
    let x_317 ← Tr.index bb' 3
    let x_318 ← Tr.index bb' 2
    let bb' ← Tr.indexSet bb' 3 ((x_317.rotateLeft 9) + x_318)
    let x_320 ← Tr.index bb' 0
    let bb' ← Tr.indexSet bb' 0 (x_320.rotateLeft 10)
    pure (bb', bbb')

/-- round!(bb[<expr>], bb[<expr>], bb[<expr>], bb[<expr>], bb[<expr>], <expr>[<expr>], <expr>, 0x5a827999,(bb[<expr>] & bb[<expr>]) |(! bb[<expr>] & bb[<expr>])) -/
def Engine.process_block_fast.line1_28 (cfg : Cfg) (w : List (BitVec 32)) : Source.Ripemd160.Engine.process_block_fast.State1 → Tr Source.Ripemd160.Engine.process_block_fast.State1 :=
  fun (bb', bbb') => do
    let x_322 ← Tr.index bb' 2
    let x_323 ← Tr.index bb' 3
    let x_324 ← Tr.index bb' 4
    let x_325 ← Tr.index bb' 3
    let x_326 ← Tr.index bb' 0
    let x_327 ← Tr.index w 2
    let bb' ← Tr.indexSet bb' 2 (((x_322 + ((x_323 &&& x_324) ||| ((~~~x_325) &&& x_326))) + x_327) + 0x5a827999#32)
    let x_329 ← Tr.index bb' 2
    let x_330 ← Tr.index bb' 1
    let bb' ← Tr.indexSet bb' 2 ((x_329.rotateLeft 11) + x_330)
    let x_332 ← Tr.index bb' 4
    let bb' ← Tr.indexSet bb' 4 (x_332.rotateLeft 10)
    pure (bb', bbb')

/-- round!(bb[<expr>], bb[<expr>], bb[<expr>], bb[<expr>], bb[<expr>], <expr>[<expr>], <expr>, 0x5a827999,(bb[<expr>] & bb[<expr>]) |(! bb[<expr>] & bb[<expr>])) -/
def Engine.process_block_fast.line1_29 (cfg : Cfg) (w : List (BitVec 32)) : Source.Ripemd160.Engine.process_block_fast.State1 → Tr Source.Ripemd160.Engine.process_block_fast.State1 :=
  fun (bb', bbb') => do
    let x_334 ← Tr.index bb' 1
    let x_335 ← Tr.index bb' 2
    let x_336 ← Tr.index bb' 3
    let x_337 ← Tr.index bb' 2
    let x_338 ← Tr.index bb' 4
    let x_339 ← Tr.index w 14
    let bb' ← Tr.indexSet bb' 1 (((x_334 + ((x_335 &&& x_336) ||| ((~~~x_337) &&& x_338))) + x_339) + 0x5a827999#32)
    let x_341 ← Tr.index bb' 1
    let x_342 ← Tr.index bb' 0
    let bb' ← Tr.indexSet bb' 1 ((x_341.rotateLeft 7) + x_342)
    let x_344 ← Tr.index bb' 3
    let bb' ← Tr.indexSet bb' 3 (x_344.rotateLeft 10)
    pure (bb', bbb')

/-- round!(bb[<expr>], bb[<expr>], bb[<expr>], bb[<expr>], bb[<expr>], <expr>[<expr>], <expr>, 0x5a827999,(bb[<expr>] & bb[<expr>]) |(! bb[<expr>] & bb[<expr>])) -/
def Engine.process_block_fast.line1_30 (cfg : Cfg) (w : List (BitVec 32)) : Source.Ripemd160.Engine.process_block_fast.State1 → Tr Source.Ripemd160.Engine.process_block_fast.State1 :=
  fun (bb', bbb') => do
    let x_346 ← Tr.index bb' 0
    let x_347 ← Tr.index bb' 1
    let x_348 ← Tr.index bb' 2
    let x_349 ← Tr.index bb' 1
    let x_350 ← Tr.index bb' 3
    let x_351 ← Tr.index w 11
    let bb' ← Tr.indexSet bb' 0 (((x_346 + ((x_347 &&& x_348) ||| ((~~~x_349) &&& x_350))) + x_351) + 0x5a827999#32)
    let x_353 ← Tr.index bb' 0
    let x_354 ← Tr.index bb' 4
    let bb' ← Tr.indexSet bb' 0 ((x_353.rotateLeft 13) + x_354)
    let x_356 ← Tr.index bb' 2
    let bb' ← Tr.indexSet bb' 2 (x_356.rotateLeft 10)
    pure (bb', bbb')

/-- round!(bb[<expr>], bb[<expr>], bb[<expr>], bb[<expr>], bb[<expr>], <expr>[<expr>], <expr>, 0x5a827999,(bb[<expr>] & bb[<expr>]) |(! bb[<expr>] & bb[<expr>])) -/
def Engine.process_block_fast.line1_31 (cfg : Cfg) (w : List (BitVec 32)) : Source.Ripemd160.Engine.process_block_fast.State1 → Tr Source.Ripemd160.Engine.process_block_fast.State1 :=
  fun (bb', bbb') => do
    let x_358 ← Tr.index bb' 4
    let x_359 ← Tr.index bb' 0
    let x_360 ← Tr.index bb' 1
    let x_361 ← Tr.index bb' 0
    let x_362 ← Tr.index bb' 2
    let x_363 ← Tr.index w 8
    let bb' ← Tr.indexSet bb' 4 (((x_358 + ((x_359 &&& x_360) ||| ((~~~x_361) &&& x_362))) + x_363) + 0x5a827999#32)
    let x_365 ← Tr.index bb' 4
    let x_366 ← Tr.index bb' 3
    let bb' ← Tr.indexSet bb' 4 ((x_365.rotateLeft 12) + x_366)
    let x_368 ← Tr.index bb' 1
    let bb' ← Tr.indexSet bb' 1 (x_368.rotateLeft 10)
    pure (bb', bbb')

/-- round!(bb[<expr>], bb[<expr>], bb[<expr>], bb[<expr>], bb[<expr>], <expr>[<expr>], <expr>, 0x6ed9eba1,(bb[<expr>] | ! bb[<expr>]) ^ bb[<expr>]) -/
def Engine.process_block_fast.line1_32 (cfg : Cfg) (w : List (BitVec 32)) : Source.Ripemd160.Engine.process_block_fast.State1 → Tr Source.Ripemd160.Engine.process_block_fast.State1 :=
  fun (bb', bbb') => do
    let x_370 ← Tr.index bb' 3
    let x_371 ← Tr.index bb' 4
    let x_372 ← Tr.index bb' 0
    let x_373 ← Tr.index bb' 1
    let x_374 ← Tr.index w 3
    let bb' ← Tr.indexSet bb' 3 (((x_370 + ((x_371 ||| (~~~x_372)) ^^^ x_373)) + x_374) + 0x6ed9eba1#32)
    let x_376 ← Tr.index bb' 3
    let x_377 ← Tr.index bb' 2
    let bb' ← Tr.indexSet bb' 3 ((x_376.rotateLeft 11) + x_377)
    let x_379 ← Tr.index bb' 0
    let bb' ← Tr.indexSet bb' 0 (x_379.rotateLeft 10)
    pure (bb', bbb')

/-- round!(bb[<expr>], bb[<expr>], bb[<expr>], bb[<expr>], bb[<expr>], <expr>[<expr>], <expr>, 0x6ed9eba1,(bb[<expr>] | ! bb[<expr>]) ^ bb[<expr>]) -/
def Engine.process_block_fast.line1_33 (cfg : Cfg) (w : List (BitVec 32)) : Source.Ripemd160.Engine.process_block_fast.State1 → Tr Source.Ripemd160.Engine.process_block_fast.State1 :=
  fun (bb', bbb') => do
    let x_381 ← Tr.index bb' 2
    let x_382 ← Tr.index bb' 3
    let x_383 ← Tr.index bb' 4
    let x_384 ← Tr.index bb' 0
    let x_385 ← Tr.index w 10
    let bb' ← Tr.indexSet bb' 2 (((x_381 + ((x_382 ||| (~~~x_383)) ^^^ x_384)) + x_385) + 0x6ed9eba1#32)
    let x_387 ← Tr.index bb' 2
    let x_388 ← Tr.index bb' 1
    let bb' ← Tr.indexSet bb' 2 ((x_387.rotateLeft 13) + x_388)
    let x_390 ← Tr.index bb' 4
    let bb' ← Tr.indexSet bb' 4 (x_390.rotateLeft 10)
    pure (bb', bbb')

/-- round!(bb[<expr>], bb[<expr>], bb[<expr>], bb[<expr>], bb[<expr>], <expr>[<expr>], <expr>, 0x6ed9eba1,(bb[<expr>] | ! bb[<expr>]) ^ bb[<expr>]) -/
def Engine.process_block_fast.line1_34 (cfg : Cfg) (w : List (BitVec 32)) : Source.Ripemd160.Engine.process_block_fast.State1 → Tr Source.Ripemd160.Engine.process_block_fast.State1 :=
  fun (bb', bbb') => do
    let x_392 ← Tr.index bb' 1
    let x_393 ← Tr.index bb' 2
    let x_394 ← Tr.index bb' 3
    let x_395 ← Tr.index bb' 4
    let x_396 ← Tr.index w 14
    let bb' ← Tr.indexSet bb' 1 (((x_392 + ((x_393 ||| (~~~x_394)) ^^^ x_395)) + x_396) + 0x6ed9eba1#32)
    let x_398 ← Tr.index bb' 1
    let x_399 ← Tr.index bb' 0
    let bb' ← Tr.indexSet bb' 1 ((x_398.rotateLeft 6) + x_399)
    let x_401 ← Tr.index bb' 3
    let bb' ← Tr.indexSet bb' 3 (x_401.rotateLeft 10)
    pure (bb', bbb')

/-- round!(bb[<expr>], bb[<expr>], bb[<expr>], bb[<expr>], bb[<expr>], <expr>[<expr>], <expr>, 0x6ed9eba1,(bb[<expr>] | ! bb[<expr>]) ^ bb[<expr>]) -/
def Engine.process_block_fast.line1_35 (cfg : Cfg) (w : List (BitVec 32)) : Source.Ripemd160.Engine.process_block_fast.State1 → Tr Source.Ripemd160.Engine.process_block_fast.State1 :=
  fun (bb', bbb') => do
    let x_403 ← Tr.index bb' 0
    let x_404 ← Tr.index bb' 1
    let x_405 ← Tr.index bb' 2
    let x_406 ← Tr.index bb' 3
    let x_407 ← Tr.index w 4
    let bb' ← Tr.indexSet bb' 0 (((x_403 + ((x_404 ||| (~~~x_405)) ^^^ x_406)) + x_407) + 0x6ed9eba1#32)
    let x_409 ← Tr.index bb' 0
    let x_410 ← Tr.index bb' 4
    let bb' ← Tr.indexSet bb' 0 ((x_409.rotateLeft 7) + x_410)
    let x_412 ← Tr.index bb' 2
    let bb' ← Tr.indexSet bb' 2 (x_412.rotateLeft 10)
    pure (bb', bbb')

/-- round!(bb[<expr>], bb[<expr>], bb[<expr>], bb[<expr>], bb[<expr>], <expr>[<expr>], <expr>, 0x6ed9eba1,(bb[<expr>] | ! bb[<expr>]) ^ bb[<expr>]) -/
def Engine.process_block_fast.line1_36 (cfg : Cfg) (w : List (BitVec 32)) : Source.Ripemd160.Engine.process_block_fast.State1 → Tr Source.Ripemd160.Engine.process_block_fast.State1 :=
  fun (bb', bbb') => do
    let x_414 ← Tr.index bb' 4
    let x_415 ← Tr.index bb' 0
    let x_416 ← Tr.index bb' 1
    let x_417 ← Tr.index bb' 2
    let x_418 ← Tr.index w 9
    let bb' ← Tr.indexSet bb' 4 (((x_414 + ((x_415 ||| (~~~x_416)) ^^^ x_417)) + x_418) + 0x6ed9eba1#32)
    let x_420 ← Tr.index bb' 4
    let x_421 ← Tr.index bb' 3
    let bb' ← Tr.indexSet bb' 4 ((x_420.rotateLeft 14) + x_421)
    let x_423 ← Tr.index bb' 1
    let bb' ← Tr.indexSet bb' 1 (x_423.rotateLeft 10)
    pure (bb', bbb')

/-- round!(bb[<expr>], bb[<expr>], bb[<expr>], bb[<expr>], bb[<expr>], <expr>[<expr>], <expr>, 0x6ed9eba1,(bb[<expr>] | ! bb[<expr>]) ^ bb[<expr>]) -/
def Engine.process_block_fast.line1_37 (cfg : Cfg) (w : List (BitVec 32)) : Source.Ripemd160.Engine.process_block_fast.State1 → Tr Source.Ripemd160.Engine.process_block_fast.State1 :=
  fun (bb', bbb') => do
    let x_425 ← Tr.index bb' 3
    let x_426 ← Tr.index bb' 4
    let x_427 ← Tr.index bb' 0
    let x_428 ← Tr.index bb' 1
    let x_429 ← Tr.index w 15
    let bb' ← Tr.indexSet bb' 3 (((x_425 + ((x_426 ||| (~~~x_427)) ^^^ x_428)) + x_429) + 0x6ed9eba1#32)
    let x_431 ← Tr.index bb' 3
    let x_432 ← Tr.index bb' 2
    let bb' ← Tr.indexSet bb' 3 ((x_431.rotateLeft 9) + x_432)
    let x_434 ← Tr.index bb' 0
    let bb' ← Tr.indexSet bb' 0 (x_434.rotateLeft 10)
    pure (bb', bbb')

/-- round!(bb[<expr>], bb[<expr>], bb[<expr>], bb[<expr>], bb[<expr>], <expr>[<expr>], <expr>, 0x6ed9eba1,(bb[<expr>] | ! bb[<expr>]) ^ bb[<expr>]) -/
def Engine.process_block_fast.line1_38 (cfg : Cfg) (w : List (BitVec 32)) : Source.Ripemd160.Engine.process_block_fast.State1 → Tr Source.Ripemd160.Engine.process_block_fast.State1 :=
  fun (bb', bbb') => do
    let x_436 ← Tr.index bb' 2
    let x_437 ← Tr.index bb' 3
    let x_438 ← Tr.index bb' 4
    let x_439 ← Tr.index bb' 0
    let x_440 ← Tr.index w 8
    let bb' ← Tr.indexSet bb' 2 (((x_436 + ((x_437 ||| (~~~x_438)) ^^^ x_439)) + x_440) + 0x6ed9eba1#32)
    let x_442 ← Tr.index bb' 2
    let x_443 ← Tr.index bb' 1
    let bb' ← Tr.indexSet bb' 2 ((x_442.rotateLeft 13) + x_443)
    let x_445 ← Tr.index bb' 4
    let bb' ← Tr.indexSet bb' 4 (x_445.rotateLeft 10)
    pure (bb', bbb')

/-- round!(bb[<expr>], bb[<expr>], bb[<expr>], bb[<expr>], bb[<expr>], <expr>[<expr>], <expr>, 0x6ed9eba1,(bb[<expr>] | ! bb[<expr>]) ^ bb[<expr>]) -/
def Engine.process_block_fast.line1_39 (cfg : Cfg) (w : List (BitVec 32)) : Source.Ripemd160.Engine.process_block_fast.State1 → Tr Source.Ripemd160.Engine.process_block_fast.State1 :=
  fun (bb', bbb') => do
    let x_447 ← Tr.index bb' 1
    let x_448 ← Tr.index bb' 2
    let x_449 ← Tr.index bb' 3
    let x_450 ← Tr.index bb' 4
    let x_451 ← Tr.index w 1
    let bb' ← Tr.indexSet bb' 1 (((x_447 + ((x_448 ||| (~~~x_449)) ^^^ x_450)) + x_451) + 0x6ed9eba1#32)
    let x_453 ← Tr.index bb' 1
    let x_454 ← Tr.index bb' 0
    let bb' ← Tr.indexSet bb' 1 ((x_453.rotateLeft 15) + x_454)
    let x_456 ← Tr.index bb' 3
    let bb' ← Tr.indexSet bb' 3 (x_456.rotateLeft 10)
    pure (bb', bbb')

/-- round!(bb[<expr>], bb[<expr>], bb[<expr>], bb[<expr>], bb[<expr>], <expr>[<expr>], <expr>, 0x6ed9eba1,(bb[<expr>] | ! bb[<expr>]) ^ bb[<expr>]) -/
def Engine.process_block_fast.line1_40 (cfg : Cfg) (w : List (BitVec 32)) : Source.Ripemd160.Engine.process_block_fast.State1 → Tr Source.Ripemd160.Engine.process_block_fast.State1 :=
  fun (bb', bbb') => do
    let x_458 ← Tr.index bb' 0
    let x_459 ← Tr.index bb' 1
    let x_460 ← Tr.index bb' 2
    let x_461 ← Tr.index bb' 3
    let x_462 ← Tr.index w 2
    let bb' ← Tr.indexSet bb' 0 (((x_458 + ((x_459 ||| (~~~x_460)) ^^^ x_461)) + x_462) + 0x6ed9eba1#32)
    let x_464 ← Tr.index bb' 0
    let x_465 ← Tr.index bb' 4
    let bb' ← Tr.indexSet bb' 0 ((x_464.rotateLeft 14) + x_465)
    let x_467 ← Tr.index bb' 2
    let bb' ← Tr.indexSet bb' 2 (x_467.rotateLeft 10)
    pure (bb', bbb')

/-- round!(bb[<expr>], bb[<expr>], bb[<expr>], bb[<expr>], bb[<expr>], <expr>[<expr>], <expr>, 0x6ed9eba1,(bb[<expr>] | ! bb[<expr>]) ^ bb[<expr>]) -/
def Engine.process_block_fast.line1_41 (cfg : Cfg) (w : List (BitVec 32)) : Source.Ripemd160.Engine.process_block_fast.State1 → Tr Source.Ripemd160.Engine.process_block_fast.State1 :=
  fun (bb', bbb') => do
    let x_469 ← Tr.index bb' 4
    let x_470 ← Tr.index bb' 0
    let x_471 ← Tr.index bb' 1
    let x_472 ← Tr.index bb' 2
    let x_473 ← Tr.index w 7
    let bb' ← Tr.indexSet bb' 4 (((x_469 + ((x_470 ||| (~~~x_471)) ^^^ x_472)) + x_473) + 0x6ed9eba1#32)
    let x_475 ← Tr.index bb' 4
    let x_476 ← Tr.index bb' 3
    let bb' ← Tr.indexSet bb' 4 ((x_475.rotateLeft 8) + x_476)
    let x_478 ← Tr.index bb' 1
    let bb' ← Tr.indexSet bb' 1 (x_478.rotateLeft 10)
    pure (bb', bbb')

/-- round!(bb[<expr>], bb[<expr>], bb[<expr>], bb[<expr>], bb[<expr>], <expr>[<expr>], <expr>, 0x6ed9eba1,(bb[<expr>] | ! bb[<expr>]) ^ bb[<expr>]) -/
def Engine.process_block_fast.line1_42 (cfg : Cfg) (w : List (BitVec 32)) : Source.Ripemd160.Engine.process_block_fast.State1 → Tr Source.Ripemd160.Engine.process_block_fast.State1 :=
  fun (bb', bbb') => do
    let x_480 ← Tr.index bb' 3
    let x_481 ← Tr.index bb' 4
    let x_482 ← Tr.index bb' 0
    let x_483 ← Tr.index bb' 1
    let x_484 ← Tr.index w 0
    let bb' ← Tr.indexSet bb' 3 (((x_480 + ((x_481 ||| (~~~x_482)) ^^^ x_483)) + x_484) + 0x6ed9eba1#32)
    let x_486 ← Tr.index bb' 3
    let x_487 ← Tr.index bb' 2
    let bb' ← Tr.indexSet bb' 3 ((x_486.rotateLeft 13) + x_487)
    let x_489 ← Tr.index bb' 0
    let bb' ← Tr.indexSet bb' 0 (x_489.rotateLeft 10)
    pure (bb', bbb')

/-- round!(bb[<expr>], bb[<expr>], bb[<expr>], bb[<expr>], bb[<expr>], <expr>[<expr>], <expr>, 0x6ed9eba1,(bb[<expr>] | ! bb[<expr>]) ^ bb[<expr>]) -/
def Engine.process_block_fast.line1_43 (cfg : Cfg) (w : List (BitVec 32)) : Source.Ripemd160.Engine.process_block_fast.State1 → Tr Source.Ripemd160.Engine.process_block_fast.State1 :=
  fun (bb', bbb') => do
    let x_491 ← Tr.index bb' 2
    let x_492 ← Tr.index bb' 3
    let x_493 ← Tr.index bb' 4
    let x_494 ← Tr.index bb' 0
    let x_495 ← Tr.index w 6
    let bb' ← Tr.indexSet bb' 2 (((x_491 + ((x_492 ||| (~~~x_493)) ^^^ x_494)) + x_495) + 0x6ed9eba1#32)
    let x_497 ← Tr.index bb' 2
    let x_498 ← Tr.index bb' 1
    let bb' ← Tr.indexSet bb' 2 ((x_497.rotateLeft 6) + x_498)
    let x_500 ← Tr.index bb' 4
    let bb' ← Tr.indexSet bb' 4 (x_500.rotateLeft 10)
    pure (bb', bbb')

/-- round!(bb[<expr>], bb[<expr>], bb[<expr>], bb[<expr>], bb[<expr>], <expr>[<expr>], <expr>, 0x6ed9eba1,(bb[<expr>] | ! bb[<expr>]) ^ bb[<expr>]) -/
def Engine.process_block_fast.line1_44 (cfg : Cfg) (w : List (BitVec 32)) : Source.Ripemd160.Engine.process_block_fast.State1 → Tr Source.Ripemd160.Engine.process_block_fast.State1 :=
  fun (bb', bbb') => do
    let x_502 ← Tr.index bb' 1
    let x_503 ← Tr.index bb' 2
    let x_504 ← Tr.index bb' 3
    let x_505 ← Tr.index bb' 4
    let x_506 ← Tr.index w 13
    let bb' ← Tr.indexSet bb' 1 (((x_502 + ((x_503 ||| (~~~x_504)) ^^^ x_505)) + x_506) + 0x6ed9eba1#32)
    let x_508 ← Tr.index bb' 1
    let x_509 ← Tr.index bb' 0
    let bb' ← Tr.indexSet bb' 1 ((x_508.rotateLeft 5) + x_509)
    let x_511 ← Tr.index bb' 3
    let bb' ← Tr.indexSet bb' 3 (x_511.rotateLeft 10)
    pure (bb', bbb')

/-- round!(bb[<expr>], bb[<expr>], bb[<expr>], bb[<expr>], bb[<expr>], <expr>[<expr>], <expr>, 0x6ed9eba1,(bb[<expr>] | ! bb[<expr>]) ^ bb[<expr>]) -/
def Engine.process_block_fast.line1_45 (cfg : Cfg) (w : List (BitVec 32)) : Source.Ripemd160.Engine.process_block_fast.State1 → Tr Source.Ripemd160.Engine.process_block_fast.State1 :=
  fun (bb', bbb') => do
    let x_513 ← Tr.index bb' 0
    let x_514 ← Tr.index bb' 1
    let x_515 ← Tr.index bb' 2
    let x_516 ← Tr.index bb' 3
    let x_517 ← Tr.index w 11
    let bb' ← Tr.indexSet bb' 0 (((x_513 + ((x_514 ||| (~~~x_515)) ^^^ x_516)) + x_517) + 0x6ed9eba1#32)
    let x_519 ← Tr.index bb' 0
    let x_520 ← Tr.index bb' 4
    let bb' ← Tr.indexSet bb' 0 ((x_519.rotateLeft 12) + x_520)
    let x_522 ← Tr.index bb' 2
    let bb' ← Tr.indexSet bb' 2 (x_522.rotateLeft 10)
    pure (bb', bbb')

/-- round!(bb[<expr>], bb[<expr>], bb[<expr>], bb[<expr>], bb[<expr>], <expr>[<expr>], <expr>, 0x6ed9eba1,(bb[<expr>] | ! bb[<expr>]) ^ bb[<expr>]) -/
def Engine.process_block_fast.line1_46 (cfg : Cfg) (w : List (BitVec 32)) : Source.Ripemd160.Engine.process_block_fast.State1 → Tr Source.Ripemd160.Engine.process_block_fast.State1 :=
  fun (bb', bbb') => do
    let x_524 ← Tr.index bb' 4
    let x_525 ← Tr.index bb' 0
    let x_526 ← Tr.index bb' 1
    let x_527 ← Tr.index bb' 2
    let x_528 ← Tr.index w 5
    let bb' ← Tr.indexSet bb' 4 (((x_524 + ((x_525 ||| (~~~x_526)) ^^^ x_527)) + x_528) + 0x6ed9eba1#32)
    let x_530 ← Tr.index bb' 4
    let x_531 ← Tr.index bb' 3
    let bb' ← Tr.indexSet bb' 4 ((x_530.rotateLeft 7) + x_531)
    let x_533 ← Tr.index bb' 1
    let bb' ← Tr.indexSet bb' 1 (x_533.rotateLeft 10)
    pure (bb', bbb')

/-- round!(bb[<expr>], bb[<expr>], bb[<expr>], bb[<expr>], bb[<expr>], <expr>[<expr>], <expr>, 0x6ed9eba1,(bb[<expr>] | ! bb[<expr>]) ^ bb[<expr>]) -/
def Engine.process_block_fast.line1_47 (cfg : Cfg) (w : List (BitVec 32)) : Source.Ripemd160.Engine.process_block_fast.State1 → Tr Source.Ripemd160.Engine.process_block_fast.State1 :=
  fun (bb', bbb') => do
    let x_535 ← Tr.index bb' 3
    let x_536 ← Tr.index bb' 4
    let x_537 ← Tr.index bb' 0
    let x_538 ← Tr.index bb' 1
    let x_539 ← Tr.index w 12
    let bb' ← Tr.indexSet bb' 3 (((x_535 + ((x_536 ||| (~~~x_537)) ^^^ x_538)) + x_539) + 0x6ed9eba1#32)
    let x_541 ← Tr.index bb' 3
    let x_542 ← Tr.index bb' 2
    let bb' ← Tr.indexSet bb' 3 ((x_541.rotateLeft 5) + x_542)
    let x_544 ← Tr.index bb' 0
    let bb' ← Tr.indexSet bb' 0 (x_544.rotateLeft 10)
    pure (bb', bbb')

/-- round!(bb[<expr>], bb[<expr>], bb[<expr>], bb[<expr>], bb[<expr>], <expr>[<expr>], <expr>, 0x8f1bbcdc,(bb[<expr>] & bb[<expr>]) |(bb[<expr>] & ! bb[<expr>])) -/
def Engine.process_block_fast.line1_48 (cfg : Cfg) (w : List (BitVec 32)) : Source.Ripemd160.Engine.process_block_fast.State1 → Tr Source.Ripemd160.Engine.process_block_fast.State1 :=
  fun (bb', bbb') => do
    let x_546 ← Tr.index bb' 2
    let x_547 ← Tr.index bb' 3
    let x_548 ← Tr.index bb' 0
    let x_549 ← Tr.index bb' 4
    let x_550 ← Tr.index bb' 0
    let x_551 ← Tr.index w 1
    let bb' ← Tr.indexSet bb' 2 (((x_546 + ((x_547 &&& x_548) ||| (x_549 &&& (~~~x_550)))) + x_551) + 0x8f1bbcdc#32)
    let x_553 ← Tr.index bb' 2
    let x_554 ← Tr.index bb' 1
    let bb' ← Tr.indexSet bb' 2 ((x_553.rotateLeft 11) + x_554)
    let x_556 ← Tr.index bb' 4
    let bb' ← Tr.indexSet bb' 4 (x_556.rotateLeft 10)
    pure (bb', bbb')

/-- round!(bb[<expr>], bb[<expr>], bb[<expr>], bb[<expr>], bb[<expr>], <expr>[<expr>], <expr>, 0x8f1bbcdc,(bb[<expr>] & bb[<expr>]) |(bb[<expr>] & ! bb[<expr>])) -/
def Engine.process_block_fast.line1_49 (cfg : Cfg) (w : List (BitVec 32)) : Source.Ripemd160.Engine.process_block_fast.State1 → Tr Source.Ripemd160.Engine.process_block_fast.State1 :=
  fun (bb', bbb') => do
    let x_558 ← Tr.index bb' 1
    let x_559 ← Tr.index bb' 2
    let x_560 ← Tr.index bb' 4
    let x_561 ← Tr.index bb' 3
    let x_562 ← Tr.index bb' 4
    let x_563 ← Tr.index w 9
    let bb' ← Tr.indexSet bb' 1 (((x_558 + ((x_559 &&& x_560) ||| (x_561 &&& (~~~x_562)))) + x_563) + 0x8f1bbcdc#32)
    let x_565 ← Tr.index bb' 1
    let x_566 ← Tr.index bb' 0
    let bb' ← Tr.indexSet bb' 1 ((x_565.rotateLeft 12) + x_566)
    let x_568 ← Tr.index bb' 3
    let bb' ← Tr.indexSet bb' 3 (x_568.rotateLeft 10)
    pure (bb', bbb')

/-- round!(bb[<expr>], bb[<expr>], bb[<expr>], bb[<expr>], bb[<expr>], <expr>[<expr>], <expr>, 0x8f1bbcdc,(bb[<expr>] & bb[<expr>]) |(bb[<expr>] & ! bb[<expr>])) -/
def Engine.process_block_fast.line1_50 (cfg : Cfg) (w : List (BitVec 32)) : Source.Ripemd160.Engine.process_block_fast.State1 → Tr Source.Ripemd160.Engine.process_block_fast.State1 :=
  fun (bb', bbb') => do
    let x_570 ← Tr.index bb' 0
    let x_571 ← Tr.index bb' 1
    let x_572 ← Tr.index bb' 3
    let x_573 ← Tr.index bb' 2
    let x_574 ← Tr.index bb' 3
    let x_575 ← Tr.index w 11
    let bb' ← Tr.indexSet bb' 0 (((x_570 + ((x_571 &&& x_572) ||| (x_573 &&& (~~~x_574)))) + x_575) + 0x8f1bbcdc#32)
    let x_577 ← Tr.index bb' 0
    let x_578 ← Tr.index bb' 4
    let bb' ← Tr.indexSet bb' 0 ((x_577.rotateLeft 14) + x_578)
    let x_580 ← Tr.index bb' 2
    let bb' ← Tr.indexSet bb' 2 (x_580.rotateLeft 10)
    pure (bb', bbb')

/-- round!(bb[<expr>], bb[<expr>], bb[<expr>], bb[<expr>], bb[<expr>], <expr>[<expr>], <expr>, 0x8f1bbcdc,(bb[<expr>] & bb[<expr>]) |(bb[<expr>] & ! bb[<expr>])) -/
def Engine.process_block_fast.line1_51 (cfg : Cfg) (w : List (BitVec 32)) : Source.Ripemd160.Engine.process_block_fast.State1 → Tr Source.Ripemd160.Engine.process_block_fast.State1 :=
  fun (bb', bbb') => do
    let x_582 ← Tr.index bb' 4
    let x_583 ← Tr.index bb' 0
    let x_584 ← Tr.index bb' 2
    let x_585 ← Tr.index bb' 1
    let x_586 ← Tr.index bb' 2
    let x_587 ← Tr.index w 10
    let bb' ← Tr.indexSet bb' 4 (((x_582 + ((x_583 &&& x_584) ||| (x_585 &&& (~~~x_586)))) + x_587) + 0x8f1bbcdc#32)
    let x_589 ← Tr.index bb' 4
    let x_590 ← Tr.index bb' 3
    let bb' ← Tr.indexSet bb' 4 ((x_589.rotateLeft 15) + x_590)
    let x_592 ← Tr.index bb' 1
    let bb' ← Tr.indexSet bb' 1 (x_592.rotateLeft 10)
    pure (bb', bbb')

/-- round!(bb[<expr>], bb[<expr>], bb[<expr>], bb[<expr>], bb[<expr>], <expr>[<expr>], <expr>, 0x8f1bbcdc,(bb[<expr>] & bb[<expr>]) |(bb[<expr>] & ! bb[<expr>])) -/
def Engine.process_block_fast.line1_52 (cfg : Cfg) (w : List (BitVec 32)) : Source.Ripemd160.Engine.process_block_fast.State1 → Tr Source.Ripemd160.Engine.process_block_fast.State1 :=
  fun (bb', bbb') => do
    let x_594 ← Tr.index bb' 3
    let x_595 ← Tr.index bb' 4
    let x_596 ← Tr.index bb' 1
    let x_597 ← Tr.index bb' 0
    let x_598 ← Tr.index bb' 1
    let x_599 ← Tr.index w 0
    let bb' ← Tr.indexSet bb' 3 (((x_594 + ((x_595 &&& x_596) ||| (x_597 &&& (~~~x_598)))) + x_599) + 0x8f1bbcdc#32)
    let x_601 ← Tr.index bb' 3
    let x_602 ← Tr.index bb' 2
    let bb' ← Tr.indexSet bb' 3 ((x_601.rotateLeft 14) + x_602)
    let x_604 ← Tr.index bb' 0
    let bb' ← Tr.indexSet bb' 0 (x_604.rotateLeft 10)
    pure (bb', bbb')

/-- round!(bb[<expr>], bb[<expr>], bb[<expr>], bb[<expr>], bb[<expr>], <expr>[<expr>], <expr>, 0x8f1bbcdc,(bb[<expr>] & bb[<expr>]) |(bb[<expr>] & ! bb[<expr>])) -/
def Engine.process_block_fast.line1_53 (cfg : Cfg) (w : List (BitVec 32)) : Source.Ripemd160.Engine.process_block_fast.State1 → Tr Source.Ripemd160.Engine.process_block_fast.State1 :=
  fun (bb', bbb') => do
    let x_606 ← Tr.index bb' 2
    let x_607 ← Tr.index bb' 3
    let x_608 ← Tr.index bb' 0
    let x_609 ← Tr.index bb' 4
    let x_610 ← Tr.index bb' 0
    let x_611 ← Tr.index w 8
    let bb' ← Tr.indexSet bb' 2 (((x_606 + ((x_607 &&& x_608) ||| (x_609 &&& (~~~x_610)))) + x_611) + 0x8f1bbcdc#32)
    let x_613 ← Tr.index bb' 2
    let x_614 ← Tr.index bb' 1
    let bb' ← Tr.indexSet bb' 2 ((x_613.rotateLeft 15) + x_614)
    let x_616 ← Tr.index bb' 4
    let bb' ← Tr.indexSet bb' 4 (x_616.rotateLeft 10)
    pure (bb', bbb')

/-- round!(bb[<expr>], bb[<expr>], bb[<expr>], bb[<expr>], bb[<expr>], <expr>[<expr>], <expr>, 0x8f1bbcdc,(bb[<expr>] & bb[<expr>]) |(bb[<expr>] & ! bb[<expr>])) -/
def Engine.process_block_fast.line1_54 (cfg : Cfg) (w : List (BitVec 32)) : Source.Ripemd160.Engine.process_block_fast.State1 → Tr Source.Ripemd160.Engine.process_block_fast.State1 :=
  fun (bb', bbb') => do
    let x_618 ← Tr.index bb' 1
    let x_619 ← Tr.index bb' 2
    let x_620 ← Tr.index bb' 4
    let x_621 ← Tr.index bb' 3
    let x_622 ← Tr.index bb' 4
    let x_623 ← Tr.index w 12
    let bb' ← Tr.indexSet bb' 1 (((x_618 + ((x_619 &&& x_620) ||| (x_621 &&& (~~~x_622)))) + x_623) + 0x8f1bbcdc#32)
    let x_625 ← Tr.index bb' 1
    let x_626 ← Tr.index bb' 0
    let bb' ← Tr.indexSet bb' 1 ((x_625.rotateLeft 9) + x_626)
    let x_628 ← Tr.index bb' 3
    let bb' ← Tr.indexSet bb' 3 (x_628.rotateLeft 10)
    pure (bb', bbb')

/-- round!(bb[<expr>], bb[<expr>], bb[<expr>], bb[<expr>], bb[<expr>], <expr>[<expr>], <expr>, 0x8f1bbcdc,(bb[<expr>] & bb[<expr>]) |(bb[<expr>] & ! bb[<expr>])) -/
def Engine.process_block_fast.line1_55 (cfg : Cfg) (w : List (BitVec 32)) : Source.Ripemd160.Engine.process_block_fast.State1 → Tr Source.Ripemd160.Engine.process_block_fast.State1 :=
  fun (bb', bbb') => do
    let x_630 ← Tr.index bb' 0
    let x_631 ← Tr.index bb' 1
    let x_632 ← Tr.index bb' 3
    let x_633 ← Tr.index bb' 2
    let x_634 ← Tr.index bb' 3
    let x_635 ← Tr.index w 4
    let bb' ← Tr.indexSet bb' 0 (((x_630 + ((x_631 &&& x_632) ||| (x_633 &&& (~~~x_634)))) + x_635) + 0x8f1bbcdc#32)
    let x_637 ← Tr.index bb' 0
    let x_638 ← Tr.index bb' 4
    let bb' ← Tr.indexSet bb' 0 ((x_637.rotateLeft 8) + x_638)
    let x_640 ← Tr.index bb' 2
    let bb' ← Tr.indexSet bb' 2 (x_640.rotateLeft 10)
    pure (bb', bbb')

/-- round!(bb[<expr>], bb[<expr>], bb[<expr>], bb[<expr>], bb[<expr>], <expr>[<expr>], <expr>, 0x8f1bbcdc,(bb[<expr>] & bb[<expr>]) |(bb[<expr>] & ! bb[<expr>])) -/
def Engine.process_block_fast.line1_56 (cfg : Cfg) (w : List (BitVec 32)) : Source.Ripemd160.Engine.process_block_fast.State1 → Tr Source.Ripemd160.Engine.process_block_fast.State1 :=
  fun (bb', bbb') => do
    let x_642 ← Tr.index bb' 4
    let x_643 ← Tr.index bb' 0
    let x_644 ← Tr.index bb' 2
    let x_645 ← Tr.index bb' 1
    let x_646 ← Tr.index bb' 2
    let x_647 ← Tr.index w 13
    let bb' ← Tr.indexSet bb' 4 (((x_642 + ((x_643 &&& x_644) ||| (x_645 &&& (~~~x_646)))) + x_647) + 0x8f1bbcdc#32)
    let x_649 ← Tr.index bb' 4
    let x_650 ← Tr.index bb' 3
    let bb' ← Tr.indexSet bb' 4 ((x_649.rotateLeft 9) + x_650)
    let x_652 ← Tr.index bb' 1
    let bb' ← Tr.indexSet bb' 1 (x_652.rotateLeft 10)
    pure (bb', bbb')

/-- round!(bb[<expr>], bb[<expr>], bb[<expr>], bb[<expr>], bb[<expr>], <expr>[<expr>], <expr>, 0x8f1bbcdc,(bb[<expr>] & bb[<expr>]) |(bb[<expr>] & ! bb[<expr>])) -/
def Engine.process_block_fast.line1_57 (cfg : Cfg) (w : List (BitVec 32)) : Source.Ripemd160.Engine.process_block_fast.State1 → Tr Source.Ripemd160.Engine.process_block_fast.State1 :=
  fun (bb', bbb') => do
    let x_654 ← Tr.index bb' 3
    let x_655 ← Tr.index bb' 4
    let x_656 ← Tr.index bb' 1
    let x_657 ← Tr.index bb' 0
    let x_658 ← Tr.index bb' 1
    let x_659 ← Tr.index w 3
    let bb' ← Tr.indexSet bb' 3 (((x_654 + ((x_655 &&& x_656) ||| (x_657 &&& (~~~x_658)))) + x_659) + 0x8f1bbcdc#32)
    let x_661 ← Tr.index bb' 3
    let x_662 ← Tr.index bb' 2
    let bb' ← Tr.indexSet bb' 3 ((x_661.rotateLeft 14) + x_662)
    let x_664 ← Tr.index bb' 0
    let bb' ← Tr.indexSet bb' 0 (x_664.rotateLeft 10)
    pure (bb', bbb')

/-- round!(bb[<expr>], bb[<expr>], bb[<expr>], bb[<expr>], bb[<expr>], <expr>[<expr>], <expr>, 0x8f1bbcdc,(bb[<expr>] & bb[<expr>]) |(bb[<expr>] & ! bb[<expr>])) -/
def Engine.process_block_fast.line1_58 (cfg : Cfg) (w : List (BitVec 32)) : Source.Ripemd160.Engine.process_block_fast.State1 → Tr Source.Ripemd160.Engine.process_block_fast.State1 :=
  fun (bb', bbb') => do
    let x_666 ← Tr.index bb' 2
    let x_667 ← Tr.index bb' 3
    let x_668 ← Tr.index bb' 0
    let x_669 ← Tr.index bb' 4
    let x_670 ← Tr.index bb' 0
    let x_671 ← Tr.index w 7
    let bb' ← Tr.indexSet bb' 2 (((x_666 + ((x_667 &&& x_668) ||| (x_669 &&& (~~~x_670)))) + x_671) + 0x8f1bbcdc#32)
    let x_673 ← Tr.index bb' 2
    let x_674 ← Tr.index bb' 1
    let bb' ← Tr.indexSet bb' 2 ((x_673.rotateLeft 5) + x_674)
    let x_676 ← Tr.index bb' 4
    let bb' ← Tr.indexSet bb' 4 (x_676.rotateLeft 10)
    pure (bb', bbb')

/-- round!(bb[<expr>], bb[<expr>], bb[<expr>], bb[<expr>], bb[<expr>], <expr>[<expr>], <expr>, 0x8f1bbcdc,(bb[<expr>] & bb[<expr>]) |(bb[<expr>] & ! bb[<expr>])) -/
def Engine.process_block_fast.line1_59 (cfg : Cfg) (w : List (BitVec 32)) : Source.Ripemd160.Engine.process_block_fast.State1 → Tr Source.Ripemd160.Engine.process_block_fast.State1 :=
  fun (bb', bbb') => do
    let x_678 ← Tr.index bb' 1
    let x_679 ← Tr.index bb' 2
    let x_680 ← Tr.index bb' 4
    let x_681 ← Tr.index bb' 3
    let x_682 ← Tr.index bb' 4
    let x_683 ← Tr.index w 15
    let bb' ← Tr.indexSet bb' 1 (((x_678 + ((x_679 &&& x_680) ||| (x_681 &&& (~~~x_682)))) + x_683) + 0x8f1bbcdc#32)
    let x_685 ← Tr.index bb' 1
    let x_686 ← Tr.index bb' 0
    let bb' ← Tr.indexSet bb' 1 ((x_685.rotateLeft 6) + x_686)
    let x_688 ← Tr.index bb' 3
    let bb' ← Tr.indexSet bb' 3 (x_688.rotateLeft 10)
    pure (bb', bbb')

/-- round!(bb[<expr>], bb[<expr>], bb[<expr>], bb[<expr>], bb[<expr>], <expr>[<expr>], <expr>, 0x8f1bbcdc,(bb[<expr>] & bb[<expr>]) |(bb[<expr>] & ! bb[<expr>])) -/
def Engine.process_block_fast.line1_60 (cfg : Cfg) (w : List (BitVec 32)) : Source.Ripemd160.Engine.process_block_fast.State1 → Tr Source.Ripemd160.Engine.process_block_fast.State1 :=
  fun (bb', bbb') => do
    let x_690 ← Tr.index bb' 0
    let x_691 ← Tr.index bb' 1
    let x_692 ← Tr.index bb' 3
    let x_693 ← Tr.index bb' 2
    let x_694 ← Tr.index bb' 3
    let x_695 ← Tr.index w 14
    let bb' ← Tr.indexSet bb' 0 (((x_690 + ((x_691 &&& x_692) ||| (x_693 &&& (~~~x_694)))) + x_695) + 0x8f1bbcdc#32)
    let x_697 ← Tr.index bb' 0
    let x_698 ← Tr.index bb' 4
    let bb' ← Tr.indexSet bb' 0 ((x_697.rotateLeft 8) + x_698)
    let x_700 ← Tr.index bb' 2
    let bb' ← Tr.indexSet bb' 2 (x_700.rotateLeft 10)
    pure (bb', bbb')

/-- round!(bb[<expr>], bb[<expr>], bb[<expr>], bb[<expr>], bb[<expr>], <expr>[<expr>], <expr>, 0x8f1bbcdc,(bb[<expr>] & bb[<expr>]) |(bb[<expr>] & ! bb[<expr>])) -/
def Engine.process_block_fast.line1_61 (cfg : Cfg) (w : List (BitVec 32)) : Source.Ripemd160.Engine.process_block_fast.State1 → Tr Source.Ripemd160.Engine.process_block_fast.State1 :=
  fun (bb', bbb') => do
    let x_702 ← Tr.index bb' 4
    let x_703 ← Tr.index bb' 0
    let x_704 ← Tr.index bb' 2
    let x_705 ← Tr.index bb' 1
    let x_706 ← Tr.index bb' 2
    let x_707 ← Tr.index w 5
    let bb' ← Tr.indexSet bb' 4 (((x_702 + ((x_703 &&& x_704) ||| (x_705 &&& (~~~x_706)))) + x_707) + 0x8f1bbcdc#32)
    let x_709 ← Tr.index bb' 4
    let x_710 ← Tr.index bb' 3
    let bb' ← Tr.indexSet bb' 4 ((x_709.rotateLeft 6) + x_710)
    let x_712 ← Tr.index bb' 1
    let bb' ← Tr.indexSet bb' 1 (x_712.rotateLeft 10)
    pure (bb', bbb')

/-- round!(bb[<expr>], bb[<expr>], bb[<expr>], bb[<expr>], bb[<expr>], <expr>[<expr>], <expr>, 0x8f1bbcdc,(bb[<expr>] & bb[<expr>]) |(bb[<expr>] & ! bb[<expr>])) -/
def Engine.process_block_fast.line1_62 (cfg : Cfg) (w : List (BitVec 32)) : Source.Ripemd160.Engine.process_block_fast.State1 → Tr Source.Ripemd160.Engine.process_block_fast.State1 :=
  fun (bb', bbb') => do
    let x_714 ← Tr.index bb' 3
    let x_715 ← Tr.index bb' 4
    let x_716 ← Tr.index bb' 1
    let x_717 ← Tr.index bb' 0
    let x_718 ← Tr.index bb' 1
    let x_719 ← Tr.index w 6
    let bb' ← Tr.indexSet bb' 3 (((x_714 + ((x_715 &&& x_716) ||| (x_717 &&& (~~~x_718)))) + x_719) + 0x8f1bbcdc#32)
    let x_721 ← Tr.index bb' 3
    let x_722 ← Tr.index bb' 2
    let bb' ← Tr.indexSet bb' 3 ((x_721.rotateLeft 5) + x_722)
    let x_724 ← Tr.index bb' 0
    let bb' ← Tr.indexSet bb' 0 (x_724.rotateLeft 10)
    pure (bb', bbb')

/-- round!(bb[<expr>], bb[<expr>], bb[<expr>], bb[<expr>], bb[<expr>], <expr>[<expr>], <expr>, 0x8f1bbcdc,(bb[<expr>] & bb[<expr>]) |(bb[<expr>] & ! bb[<expr>])) -/
def Engine.process_block_fast.line1_63 (cfg : Cfg) (w : List (BitVec 32)) : Source.Ripemd160.Engine.process_block_fast.State1 → Tr Source.Ripemd160.Engine.process_block_fast.State1 :=
  fun (bb', bbb') => do
    let x_726 ← Tr.index bb' 2
    let x_727 ← Tr.index bb' 3
    let x_728 ← Tr.index bb' 0
    let x_729 ← Tr.index bb' 4
    let x_730 ← Tr.index bb' 0
    let x_731 ← Tr.index w 2
    let bb' ← Tr.indexSet bb' 2 (((x_726 + ((x_727 &&& x_728) ||| (x_729 &&& (~~~x_730)))) + x_731) + 0x8f1bbcdc#32)
    let x_733 ← Tr.index bb' 2
    let x_734 ← Tr.index bb' 1
    let bb' ← Tr.indexSet bb' 2 ((x_733.rotateLeft 12) + x_734)
    let x_736 ← Tr.index bb' 4
    let bb' ← Tr.indexSet bb' 4 (x_736.rotateLeft 10)
    pure (bb', bbb')

/-- round!(bb[<expr>], bb[<expr>], bb[<expr>], bb[<expr>], bb[<expr>], <expr>[<expr>], <expr>, 0xa953fd4e, bb[<expr>] ^(bb[<expr>] | ! bb[<expr>])) -/
def Engine.process_block_fast.line1_64 (cfg : Cfg) (w : List (BitVec 32)) : Source.Ripemd160.Engine.process_block_fast.State1 → Tr Source.Ripemd160.Engine.process_block_fast.State1 :=
  fun (bb', bbb') => do
    let x_738 ← Tr.index bb' 1
    let x_739 ← Tr.index bb' 2
    let x_740 ← Tr.index bb' 3
    let x_741 ← Tr.index bb' 4
    let x_742 ← Tr.index w 4
    let bb' ← Tr.indexSet bb' 1 (((x_738 + (x_739 ^^^ (x_740 ||| (~~~x_741)))) + x_742) + 0xa953fd4e#32)
    let x_744 ← Tr.index bb' 1
    let x_745 ← Tr.index bb' 0
    let bb' ← Tr.indexSet bb' 1 ((x_744.rotateLeft 9) + x_745)
    let x_747 ← Tr.index bb' 3
    let bb' ← Tr.indexSet bb' 3 (x_747.rotateLeft 10)
    pure (bb', bbb')

/-- round!(bb[<expr>], bb[<expr>], bb[<expr>], bb[<expr>], bb[<expr>], <expr>[<expr>], <expr>, 0xa953fd4e, bb[<expr>] ^(bb[<expr>] | ! bb[<expr>])) -/
def Engine.process_block_fast.line1_65 (cfg : Cfg) (w : List (BitVec 32)) : Source.Ripemd160.Engine.process_block_fast.State1 → Tr Source.Ripemd160.Engine.process_block_fast.State1 :=
  fun (bb', bbb') => do
    let x_749 ← Tr.index bb' 0
    let x_750 ← Tr.index bb' 1
    let x_751 ← Tr.index bb' 2
    let x_752 ← Tr.index bb' 3
    let x_753 ← Tr.index w 0
    let bb' ← Tr.indexSet bb' 0 (((x_749 + (x_750 ^^^ (x_751 ||| (~~~x_752)))) + x_753) + 0xa953fd4e#32)
    let x_755 ← Tr.index bb' 0
    let x_756 ← Tr.index bb' 4
    let bb' ← Tr.indexSet bb' 0 ((x_755.rotateLeft 15) + x_756)
    let x_758 ← Tr.index bb' 2
    let bb' ← Tr.indexSet bb' 2 (x_758.rotateLeft 10)
    pure (bb', bbb')

/-- round!(bb[<expr>], bb[<expr>], bb[<expr>], bb[<expr>], bb[<expr>], <expr>[<expr>], <expr>, 0xa953fd4e, bb[<expr>] ^(bb[<expr>] | ! bb[<expr>])) -/
def Engine.process_block_fast.line1_66 (cfg : Cfg) (w : List (BitVec 32)) : Source.Ripemd160.Engine.process_block_fast.State1 → Tr Source.Ripemd160.Engine.process_block_fast.State1 :=
  fun (bb', bbb') => do
    let x_760 ← Tr.index bb' 4
    let x_761 ← Tr.index bb' 0
    let x_762 ← Tr.index bb' 1
    let x_763 ← Tr.index bb' 2
    let x_764 ← Tr.index w 5
    let bb' ← Tr.indexSet bb' 4 (((x_760 + (x_761 ^^^ (x_762 ||| (~~~x_763)))) + x_764) + 0xa953fd4e#32)
    let x_766 ← Tr.index bb' 4
    let x_767 ← Tr.index bb' 3
    let bb' ← Tr.indexSet bb' 4 ((x_766.rotateLeft 5) + x_767)
    let x_769 ← Tr.index bb' 1
    let bb' ← Tr.indexSet bb' 1 (x_769.rotateLeft 10)
    pure (bb', bbb')

/-- round!(bb[<expr>], bb[<expr>], bb[<expr>], bb[<expr>], bb[<expr>], <expr>[<expr>], <expr>, 0xa953fd4e, bb[<expr>] ^(bb[<expr>] | ! bb[<expr>])) -/
def Engine.process_block_fast.line1_67 (cfg : Cfg) (w : List (BitVec 32)) : Source.Ripemd160.Engine.process_block_fast.State1 → Tr Source.Ripemd160.Engine.process_block_fast.State1 :=
  fun (bb', bbb') => do
    let x_771 ← Tr.index bb' 3
    let x_772 ← Tr.index bb' 4
    let x_773 ← Tr.index bb' 0
    let x_774 ← Tr.index bb' 1
    let x_775 ← Tr.index w 9
    let bb' ← Tr.indexSet bb' 3 (((x_771 + (x_772 ^^^ (x_773 ||| (~~~x_774)))) + x_775) + 0xa953fd4e#32)
    let x_777 ← Tr.index bb' 3
    let x_778 ← Tr.index bb' 2
    let bb' ← Tr.indexSet bb' 3 ((x_777.rotateLeft 11) + x_778)
    let x_780 ← Tr.index bb' 0
    let bb' ← Tr.indexSet bb' 0 (x_780.rotateLeft 10)
    pure (bb', bbb')

/-- round!(bb[<expr>], bb[<expr>], bb[<expr>], bb[<expr>], bb[<expr>], <expr>[<expr>], <expr>, 0xa953fd4e, bb[<expr>] ^(bb[<expr>] | ! bb[<expr>])) -/
def Engine.process_block_fast.line1_68 (cfg : Cfg) (w : List (BitVec 32)) : Source.Ripemd160.Engine.process_block_fast.State1 → Tr Source.Ripemd160.Engine.process_block_fast.State1 :=
  fun (bb', bbb') => do
    let x_782 ← Tr.index bb' 2
    let x_783 ← Tr.index bb' 3
    let x_784 ← Tr.index bb' 4
    let x_785 ← Tr.index bb' 0
    let x_786 ← Tr.index w 7
    let bb' ← Tr.indexSet bb' 2 (((x_782 + (x_783 ^^^ (x_784 ||| (~~~x_785)))) + x_786) + 0xa953fd4e#32)
    let x_788 ← Tr.index bb' 2
    let x_789 ← Tr.index bb' 1
    let bb' ← Tr.indexSet bb' 2 ((x_788.rotateLeft 6) + x_789)
    let x_791 ← Tr.index bb' 4
    let bb' ← Tr.indexSet bb' 4 (x_791.rotateLeft 10)
    pure (bb', bbb')

/-- round!(bb[<expr>], bb[<expr>], bb[<expr>], bb[<expr>], bb[<expr>], <expr>[<expr>], <expr>, 0xa953fd4e, bb[<expr>] ^(bb[<expr>] | ! bb[<expr>])) -/
def Engine.process_block_fast.line1_69 (cfg : Cfg) (w : List (BitVec 32)) : Source.Ripemd160.Engine.process_block_fast.State1 → Tr Source.Ripemd160.Engine.process_block_fast.State1 :=
  fun (bb', bbb') => do
    let x_793 ← Tr.index bb' 1
    let x_794 ← Tr.index bb' 2
    let x_795 ← Tr.index bb' 3
    let x_796 ← Tr.index bb' 4
    let x_797 ← Tr.index w 12
    let bb' ← Tr.indexSet bb' 1 (((x_793 + (x_794 ^^^ (x_795 ||| (~~~x_796)))) + x_797) + 0xa953fd4e#32)
    let x_799 ← Tr.index bb' 1
    let x_800 ← Tr.index bb' 0
    let bb' ← Tr.indexSet bb' 1 ((x_799.rotateLeft 8) + x_800)
    let x_802 ← Tr.index bb' 3
    let bb' ← Tr.indexSet bb' 3 (x_802.rotateLeft 10)
    pure (bb', bbb')

/-- round!(bb[<expr>], bb[<expr>], bb[<expr>], bb[<expr>], bb[<expr>], <expr>[<expr>], <expr>, 0xa953fd4e, bb[<expr>] ^(bb[<expr>] | ! bb[<expr>])) -/
def Engine.process_block_fast.line1_70 (cfg : Cfg) (w : List (BitVec 32)) : Source.Ripemd160.Engine.process_block_fast.State1 → Tr Source.Ripemd160.Engine.process_block_fast.State1 :=
  fun (bb', bbb') => do
    let x_804 ← Tr.index bb' 0
    let x_805 ← Tr.index bb' 1
    let x_806 ← Tr.index bb' 2
    let x_807 ← Tr.index bb' 3
    let x_808 ← Tr.index w 2
    let bb' ← Tr.indexSet bb' 0 (((x_804 + (x_805 ^^^ (x_806 ||| (~~~x_807)))) + x_808) + 0xa953fd4e#32)
    let x_810 ← Tr.index bb' 0
    let x_811 ← Tr.index bb' 4
    let bb' ← Tr.indexSet bb' 0 ((x_810.rotateLeft 13) + x_811)
    let x_813 ← Tr.index bb' 2
    let bb' ← Tr.indexSet bb' 2 (x_813.rotateLeft 10)
    pure (bb', bbb')

/-- round!(bb[<expr>], bb[<expr>], bb[<expr>], bb[<expr>], bb[<expr>], <expr>[<expr>], <expr>, 0xa953fd4e, bb[<expr>] ^(bb[<expr>] | ! bb[<expr>])) -/
def Engine.process_block_fast.line1_71 (cfg : Cfg) (w : List (BitVec 32)) : Source.Ripemd160.Engine.process_block_fast.State1 → Tr Source.Ripemd160.Engine.process_block_fast.State1 :=
  fun (bb', bbb') => do
    let x_815 ← Tr.index bb' 4
    let x_816 ← Tr.index bb' 0
    let x_817 ← Tr.index bb' 1
    let x_818 ← Tr.index bb' 2
    let x_819 ← Tr.index w 10
    let bb' ← Tr.indexSet bb' 4 (((x_815 + (x_816 ^^^ (x_817 ||| (~~~x_818)))) + x_819) + 0xa953fd4e#32)
    let x_821 ← Tr.index bb' 4
    let x_822 ← Tr.index bb' 3
    let bb' ← Tr.indexSet bb' 4 ((x_821.rotateLeft 12) + x_822)
    let x_824 ← Tr.index bb' 1
    let bb' ← Tr.indexSet bb' 1 (x_824.rotateLeft 10)
    pure (bb', bbb')

/-- round!(bb[<expr>], bb[<expr>], bb[<expr>], bb[<expr>], bb[<expr>], <expr>[<expr>], <expr>, 0xa953fd4e, bb[<expr>] ^(bb[<expr>] | ! bb[<expr>])) -/
def Engine.process_block_fast.line1_72 (cfg : Cfg) (w : List (BitVec 32)) : Source.Ripemd160.Engine.process_block_fast.State1 → Tr Source.Ripemd160.Engine.process_block_fast.State1 :=
  fun (bb', bbb') => do
    let x_826 ← Tr.index bb' 3
    let x_827 ← Tr.index bb' 4
    let x_828 ← Tr.index bb' 0
    let x_829 ← Tr.index bb' 1
    let x_830 ← Tr.index w 14
    let bb' ← Tr.indexSet bb' 3 (((x_826 + (x_827 ^^^ (x_828 ||| (~~~x_829)))) + x_830) + 0xa953fd4e#32)
    let x_832 ← Tr.index bb' 3
    let x_833 ← Tr.index bb' 2
    let bb' ← Tr.indexSet bb' 3 ((x_832.rotateLeft 5) + x_833)
    let x_835 ← Tr.index bb' 0
    let bb' ← Tr.indexSet bb' 0 (x_835.rotateLeft 10)
    pure (bb', bbb')

/-- round!(bb[<expr>], bb[<expr>], bb[<expr>], bb[<expr>], bb[<expr>], <expr>[<expr>], <expr>, 0xa953fd4e, bb[<expr>] ^(bb[<expr>] | ! bb[<expr>])) -/
def Engine.process_block_fast.line1_73 (cfg : Cfg) (w : List (BitVec 32)) : Source.Ripemd160.Engine.process_block_fast.State1 → Tr Source.Ripemd160.Engine.process_block_fast.State1 :=
  fun (bb', bbb') => do
    let x_837 ← Tr.index bb' 2
    let x_838 ← Tr.index bb' 3
    let x_839 ← Tr.index bb' 4
    let x_840 ← Tr.index bb' 0
    let x_841 ← Tr.index w 1
    let bb' ← Tr.indexSet bb' 2 (((x_837 + (x_838 ^^^ (x_839 ||| (~~~x_840)))) + x_841) + 0xa953fd4e#32)
    let x_843 ← Tr.index bb' 2
    let x_844 ← Tr.index bb' 1
    let bb' ← Tr.indexSet bb' 2 ((x_843.rotateLeft 12) + x_844)
    let x_846 ← Tr.index bb' 4
    let bb' ← Tr.indexSet bb' 4 (x_846.rotateLeft 10)
    pure (bb', bbb')

/-- round!(bb[<expr>], bb[<expr>], bb[<expr>], bb[<expr>], bb[<expr>], <expr>[<expr>], <expr>, 0xa953fd4e, bb[<expr>] ^(bb[<expr>] | ! bb[<expr>])) -/
def Engine.process_block_fast.line1_74 (cfg : Cfg) (w : List (BitVec 32)) : Source.Ripemd160.Engine.process_block_fast.State1 → Tr Source.Ripemd160.Engine.process_block_fast.State1 :=
  fun (bb', bbb') => do
    let x_848 ← Tr.index bb' 1
    let x_849 ← Tr.index bb' 2
    let x_850 ← Tr.index bb' 3
    let x_851 ← Tr.index bb' 4
    let x_852 ← Tr.index w 3
    let bb' ← Tr.indexSet bb' 1 (((x_848 + (x_849 ^^^ (x_850 ||| (~~~x_851)))) + x_852) + 0xa953fd4e#32)
    let x_854 ← Tr.index bb' 1
    let x_855 ← Tr.index bb' 0
    let bb' ← Tr.indexSet bb' 1 ((x_854.rotateLeft 13) + x_855)
    let x_857 ← Tr.index bb' 3
    let bb' ← Tr.indexSet bb' 3 (x_857.rotateLeft 10)
    pure (bb', bbb')

/-- round!(bb[<expr>], bb[<expr>], bb[<expr>], bb[<expr>], bb[<expr>], <expr>[<expr>], <expr>, 0xa953fd4e, bb[<expr>] ^(bb[<expr>] | ! bb[<expr>])) -/
def Engine.process_block_fast.line1_75 (cfg : Cfg) (w : List (BitVec 32)) : Source.Ripemd160.Engine.process_block_fast.State1 → Tr Source.Ripemd160.Engine.process_block_fast.State1 :=
  fun (bb', bbb') => do
    let x_859 ← Tr.index bb' 0
    let x_860 ← Tr.index bb' 1
    let x_861 ← Tr.index bb' 2
    let x_862 ← Tr.index bb' 3
    let x_863 ← Tr.index w 8
    let bb' ← Tr.indexSet bb' 0 (((x_859 + (x_860 ^^^ (x_861 ||| (~~~x_862)))) + x_863) + 0xa953fd4e#32)
    let x_865 ← Tr.index bb' 0
    let x_866 ← Tr.index bb' 4
    let bb' ← Tr.indexSet bb' 0 ((x_865.rotateLeft 14) + x_866)
    let x_868 ← Tr.index bb' 2
    let bb' ← Tr.indexSet bb' 2 (x_868.rotateLeft 10)
    pure (bb', bbb')

/-- round!(bb[<expr>], bb[<expr>], bb[<expr>], bb[<expr>], bb[<expr>], <expr>[<expr>], <expr>, 0xa953fd4e, bb[<expr>] ^(bb[<expr>] | ! bb[<expr>])) -/
def Engine.process_block_fast.line1_76 (cfg : Cfg) (w : List (BitVec 32)) : Source.Ripemd160.Engine.process_block_fast.State1 → Tr Source.Ripemd160.Engine.process_block_fast.State1 :=
  fun (bb', bbb') => do
    let x_870 ← Tr.index bb' 4
    let x_871 ← Tr.index bb' 0
    let x_872 ← Tr.index bb' 1
    let x_873 ← Tr.index bb' 2
    let x_874 ← Tr.index w 11
    let bb' ← Tr.indexSet bb' 4 (((x_870 + (x_871 ^^^ (x_872 ||| (~~~x_873)))) + x_874) + 0xa953fd4e#32)
    let x_876 ← Tr.index bb' 4
    let x_877 ← Tr.index bb' 3
    let bb' ← Tr.indexSet bb' 4 ((x_876.rotateLeft 11) + x_877)
    let x_879 ← Tr.index bb' 1
    let bb' ← Tr.indexSet bb' 1 (x_879.rotateLeft 10)
    pure (bb', bbb')

/-- round!(bb[<expr>], bb[<expr>], bb[<expr>], bb[<expr>], bb[<expr>], <expr>[<expr>], <expr>, 0xa953fd4e, bb[<expr>] ^(bb[<expr>] | ! bb[<expr>])) -/
def Engine.process_block_fast.line1_77 (cfg : Cfg) (w : List (BitVec 32)) : Source.Ripemd160.Engine.process_block_fast.State1 → Tr Source.Ripemd160.Engine.process_block_fast.State1 :=
  fun (bb', bbb') => do
    let x_881 ← Tr.index bb' 3
    let x_882 ← Tr.index bb' 4
    let x_883 ← Tr.index bb' 0
    let x_884 ← Tr.index bb' 1
    let x_885 ← Tr.index w 6
    let bb' ← Tr.indexSet bb' 3 (((x_881 + (x_882 ^^^ (x_883 ||| (~~~x_884)))) + x_885) + 0xa953fd4e#32)
    let x_887 ← Tr.index bb' 3
    let x_888 ← Tr.index bb' 2
    let bb' ← Tr.indexSet bb' 3 ((x_887.rotateLeft 8) + x_888)
    let x_890 ← Tr.index bb' 0
    let bb' ← Tr.indexSet bb' 0 (x_890.rotateLeft 10)
    pure (bb', bbb')

/-- round!(bb[<expr>], bb[<expr>], bb[<expr>], bb[<expr>], bb[<expr>], <expr>[<expr>], <expr>, 0xa953fd4e, bb[<expr>] ^(bb[<expr>] | ! bb[<expr>])) -/
def Engine.process_block_fast.line1_78 (cfg : Cfg) (w : List (BitVec 32)) : Source.Ripemd160.Engine.process_block_fast.State1 → Tr Source.Ripemd160.Engine.process_block_fast.State1 :=
  fun (bb', bbb') => do
    let x_892 ← Tr.index bb' 2
    let x_893 ← Tr.index bb' 3
    let x_894 ← Tr.index bb' 4
    let x_895 ← Tr.index bb' 0
    let x_896 ← Tr.index w 15
    let bb' ← Tr.indexSet bb' 2 (((x_892 + (x_893 ^^^ (x_894 ||| (~~~x_895)))) + x_896) + 0xa953fd4e#32)
    let x_898 ← Tr.index bb' 2
    let x_899 ← Tr.index bb' 1
    let bb' ← Tr.indexSet bb' 2 ((x_898.rotateLeft 5) + x_899)
    let x_901 ← Tr.index bb' 4
    let bb' ← Tr.indexSet bb' 4 (x_901.rotateLeft 10)
    pure (bb', bbb')

/-- round!(bb[<expr>], bb[<expr>], bb[<expr>], bb[<expr>], bb[<expr>], <expr>[<expr>], <expr>, 0xa953fd4e, bb[<expr>] ^(bb[<expr>] | ! bb[<expr>])) -/
def Engine.process_block_fast.line1_79 (cfg : Cfg) (w : List (BitVec 32)) : Source.Ripemd160.Engine.process_block_fast.State1 → Tr Source.Ripemd160.Engine.process_block_fast.State1 :=
  fun (bb', bbb') => do
    let x_903 ← Tr.index bb' 1
    let x_904 ← Tr.index bb' 2
    let x_905 ← Tr.index bb' 3
    let x_906 ← Tr.index bb' 4
    let x_907 ← Tr.index w 13
    let bb' ← Tr.indexSet bb' 1 (((x_903 + (x_904 ^^^ (x_905 ||| (~~~x_906)))) + x_907) + 0xa953fd4e#32)
    let x_909 ← Tr.index bb' 1
    let x_910 ← Tr.index bb' 0
    let bb' ← Tr.indexSet bb' 1 ((x_909.rotateLeft 6) + x_910)
    let x_912 ← Tr.index bb' 3
    let bb' ← Tr.indexSet bb' 3 (x_912.rotateLeft 10)
    pure (bb', bbb')

/-- round!(bbb[<expr>], bbb[<expr>], bbb[<expr>], bbb[<expr>], bbb[<expr>], <expr>[<expr>], <expr>, 0x50a28be6, bbb[<expr>] ^(bbb[<expr>] | ! bbb[<expr>])) -/
def Engine.process_block_fast.line1_80 (cfg : Cfg) (w : List (BitVec 32)) : Source.Ripemd160.Engine.process_block_fast.State1 → Tr Source.Ripemd160.Engine.process_block_fast.State1 :=
  fun (bb', bbb') => do
    let x_914 ← Tr.index bbb' 0
    let x_915 ← Tr.index bbb' 1
    let x_916 ← Tr.index bbb' 2
    let x_917 ← Tr.index bbb' 3
    let x_918 ← Tr.index w 5
    let bbb' ← Tr.indexSet bbb' 0 (((x_914 + (x_915 ^^^ (x_916 ||| (~~~x_917)))) + x_918) + 0x50a28be6#32)
    let x_920 ← Tr.index bbb' 0
    let x_921 ← Tr.index bbb' 4
    let bbb' ← Tr.indexSet bbb' 0 ((x_920.rotateLeft 8) + x_921)
    let x_923 ← Tr.index bbb' 2
    let bbb' ← Tr.indexSet bbb' 2 (x_923.rotateLeft 10)
    pure (bb', bbb')

/-- round!(bbb[<expr>], bbb[<expr>], bbb[<expr>], bbb[<expr>], bbb[<expr>], <expr>[<expr>], <expr>, 0x50a28be6, bbb[<expr>] ^(bbb[<expr>] | ! bbb[<expr>])) -/
def Engine.process_block_fast.line1_81 (cfg : Cfg) (w : List (BitVec 32)) : Source.Ripemd160.Engine.process_block_fast.State1 → Tr Source.Ripemd160.Engine.process_block_fast.State1 :=
  fun (bb', bbb') => do
    let x_925 ← Tr.index bbb' 4
    let x_926 ← Tr.index bbb' 0
    let x_927 ← Tr.index bbb' 1
    let x_928 ← Tr.index bbb' 2
    let x_929 ← Tr.index w 14
    let bbb' ← Tr.indexSet bbb' 4 (((x_925 + (x_926 ^^^ (x_927 ||| (~~~x_928)))) + x_929) + 0x50a28be6#32)
    let x_931 ← Tr.index bbb' 4
    let x_932 ← Tr.index bbb' 3
    let bbb' ← Tr.indexSet bbb' 4 ((x_931.rotateLeft 9) + x_932)
    let x_934 ← Tr.index bbb' 1
    let bbb' ← Tr.indexSet bbb' 1 (x_934.rotateLeft 10)
    pure (bb', bbb')

/-- round!(bbb[<expr>], bbb[<expr>], bbb[<expr>], bbb[<expr>], bbb[<expr>], <expr>[<expr>], <expr>, 0x50a28be6, bbb[<expr>] ^(bbb[<expr>] | ! bbb[<expr>])) -/
def Engine.process_block_fast.line1_82 (cfg : Cfg) (w : List (BitVec 32)) : Source.Ripemd160.Engine.process_block_fast.State1 → Tr Source.Ripemd160.Engine.process_block_fast.State1 :=
  fun (bb', bbb') => do
    let x_936 ← Tr.index bbb' 3
    let x_937 ← Tr.index bbb' 4
    let x_938 ← Tr.index bbb' 0
    let x_939 ← Tr.index bbb' 1
    let x_940 ← Tr.index w 7
    let bbb' ← Tr.indexSet bbb' 3 (((x_936 + (x_937 ^^^ (x_938 ||| (~~~x_939)))) + x_940) + 0x50a28be6#32)
    let x_942 ← Tr.index bbb' 3
    let x_943 ← Tr.index bbb' 2
    let bbb' ← Tr.indexSet bbb' 3 ((x_942.rotateLeft 9) + x_943)
    let x_945 ← Tr.index bbb' 0
    let bbb' ← Tr.indexSet bbb' 0 (x_945.rotateLeft 10)
    pure (bb', bbb')

/-- round!(bbb[<expr>], bbb[<expr>], bbb[<expr>], bbb[<expr>], bbb[<expr>], <expr>[<expr>], <expr>, 0x50a28be6, bbb[<expr>] ^(bbb[<expr>] | ! bbb[<expr>])) -/
def Engine.process_block_fast.line1_83 (cfg : Cfg) (w : List (BitVec 32)) : Source.Ripemd160.Engine.process_block_fast.State1 → Tr Source.Ripemd160.Engine.process_block_fast.State1 :=
  fun (bb', bbb') => do
    let x_947 ← Tr.index bbb' 2
    let x_948 ← Tr.index bbb' 3
    let x_949 ← Tr.index bbb' 4
    let x_950 ← Tr.index bbb' 0
    let x_951 ← Tr.index w 0
    let bbb' ← Tr.indexSet bbb' 2 (((x_947 + (x_948 ^^^ (x_949 ||| (~~~x_950)))) + x_951) + 0x50a28be6#32)
    let x_953 ← Tr.index bbb' 2
    let x_954 ← Tr.index bbb' 1
    let bbb' ← Tr.indexSet bbb' 2 ((x_953.rotateLeft 11) + x_954)
    let x_956 ← Tr.index bbb' 4
    let bbb' ← Tr.indexSet bbb' 4 (x_956.rotateLeft 10)
    pure (bb', bbb')

/-- round!(bbb[<expr>], bbb[<expr>], bbb[<expr>], bbb[<expr>], bbb[<expr>], <expr>[<expr>], <expr>, 0x50a28be6, bbb[<expr>] ^(bbb[<expr>] | ! bbb[<expr>])) -/
def Engine.process_block_fast.line1_84 (cfg : Cfg) (w : List (BitVec 32)) : Source.Ripemd160.Engine.process_block_fast.State1 → Tr Source.Ripemd160.Engine.process_block_fast.State1 :=
  fun (bb', bbb') => do
    let x_958 ← Tr.index bbb' 1
    let x_959 ← Tr.index bbb' 2
    let x_960 ← Tr.index bbb' 3
    let x_961 ← Tr.index bbb' 4
    let x_962 ← Tr.index w 9
    let bbb' ← Tr.indexSet bbb' 1 (((x_958 + (x_959 ^^^ (x_960 ||| (~~~x_961)))) + x_962) + 0x50a28be6#32)
    let x_964 ← Tr.index bbb' 1
    let x_965 ← Tr.index bbb' 0
    let bbb' ← Tr.indexSet bbb' 1 ((x_964.rotateLeft 13) + x_965)
    let x_967 ← Tr.index bbb' 3
    let bbb' ← Tr.indexSet bbb' 3 (x_967.rotateLeft 10)
    pure (bb', bbb')

/-- round!(bbb[<expr>], bbb[<expr>], bbb[<expr>], bbb[<expr>], bbb[<expr>], <expr>[<expr>], <expr>, 0x50a28be6, bbb[<expr>] ^(bbb[<expr>] | ! bbb[<expr>])) -/
def Engine.process_block_fast.line1_85 (cfg : Cfg) (w : List (BitVec 32)) : Source.Ripemd160.Engine.process_block_fast.State1 → Tr Source.Ripemd160.Engine.process_block_fast.State1 :=
  fun (bb', bbb') => do
    let x_969 ← Tr.index bbb' 0
    let x_970 ← Tr.index bbb' 1
    let x_971 ← Tr.index bbb' 2
    let x_972 ← Tr.index bbb' 3
    let x_973 ← Tr.index w 2
    let bbb' ← Tr.indexSet bbb' 0 (((x_969 + (x_970 ^^^ (x_971 ||| (~~~x_972)))) + x_973) + 0x50a28be6#32)
    let x_975 ← Tr.index bbb' 0
    let x_976 ← Tr.index bbb' 4
    let bbb' ← Tr.indexSet bbb' 0 ((x_975.rotateLeft 15) + x_976)
    let x_978 ← Tr.index bbb' 2
    let bbb' ← Tr.indexSet bbb' 2 (x_978.rotateLeft 10)
    pure (bb', bbb')

/-- round!(bbb[<expr>], bbb[<expr>], bbb[<expr>], bbb[<expr>], bbb[<expr>], <expr>[<expr>], <expr>, 0x50a28be6, bbb[<expr>] ^(bbb[<expr>] | ! bbb[<expr>])) -/
def Engine.process_block_fast.line1_86 (cfg : Cfg) (w : List (BitVec 32)) : Source.Ripemd160.Engine.process_block_fast.State1 → Tr Source.Ripemd160.Engine.process_block_fast.State1 :=
  fun (bb', bbb') => do
    let x_980 ← Tr.index bbb' 4
    let x_981 ← Tr.index bbb' 0
    let x_982 ← Tr.index bbb' 1
    let x_983 ← Tr.index bbb' 2
    let x_984 ← Tr.index w 11
    let bbb' ← Tr.indexSet bbb' 4 (((x_980 + (x_981 ^^^ (x_982 ||| (~~~x_983)))) + x_984) + 0x50a28be6#32)
    let x_986 ← Tr.index bbb' 4
    let x_987 ← Tr.index bbb' 3
    let bbb' ← Tr.indexSet bbb' 4 ((x_986.rotateLeft 15) + x_987)
    let x_989 ← Tr.index bbb' 1
    let bbb' ← Tr.indexSet bbb' 1 (x_989.rotateLeft 10)
    pure (bb', bbb')

/-- round!(bbb[<expr>], bbb[<expr>], bbb[<expr>], bbb[<expr>], bbb[<expr>], <expr>[<expr>], <expr>, 0x50a28be6, bbb[<expr>] ^(bbb[<expr>] | ! bbb[<expr>])) -/
def Engine.process_block_fast.line1_87 (cfg : Cfg) (w : List (BitVec 32)) : Source.Ripemd160.Engine.process_block_fast.State1 → Tr Source.Ripemd160.Engine.process_block_fast.State1 :=
  fun (bb', bbb') => do
    let x_991 ← Tr.index bbb' 3
    let x_992 ← Tr.index bbb' 4
    let x_993 ← Tr.index bbb' 0
    let x_994 ← Tr.index bbb' 1
    let x_995 ← Tr.index w 4
    let bbb' ← Tr.indexSet bbb' 3 (((x_991 + (x_992 ^^^ (x_993 ||| (~~~x_994)))) + x_995) + 0x50a28be6#32)
    let x_997 ← Tr.index bbb' 3
    let x_998 ← Tr.index bbb' 2
    let bbb' ← Tr.indexSet bbb' 3 ((x_997.rotateLeft 5) + x_998)
    let x_1000 ← Tr.index bbb' 0
    let bbb' ← Tr.indexSet bbb' 0 (x_1000.rotateLeft 10)
    pure (bb', bbb')

/-- round!(bbb[<expr>], bbb[<expr>], bbb[<expr>], bbb[<expr>], bbb[<expr>], <expr>[<expr>], <expr>, 0x50a28be6, bbb[<expr>] ^(bbb[<expr>] | ! bbb[<expr>])) -/
def Engine.process_block_fast.line1_88 (cfg : Cfg) (w : List (BitVec 32)) : Source.Ripemd160.Engine.process_block_fast.State1 → Tr Source.Ripemd160.Engine.process_block_fast.State1 :=
  fun (bb', bbb') => do
    let x_1002 ← Tr.index bbb' 2
    let x_1003 ← Tr.index bbb' 3
    let x_1004 ← Tr.index bbb' 4
    let x_1005 ← Tr.index bbb' 0
    let x_1006 ← Tr.index w 13
    let bbb' ← Tr.indexSet bbb' 2 (((x_1002 + (x_1003 ^^^ (x_1004 ||| (~~~x_1005)))) + x_1006) + 0x50a28be6#32)
    let x_1008 ← Tr.index bbb' 2
    let x_1009 ← Tr.index bbb' 1
    let bbb' ← Tr.indexSet bbb' 2 ((x_1008.rotateLeft 7) + x_1009)
    let x_1011 ← Tr.index bbb' 4
    let bbb' ← Tr.indexSet bbb' 4 (x_1011.rotateLeft 10)
    pure (bb', bbb')

/-- round!(bbb[<expr>], bbb[<expr>], bbb[<expr>], bbb[<expr>], bbb[<expr>], <expr>[<expr>], <expr>, 0x50a28be6, bbb[<expr>] ^(bbb[<expr>] | ! bbb[<expr>])) -/
def Engine.process_block_fast.line1_89 (cfg : Cfg) (w : List (BitVec 32)) : Source.Ripemd160.Engine.process_block_fast.State1 → Tr Source.Ripemd160.Engine.process_block_fast.State1 :=
  fun (bb', bbb') => do
    let x_1013 ← Tr.index bbb' 1
    let x_1014 ← Tr.index bbb' 2
    let x_1015 ← Tr.index bbb' 3
    let x_1016 ← Tr.index bbb' 4
    let x_1017 ← Tr.index w 6
    let bbb' ← Tr.indexSet bbb' 1 (((x_1013 + (x_1014 ^^^ (x_1015 ||| (~~~x_1016)))) + x_1017) + 0x50a28be6#32)
    let x_1019 ← Tr.index bbb' 1
    let x_1020 ← Tr.index bbb' 0
    let bbb' ← Tr.indexSet bbb' 1 ((x_1019.rotateLeft 7) + x_1020)
    let x_1022 ← Tr.index bbb' 3
    let bbb' ← Tr.indexSet bbb' 3 (x_1022.rotateLeft 10)
    pure (bb', bbb')

/-- round!(bbb[<expr>], bbb[<expr>], bbb[<expr>], bbb[<expr>], bbb[<expr>], <expr>[<expr>], <expr>, 0x50a28be6, bbb[<expr>] ^(bbb[<expr>] | ! bbb[<expr>])) -/
def Engine.process_block_fast.line1_90 (cfg : Cfg) (w : List (BitVec 32)) : Source.Ripemd160.Engine.process_block_fast.State1 → Tr Source.Ripemd160.Engine.process_block_fast.State1 :=
  fun (bb', bbb') => do
    let x_1024 ← Tr.index bbb' 0
    let x_1025 ← Tr.index bbb' 1
    let x_1026 ← Tr.index bbb' 2
    let x_1027 ← Tr.index bbb' 3
    let x_1028 ← Tr.index w 15
    let bbb' ← Tr.indexSet bbb' 0 (((x_1024 + (x_1025 ^^^ (x_1026 ||| (~~~x_1027)))) + x_1028) + 0x50a28be6#32)
    let x_1030 ← Tr.index bbb' 0
    let x_1031 ← Tr.index bbb' 4
    let bbb' ← Tr.indexSet bbb' 0 ((x_1030.rotateLeft 8) + x_1031)
    let x_1033 ← Tr.index bbb' 2
    let bbb' ← Tr.indexSet bbb' 2 (x_1033.rotateLeft 10)
    pure (bb', bbb')

/-- round!(bbb[<expr>], bbb[<expr>], bbb[<expr>], bbb[<expr>], bbb[<expr>], <expr>[<expr>], <expr>, 0x50a28be6, bbb[<expr>] ^(bbb[<expr>] | ! bbb[<expr>])) -/
def Engine.process_block_fast.line1_91 (cfg : Cfg) (w : List (BitVec 32)) : Source.Ripemd160.Engine.process_block_fast.State1 → Tr Source.Ripemd160.Engine.process_block_fast.State1 :=
  fun (bb', bbb') => do
    let x_1035 ← Tr.index bbb' 4
    let x_1036 ← Tr.index bbb' 0
    let x_1037 ← Tr.index bbb' 1
    let x_1038 ← Tr.index bbb' 2
    let x_1039 ← Tr.index w 8
    let bbb' ← Tr.indexSet bbb' 4 (((x_1035 + (x_1036 ^^^ (x_1037 ||| (~~~x_1038)))) + x_1039) + 0x50a28be6#32)
    let x_1041 ← Tr.index bbb' 4
    let x_1042 ← Tr.index bbb' 3
    let bbb' ← Tr.indexSet bbb' 4 ((x_1041.rotateLeft 11) + x_1042)
    let x_1044 ← Tr.index bbb' 1
    let bbb' ← Tr.indexSet bbb' 1 (x_1044.rotateLeft 10)
    pure (bb', bbb')

/-- round!(bbb[<expr>], bbb[<expr>], bbb[<expr>], bbb[<expr>], bbb[<expr>], <expr>[<expr>], <expr>, 0x50a28be6, bbb[<expr>] ^(bbb[<expr>] | ! bbb[<expr>])) -/
def Engine.process_block_fast.line1_92 (cfg : Cfg) (w : List (BitVec 32)) : Source.Ripemd160.Engine.process_block_fast.State1 → Tr Source.Ripemd160.Engine.process_block_fast.State1 :=
  fun (bb', bbb') => do
    let x_1046 ← Tr.index bbb' 3
    let x_1047 ← Tr.index bbb' 4
    let x_1048 ← Tr.index bbb' 0
    let x_1049 ← Tr.index bbb' 1
    let x_1050 ← Tr.index w 1
    let bbb' ← Tr.indexSet bbb' 3 (((x_1046 + (x_1047 ^^^ (x_1048 ||| (~~~x_1049)))) + x_1050) + 0x50a28be6#32)
    let x_1052 ← Tr.index bbb' 3
    let x_1053 ← Tr.index bbb' 2
    let bbb' ← Tr.indexSet bbb' 3 ((x_1052.rotateLeft 14) + x_1053)
    let x_1055 ← Tr.index bbb' 0
    let bbb' ← Tr.indexSet bbb' 0 (x_1055.rotateLeft 10)
    pure (bb', bbb')

/-- round!(bbb[<expr>], bbb[<expr>], bbb[<expr>], bbb[<expr>], bbb[<expr>], <expr>[<expr>], <expr>, 0x50a28be6, bbb[<expr>] ^(bbb[<expr>] | ! bbb[<expr>])) -/
def Engine.process_block_fast.line1_93 (cfg : Cfg) (w : List (BitVec 32)) : Source.Ripemd160.Engine.process_block_fast.State1 → Tr Source.Ripemd160.Engine.process_block_fast.State1 :=
  fun (bb', bbb') => do
    let x_1057 ← Tr.index bbb' 2
    let x_1058 ← Tr.index bbb' 3
    let x_1059 ← Tr.index bbb' 4
    let x_1060 ← Tr.index bbb' 0
    let x_1061 ← Tr.index w 10
    let bbb' ← Tr.indexSet bbb' 2 (((x_1057 + (x_1058 ^^^ (x_1059 ||| (~~~x_1060)))) + x_1061) + 0x50a28be6#32)
    let x_1063 ← Tr.index bbb' 2
    let x_1064 ← Tr.index bbb' 1
    let bbb' ← Tr.indexSet bbb' 2 ((x_1063.rotateLeft 14) + x_1064)
    let x_1066 ← Tr.index bbb' 4
    let bbb' ← Tr.indexSet bbb' 4 (x_1066.rotateLeft 10)
    pure (bb', bbb')

/-- round!(bbb[<expr>], bbb[<expr>], bbb[<expr>], bbb[<expr>], bbb[<expr>], <expr>[<expr>], <expr>, 0x50a28be6, bbb[<expr>] ^(bbb[<expr>] | ! bbb[<expr>])) -/
def Engine.process_block_fast.line1_94 (cfg : Cfg) (w : List (BitVec 32)) : Source.Ripemd160.Engine.process_block_fast.State1 → Tr Source.Ripemd160.Engine.process_block_fast.State1 :=
  fun (bb', bbb') => do
    let x_1068 ← Tr.index bbb' 1
    let x_1069 ← Tr.index bbb' 2
    let x_1070 ← Tr.index bbb' 3
    let x_1071 ← Tr.index bbb' 4
    let x_1072 ← Tr.index w 3
    let bbb' ← Tr.indexSet bbb' 1 (((x_1068 + (x_1069 ^^^ (x_1070 ||| (~~~x_1071)))) + x_1072) + 0x50a28be6#32)
    let x_1074 ← Tr.index bbb' 1
    let x_1075 ← Tr.index bbb' 0
    let bbb' ← Tr.indexSet bbb' 1 ((x_1074.rotateLeft 12) + x_1075)
    let x_1077 ← Tr.index bbb' 3
    let bbb' ← Tr.indexSet bbb' 3 (x_1077.rotateLeft 10)
    pure (bb', bbb')

/-- round!(bbb[<expr>], bbb[<expr>], bbb[<expr>], bbb[<expr>], bbb[<expr>], <expr>[<expr>], <expr>, 0x50a28be6, bbb[<expr>] ^(bbb[<expr>] | ! bbb[<expr>])) -/
def Engine.process_block_fast.line1_95 (cfg : Cfg) (w : List (BitVec 32)) : Source.Ripemd160.Engine.process_block_fast.State1 → Tr Source.Ripemd160.Engine.process_block_fast.State1 :=
  fun (bb', bbb') => do
    let x_1079 ← Tr.index bbb' 0
    let x_1080 ← Tr.index bbb' 1
    let x_1081 ← Tr.index bbb' 2
    let x_1082 ← Tr.index bbb' 3
    let x_1083 ← Tr.index w 12
    let bbb' ← Tr.indexSet bbb' 0 (((x_1079 + (x_1080 ^^^ (x_1081 ||| (~~~x_1082)))) + x_1083) + 0x50a28be6#32)
    let x_1085 ← Tr.index bbb' 0
    let x_1086 ← Tr.index bbb' 4
    let bbb' ← Tr.indexSet bbb' 0 ((x_1085.rotateLeft 6) + x_1086)
    let x_1088 ← Tr.index bbb' 2
    let bbb' ← Tr.indexSet bbb' 2 (x_1088.rotateLeft 10)
    pure (bb', bbb')

/-- round!(bbb[<expr>], bbb[<expr>], bbb[<expr>], bbb[<expr>], bbb[<expr>], <expr>[<expr>], <expr>, 0x5c4dd124,(bbb[<expr>] & bbb[<expr>]) |(bbb[<expr>] & ! bbb[<expr>])) -/
def Engine.process_block_fast.line1_96 (cfg : Cfg) (w : List (BitVec 32)) : Source.Ripemd160.Engine.process_block_fast.State1 → Tr Source.Ripemd160.Engine.process_block_fast.State1 :=
  fun (bb', bbb') => do
    let x_1090 ← Tr.index bbb' 4
    let x_1091 ← Tr.index bbb' 0
    let x_1092 ← Tr.index bbb' 2
    let x_1093 ← Tr.index bbb' 1
    let x_1094 ← Tr.index bbb' 2
    let x_1095 ← Tr.index w 6
    let bbb' ← Tr.indexSet bbb' 4 (((x_1090 + ((x_1091 &&& x_1092) ||| (x_1093 &&& (~~~x_1094)))) + x_1095) + 0x5c4dd124#32)
    let x_1097 ← Tr.index bbb' 4
    let x_1098 ← Tr.index bbb' 3
    let bbb' ← Tr.indexSet bbb' 4 ((x_1097.rotateLeft 9) + x_1098)
    let x_1100 ← Tr.index bbb' 1
    let bbb' ← Tr.indexSet bbb' 1 (x_1100.rotateLeft 10)
    pure (bb', bbb')

/-- round!(bbb[<expr>], bbb[<expr>], bbb[<expr>], bbb[<expr>], bbb[<expr>], <expr>[<expr>], <expr>, 0x5c4dd124,(bbb[<expr>] & bbb[<expr>]) |(bbb[<expr>] & ! bbb[<expr>])) -/
def Engine.process_block_fast.line1_97 (cfg : Cfg) (w : List (BitVec 32)) : Source.Ripemd160.Engine.process_block_fast.State1 → Tr Source.Ripemd160.Engine.process_block_fast.State1 :=
  fun (bb', bbb') => do
    let x_1102 ← Tr.index bbb' 3
    let x_1103 ← Tr.index bbb' 4
    let x_1104 ← Tr.index bbb' 1
    let x_1105 ← Tr.index bbb' 0
    let x_1106 ← Tr.index bbb' 1
    let x_1107 ← Tr.index w 11
    let bbb' ← Tr.indexSet bbb' 3 (((x_1102 + ((x_1103 &&& x_1104) ||| (x_1105 &&& (~~~x_1106)))) + x_1107) + 0x5c4dd124#32)
    let x_1109 ← Tr.index bbb' 3
    let x_1110 ← Tr.index bbb' 2
    let bbb' ← Tr.indexSet bbb' 3 ((x_1109.rotateLeft 13) + x_1110)
    let x_1112 ← Tr.index bbb' 0
    let bbb' ← Tr.indexSet bbb' 0 (x_1112.rotateLeft 10)
    pure (bb', bbb')

/-- round!(bbb[<expr>], bbb[<expr>], bbb[<expr>], bbb[<expr>], bbb[<expr>], <expr>[<expr>], <expr>, 0x5c4dd124,(bbb[<expr>] & bbb[<expr>]) |(bbb[<expr>] & ! bbb[<expr>])) -/
def Engine.process_block_fast.line1_98 (cfg : Cfg) (w : List (BitVec 32)) : Source.Ripemd160.Engine.process_block_fast.State1 → Tr Source.Ripemd160.Engine.process_block_fast.State1 :=
  fun (bb', bbb') => do
    let x_1114 ← Tr.index bbb' 2
    let x_1115 ← Tr.index bbb' 3
    let x_1116 ← Tr.index bbb' 0
    let x_1117 ← Tr.index bbb' 4
    let x_1118 ← Tr.index bbb' 0
    let x_1119 ← Tr.index w 3
    let bbb' ← Tr.indexSet bbb' 2 (((x_1114 + ((x_1115 &&& x_1116) ||| (x_1117 &&& (~~~x_1118)))) + x_1119) + 0x5c4dd124#32)
    let x_1121 ← Tr.index bbb' 2
    let x_1122 ← Tr.index bbb' 1
    let bbb' ← Tr.indexSet bbb' 2 ((x_1121.rotateLeft 15) + x_1122)
    let x_1124 ← Tr.index bbb' 4
    let bbb' ← Tr.indexSet bbb' 4 (x_1124.rotateLeft 10)
    pure (bb', bbb')

/-- round!(bbb[<expr>], bbb[<expr>], bbb[<expr>], bbb[<expr>], bbb[<expr>], <expr>[<expr>], <expr>, 0x5c4dd124,(bbb[<expr>] & bbb[<expr>]) |(bbb[<expr>] & ! bbb[<expr>])) -/
def Engine.process_block_fast.line1_99 (cfg : Cfg) (w : List (BitVec 32)) : Source.Ripemd160.Engine.process_block_fast.State1 → Tr Source.Ripemd160.Engine.process_block_fast.State1 :=
  fun (bb', bbb') => do
    let x_1126 ← Tr.index bbb' 1
    let x_1127 ← Tr.index bbb' 2
    let x_1128 ← Tr.index bbb' 4
    let x_1129 ← Tr.index bbb' 3
    let x_1130 ← Tr.index bbb' 4
    let x_1131 ← Tr.index w 7
    let bbb' ← Tr.indexSet bbb' 1 (((x_1126 + ((x_1127 &&& x_1128) ||| (x_1129 &&& (~~~x_1130)))) + x_1131) + 0x5c4dd124#32)
    let x_1133 ← Tr.index bbb' 1
    let x_1134 ← Tr.index bbb' 0
    let bbb' ← Tr.indexSet bbb' 1 ((x_1133.rotateLeft 7) + x_1134)
    let x_1136 ← Tr.index bbb' 3
    let bbb' ← Tr.indexSet bbb' 3 (x_1136.rotateLeft 10)
    pure (bb', bbb')

/-- round!(bbb[<expr>], bbb[<expr>], bbb[<expr>], bbb[<expr>], bbb[<expr>], <expr>[<expr>], <expr>, 0x5c4dd124,(bbb[<expr>] & bbb[<expr>]) |(bbb[<expr>] & ! bbb[<expr>])) -/
def Engine.process_block_fast.line1_100 (cfg : Cfg) (w : List (BitVec 32)) : Source.Ripemd160.Engine.process_block_fast.State1 → Tr Source.Ripemd160.Engine.process_block_fast.State1 :=
  fun (bb', bbb') => do
    let x_1138 ← Tr.index bbb' 0
    let x_1139 ← Tr.index bbb' 1
    let x_1140 ← Tr.index bbb' 3
    let x_1141 ← Tr.index bbb' 2
    let x_1142 ← Tr.index bbb' 3
    let x_1143 ← Tr.index w 0
    let bbb' ← Tr.indexSet bbb' 0 (((x_1138 + ((x_1139 &&& x_1140) ||| (x_1141 &&& (~~~x_1142)))) + x_1143) + 0x5c4dd124#32)
    let x_1145 ← Tr.index bbb' 0
    let x_1146 ← Tr.index bbb' 4
    let bbb' ← Tr.indexSet bbb' 0 ((x_1145.rotateLeft 12) + x_1146)
    let x_1148 ← Tr.index bbb' 2
    let bbb' ← Tr.indexSet bbb' 2 (x_1148.rotateLeft 10)
    pure (bb', bbb')

/-- round!(bbb[<expr>], bbb[<expr>], bbb[<expr>], bbb[<expr>], bbb[<expr>], <expr>[<expr>], <expr>, 0x5c4dd124,(bbb[<expr>] & bbb[<expr>]) |(bbb[<expr>] & ! bbb[<expr>])) -/
def Engine.process_block_fast.line1_101 (cfg : Cfg) (w : List (BitVec 32)) : Source.Ripemd160.Engine.process_block_fast.State1 → Tr Source.Ripemd160.Engine.process_block_fast.State1 :=
  fun (bb', bbb') => do
    let x_1150 ← Tr.index bbb' 4
    let x_1151 ← Tr.index bbb' 0
    let x_1152 ← Tr.index bbb' 2
    let x_1153 ← Tr.index bbb' 1
    let x_1154 ← Tr.index bbb' 2
    let x_1155 ← Tr.index w 13
    let bbb' ← Tr.indexSet bbb' 4 (((x_1150 + ((x_1151 &&& x_1152) ||| (x_1153 &&& (~~~x_1154)))) + x_1155) + 0x5c4dd124#32)
    let x_1157 ← Tr.index bbb' 4
    let x_1158 ← Tr.index bbb' 3
    let bbb' ← Tr.indexSet bbb' 4 ((x_1157.rotateLeft 8) + x_1158)
    let x_1160 ← Tr.index bbb' 1
    let bbb' ← Tr.indexSet bbb' 1 (x_1160.rotateLeft 10)
    pure (bb', bbb')

/-- round!(bbb[<expr>], bbb[<expr>], bbb[<expr>], bbb[<expr>], bbb[<expr>], <expr>[<expr>], <expr>, 0x5c4dd124,(bbb[<expr>] & bbb[<expr>]) |(bbb[<expr>] & ! bbb[<expr>])) -/
def Engine.process_block_fast.line1_102 (cfg : Cfg) (w : List (BitVec 32)) : Source.Ripemd160.Engine.process_block_fast.State1 → Tr Source.Ripemd160.Engine.process_block_fast.State1 :=
  fun (bb', bbb') => do
    let x_1162 ← Tr.index bbb' 3
    let x_1163 ← Tr.index bbb' 4
    let x_1164 ← Tr.index bbb' 1
    let x_1165 ← Tr.index bbb' 0
    let x_1166 ← Tr.index bbb' 1
    let x_1167 ← Tr.index w 5
    let bbb' ← Tr.indexSet bbb' 3 (((x_1162 + ((x_1163 &&& x_1164) ||| (x_1165 &&& (~~~x_1166)))) + x_1167) + 0x5c4dd124#32)
    let x_1169 ← Tr.index bbb' 3
    let x_1170 ← Tr.index bbb' 2
    let bbb' ← Tr.indexSet bbb' 3 ((x_1169.rotateLeft 9) + x_1170)
    let x_1172 ← Tr.index bbb' 0
    let bbb' ← Tr.indexSet bbb' 0 (x_1172.rotateLeft 10)
    pure (bb', bbb')

/-- round!(bbb[<expr>], bbb[<expr>], bbb[<expr>], bbb[<expr>], bbb[<expr>], <expr>[<expr>], <expr>, 0x5c4dd124,(bbb[<expr>] & bbb[<expr>]) |(bbb[<expr>] & ! bbb[<expr>])) -/
def Engine.process_block_fast.line1_103 (cfg : Cfg) (w : List (BitVec 32)) : Source.Ripemd160.Engine.process_block_fast.State1 → Tr Source.Ripemd160.Engine.process_block_fast.State1 :=
  fun (bb', bbb') => do
    let x_1174 ← Tr.index bbb' 2
    let x_1175 ← Tr.index bbb' 3
    let x_1176 ← Tr.index bbb' 0
    let x_1177 ← Tr.index bbb' 4
    let x_1178 ← Tr.index bbb' 0
    let x_1179 ← Tr.index w 10
    let bbb' ← Tr.indexSet bbb' 2 (((x_1174 + ((x_1175 &&& x_1176) ||| (x_1177 &&& (~~~x_1178)))) + x_1179) + 0x5c4dd124#32)
    let x_1181 ← Tr.index bbb' 2
    let x_1182 ← Tr.index bbb' 1
    let bbb' ← Tr.indexSet bbb' 2 ((x_1181.rotateLeft 11) + x_1182)
    let x_1184 ← Tr.index bbb' 4
    let bbb' ← Tr.indexSet bbb' 4 (x_1184.rotateLeft 10)
    pure (bb', bbb')

/-- round!(bbb[<expr>], bbb[<expr>], bbb[<expr>], bbb[<expr>], bbb[<expr>], <expr>[<expr>], <expr>, 0x5c4dd124,(bbb[<expr>] & bbb[<expr>]) |(bbb[<expr>] & ! bbb[<expr>])) -/
def Engine.process_block_fast.line1_104 (cfg : Cfg) (w : List (BitVec 32)) : Source.Ripemd160.Engine.process_block_fast.State1 → Tr Source.Ripemd160.Engine.process_block_fast.State1 :=
  fun (bb', bbb') => do
    let x_1186 ← Tr.index bbb' 1
    let x_1187 ← Tr.index bbb' 2
    let x_1188 ← Tr.index bbb' 4
    let x_1189 ← Tr.index bbb' 3
    let x_1190 ← Tr.index bbb' 4
    let x_1191 ← Tr.index w 14
    let bbb' ← Tr.indexSet bbb' 1 (((x_1186 + ((x_1187 &&& x_1188) ||| (x_1189 &&& (~~~x_1190)))) + x_1191) + 0x5c4dd124#32)
    let x_1193 ← Tr.index bbb' 1
    let x_1194 ← Tr.index bbb' 0
    let bbb' ← Tr.indexSet bbb' 1 ((x_1193.rotateLeft 7) + x_1194)
    let x_1196 ← Tr.index bbb' 3
    let bbb' ← Tr.indexSet bbb' 3 (x_1196.rotateLeft 10)
    pure (bb', bbb')

/-- round!(bbb[<expr>], bbb[<expr>], bbb[<expr>], bbb[<expr>], bbb[<expr>], <expr>[<expr>], <expr>, 0x5c4dd124,(bbb[<expr>] & bbb[<expr>]) |(bbb[<expr>] & ! bbb[<expr>])) -/
def Engine.process_block_fast.line1_105 (cfg : Cfg) (w : List (BitVec 32)) : Source.Ripemd160.Engine.process_block_fast.State1 → Tr Source.Ripemd160.Engine.process_block_fast.State1 :=
  fun (bb', bbb') => do
    let x_1198 ← Tr.index bbb' 0
    let x_1199 ← Tr.index bbb' 1
    let x_1200 ← Tr.index bbb' 3
    let x_1201 ← Tr.index bbb' 2
    let x_1202 ← Tr.index bbb' 3
    let x_1203 ← Tr.index w 15
    let bbb' ← Tr.indexSet bbb' 0 (((x_1198 + ((x_1199 &&& x_1200) ||| (x_1201 &&& (~~~x_1202)))) + x_1203) + 0x5c4dd124#32)
    let x_1205 ← Tr.index bbb' 0
    let x_1206 ← Tr.index bbb' 4
    let bbb' ← Tr.indexSet bbb' 0 ((x_1205.rotateLeft 7) + x_1206)
    let x_1208 ← Tr.index bbb' 2
    let bbb' ← Tr.indexSet bbb' 2 (x_1208.rotateLeft 10)
    pure (bb', bbb')

/-- round!(bbb[<expr>], bbb[<expr>], bbb[<expr>], bbb[<expr>], bbb[<expr>], <expr>[<expr>], <expr>, 0x5c4dd124,(bbb[<expr>] & bbb[<expr>]) |(bbb[<expr>] & ! bbb[<expr>])) -/
def Engine.process_block_fast.line1_106 (cfg : Cfg) (w : List (BitVec 32)) : Source.Ripemd160.Engine.process_block_fast.State1 → Tr Source.Ripemd160.Engine.process_block_fast.State1 :=
  fun (bb', bbb') => do
    let x_1210 ← Tr.index bbb' 4
    let x_1211 ← Tr.index bbb' 0
    let x_1212 ← Tr.index bbb' 2
    let x_1213 ← Tr.index bbb' 1
    let x_1214 ← Tr.index bbb' 2
    let x_1215 ← Tr.index w 8
    let bbb' ← Tr.indexSet bbb' 4 (((x_1210 + ((x_1211 &&& x_1212) ||| (x_1213 &&& (~~~x_1214)))) + x_1215) + 0x5c4dd124#32)
    let x_1217 ← Tr.index bbb' 4
    let x_1218 ← Tr.index bbb' 3
    let bbb' ← Tr.indexSet bbb' 4 ((x_1217.rotateLeft 12) + x_1218)
    let x_1220 ← Tr.index bbb' 1
    let bbb' ← Tr.indexSet bbb' 1 (x_1220.rotateLeft 10)
    pure (bb', bbb')

/-- round!(bbb[<expr>], bbb[<expr>], bbb[<expr>], bbb[<expr>], bbb[<expr>], <expr>[<expr>], <expr>, 0x5c4dd124,(bbb[<expr>] & bbb[<expr>]) |(bbb[<expr>] & ! bbb[<expr>])) -/
def Engine.process_block_fast.line1_107 (cfg : Cfg) (w : List (BitVec 32)) : Source.Ripemd160.Engine.process_block_fast.State1 → Tr Source.Ripemd160.Engine.process_block_fast.State1 :=
  fun (bb', bbb') => do
    let x_1222 ← Tr.index bbb' 3
    let x_1223 ← Tr.index bbb' 4
    let x_1224 ← Tr.index bbb' 1
    let x_1225 ← Tr.index bbb' 0
    let x_1226 ← Tr.index bbb' 1
    let x_1227 ← Tr.index w 12
    let bbb' ← Tr.indexSet bbb' 3 (((x_1222 + ((x_1223 &&& x_1224) ||| (x_1225 &&& (~~~x_1226)))) + x_1227) + 0x5c4dd124#32)
    let x_1229 ← Tr.index bbb' 3
    let x_1230 ← Tr.index bbb' 2
    let bbb' ← Tr.indexSet bbb' 3 ((x_1229.rotateLeft 7) + x_1230)
    let x_1232 ← Tr.index bbb' 0
    let bbb' ← Tr.indexSet bbb' 0 (x_1232.rotateLeft 10)
    pure (bb', bbb')

/-- round!(bbb[<expr>], bbb[<expr>], bbb[<expr>], bbb[<expr>], bbb[<expr>], <expr>[<expr>], <expr>, 0x5c4dd124,(bbb[<expr>] & bbb[<expr>]) |(bbb[<expr>] & ! bbb[<expr>])) -/
def Engine.process_block_fast.line1_108 (cfg : Cfg) (w : List (BitVec 32)) : Source.Ripemd160.Engine.process_block_fast.State1 → Tr Source.Ripemd160.Engine.process_block_fast.State1 :=
  fun (bb', bbb') => do
    let x_1234 ← Tr.index bbb' 2
    let x_1235 ← Tr.index bbb' 3
    let x_1236 ← Tr.index bbb' 0
    let x_1237 ← Tr.index bbb' 4
    let x_1238 ← Tr.index bbb' 0
    let x_1239 ← Tr.index w 4
    let bbb' ← Tr.indexSet bbb' 2 (((x_1234 + ((x_1235 &&& x_1236) ||| (x_1237 &&& (~~~x_1238)))) + x_1239) + 0x5c4dd124#32)
    let x_1241 ← Tr.index bbb' 2
    let x_1242 ← Tr.index bbb' 1
    let bbb' ← Tr.indexSet bbb' 2 ((x_1241.rotateLeft 6) + x_1242)
    let x_1244 ← Tr.index bbb' 4
    let bbb' ← Tr.indexSet bbb' 4 (x_1244.rotateLeft 10)
    pure (bb', bbb')

/-- round!(bbb[<expr>], bbb[<expr>], bbb[<expr>], bbb[<expr>], bbb[<expr>], <expr>[<expr>], <expr>, 0x5c4dd124,(bbb[<expr>] & bbb[<expr>]) |(bbb[<expr>] & ! bbb[<expr>])) -/
def Engine.process_block_fast.line1_109 (cfg : Cfg) (w : List (BitVec 32)) : Source.Ripemd160.Engine.process_block_fast.State1 → Tr Source.Ripemd160.Engine.process_block_fast.State1 :=
  fun (bb', bbb') => do
    let x_1246 ← Tr.index bbb' 1
    let x_1247 ← Tr.index bbb' 2
    let x_1248 ← Tr.index bbb' 4
    let x_1249 ← Tr.index bbb' 3
    let x_1250 ← Tr.index bbb' 4
    let x_1251 ← Tr.index w 9
    let bbb' ← Tr.indexSet bbb' 1 (((x_1246 + ((x_1247 &&& x_1248) ||| (x_1249 &&& (~~~x_1250)))) + x_1251) + 0x5c4dd124#32)
    let x_1253 ← Tr.index bbb' 1
    let x_1254 ← Tr.index bbb' 0
    let bbb' ← Tr.indexSet bbb' 1 ((x_1253.rotateLeft 15) + x_1254)
    let x_1256 ← Tr.index bbb' 3
    let bbb' ← Tr.indexSet bbb' 3 (x_1256.rotateLeft 10)
    pure (bb', bbb')

/-- round!(bbb[<expr>], bbb[<expr>], bbb[<expr>], bbb[<expr>], bbb[<expr>], <expr>[<expr>], <expr>, 0x5c4dd124,(bbb[<expr>] & bbb[<expr>]) |(bbb[<expr>] & ! bbb[<expr>])) -/
def Engine.process_block_fast.line1_110 (cfg : Cfg) (w : List (BitVec 32)) : Source.Ripemd160.Engine.process_block_fast.State1 → Tr Source.Ripemd160.Engine.process_block_fast.State1 :=
  fun (bb', bbb') => do
    let x_1258 ← Tr.index bbb' 0
    let x_1259 ← Tr.index bbb' 1
    let x_1260 ← Tr.index bbb' 3
    let x_1261 ← Tr.index bbb' 2
    let x_1262 ← Tr.index bbb' 3
    let x_1263 ← Tr.index w 1
    let bbb' ← Tr.indexSet bbb' 0 (((x_1258 + ((x_1259 &&& x_1260) ||| (x_1261 &&& (~~~x_1262)))) + x_1263) + 0x5c4dd124#32)
    let x_1265 ← Tr.index bbb' 0
    let x_1266 ← Tr.index bbb' 4
    let bbb' ← Tr.indexSet bbb' 0 ((x_1265.rotateLeft 13) + x_1266)
    let x_1268 ← Tr.index bbb' 2
    let bbb' ← Tr.indexSet bbb' 2 (x_1268.rotateLeft 10)
    pure (bb', bbb')

/-- round!(bbb[<expr>], bbb[<expr>], bbb[<expr>], bbb[<expr>], bbb[<expr>], <expr>[<expr>], <expr>, 0x5c4dd124,(bbb[<expr>] & bbb[<expr>]) |(bbb[<expr>] & ! bbb[<expr>])) -/
def Engine.process_block_fast.line1_111 (cfg : Cfg) (w : List (BitVec 32)) : Source.Ripemd160.Engine.process_block_fast.State1 → Tr Source.Ripemd160.Engine.process_block_fast.State1 :=
  fun (bb', bbb') => do
    let x_1270 ← Tr.index bbb' 4
    let x_1271 ← Tr.index bbb' 0
    let x_1272 ← Tr.index bbb' 2
    let x_1273 ← Tr.index bbb' 1
    let x_1274 ← Tr.index bbb' 2
    let x_1275 ← Tr.index w 2
    let bbb' ← Tr.indexSet bbb' 4 (((x_1270 + ((x_1271 &&& x_1272) ||| (x_1273 &&& (~~~x_1274)))) + x_1275) + 0x5c4dd124#32)
    let x_1277 ← Tr.index bbb' 4
    let x_1278 ← Tr.index bbb' 3
    let bbb' ← Tr.indexSet bbb' 4 ((x_1277.rotateLeft 11) + x_1278)
    let x_1280 ← Tr.index bbb' 1
    let bbb' ← Tr.indexSet bbb' 1 (x_1280.rotateLeft 10)
    pure (bb', bbb')

/-- round!(bbb[<expr>], bbb[<expr>], bbb[<expr>], bbb[<expr>], bbb[<expr>], <expr>[<expr>], <expr>, 0x6d703ef3,(bbb[<expr>] | ! bbb[<expr>]) ^ bbb[<expr>]) -/
def Engine.process_block_fast.line1_112 (cfg : Cfg) (w : List (BitVec 32)) : Source.Ripemd160.Engine.process_block_fast.State1 → Tr Source.Ripemd160.Engine.process_block_fast.State1 :=
  fun (bb', bbb') => do
    let x_1282 ← Tr.index bbb' 3
    let x_1283 ← Tr.index bbb' 4
    let x_1284 ← Tr.index bbb' 0
    let x_1285 ← Tr.index bbb' 1
    let x_1286 ← Tr.index w 15
    let bbb' ← Tr.indexSet bbb' 3 (((x_1282 + ((x_1283 ||| (~~~x_1284)) ^^^ x_1285)) + x_1286) + 0x6d703ef3#32)
    let x_1288 ← Tr.index bbb' 3
    let x_1289 ← Tr.index bbb' 2
    let bbb' ← Tr.indexSet bbb' 3 ((x_1288.rotateLeft 9) + x_1289)
    let x_1291 ← Tr.index bbb' 0
    let bbb' ← Tr.indexSet bbb' 0 (x_1291.rotateLeft 10)
    pure (bb', bbb')

/-- round!(bbb[<expr>], bbb[<expr>], bbb[<expr>], bbb[<expr>], bbb[<expr>], <expr>[<expr>], <expr>, 0x6d703ef3,(bbb[<expr>] | ! bbb[<expr>]) ^ bbb[<expr>]) -/
def Engine.process_block_fast.line1_113 (cfg : Cfg) (w : List (BitVec 32)) : Source.Ripemd160.Engine.process_block_fast.State1 → Tr Source.Ripemd160.Engine.process_block_fast.State1 :=
  fun (bb', bbb') => do
    let x_1293 ← Tr.index bbb' 2
    let x_1294 ← Tr.index bbb' 3
    let x_1295 ← Tr.index bbb' 4
    let x_1296 ← Tr.index bbb' 0
    let x_1297 ← Tr.index w 5
    let bbb' ← Tr.indexSet bbb' 2 (((x_1293 + ((x_1294 ||| (~~~x_1295)) ^^^ x_1296)) + x_1297) + 0x6d703ef3#32)
    let x_1299 ← Tr.index bbb' 2
    let x_1300 ← Tr.index bbb' 1
    let bbb' ← Tr.indexSet bbb' 2 ((x_1299.rotateLeft 7) + x_1300)
    let x_1302 ← Tr.index bbb' 4
    let bbb' ← Tr.indexSet bbb' 4 (x_1302.rotateLeft 10)
    pure (bb', bbb')

/-- round!(bbb[<expr>], bbb[<expr>], bbb[<expr>], bbb[<expr>], bbb[<expr>], <expr>[<expr>], <expr>, 0x6d703ef3,(bbb[<expr>] | ! bbb[<expr>]) ^ bbb[<expr>]) -/
def Engine.process_block_fast.line1_114 (cfg : Cfg) (w : List (BitVec 32)) : Source.Ripemd160.Engine.process_block_fast.State1 → Tr Source.Ripemd160.Engine.process_block_fast.State1 :=
  fun (bb', bbb') => do
    let x_1304 ← Tr.index bbb' 1
    let x_1305 ← Tr.index bbb' 2
    let x_1306 ← Tr.index bbb' 3
    let x_1307 ← Tr.index bbb' 4
    let x_1308 ← Tr.index w 1
    let bbb' ← Tr.indexSet bbb' 1 (((x_1304 + ((x_1305 ||| (~~~x_1306)) ^^^ x_1307)) + x_1308) + 0x6d703ef3#32)
    let x_1310 ← Tr.index bbb' 1
    let x_1311 ← Tr.index bbb' 0
    let bbb' ← Tr.indexSet bbb' 1 ((x_1310.rotateLeft 15) + x_1311)
    let x_1313 ← Tr.index bbb' 3
    let bbb' ← Tr.indexSet bbb' 3 (x_1313.rotateLeft 10)
    pure (bb', bbb')

/-- round!(bbb[<expr>], bbb[<expr>], bbb[<expr>], bbb[<expr>], bbb[<expr>], <expr>[<expr>], <expr>, 0x6d703ef3,(bbb[<expr>] | ! bbb[<expr>]) ^ bbb[<expr>]) -/
def Engine.process_block_fast.line1_115 (cfg : Cfg) (w : List (BitVec 32)) : Source.Ripemd160.Engine.process_block_fast.State1 → Tr Source.Ripemd160.Engine.process_block_fast.State1 :=
  fun (bb', bbb') => do
    let x_1315 ← Tr.index bbb' 0
    let x_1316 ← Tr.index bbb' 1
    let x_1317 ← Tr.index bbb' 2
    let x_1318 ← Tr.index bbb' 3
    let x_1319 ← Tr.index w 3
    let bbb' ← Tr.indexSet bbb' 0 (((x_1315 + ((x_1316 ||| (~~~x_1317)) ^^^ x_1318)) + x_1319) + 0x6d703ef3#32)
    let x_1321 ← Tr.index bbb' 0
    let x_1322 ← Tr.index bbb' 4
    let bbb' ← Tr.indexSet bbb' 0 ((x_1321.rotateLeft 11) + x_1322)
    let x_1324 ← Tr.index bbb' 2
    let bbb' ← Tr.indexSet bbb' 2 (x_1324.rotateLeft 10)
    pure (bb', bbb')

/-- round!(bbb[<expr>], bbb[<expr>], bbb[<expr>], bbb[<expr>], bbb[<expr>], <expr>[<expr>], <expr>, 0x6d703ef3,(bbb[<expr>] | ! bbb[<expr>]) ^ bbb[<expr>]) -/
def Engine.process_block_fast.line1_116 (cfg : Cfg) (w : List (BitVec 32)) : Source.Ripemd160.Engine.process_block_fast.State1 → Tr Source.Ripemd160.Engine.process_block_fast.State1 :=
  fun (bb', bbb') => do
    let x_1326 ← Tr.index bbb' 4
    let x_1327 ← Tr.index bbb' 0
    let x_1328 ← Tr.index bbb' 1
    let x_1329 ← Tr.index bbb' 2
    let x_1330 ← Tr.index w 7
    let bbb' ← Tr.indexSet bbb' 4 (((x_1326 + ((x_1327 ||| (~~~x_1328)) ^^^ x_1329)) + x_1330) + 0x6d703ef3#32)
    let x_1332 ← Tr.index bbb' 4
    let x_1333 ← Tr.index bbb' 3
    let bbb' ← Tr.indexSet bbb' 4 ((x_1332.rotateLeft 8) + x_1333)
    let x_1335 ← Tr.index bbb' 1
    let bbb' ← Tr.indexSet bbb' 1 (x_1335.rotateLeft 10)
    pure (bb', bbb')

/-- round!(bbb[<expr>], bbb[<expr>], bbb[<expr>], bbb[<expr>], bbb[<expr>], <expr>[<expr>], <expr>, 0x6d703ef3,(bbb[<expr>] | ! bbb[<expr>]) ^ bbb[<expr>]) -/
def Engine.process_block_fast.line1_117 (cfg : Cfg) (w : List (BitVec 32)) : Source.Ripemd160.Engine.process_block_fast.State1 → Tr Source.Ripemd160.Engine.process_block_fast.State1 :=
  fun (bb', bbb') => do
    let x_1337 ← Tr.index bbb' 3
    let x_1338 ← Tr.index bbb' 4
    let x_1339 ← Tr.index bbb' 0
    let x_1340 ← Tr.index bbb' 1
    let x_1341 ← Tr.index w 14
    let bbb' ← Tr.indexSet bbb' 3 (((x_1337 + ((x_1338 ||| (~~~x_1339)) ^^^ x_1340)) + x_1341) + 0x6d703ef3#32)
    let x_1343 ← Tr.index bbb' 3
    let x_1344 ← Tr.index bbb' 2
    let bbb' ← Tr.indexSet bbb' 3 ((x_1343.rotateLeft 6) + x_1344)
    let x_1346 ← Tr.index bbb' 0
    let bbb' ← Tr.indexSet bbb' 0 (x_1346.rotateLeft 10)
    pure (bb', bbb')

/-- round!(bbb[<expr>], bbb[<expr>], bbb[<expr>], bbb[<expr>], bbb[<expr>], <expr>[<expr>], <expr>, 0x6d703ef3,(bbb[<expr>] | ! bbb[<expr>]) ^ bbb[<expr>]) -/
def Engine.process_block_fast.line1_118 (cfg : Cfg) (w : List (BitVec 32)) : Source.Ripemd160.Engine.process_block_fast.State1 → Tr Source.Ripemd160.Engine.process_block_fast.State1 :=
  fun (bb', bbb') => do
    let x_1348 ← Tr.index bbb' 2
    let x_1349 ← Tr.index bbb' 3
    let x_1350 ← Tr.index bbb' 4
    let x_1351 ← Tr.index bbb' 0
    let x_1352 ← Tr.index w 6
    let bbb' ← Tr.indexSet bbb' 2 (((x_1348 + ((x_1349 ||| (~~~x_1350)) ^^^ x_1351)) + x_1352) + 0x6d703ef3#32)
    let x_1354 ← Tr.index bbb' 2
    let x_1355 ← Tr.index bbb' 1
    let bbb' ← Tr.indexSet bbb' 2 ((x_1354.rotateLeft 6) + x_1355)
    let x_1357 ← Tr.index bbb' 4
    let bbb' ← Tr.indexSet bbb' 4 (x_1357.rotateLeft 10)
    pure (bb', bbb')

/-- round!(bbb[<expr>], bbb[<expr>], bbb[<expr>], bbb[<expr>], bbb[<expr>], <expr>[<expr>], <expr>, 0x6d703ef3,(bbb[<expr>] | ! bbb[<expr>]) ^ bbb[<expr>]) -/
def Engine.process_block_fast.line1_119 (cfg : Cfg) (w : List (BitVec 32)) : Source.Ripemd160.Engine.process_block_fast.State1 → Tr Source.Ripemd160.Engine.process_block_fast.State1 :=
  fun (bb', bbb') => do
    let x_1359 ← Tr.index bbb' 1
    let x_1360 ← Tr.index bbb' 2
    let x_1361 ← Tr.index bbb' 3
    let x_1362 ← Tr.index bbb' 4
    let x_1363 ← Tr.index w 9
    let bbb' ← Tr.indexSet bbb' 1 (((x_1359 + ((x_1360 ||| (~~~x_1361)) ^^^ x_1362)) + x_1363) + 0x6d703ef3#32)
    let x_1365 ← Tr.index bbb' 1
    let x_1366 ← Tr.index bbb' 0
    let bbb' ← Tr.indexSet bbb' 1 ((x_1365.rotateLeft 14) + x_1366)
    let x_1368 ← Tr.index bbb' 3
    let bbb' ← Tr.indexSet bbb' 3 (x_1368.rotateLeft 10)
    pure (bb', bbb')

/-- round!(bbb[<expr>], bbb[<expr>], bbb[<expr>], bbb[<expr>], bbb[<expr>], <expr>[<expr>], <expr>, 0x6d703ef3,(bbb[<expr>] | ! bbb[<expr>]) ^ bbb[<expr>]) -/
def Engine.process_block_fast.line1_120 (cfg : Cfg) (w : List (BitVec 32)) : Source.Ripemd160.Engine.process_block_fast.State1 → Tr Source.Ripemd160.Engine.process_block_fast.State1 :=
  fun (bb', bbb') => do
    let x_1370 ← Tr.index bbb' 0
    let x_1371 ← Tr.index bbb' 1
    let x_1372 ← Tr.index bbb' 2
    let x_1373 ← Tr.index bbb' 3
    let x_1374 ← Tr.index w 11
    let bbb' ← Tr.indexSet bbb' 0 (((x_1370 + ((x_1371 ||| (~~~x_1372)) ^^^ x_1373)) + x_1374) + 0x6d703ef3#32)
    let x_1376 ← Tr.index bbb' 0
    let x_1377 ← Tr.index bbb' 4
    let bbb' ← Tr.indexSet bbb' 0 ((x_1376.rotateLeft 12) + x_1377)
    let x_1379 ← Tr.index bbb' 2
    let bbb' ← Tr.indexSet bbb' 2 (x_1379.rotateLeft 10)
    pure (bb', bbb')

/-- round!(bbb[<expr>], bbb[<expr>], bbb[<expr>], bbb[<expr>], bbb[<expr>], <expr>[<expr>], <expr>, 0x6d703ef3,(bbb[<expr>] | ! bbb[<expr>]) ^ bbb[<expr>]) -/
def Engine.process_block_fast.line1_121 (cfg : Cfg) (w : List (BitVec 32)) : Source.Ripemd160.Engine.process_block_fast.State1 → Tr Source.Ripemd160.Engine.process_block_fast.State1 :=
  fun (bb', bbb') => do
    let x_1381 ← Tr.index bbb' 4
    let x_1382 ← Tr.index bbb' 0
    let x_1383 ← Tr.index bbb' 1
    let x_1384 ← Tr.index bbb' 2
    let x_1385 ← Tr.index w 8
    let bbb' ← Tr.indexSet bbb' 4 (((x_1381 + ((x_1382 ||| (~~~x_1383)) ^^^ x_1384)) + x_1385) + 0x6d703ef3#32)
    let x_1387 ← Tr.index bbb' 4
    let x_1388 ← Tr.index bbb' 3
    let bbb' ← Tr.indexSet bbb' 4 ((x_1387.rotateLeft 13) + x_1388)
    let x_1390 ← Tr.index bbb' 1
    let bbb' ← Tr.indexSet bbb' 1 (x_1390.rotateLeft 10)
    pure (bb', bbb')

/-- round!(bbb[<expr>], bbb[<expr>], bbb[<expr>], bbb[<expr>], bbb[<expr>], <expr>[<expr>], <expr>, 0x6d703ef3,(bbb[<expr>] | ! bbb[<expr>]) ^ bbb[<expr>]) -/
def Engine.process_block_fast.line1_122 (cfg : Cfg) (w : List (BitVec 32)) : Source.Ripemd160.Engine.process_block_fast.State1 → Tr Source.Ripemd160.Engine.process_block_fast.State1 :=
  fun (bb', bbb') => do
    let x_1392 ← Tr.index bbb' 3
    let x_1393 ← Tr.index bbb' 4
    let x_1394 ← Tr.index bbb' 0
    let x_1395 ← Tr.index bbb' 1
    let x_1396 ← Tr.index w 12
    let bbb' ← Tr.indexSet bbb' 3 (((x_1392 + ((x_1393 ||| (~~~x_1394)) ^^^ x_1395)) + x_1396) + 0x6d703ef3#32)
    let x_1398 ← Tr.index bbb' 3
    let x_1399 ← Tr.index bbb' 2
    let bbb' ← Tr.indexSet bbb' 3 ((x_1398.rotateLeft 5) + x_1399)
    let x_1401 ← Tr.index bbb' 0
    let bbb' ← Tr.indexSet bbb' 0 (x_1401.rotateLeft 10)
    pure (bb', bbb')

/-- round!(bbb[<expr>], bbb[<expr>], bbb[<expr>], bbb[<expr>], bbb[<expr>], <expr>[<expr>], <expr>, 0x6d703ef3,(bbb[<expr>] | ! bbb[<expr>]) ^ bbb[<expr>]) -/
def Engine.process_block_fast.line1_123 (cfg : Cfg) (w : List (BitVec 32)) : Source.Ripemd160.Engine.process_block_fast.State1 → Tr Source.Ripemd160.Engine.process_block_fast.State1 :=
  fun (bb', bbb') => do
    let x_1403 ← Tr.index bbb' 2
    let x_1404 ← Tr.index bbb' 3
    let x_1405 ← Tr.index bbb' 4
    let x_1406 ← Tr.index bbb' 0
    let x_1407 ← Tr.index w 2
    let bbb' ← Tr.indexSet bbb' 2 (((x_1403 + ((x_1404 ||| (~~~x_1405)) ^^^ x_1406)) + x_1407) + 0x6d703ef3#32)
    let x_1409 ← Tr.index bbb' 2
    let x_1410 ← Tr.index bbb' 1
    let bbb' ← Tr.indexSet bbb' 2 ((x_1409.rotateLeft 14) + x_1410)
    let x_1412 ← Tr.index bbb' 4
    let bbb' ← Tr.indexSet bbb' 4 (x_1412.rotateLeft 10)
    pure (bb', bbb')

/-- round!(bbb[<expr>], bbb[<expr>], bbb[<expr>], bbb[<expr>], bbb[<expr>], <expr>[<expr>], <expr>, 0x6d703ef3,(bbb[<expr>] | ! bbb[<expr>]) ^ bbb[<expr>]) -/
def Engine.process_block_fast.line1_124 (cfg : Cfg) (w : List (BitVec 32)) : Source.Ripemd160.Engine.process_block_fast.State1 → Tr Source.Ripemd160.Engine.process_block_fast.State1 :=
  fun (bb', bbb') => do
    let x_1414 ← Tr.index bbb' 1
    let x_1415 ← Tr.index bbb' 2
    let x_1416 ← Tr.index bbb' 3
    let x_1417 ← Tr.index bbb' 4
    let x_1418 ← Tr.index w 10
    let bbb' ← Tr.indexSet bbb' 1 (((x_1414 + ((x_1415 ||| (~~~x_1416)) ^^^ x_1417)) + x_1418) + 0x6d703ef3#32)
    let x_1420 ← Tr.index bbb' 1
    let x_1421 ← Tr.index bbb' 0
    let bbb' ← Tr.indexSet bbb' 1 ((x_1420.rotateLeft 13) + x_1421)
    let x_1423 ← Tr.index bbb' 3
    let bbb' ← Tr.indexSet bbb' 3 (x_1423.rotateLeft 10)
    pure (bb', bbb')

/-- round!(bbb[<expr>], bbb[<expr>], bbb[<expr>], bbb[<expr>], bbb[<expr>], <expr>[<expr>], <expr>, 0x6d703ef3,(bbb[<expr>] | ! bbb[<expr>]) ^ bbb[<expr>]) -/
def Engine.process_block_fast.line1_125 (cfg : Cfg) (w : List (BitVec 32)) : Source.Ripemd160.Engine.process_block_fast.State1 → Tr Source.Ripemd160.Engine.process_block_fast.State1 :=
  fun (bb', bbb') => do
    let x_1425 ← Tr.index bbb' 0
    let x_1426 ← Tr.index bbb' 1
    let x_1427 ← Tr.index bbb' 2
    let x_1428 ← Tr.index bbb' 3
    let x_1429 ← Tr.index w 0
    let bbb' ← Tr.indexSet bbb' 0 (((x_1425 + ((x_1426 ||| (~~~x_1427)) ^^^ x_1428)) + x_1429) + 0x6d703ef3#32)
    let x_1431 ← Tr.index bbb' 0
    let x_1432 ← Tr.index bbb' 4
    let bbb' ← Tr.indexSet bbb' 0 ((x_1431.rotateLeft 13) + x_1432)
    let x_1434 ← Tr.index bbb' 2
    let bbb' ← Tr.indexSet bbb' 2 (x_1434.rotateLeft 10)
    pure (bb', bbb')

/-- round!(bbb[<expr>], bbb[<expr>], bbb[<expr>], bbb[<expr>], bbb[<expr>], <expr>[<expr>], <expr>, 0x6d703ef3,(bbb[<expr>] | ! bbb[<expr>]) ^ bbb[<expr>]) -/
def Engine.process_block_fast.line1_126 (cfg : Cfg) (w : List (BitVec 32)) : Source.Ripemd160.Engine.process_block_fast.State1 → Tr Source.Ripemd160.Engine.process_block_fast.State1 :=
  fun (bb', bbb') => do
    let x_1436 ← Tr.index bbb' 4
    let x_1437 ← Tr.index bbb' 0
    let x_1438 ← Tr.index bbb' 1
    let x_1439 ← Tr.index bbb' 2
    let x_1440 ← Tr.index w 4
    let bbb' ← Tr.indexSet bbb' 4 (((x_1436 + ((x_1437 ||| (~~~x_1438)) ^^^ x_1439)) + x_1440) + 0x6d703ef3#32)
    let x_1442 ← Tr.index bbb' 4
    let x_1443 ← Tr.index bbb' 3
    let bbb' ← Tr.indexSet bbb' 4 ((x_1442.rotateLeft 7) + x_1443)
    let x_1445 ← Tr.index bbb' 1
    let bbb' ← Tr.indexSet bbb' 1 (x_1445.rotateLeft 10)
    pure (bb', bbb')

/-- round!(bbb[<expr>], bbb[<expr>], bbb[<expr>], bbb[<expr>], bbb[<expr>], <expr>[<expr>], <expr>, 0x6d703ef3,(bbb[<expr>] | ! bbb[<expr>]) ^ bbb[<expr>]) -/
def Engine.process_block_fast.line1_127 (cfg : Cfg) (w : List (BitVec 32)) : Source.Ripemd160.Engine.process_block_fast.State1 → Tr Source.Ripemd160.Engine.process_block_fast.State1 :=
  fun (bb', bbb') => do
    let x_1447 ← Tr.index bbb' 3
    let x_1448 ← Tr.index bbb' 4
    let x_1449 ← Tr.index bbb' 0
    let x_1450 ← Tr.index bbb' 1
    let x_1451 ← Tr.index w 13
    let bbb' ← Tr.indexSet bbb' 3 (((x_1447 + ((x_1448 ||| (~~~x_1449)) ^^^ x_1450)) + x_1451) + 0x6d703ef3#32)
    let x_1453 ← Tr.index bbb' 3
    let x_1454 ← Tr.index bbb' 2
    let bbb' ← Tr.indexSet bbb' 3 ((x_1453.rotateLeft 5) + x_1454)
    let x_1456 ← Tr.index bbb' 0
    let bbb' ← Tr.indexSet bbb' 0 (x_1456.rotateLeft 10)
    pure (bb', bbb')

/-- round!(bbb[<expr>], bbb[<expr>], bbb[<expr>], bbb[<expr>], bbb[<expr>], <expr>[<expr>], <expr>, 0x7a6d76e9,(bbb[<expr>] & bbb[<expr>]) |(! bbb[<expr>] & bbb[<expr>])) -/
def Engine.process_block_fast.line1_128 (cfg : Cfg) (w : List (BitVec 32)) : Source.Ripemd160.Engine.process_block_fast.State1 → Tr Source.Ripemd160.Engine.process_block_fast.State1 :=
  fun (bb', bbb') => do
    let x_1458 ← Tr.index bbb' 2
    let x_1459 ← Tr.index bbb' 3
    let x_1460 ← Tr.index bbb' 4
    let x_1461 ← Tr.index bbb' 3
    let x_1462 ← Tr.index bbb' 0
    let x_1463 ← Tr.index w 8
    let bbb' ← Tr.indexSet bbb' 2 (((x_1458 + ((x_1459 &&& x_1460) ||| ((~~~x_1461) &&& x_1462))) + x_1463) + 0x7a6d76e9#32)
    let x_1465 ← Tr.index bbb' 2
    let x_1466 ← Tr.index bbb' 1
    let bbb' ← Tr.indexSet bbb' 2 ((x_1465.rotateLeft 15) + x_1466)
    let x_1468 ← Tr.index bbb' 4
    let bbb' ← Tr.indexSet bbb' 4 (x_1468.rotateLeft 10)
    pure (bb', bbb')

/-- round!(bbb[<expr>], bbb[<expr>], bbb[<expr>], bbb[<expr>], bbb[<expr>], <expr>[<expr>], <expr>, 0x7a6d76e9,(bbb[<expr>] & bbb[<expr>]) |(! bbb[<expr>] & bbb[<expr>])) -/
def Engine.process_block_fast.line1_129 (cfg : Cfg) (w : List (BitVec 32)) : Source.Ripemd160.Engine.process_block_fast.State1 → Tr Source.Ripemd160.Engine.process_block_fast.State1 :=
  fun (bb', bbb') => do
    let x_1470 ← Tr.index bbb' 1
    let x_1471 ← Tr.index bbb' 2
    let x_1472 ← Tr.index bbb' 3
    let x_1473 ← Tr.index bbb' 2
    let x_1474 ← Tr.index bbb' 4
    let x_1475 ← Tr.index w 6
    let bbb' ← Tr.indexSet bbb' 1 (((x_1470 + ((x_1471 &&& x_1472) ||| ((~~~x_1473) &&& x_1474))) + x_1475) + 0x7a6d76e9#32)
    let x_1477 ← Tr.index bbb' 1
    let x_1478 ← Tr.index bbb' 0
    let bbb' ← Tr.indexSet bbb' 1 ((x_1477.rotateLeft 5) + x_1478)
    let x_1480 ← Tr.index bbb' 3
    let bbb' ← Tr.indexSet bbb' 3 (x_1480.rotateLeft 10)
    pure (bb', bbb')

/-- round!(bbb[<expr>], bbb[<expr>], bbb[<expr>], bbb[<expr>], bbb[<expr>], <expr>[<expr>], <expr>, 0x7a6d76e9,(bbb[<expr>] & bbb[<expr>]) |(! bbb[<expr>] & bbb[<expr>])) -/
def Engine.process_block_fast.line1_130 (cfg : Cfg) (w : List (BitVec 32)) : Source.Ripemd160.Engine.process_block_fast.State1 → Tr Source.Ripemd160.Engine.process_block_fast.State1 :=
  fun (bb', bbb') => do
    let x_1482 ← Tr.index bbb' 0
    let x_1483 ← Tr.index bbb' 1
    let x_1484 ← Tr.index bbb' 2
    let x_1485 ← Tr.index bbb' 1
    let x_1486 ← Tr.index bbb' 3
    let x_1487 ← Tr.index w 4
    let bbb' ← Tr.indexSet bbb' 0 (((x_1482 + ((x_1483 &&& x_1484) ||| ((~~~x_1485) &&& x_1486))) + x_1487) + 0x7a6d76e9#32)
    let x_1489 ← Tr.index bbb' 0
    let x_1490 ← Tr.index bbb' 4
    let bbb' ← Tr.indexSet bbb' 0 ((x_1489.rotateLeft 8) + x_1490)
    let x_1492 ← Tr.index bbb' 2
    let bbb' ← Tr.indexSet bbb' 2 (x_1492.rotateLeft 10)
    pure (bb', bbb')

/-- round!(bbb[<expr>], bbb[<expr>], bbb[<expr>], bbb[<expr>], bbb[<expr>], <expr>[<expr>], <expr>, 0x7a6d76e9,(bbb[<expr>] & bbb[<expr>]) |(! bbb[<expr>] & bbb[<expr>])) -/
def Engine.process_block_fast.line1_131 (cfg : Cfg) (w : List (BitVec 32)) : Source.Ripemd160.Engine.process_block_fast.State1 → Tr Source.Ripemd160.Engine.process_block_fast.State1 :=
  fun (bb', bbb') => do
    let x_1494 ← Tr.index bbb' 4
    let x_1495 ← Tr.index bbb' 0
    let x_1496 ← Tr.index bbb' 1
    let x_1497 ← Tr.index bbb' 0
    let x_1498 ← Tr.index bbb' 2
    let x_1499 ← Tr.index w 1
    let bbb' ← Tr.indexSet bbb' 4 (((x_1494 + ((x_1495 &&& x_1496) ||| ((~~~x_1497) &&& x_1498))) + x_1499) + 0x7a6d76e9#32)
    let x_1501 ← Tr.index bbb' 4
    let x_1502 ← Tr.index bbb' 3
    let bbb' ← Tr.indexSet bbb' 4 ((x_1501.rotateLeft 11) + x_1502)
    let x_1504 ← Tr.index bbb' 1
    let bbb' ← Tr.indexSet bbb' 1 (x_1504.rotateLeft 10)
    pure (bb', bbb')

/-- round!(bbb[<expr>], bbb[<expr>], bbb[<expr>], bbb[<expr>], bbb[<expr>], <expr>[<expr>], <expr>, 0x7a6d76e9,(bbb[<expr>] & bbb[<expr>]) |(! bbb[<expr>] & bbb[<expr>])) -/
def Engine.process_block_fast.line1_132 (cfg : Cfg) (w : List (BitVec 32)) : Source.Ripemd160.Engine.process_block_fast.State1 → Tr Source.Ripemd160.Engine.process_block_fast.State1 :=
  fun (bb', bbb') => do
    let x_1506 ← Tr.index bbb' 3
    let x_1507 ← Tr.index bbb' 4
    let x_1508 ← Tr.index bbb' 0
    let x_1509 ← Tr.index bbb' 4
    let x_1510 ← Tr.index bbb' 1
    let x_1511 ← Tr.index w 3
    let bbb' ← Tr.indexSet bbb' 3 (((x_1506 + ((x_1507 &&& x_1508) ||| ((~~~x_1509) &&& x_1510))) + x_1511) + 0x7a6d76e9#32)
    let x_1513 ← Tr.index bbb' 3
    let x_1514 ← Tr.index bbb' 2
    let bbb' ← Tr.indexSet bbb' 3 ((x_1513.rotateLeft 14) + x_1514)
    let x_1516 ← Tr.index bbb' 0
    let bbb' ← Tr.indexSet bbb' 0 (x_1516.rotateLeft 10)
    pure (bb', bbb')

/-- round!(bbb[<expr>], bbb[<expr>], bbb[<expr>], bbb[<expr>], bbb[<expr>], <expr>[<expr>], <expr>, 0x7a6d76e9,(bbb[<expr>] & bbb[<expr>]) |(! bbb[<expr>] & bbb[<expr>])) -/
def Engine.process_block_fast.line1_133 (cfg : Cfg) (w : List (BitVec 32)) : Source.Ripemd160.Engine.process_block_fast.State1 → Tr Source.Ripemd160.Engine.process_block_fast.State1 :=
  fun (bb', bbb') => do
    let x_1518 ← Tr.index bbb' 2
    let x_1519 ← Tr.index bbb' 3
    let x_1520 ← Tr.index bbb' 4
    let x_1521 ← Tr.index bbb' 3
    let x_1522 ← Tr.index bbb' 0
    let x_1523 ← Tr.index w 11
    let bbb' ← Tr.indexSet bbb' 2 (((x_1518 + ((x_1519 &&& x_1520) ||| ((~~~x_1521) &&& x_1522))) + x_1523) + 0x7a6d76e9#32)
    let x_1525 ← Tr.index bbb' 2
    let x_1526 ← Tr.index bbb' 1
    let bbb' ← Tr.indexSet bbb' 2 ((x_1525.rotateLeft 14) + x_1526)
    let x_1528 ← Tr.index bbb' 4
    let bbb' ← Tr.indexSet bbb' 4 (x_1528.rotateLeft 10)
    pure (bb', bbb')

/-- round!(bbb[<expr>], bbb[<expr>], bbb[<expr>], bbb[<expr>], bbb[<expr>], <expr>[<expr>], <expr>, 0x7a6d76e9,(bbb[<expr>] & bbb[<expr>]) |(! bbb[<expr>] & bbb[<expr>])) -/
def Engine.process_block_fast.line1_134 (cfg : Cfg) (w : List (BitVec 32)) : Source.Ripemd160.Engine.process_block_fast.State1 → Tr Source.Ripemd160.Engine.process_block_fast.State1 :=
  fun (bb', bbb') => do
    let x_1530 ← Tr.index bbb' 1
    let x_1531 ← Tr.index bbb' 2
    let x_1532 ← Tr.index bbb' 3
    let x_1533 ← Tr.index bbb' 2
    let x_1534 ← Tr.index bbb' 4
    let x_1535 ← Tr.index w 15
    let bbb' ← Tr.indexSet bbb' 1 (((x_1530 + ((x_1531 &&& x_1532) ||| ((~~~x_1533) &&& x_1534))) + x_1535) + 0x7a6d76e9#32)
    let x_1537 ← Tr.index bbb' 1
    let x_1538 ← Tr.index bbb' 0
    let bbb' ← Tr.indexSet bbb' 1 ((x_1537.rotateLeft 6) + x_1538)
    let x_1540 ← Tr.index bbb' 3
    let bbb' ← Tr.indexSet bbb' 3 (x_1540.rotateLeft 10)
    pure (bb', bbb')

/-- round!(bbb[<expr>], bbb[<expr>], bbb[<expr>], bbb[<expr>], bbb[<expr>], <expr>[<expr>], <expr>, 0x7a6d76e9,(bbb[<expr>] & bbb[<expr>]) |(! bbb[<expr>] & bbb[<expr>])) -/
def Engine.process_block_fast.line1_135 (cfg : Cfg) (w : List (BitVec 32)) : Source.Ripemd160.Engine.process_block_fast.State1 → Tr Source.Ripemd160.Engine.process_block_fast.State1 :=
  fun (bb', bbb') => do
    let x_1542 ← Tr.index bbb' 0
    let x_1543 ← Tr.index bbb' 1
    let x_1544 ← Tr.index bbb' 2
    let x_1545 ← Tr.index bbb' 1
    let x_1546 ← Tr.index bbb' 3
    let x_1547 ← Tr.index w 0
    let bbb' ← Tr.indexSet bbb' 0 (((x_1542 + ((x_1543 &&& x_1544) ||| ((~~~x_1545) &&& x_1546))) + x_1547) + 0x7a6d76e9#32)
    let x_1549 ← Tr.index bbb' 0
    let x_1550 ← Tr.index bbb' 4
    let bbb' ← Tr.indexSet bbb' 0 ((x_1549.rotateLeft 14) + x_1550)
    let x_1552 ← Tr.index bbb' 2
    let bbb' ← Tr.indexSet bbb' 2 (x_1552.rotateLeft 10)
    pure (bb', bbb')

/-- round!(bbb[<expr>], bbb[<expr>], bbb[<expr>], bbb[<expr>], bbb[<expr>], <expr>[<expr>], <expr>, 0x7a6d76e9,(bbb[<expr>] & bbb[<expr>]) |(! bbb[<expr>] & bbb[<expr>])) -/
def Engine.process_block_fast.line1_136 (cfg : Cfg) (w : List (BitVec 32)) : Source.Ripemd160.Engine.process_block_fast.State1 → Tr Source.Ripemd160.Engine.process_block_fast.State1 :=
  fun (bb', bbb') => do
    let x_1554 ← Tr.index bbb' 4
    let x_1555 ← Tr.index bbb' 0
    let x_1556 ← Tr.index bbb' 1
    let x_1557 ← Tr.index bbb' 0
    let x_1558 ← Tr.index bbb' 2
    let x_1559 ← Tr.index w 5
    let bbb' ← Tr.indexSet bbb' 4 (((x_1554 + ((x_1555 &&& x_1556) ||| ((~~~x_1557) &&& x_1558))) + x_1559) + 0x7a6d76e9#32)
    let x_1561 ← Tr.index bbb' 4
    let x_1562 ← Tr.index bbb' 3
    let bbb' ← Tr.indexSet bbb' 4 ((x_1561.rotateLeft 6) + x_1562)
    let x_1564 ← Tr.index bbb' 1
    let bbb' ← Tr.indexSet bbb' 1 (x_1564.rotateLeft 10)
    pure (bb', bbb')

/-- round!(bbb[<expr>], bbb[<expr>], bbb[<expr>], bbb[<expr>], bbb[<expr>], <expr>[<expr>], <expr>, 0x7a6d76e9,(bbb[<expr>] & bbb[<expr>]) |(! bbb[<expr>] & bbb[<expr>])) -/
def Engine.process_block_fast.line1_137 (cfg : Cfg) (w : List (BitVec 32)) : Source.Ripemd160.Engine.process_block_fast.State1 → Tr Source.Ripemd160.Engine.process_block_fast.State1 :=
  fun (bb', bbb') => do
    let x_1566 ← Tr.index bbb' 3
    let x_1567 ← Tr.index bbb' 4
    let x_1568 ← Tr.index bbb' 0
    let x_1569 ← Tr.index bbb' 4
    let x_1570 ← Tr.index bbb' 1
    let x_1571 ← Tr.index w 12
    let bbb' ← Tr.indexSet bbb' 3 (((x_1566 + ((x_1567 &&& x_1568) ||| ((~~~x_1569) &&& x_1570))) + x_1571) + 0x7a6d76e9#32)
    let x_1573 ← Tr.index bbb' 3
    let x_1574 ← Tr.index bbb' 2
    let bbb' ← Tr.indexSet bbb' 3 ((x_1573.rotateLeft 9) + x_1574)
    let x_1576 ← Tr.index bbb' 0
    let bbb' ← Tr.indexSet bbb' 0 (x_1576.rotateLeft 10)
    pure (bb', bbb')

/-- round!(bbb[<expr>], bbb[<expr>], bbb[<expr>], bbb[<expr>], bbb[<expr>], <expr>[<expr>], <expr>, 0x7a6d76e9,(bbb[<expr>] & bbb[<expr>]) |(! bbb[<expr>] & bbb[<expr>])) -/
def Engine.process_block_fast.line1_138 (cfg : Cfg) (w : List (BitVec 32)) : Source.Ripemd160.Engine.process_block_fast.State1 → Tr Source.Ripemd160.Engine.process_block_fast.State1 :=
  fun (bb', bbb') => do
    let x_1578 ← Tr.index bbb' 2
    let x_1579 ← Tr.index bbb' 3
    let x_1580 ← Tr.index bbb' 4
    let x_1581 ← Tr.index bbb' 3
    let x_1582 ← Tr.index bbb' 0
    let x_1583 ← Tr.index w 2
    let bbb' ← Tr.indexSet bbb' 2 (((x_1578 + ((x_1579 &&& x_1580) ||| ((~~~x_1581) &&& x_1582))) + x_1583) + 0x7a6d76e9#32)
    let x_1585 ← Tr.index bbb' 2
    let x_1586 ← Tr.index bbb' 1
    let bbb' ← Tr.indexSet bbb' 2 ((x_1585.rotateLeft 12) + x_1586)
    let x_1588 ← Tr.index bbb' 4
    let bbb' ← Tr.indexSet bbb' 4 (x_1588.rotateLeft 10)
    pure (bb', bbb')

/-- round!(bbb[<expr>], bbb[<expr>], bbb[<expr>], bbb[<expr>], bbb[<expr>], <expr>[<expr>], <expr>, 0x7a6d76e9,(bbb[<expr>] & bbb[<expr>]) |(! bbb[<expr>] & bbb[<expr>])) -/
def Engine.process_block_fast.line1_139 (cfg : Cfg) (w : List (BitVec 32)) : Source.Ripemd160.Engine.process_block_fast.State1 → Tr Source.Ripemd160.Engine.process_block_fast.State1 :=
  fun (bb', bbb') => do
    let x_1590 ← Tr.index bbb' 1
    let x_1591 ← Tr.index bbb' 2
    let x_1592 ← Tr.index bbb' 3
    let x_1593 ← Tr.index bbb' 2
    let x_1594 ← Tr.index bbb' 4
    let x_1595 ← Tr.index w 13
    let bbb' ← Tr.indexSet bbb' 1 (((x_1590 + ((x_1591 &&& x_1592) ||| ((~~~x_1593) &&& x_1594))) + x_1595) + 0x7a6d76e9#32)
    let x_1597 ← Tr.index bbb' 1
    let x_1598 ← Tr.index bbb' 0
    let bbb' ← Tr.indexSet bbb' 1 ((x_1597.rotateLeft 9) + x_1598)
    let x_1600 ← Tr.index bbb' 3
    let bbb' ← Tr.indexSet bbb' 3 (x_1600.rotateLeft 10)
    pure (bb', bbb')

/-- round!(bbb[<expr>], bbb[<expr>], bbb[<expr>], bbb[<expr>], bbb[<expr>], <expr>[<expr>], <expr>, 0x7a6d76e9,(bbb[<expr>] & bbb[<expr>]) |(! bbb[<expr>] & bbb[<expr>])) -/
def Engine.process_block_fast.line1_140 (cfg : Cfg) (w : List (BitVec 32)) : Source.Ripemd160.Engine.process_block_fast.State1 → Tr Source.Ripemd160.Engine.process_block_fast.State1 :=
  fun (bb', bbb') => do
    let x_1602 ← Tr.index bbb' 0
    let x_1603 ← Tr.index bbb' 1
    let x_1604 ← Tr.index bbb' 2
    let x_1605 ← Tr.index bbb' 1
    let x_1606 ← Tr.index bbb' 3
    let x_1607 ← Tr.index w 9
    let bbb' ← Tr.indexSet bbb' 0 (((x_1602 + ((x_1603 &&& x_1604) ||| ((~~~x_1605) &&& x_1606))) + x_1607) + 0x7a6d76e9#32)
    let x_1609 ← Tr.index bbb' 0
    let x_1610 ← Tr.index bbb' 4
    let bbb' ← Tr.indexSet bbb' 0 ((x_1609.rotateLeft 12) + x_1610)
    let x_1612 ← Tr.index bbb' 2
    let bbb' ← Tr.indexSet bbb' 2 (x_1612.rotateLeft 10)
    pure (bb', bbb')

/-- round!(bbb[<expr>], bbb[<expr>], bbb[<expr>], bbb[<expr>], bbb[<expr>], <expr>[<expr>], <expr>, 0x7a6d76e9,(bbb[<expr>] & bbb[<expr>]) |(! bbb[<expr>] & bbb[<expr>])) -/
def Engine.process_block_fast.line1_141 (cfg : Cfg) (w : List (BitVec 32)) : Source.Ripemd160.Engine.process_block_fast.State1 → Tr Source.Ripemd160.Engine.process_block_fast.State1 :=
  fun (bb', bbb') => do
    let x_1614 ← Tr.index bbb' 4
    let x_1615 ← Tr.index bbb' 0
    let x_1616 ← Tr.index bbb' 1
    let x_1617 ← Tr.index bbb' 0
    let x_1618 ← Tr.index bbb' 2
    let x_1619 ← Tr.index w 7
    let bbb' ← Tr.indexSet bbb' 4 (((x_1614 + ((x_1615 &&& x_1616) ||| ((~~~x_1617) &&& x_1618))) + x_1619) + 0x7a6d76e9#32)
    let x_1621 ← Tr.index bbb' 4
    let x_1622 ← Tr.index bbb' 3
    let bbb' ← Tr.indexSet bbb' 4 ((x_1621.rotateLeft 5) + x_1622)
    let x_1624 ← Tr.index bbb' 1
    let bbb' ← Tr.indexSet bbb' 1 (x_1624.rotateLeft 10)
    pure (bb', bbb')

/-- round!(bbb[<expr>], bbb[<expr>], bbb[<expr>], bbb[<expr>], bbb[<expr>], <expr>[<expr>], <expr>, 0x7a6d76e9,(bbb[<expr>] & bbb[<expr>]) |(! bbb[<expr>] & bbb[<expr>])) -/
def Engine.process_block_fast.line1_142 (cfg : Cfg) (w : List (BitVec 32)) : Source.Ripemd160.Engine.process_block_fast.State1 → Tr Source.Ripemd160.Engine.process_block_fast.State1 :=
  fun (bb', bbb') => do
    let x_1626 ← Tr.index bbb' 3
    let x_1627 ← Tr.index bbb' 4
    let x_1628 ← Tr.index bbb' 0
    let x_1629 ← Tr.index bbb' 4
    let x_1630 ← Tr.index bbb' 1
    let x_1631 ← Tr.index w 10
    let bbb' ← Tr.indexSet bbb' 3 (((x_1626 + ((x_1627 &&& x_1628) ||| ((~~~x_1629) &&& x_1630))) + x_1631) + 0x7a6d76e9#32)
    let x_1633 ← Tr.index bbb' 3
    let x_1634 ← Tr.index bbb' 2
    let bbb' ← Tr.indexSet bbb' 3 ((x_1633.rotateLeft 15) + x_1634)
    let x_1636 ← Tr.index bbb' 0
    let bbb' ← Tr.indexSet bbb' 0 (x_1636.rotateLeft 10)
    pure (bb', bbb')

/-- round!(bbb[<expr>], bbb[<expr>], bbb[<expr>], bbb[<expr>], bbb[<expr>], <expr>[<expr>], <expr>, 0x7a6d76e9,(bbb[<expr>] & bbb[<expr>]) |(! bbb[<expr>] & bbb[<expr>])) -/
def Engine.process_block_fast.line1_143 (cfg : Cfg) (w : List (BitVec 32)) : Source.Ripemd160.Engine.process_block_fast.State1 → Tr Source.Ripemd160.Engine.process_block_fast.State1 :=
  fun (bb', bbb') => do
    let x_1638 ← Tr.index bbb' 2
    let x_1639 ← Tr.index bbb' 3
    let x_1640 ← Tr.index bbb' 4
    let x_1641 ← Tr.index bbb' 3
    let x_1642 ← Tr.index bbb' 0
    let x_1643 ← Tr.index w 14
    let bbb' ← Tr.indexSet bbb' 2 (((x_1638 + ((x_1639 &&& x_1640) ||| ((~~~x_1641) &&& x_1642))) + x_1643) + 0x7a6d76e9#32)
    let x_1645 ← Tr.index bbb' 2
    let x_1646 ← Tr.index bbb' 1
    let bbb' ← Tr.indexSet bbb' 2 ((x_1645.rotateLeft 8) + x_1646)
    let x_1648 ← Tr.index bbb' 4
    let bbb' ← Tr.indexSet bbb' 4 (x_1648.rotateLeft 10)
    pure (bb', bbb')

/-- round!(bbb[<expr>], bbb[<expr>], bbb[<expr>], bbb[<expr>], bbb[<expr>], <expr>[<expr>], <expr>, 0x00000000, bbb[<expr>] ^ bbb[<expr>] ^ bbb[<expr>]) -/
def Engine.process_block_fast.line1_144 (cfg : Cfg) (w : List (BitVec 32)) : Source.Ripemd160.Engine.process_block_fast.State1 → Tr Source.Ripemd160.Engine.process_block_fast.State1 :=
  fun (bb', bbb') => do
    let x_1650 ← Tr.index bbb' 1
    let x_1651 ← Tr.index bbb' 2
    let x_1652 ← Tr.index bbb' 3
    let x_1653 ← Tr.index bbb' 4
    let x_1654 ← Tr.index w 12
    let bbb' ← Tr.indexSet bbb' 1 (((x_1650 + ((x_1651 ^^^ x_1652) ^^^ x_1653)) + x_1654) + 0x00000000#32)
    let x_1656 ← Tr.index bbb' 1
    let x_1657 ← Tr.index bbb' 0
    let bbb' ← Tr.indexSet bbb' 1 ((x_1656.rotateLeft 8) + x_1657)
    let x_1659 ← Tr.index bbb' 3
    let bbb' ← Tr.indexSet bbb' 3 (x_1659.rotateLeft 10)
    pure (bb', bbb')

/-- round!(bbb[<expr>], bbb[<expr>], bbb[<expr>], bbb[<expr>], bbb[<expr>], <expr>[<expr>], <expr>, 0x00000000, bbb[<expr>] ^ bbb[<expr>] ^ bbb[<expr>]) -/
def Engine.process_block_fast.line1_145 (cfg : Cfg) (w : List (BitVec 32)) : Source.Ripemd160.Engine.process_block_fast.State1 → Tr Source.Ripemd160.Engine.process_block_fast.State1 :=
  fun (bb', bbb') => do
    let x_1661 ← Tr.index bbb' 0
    let x_1662 ← Tr.index bbb' 1
    let x_1663 ← Tr.index bbb' 2
    let x_1664 ← Tr.index bbb' 3
    let x_1665 ← Tr.index w 15
    let bbb' ← Tr.indexSet bbb' 0 (((x_1661 + ((x_1662 ^^^ x_1663) ^^^ x_1664)) + x_1665) + 0x00000000#32)
    let x_1667 ← Tr.index bbb' 0
    let x_1668 ← Tr.index bbb' 4
    let bbb' ← Tr.indexSet bbb' 0 ((x_1667.rotateLeft 5) + x_1668)
    let x_1670 ← Tr.index bbb' 2
    let bbb' ← Tr.indexSet bbb' 2 (x_1670.rotateLeft 10)
    pure (bb', bbb')

/-- round!(bbb[<expr>], bbb[<expr>], bbb[<expr>], bbb[<expr>], bbb[<expr>], <expr>[<expr>], <expr>, 0x00000000, bbb[<expr>] ^ bbb[<expr>] ^ bbb[<expr>]) -/
def Engine.process_block_fast.line1_146 (cfg : Cfg) (w : List (BitVec 32)) : Source.Ripemd160.Engine.process_block_fast.State1 → Tr Source.Ripemd160.Engine.process_block_fast.State1 :=
  fun (bb', bbb') => do
    let x_1672 ← Tr.index bbb' 4
    let x_1673 ← Tr.index bbb' 0
    let x_1674 ← Tr.index bbb' 1
    let x_1675 ← Tr.index bbb' 2
    let x_1676 ← Tr.index w 10
    let bbb' ← Tr.indexSet bbb' 4 (((x_1672 + ((x_1673 ^^^ x_1674) ^^^ x_1675)) + x_1676) + 0x00000000#32)
    let x_1678 ← Tr.index bbb' 4
    let x_1679 ← Tr.index bbb' 3
    let bbb' ← Tr.indexSet bbb' 4 ((x_1678.rotateLeft 12) + x_1679)
    let x_1681 ← Tr.index bbb' 1
    let bbb' ← Tr.indexSet bbb' 1 (x_1681.rotateLeft 10)
    pure (bb', bbb')

/-- round!(bbb[<expr>], bbb[<expr>], bbb[<expr>], bbb[<expr>], bbb[<expr>], <expr>[<expr>], <expr>, 0x00000000, bbb[<expr>] ^ bbb[<expr>] ^ bbb[<expr>]) -/
def Engine.process_block_fast.line1_147 (cfg : Cfg) (w : List (BitVec 32)) : Source.Ripemd160.Engine.process_block_fast.State1 → Tr Source.Ripemd160.Engine.process_block_fast.State1 :=
  fun (bb', bbb') => do
    let x_1683 ← Tr.index bbb' 3
    let x_1684 ← Tr.index bbb' 4
    let x_1685 ← Tr.index bbb' 0
    let x_1686 ← Tr.index bbb' 1
    let x_1687 ← Tr.index w 4
    let bbb' ← Tr.indexSet bbb' 3 (((x_1683 + ((x_1684 ^^^ x_1685) ^^^ x_1686)) + x_1687) + 0x00000000#32)
    let x_1689 ← Tr.index bbb' 3
    let x_1690 ← Tr.index bbb' 2
    let bbb' ← Tr.indexSet bbb' 3 ((x_1689.rotateLeft 9) + x_1690)
    let x_1692 ← Tr.index bbb' 0
    let bbb' ← Tr.indexSet bbb' 0 (x_1692.rotateLeft 10)
    pure (bb', bbb')

/-- round!(bbb[<expr>], bbb[<expr>], bbb[<expr>], bbb[<expr>], bbb[<expr>], <expr>[<expr>], <expr>, 0x00000000, bbb[<expr>] ^ bbb[<expr>] ^ bbb[<expr>]) -/
def Engine.process_block_fast.line1_148 (cfg : Cfg) (w : List (BitVec 32)) : Source.Ripemd160.Engine.process_block_fast.State1 → Tr Source.Ripemd160.Engine.process_block_fast.State1 :=
  fun (bb', bbb') => do
    let x_1694 ← Tr.index bbb' 2
    let x_1695 ← Tr.index bbb' 3
    let x_1696 ← Tr.index bbb' 4
    let x_1697 ← Tr.index bbb' 0
    let x_1698 ← Tr.index w 1
    let bbb' ← Tr.indexSet bbb' 2 (((x_1694 + ((x_1695 ^^^ x_1696) ^^^ x_1697)) + x_1698) + 0x00000000#32)
    let x_1700 ← Tr.index bbb' 2
    let x_1701 ← Tr.index bbb' 1
    let bbb' ← Tr.indexSet bbb' 2 ((x_1700.rotateLeft 12) + x_1701)
    let x_1703 ← Tr.index bbb' 4
    let bbb' ← Tr.indexSet bbb' 4 (x_1703.rotateLeft 10)
    pure (bb', bbb')

/-- round!(bbb[<expr>], bbb[<expr>], bbb[<expr>], bbb[<expr>], bbb[<expr>], <expr>[<expr>], <expr>, 0x00000000, bbb[<expr>] ^ bbb[<expr>] ^ bbb[<expr>]) -/
def Engine.process_block_fast.line1_149 (cfg : Cfg) (w : List (BitVec 32)) : Source.Ripemd160.Engine.process_block_fast.State1 → Tr Source.Ripemd160.Engine.process_block_fast.State1 :=
  fun (bb', bbb') => do
    let x_1705 ← Tr.index bbb' 1
    let x_1706 ← Tr.index bbb' 2
    let x_1707 ← Tr.index bbb' 3
    let x_1708 ← Tr.index bbb' 4
    let x_1709 ← Tr.index w 5
    let bbb' ← Tr.indexSet bbb' 1 (((x_1705 + ((x_1706 ^^^ x_1707) ^^^ x_1708)) + x_1709) + 0x00000000#32)
    let x_1711 ← Tr.index bbb' 1
    let x_1712 ← Tr.index bbb' 0
    let bbb' ← Tr.indexSet bbb' 1 ((x_1711.rotateLeft 5) + x_1712)
    let x_1714 ← Tr.index bbb' 3
    let bbb' ← Tr.indexSet bbb' 3 (x_1714.rotateLeft 10)
    pure (bb', bbb')

/-- round!(bbb[<expr>], bbb[<expr>], bbb[<expr>], bbb[<expr>], bbb[<expr>], <expr>[<expr>], <expr>, 0x00000000, bbb[<expr>] ^ bbb[<expr>] ^ bbb[<expr>]) -/
def Engine.process_block_fast.line1_150 (cfg : Cfg) (w : List (BitVec 32)) : Source.Ripemd160.Engine.process_block_fast.State1 → Tr Source.Ripemd160.Engine.process_block_fast.State1 :=
  fun (bb', bbb') => do
    let x_1716 ← Tr.index bbb' 0
    let x_1717 ← Tr.index bbb' 1
    let x_1718 ← Tr.index bbb' 2
    let x_1719 ← Tr.index bbb' 3
    let x_1720 ← Tr.index w 8
    let bbb' ← Tr.indexSet bbb' 0 (((x_1716 + ((x_1717 ^^^ x_1718) ^^^ x_1719)) + x_1720) + 0x00000000#32)
    let x_1722 ← Tr.index bbb' 0
    let x_1723 ← Tr.index bbb' 4
    let bbb' ← Tr.indexSet bbb' 0 ((x_1722.rotateLeft 14) + x_1723)
    let x_1725 ← Tr.index bbb' 2
    let bbb' ← Tr.indexSet bbb' 2 (x_1725.rotateLeft 10)
    pure (bb', bbb')

/-- round!(bbb[<expr>], bbb[<expr>], bbb[<expr>], bbb[<expr>], bbb[<expr>], <expr>[<expr>], <expr>, 0x00000000, bbb[<expr>] ^ bbb[<expr>] ^ bbb[<expr>]) -/
def Engine.process_block_fast.line1_151 (cfg : Cfg) (w : List (BitVec 32)) : Source.Ripemd160.Engine.process_block_fast.State1 → Tr Source.Ripemd160.Engine.process_block_fast.State1 :=
  fun (bb', bbb') => do
    let x_1727 ← Tr.index bbb' 4
    let x_1728 ← Tr.index bbb' 0
    let x_1729 ← Tr.index bbb' 1
    let x_1730 ← Tr.index bbb' 2
    let x_1731 ← Tr.index w 7
    let bbb' ← Tr.indexSet bbb' 4 (((x_1727 + ((x_1728 ^^^ x_1729) ^^^ x_1730)) + x_1731) + 0x00000000#32)
    let x_1733 ← Tr.index bbb' 4
    let x_1734 ← Tr.index bbb' 3
    let bbb' ← Tr.indexSet bbb' 4 ((x_1733.rotateLeft 6) + x_1734)
    let x_1736 ← Tr.index bbb' 1
    let bbb' ← Tr.indexSet bbb' 1 (x_1736.rotateLeft 10)
    pure (bb', bbb')

/-- round!(bbb[<expr>], bbb[<expr>], bbb[<expr>], bbb[<expr>], bbb[<expr>], <expr>[<expr>], <expr>, 0x00000000, bbb[<expr>] ^ bbb[<expr>] ^ bbb[<expr>]) -/
def Engine.process_block_fast.line1_152 (cfg : Cfg) (w : List (BitVec 32)) : Source.Ripemd160.Engine.process_block_fast.State1 → Tr Source.Ripemd160.Engine.process_block_fast.State1 :=
  fun (bb', bbb') => do
    let x_1738 ← Tr.index bbb' 3
    let x_1739 ← Tr.index bbb' 4
    let x_1740 ← Tr.index bbb' 0
    let x_1741 ← Tr.index bbb' 1
    let x_1742 ← Tr.index w 6
    let bbb' ← Tr.indexSet bbb' 3 (((x_1738 + ((x_1739 ^^^ x_1740) ^^^ x_1741)) + x_1742) + 0x00000000#32)
    let x_1744 ← Tr.index bbb' 3
    let x_1745 ← Tr.index bbb' 2
    let bbb' ← Tr.indexSet bbb' 3 ((x_1744.rotateLeft 8) + x_1745)
    let x_1747 ← Tr.index bbb' 0
    let bbb' ← Tr.indexSet bbb' 0 (x_1747.rotateLeft 10)
    pure (bb', bbb')

/-- round!(bbb[<expr>], bbb[<expr>], bbb[<expr>], bbb[<expr>], bbb[<expr>], <expr>[<expr>], <expr>, 0x00000000, bbb[<expr>] ^ bbb[<expr>] ^ bbb[<expr>]) -/
def Engine.process_block_fast.line1_153 (cfg : Cfg) (w : List (BitVec 32)) : Source.Ripemd160.Engine.process_block_fast.State1 → Tr Source.Ripemd160.Engine.process_block_fast.State1 :=
  fun (bb', bbb') => do
    let x_1749 ← Tr.index bbb' 2
    let x_1750 ← Tr.index bbb' 3
    let x_1751 ← Tr.index bbb' 4
    let x_1752 ← Tr.index bbb' 0
    let x_1753 ← Tr.index w 2
    let bbb' ← Tr.indexSet bbb' 2 (((x_1749 + ((x_1750 ^^^ x_1751) ^^^ x_1752)) + x_1753) + 0x00000000#32)
    let x_1755 ← Tr.index bbb' 2
    let x_1756 ← Tr.index bbb' 1
    let bbb' ← Tr.indexSet bbb' 2 ((x_1755.rotateLeft 13) + x_1756)
    let x_1758 ← Tr.index bbb' 4
    let bbb' ← Tr.indexSet bbb' 4 (x_1758.rotateLeft 10)
    pure (bb', bbb')

/-- round!(bbb[<expr>], bbb[<expr>], bbb[<expr>], bbb[<expr>], bbb[<expr>], <expr>[<expr>], <expr>, 0x00000000, bbb[<expr>] ^ bbb[<expr>] ^ bbb[<expr>]) -/
def Engine.process_block_fast.line1_154 (cfg : Cfg) (w : List (BitVec 32)) : Source.Ripemd160.Engine.process_block_fast.State1 → Tr Source.Ripemd160.Engine.process_block_fast.State1 :=
  fun (bb', bbb') => do
    let x_1760 ← Tr.index bbb' 1
    let x_1761 ← Tr.index bbb' 2
    let x_1762 ← Tr.index bbb' 3
    let x_1763 ← Tr.index bbb' 4
    let x_1764 ← Tr.index w 13
    let bbb' ← Tr.indexSet bbb' 1 (((x_1760 + ((x_1761 ^^^ x_1762) ^^^ x_1763)) + x_1764) + 0x00000000#32)
    let x_1766 ← Tr.index bbb' 1
    let x_1767 ← Tr.index bbb' 0
    let bbb' ← Tr.indexSet bbb' 1 ((x_1766.rotateLeft 6) + x_1767)
    let x_1769 ← Tr.index bbb' 3
    let bbb' ← Tr.indexSet bbb' 3 (x_1769.rotateLeft 10)
    pure (bb', bbb')

/-- round!(bbb[<expr>], bbb[<expr>], bbb[<expr>], bbb[<expr>], bbb[<expr>], <expr>[<expr>], <expr>, 0x00000000, bbb[<expr>] ^ bbb[<expr>] ^ bbb[<expr>]) -/
def Engine.process_block_fast.line1_155 (cfg : Cfg) (w : List (BitVec 32)) : Source.Ripemd160.Engine.process_block_fast.State1 → Tr Source.Ripemd160.Engine.process_block_fast.State1 :=
  fun (bb', bbb') => do
    let x_1771 ← Tr.index bbb' 0
    let x_1772 ← Tr.index bbb' 1
    let x_1773 ← Tr.index bbb' 2
    let x_1774 ← Tr.index bbb' 3
    let x_1775 ← Tr.index w 14
    let bbb' ← Tr.indexSet bbb' 0 (((x_1771 + ((x_1772 ^^^ x_1773) ^^^ x_1774)) + x_1775) + 0x00000000#32)
    let x_1777 ← Tr.index bbb' 0
    let x_1778 ← Tr.index bbb' 4
    let bbb' ← Tr.indexSet bbb' 0 ((x_1777.rotateLeft 5) + x_1778)
    let x_1780 ← Tr.index bbb' 2
    let bbb' ← Tr.indexSet bbb' 2 (x_1780.rotateLeft 10)
    pure (bb', bbb')

/-- round!(bbb[<expr>], bbb[<expr>], bbb[<expr>], bbb[<expr>], bbb[<expr>], <expr>[<expr>], <expr>, 0x00000000, bbb[<expr>] ^ bbb[<expr>] ^ bbb[<expr>]) -/
def Engine.process_block_fast.line1_156 (cfg : Cfg) (w : List (BitVec 32)) : Source.Ripemd160.Engine.process_block_fast.State1 → Tr Source.Ripemd160.Engine.process_block_fast.State1 :=
  fun (bb', bbb') => do
    let x_1782 ← Tr.index bbb' 4
    let x_1783 ← Tr.index bbb' 0
    let x_1784 ← Tr.index bbb' 1
    let x_1785 ← Tr.index bbb' 2
    let x_1786 ← Tr.index w 0
    let bbb' ← Tr.indexSet bbb' 4 (((x_1782 + ((x_1783 ^^^ x_1784) ^^^ x_1785)) + x_1786) + 0x00000000#32)
    let x_1788 ← Tr.index bbb' 4
    let x_1789 ← Tr.index bbb' 3
    let bbb' ← Tr.indexSet bbb' 4 ((x_1788.rotateLeft 15) + x_1789)
    let x_1791 ← Tr.index bbb' 1
    let bbb' ← Tr.indexSet bbb' 1 (x_1791.rotateLeft 10)
    pure (bb', bbb')

/-- round!(bbb[<expr>], bbb[<expr>], bbb[<expr>], bbb[<expr>], bbb[<expr>], <expr>[<expr>], <expr>, 0x00000000, bbb[<expr>] ^ bbb[<expr>] ^ bbb[<expr>]) -/
def Engine.process_block_fast.line1_157 (cfg : Cfg) (w : List (BitVec 32)) : Source.Ripemd160.Engine.process_block_fast.State1 → Tr Source.Ripemd160.Engine.process_block_fast.State1 :=
  fun (bb', bbb') => do
    let x_1793 ← Tr.index bbb' 3
    let x_1794 ← Tr.index bbb' 4
    let x_1795 ← Tr.index bbb' 0
    let x_1796 ← Tr.index bbb' 1
    let x_1797 ← Tr.index w 3
    let bbb' ← Tr.indexSet bbb' 3 (((x_1793 + ((x_1794 ^^^ x_1795) ^^^ x_1796)) + x_1797) + 0x00000000#32)
    let x_1799 ← Tr.index bbb' 3
    let x_1800 ← Tr.index bbb' 2
    let bbb' ← Tr.indexSet bbb' 3 ((x_1799.rotateLeft 13) + x_1800)
    let x_1802 ← Tr.index bbb' 0
    let bbb' ← Tr.indexSet bbb' 0 (x_1802.rotateLeft 10)
    pure (bb', bbb')

/-- round!(bbb[<expr>], bbb[<expr>], bbb[<expr>], bbb[<expr>], bbb[<expr>], <expr>[<expr>], <expr>, 0x00000000, bbb[<expr>] ^ bbb[<expr>] ^ bbb[<expr>]) -/
def Engine.process_block_fast.line1_158 (cfg : Cfg) (w : List (BitVec 32)) : Source.Ripemd160.Engine.process_block_fast.State1 → Tr Source.Ripemd160.Engine.process_block_fast.State1 :=
  fun (bb', bbb') => do
    let x_1804 ← Tr.index bbb' 2
    let x_1805 ← Tr.index bbb' 3
    let x_1806 ← Tr.index bbb' 4
    let x_1807 ← Tr.index bbb' 0
    let x_1808 ← Tr.index w 9
    let bbb' ← Tr.indexSet bbb' 2 (((x_1804 + ((x_1805 ^^^ x_1806) ^^^ x_1807)) + x_1808) + 0x00000000#32)
    let x_1810 ← Tr.index bbb' 2
    let x_1811 ← Tr.index bbb' 1
    let bbb' ← Tr.indexSet bbb' 2 ((x_1810.rotateLeft 11) + x_1811)
    let x_1813 ← Tr.index bbb' 4
    let bbb' ← Tr.indexSet bbb' 4 (x_1813.rotateLeft 10)
    pure (bb', bbb')

/-- round!(bbb[<expr>], bbb[<expr>], bbb[<expr>], bbb[<expr>], bbb[<expr>], <expr>[<expr>], <expr>, 0x00000000, bbb[<expr>] ^ bbb[<expr>] ^ bbb[<expr>]) -/
def Engine.process_block_fast.line1_159 (cfg : Cfg) (w : List (BitVec 32)) : Source.Ripemd160.Engine.process_block_fast.State1 → Tr Source.Ripemd160.Engine.process_block_fast.State1 :=
  fun (bb', bbb') => do
    let x_1815 ← Tr.index bbb' 1
    let x_1816 ← Tr.index bbb' 2
    let x_1817 ← Tr.index bbb' 3
    let x_1818 ← Tr.index bbb' 4
    let x_1819 ← Tr.index w 11
    let bbb' ← Tr.indexSet bbb' 1 (((x_1815 + ((x_1816 ^^^ x_1817) ^^^ x_1818)) + x_1819) + 0x00000000#32)
    let x_1821 ← Tr.index bbb' 1
    let x_1822 ← Tr.index bbb' 0
    let bbb' ← Tr.indexSet bbb' 1 ((x_1821.rotateLeft 11) + x_1822)
    let x_1824 ← Tr.index bbb' 3
    let bbb' ← Tr.indexSet bbb' 3 (x_1824.rotateLeft 10)
    pure (bb', bbb')

/-- The 160 statements. -/
def Engine.process_block_fast.lines1 (cfg : Cfg) (w : List (BitVec 32)) : List (Source.Ripemd160.Engine.process_block_fast.State1 → Tr Source.Ripemd160.Engine.process_block_fast.State1) := [
  Seen.Ripemd160.Engine.process_block_fast.line1_0 cfg w,
  Seen.Ripemd160.Engine.process_block_fast.line1_1 cfg w,
  Seen.Ripemd160.Engine.process_block_fast.line1_2 cfg w,
  Seen.Ripemd160.Engine.process_block_fast.line1_3 cfg w,
  Seen.Ripemd160.Engine.process_block_fast.line1_4 cfg w,
  Seen.Ripemd160.Engine.process_block_fast.line1_5 cfg w,
  Seen.Ripemd160.Engine.process_block_fast.line1_6 cfg w,
  Seen.Ripemd160.Engine.process_block_fast.line1_7 cfg w,
  Seen.Ripemd160.Engine.process_block_fast.line1_8 cfg w,
  Seen.Ripemd160.Engine.process_block_fast.line1_9 cfg w,
  Seen.Ripemd160.Engine.process_block_fast.line1_10 cfg w,
  Seen.Ripemd160.Engine.process_block_fast.line1_11 cfg w,
  Seen.Ripemd160.Engine.process_block_fast.line1_12 cfg w,
  Seen.Ripemd160.Engine.process_block_fast.line1_13 cfg w,
  Seen.Ripemd160.Engine.process_block_fast.line1_14 cfg w,
  Seen.Ripemd160.Engine.process_block_fast.line1_15 cfg w,
  Seen.Ripemd160.Engine.process_block_fast.line1_16 cfg w,
  Seen.Ripemd160.Engine.process_block_fast.line1_17 cfg w,
  Seen.Ripemd160.Engine.process_block_fast.line1_18 cfg w,
  Seen.Ripemd160.Engine.process_block_fast.line1_19 cfg w,
  Seen.Ripemd160.Engine.process_block_fast.line1_20 cfg w,
  Seen.Ripemd160.Engine.process_block_fast.line1_21 cfg w,
  Seen.Ripemd160.Engine.process_block_fast.line1_22 cfg w,
  Seen.Ripemd160.Engine.process_block_fast.line1_23 cfg w,
  Seen.Ripemd160.Engine.process_block_fast.line1_24 cfg w,
  Seen.Ripemd160.Engine.process_block_fast.line1_25 cfg w,
  Seen.Ripemd160.Engine.process_block_fast.line1_26 cfg w,
  Seen.Ripemd160.Engine.process_block_fast.line1_27 cfg w,
  Seen.Ripemd160.Engine.process_block_fast.line1_28 cfg w,
  Seen.Ripemd160.Engine.process_block_fast.line1_29 cfg w,
  Seen.Ripemd160.Engine.process_block_fast.line1_30 cfg w,
  Seen.Ripemd160.Engine.process_block_fast.line1_31 cfg w,
  Seen.Ripemd160.Engine.process_block_fast.line1_32 cfg w,
  Seen.Ripemd160.Engine.process_block_fast.line1_33 cfg w,
  Seen.Ripemd160.Engine.process_block_fast.line1_34 cfg w,
  Seen.Ripemd160.Engine.process_block_fast.line1_35 cfg w,
  Seen.Ripemd160.Engine.process_block_fast.line1_36 cfg w,
  Seen.Ripemd160.Engine.process_block_fast.line1_37 cfg w,
  Seen.Ripemd160.Engine.process_block_fast.line1_38 cfg w,
  Seen.Ripemd160.Engine.process_block_fast.line1_39 cfg w,
  Seen.Ripemd160.Engine.process_block_fast.line1_40 cfg w,
  Seen.Ripemd160.Engine.process_block_fast.line1_41 cfg w,
  Seen.Ripemd160.Engine.process_block_fast.line1_42 cfg w,
  Seen.Ripemd160.Engine.process_block_fast.line1_43 cfg w,
  Seen.Ripemd160.Engine.process_block_fast.line1_44 cfg w,
  Seen.Ripemd160.Engine.process_block_fast.line1_45 cfg w,
  Seen.Ripemd160.Engine.process_block_fast.line1_46 cfg w,
  Seen.Ripemd160.Engine.process_block_fast.line1_47 cfg w,
  Seen.Ripemd160.Engine.process_block_fast.line1_48 cfg w,
  Seen.Ripemd160.Engine.process_block_fast.line1_49 cfg w,
  Seen.Ripemd160.Engine.process_block_fast.line1_50 cfg w,
  Seen.Ripemd160.Engine.process_block_fast.line1_51 cfg w,
  Seen.Ripemd160.Engine.process_block_fast.line1_52 cfg w,
  Seen.Ripemd160.Engine.process_block_fast.line1_53 cfg w,
  Seen.Ripemd160.Engine.process_block_fast.line1_54 cfg w,
  Seen.Ripemd160.Engine.process_block_fast.line1_55 cfg w,
  Seen.Ripemd160.Engine.process_block_fast.line1_56 cfg w,
  Seen.Ripemd160.Engine.process_block_fast.line1_57 cfg w,
  Seen.Ripemd160.Engine.process_block_fast.line1_58 cfg w,
  Seen.Ripemd160.Engine.process_block_fast.line1_59 cfg w,
  Seen.Ripemd160.Engine.process_block_fast.line1_60 cfg w,
  Seen.Ripemd160.Engine.process_block_fast.line1_61 cfg w,
  Seen.Ripemd160.Engine.process_block_fast.line1_62 cfg w,
  Seen.Ripemd160.Engine.process_block_fast.line1_63 cfg w,
  Seen.Ripemd160.Engine.process_block_fast.line1_64 cfg w,
  Seen.Ripemd160.Engine.process_block_fast.line1_65 cfg w,
  Seen.Ripemd160.Engine.process_block_fast.line1_66 cfg w,
  Seen.Ripemd160.Engine.process_block_fast.line1_67 cfg w,
  Seen.Ripemd160.Engine.process_block_fast.line1_68 cfg w,
  Seen.Ripemd160.Engine.process_block_fast.line1_69 cfg w,
  Seen.Ripemd160.Engine.process_block_fast.line1_70 cfg w,
  Seen.Ripemd160.Engine.process_block_fast.line1_71 cfg w,
  Seen.Ripemd160.Engine.process_block_fast.line1_72 cfg w,
  Seen.Ripemd160.Engine.process_block_fast.line1_73 cfg w,
  Seen.Ripemd160.Engine.process_block_fast.line1_74 cfg w,
  Seen.Ripemd160.Engine.process_block_fast.line1_75 cfg w,
  Seen.Ripemd160.Engine.process_block_fast.line1_76 cfg w,
  Seen.Ripemd160.Engine.process_block_fast.line1_77 cfg w,
  Seen.Ripemd160.Engine.process_block_fast.line1_78 cfg w,
  Seen.Ripemd160.Engine.process_block_fast.line1_79 cfg w,
  Seen.Ripemd160.Engine.process_block_fast.line1_80 cfg w,
  Seen.Ripemd160.Engine.process_block_fast.line1_81 cfg w,
  Seen.Ripemd160.Engine.process_block_fast.line1_82 cfg w,
  Seen.Ripemd160.Engine.process_block_fast.line1_83 cfg w,
  Seen.Ripemd160.Engine.process_block_fast.line1_84 cfg w,
  Seen.Ripemd160.Engine.process_block_fast.line1_85 cfg w,
  Seen.Ripemd160.Engine.process_block_fast.line1_86 cfg w,
  Seen.Ripemd160.Engine.process_block_fast.line1_87 cfg w,
  Seen.Ripemd160.Engine.process_block_fast.line1_88 cfg w,
  Seen.Ripemd160.Engine.process_block_fast.line1_89 cfg w,
  Seen.Ripemd160.Engine.process_block_fast.line1_90 cfg w,
  Seen.Ripemd160.Engine.process_block_fast.line1_91 cfg w,
  Seen.Ripemd160.Engine.process_block_fast.line1_92 cfg w,
  Seen.Ripemd160.Engine.process_block_fast.line1_93 cfg w,
  Seen.Ripemd160.Engine.process_block_fast.line1_94 cfg w,
  Seen.Ripemd160.Engine.process_block_fast.line1_95 cfg w,
  Seen.Ripemd160.Engine.process_block_fast.line1_96 cfg w,
  Seen.Ripemd160.Engine.process_block_fast.line1_97 cfg w,
  Seen.Ripemd160.Engine.process_block_fast.line1_98 cfg w,
  Seen.Ripemd160.Engine.process_block_fast.line1_99 cfg w,
  Seen.Ripemd160.Engine.process_block_fast.line1_100 cfg w,
  Seen.Ripemd160.Engine.process_block_fast.line1_101 cfg w,
  Seen.Ripemd160.Engine.process_block_fast.line1_102 cfg w,
  Seen.Ripemd160.Engine.process_block_fast.line1_103 cfg w,
  Seen.Ripemd160.Engine.process_block_fast.line1_104 cfg w,
  Seen.Ripemd160.Engine.process_block_fast.line1_105 cfg w,
  Seen.Ripemd160.Engine.process_block_fast.line1_106 cfg w,
  Seen.Ripemd160.Engine.process_block_fast.line1_107 cfg w,
  Seen.Ripemd160.Engine.process_block_fast.line1_108 cfg w,
  Seen.Ripemd160.Engine.process_block_fast.line1_109 cfg w,
  Seen.Ripemd160.Engine.process_block_fast.line1_110 cfg w,
  Seen.Ripemd160.Engine.process_block_fast.line1_111 cfg w,
  Seen.Ripemd160.Engine.process_block_fast.line1_112 cfg w,
  Seen.Ripemd160.Engine.process_block_fast.line1_113 cfg w,
  Seen.Ripemd160.Engine.process_block_fast.line1_114 cfg w,
  Seen.Ripemd160.Engine.process_block_fast.line1_115 cfg w,
  Seen.Ripemd160.Engine.process_block_fast.line1_116 cfg w,
  Seen.Ripemd160.Engine.process_block_fast.line1_117 cfg w,
  Seen.Ripemd160.Engine.process_block_fast.line1_118 cfg w,
  Seen.Ripemd160.Engine.process_block_fast.line1_119 cfg w,
  Seen.Ripemd160.Engine.process_block_fast.line1_120 cfg w,
  Seen.Ripemd160.Engine.process_block_fast.line1_121 cfg w,
  Seen.Ripemd160.Engine.process_block_fast.line1_122 cfg w,
  Seen.Ripemd160.Engine.process_block_fast.line1_123 cfg w,
  Seen.Ripemd160.Engine.process_block_fast.line1_124 cfg w,
  Seen.Ripemd160.Engine.process_block_fast.line1_125 cfg w,
  Seen.Ripemd160.Engine.process_block_fast.line1_126 cfg w,
  Seen.Ripemd160.Engine.process_block_fast.line1_127 cfg w,
  Seen.Ripemd160.Engine.process_block_fast.line1_128 cfg w,
  Seen.Ripemd160.Engine.process_block_fast.line1_129 cfg w,
  Seen.Ripemd160.Engine.process_block_fast.line1_130 cfg w,
  Seen.Ripemd160.Engine.process_block_fast.line1_131 cfg w,
  Seen.Ripemd160.Engine.process_block_fast.line1_132 cfg w,
  Seen.Ripemd160.Engine.process_block_fast.line1_133 cfg w,
  Seen.Ripemd160.Engine.process_block_fast.line1_134 cfg w,
  Seen.Ripemd160.Engine.process_block_fast.line1_135 cfg w,
  Seen.Ripemd160.Engine.process_block_fast.line1_136 cfg w,
  Seen.Ripemd160.Engine.process_block_fast.line1_137 cfg w,
  Seen.Ripemd160.Engine.process_block_fast.line1_138 cfg w,
  Seen.Ripemd160.Engine.process_block_fast.line1_139 cfg w,
  Seen.Ripemd160.Engine.process_block_fast.line1_140 cfg w,
  Seen.Ripemd160.Engine.process_block_fast.line1_141 cfg w,
  Seen.Ripemd160.Engine.process_block_fast.line1_142 cfg w,
  Seen.Ripemd160.Engine.process_block_fast.line1_143 cfg w,
  Seen.Ripemd160.Engine.process_block_fast.line1_144 cfg w,
  Seen.Ripemd160.Engine.process_block_fast.line1_145 cfg w,
  Seen.Ripemd160.Engine.process_block_fast.line1_146 cfg w,
  Seen.Ripemd160.Engine.process_block_fast.line1_147 cfg w,
  Seen.Ripemd160.Engine.process_block_fast.line1_148 cfg w,
  Seen.Ripemd160.Engine.process_block_fast.line1_149 cfg w,
  Seen.Ripemd160.Engine.process_block_fast.line1_150 cfg w,
  Seen.Ripemd160.Engine.process_block_fast.line1_151 cfg w,
  Seen.Ripemd160.Engine.process_block_fast.line1_152 cfg w,
  Seen.Ripemd160.Engine.process_block_fast.line1_153 cfg w,
  Seen.Ripemd160.Engine.process_block_fast.line1_154 cfg w,
  Seen.Ripemd160.Engine.process_block_fast.line1_155 cfg w,
  Seen.Ripemd160.Engine.process_block_fast.line1_156 cfg w,
  Seen.Ripemd160.Engine.process_block_fast.line1_157 cfg w,
  Seen.Ripemd160.Engine.process_block_fast.line1_158 cfg w,
  Seen.Ripemd160.Engine.process_block_fast.line1_159 cfg w]

/-- `Engine::process_block`, ripemd160.rs 228-417, without feature `small-hash`. -/
def Engine.process_block_fast (cfg : Cfg) (self : Source.Ripemd160.Engine) : Tr Source.Ripemd160.Engine := do
  Tr.debugAssert cfg (self.buffer.length == Source.Ripemd160.BLOCK_SIZE)
  let w : List (BitVec 32) := List.replicate 16 0#32
  let w ← Tr.zipMut w (chunksExact 4 self.buffer) fun w_val buff_bytes => do
    let x_1 ← Tr.tryInto 4 buff_bytes
    let w_val := Rs.fromLeBytes 32 x_1
    pure w_val
  let bb' : List (BitVec 32) := self.h
  let bbb' : List (BitVec 32) := self.h
  let (bb', bbb') ← Tr.runLines (Seen.Ripemd160.Engine.process_block_fast.lines1 cfg w) (bb', bbb')
  let x_1826 ← Tr.index bbb' 3
  let x_1827 ← Tr.index self.h 1
  let x_1828 ← Tr.index bb' 2
  let bbb' ← Tr.indexSet bbb' 3 ((x_1826 + x_1827) + x_1828)
  let x_1830 ← Tr.index self.h 2
  let x_1831 ← Tr.index bb' 3
  let x_1832 ← Tr.index bbb' 4
  let x_1833 ← Tr.indexSet self.h 1 ((x_1830 + x_1831) + x_1832)
  let self := { self with h := x_1833 }
  let x_1834 ← Tr.index self.h 3
  let x_1835 ← Tr.index bb' 4
  let x_1836 ← Tr.index bbb' 0
  let x_1837 ← Tr.indexSet self.h 2 ((x_1834 + x_1835) + x_1836)
  let self := { self with h := x_1837 }
  let x_1838 ← Tr.index self.h 4
  let x_1839 ← Tr.index bb' 0
  let x_1840 ← Tr.index bbb' 1
  let x_1841 ← Tr.indexSet self.h 3 ((x_1838 + x_1839) + x_1840)
  let self := { self with h := x_1841 }
  let x_1842 ← Tr.index self.h 0
  let x_1843 ← Tr.index bb' 1
  let x_1844 ← Tr.index bbb' 2
  let x_1845 ← Tr.indexSet self.h 4 ((x_1842 + x_1843) + x_1844)
  let self := { self with h := x_1845 }
  let x_1846 ← Tr.index bbb' 3
  let x_1847 ← Tr.indexSet self.h 0 x_1846
  let self := { self with h := x_1847 }
  pure self

/-- round!(bb[<expr>], bb[<expr>], bb[<expr>], bb[<expr>], bb[<expr>], <expr>[<expr>], <expr>, 0x00000000, bb[<expr>] ^ bb[<expr>] ^ bb[<expr>]) -/
def Engine.process_block_small.line1_0 (cfg : Cfg) (w : List (BitVec 32)) : Source.Ripemd160.Engine.process_block_small.State1 → Tr Source.Ripemd160.Engine.process_block_small.State1 :=
  fun (bb', bbb') => do
    let x_2 ← Tr.index bb' 0
    let x_3 ← Tr.index bb' 1
    let x_4 ← Tr.index bb' 2
    let x_5 ← Tr.index bb' 3
    let x_6 ← Tr.index bb' 4
    let x_7 ← Tr.index w 0
    let x_8 ← Tr.index bb' 1
    let x_9 ← Tr.index bb' 2
    let x_10 ← Tr.index bb' 3
    let updates' := Source.Ripemd160.small_hash.round cfg x_2 x_3 x_4 x_5 x_6 x_7 11#32 0x00000000#32 ((x_8 ^^^ x_9) ^^^ x_10)
    let bb' ← Tr.indexSet bb' 0 updates'.1
    let bb' ← Tr.indexSet bb' 2 updates'.2
    pure (bb', bbb')

/-- round!(bb[<expr>], bb[<expr>], bb[<expr>], bb[<expr>], bb[<expr>], <expr>[<expr>], <expr>, 0x00000000, bb[<expr>] ^ bb[<expr>] ^ bb[<expr>]) -/
def Engine.process_block_small.line1_1 (cfg : Cfg) (w : List (BitVec 32)) : Source.Ripemd160.Engine.process_block_small.State1 → Tr Source.Ripemd160.Engine.process_block_small.State1 :=
  fun (bb', bbb') => do
    let x_13 ← Tr.index bb' 4
    let x_14 ← Tr.index bb' 0
    let x_15 ← Tr.index bb' 1
    let x_16 ← Tr.index bb' 2
    let x_17 ← Tr.index bb' 3
    let x_18 ← Tr.index w 1
    let x_19 ← Tr.index bb' 0
    let x_20 ← Tr.index bb' 1
    let x_21 ← Tr.index bb' 2
    let updates' := Source.Ripemd160.small_hash.round cfg x_13 x_14 x_15 x_16 x_17 x_18 14#32 0x00000000#32 ((x_19 ^^^ x_20) ^^^ x_21)
    let bb' ← Tr.indexSet bb' 4 updates'.1
    let bb' ← Tr.indexSet bb' 1 updates'.2
    pure (bb', bbb')

/-- round!(bb[<expr>], bb[<expr>], bb[<expr>], bb[<expr>], bb[<expr>], <expr>[<expr>], <expr>, 0x00000000, bb[<expr>] ^ bb[<expr>] ^ bb[<expr>]) -/
def Engine.process_block_small.line1_2 (cfg : Cfg) (w : List (BitVec 32)) : Source.Ripemd160.Engine.process_block_small.State1 → Tr Source.Ripemd160.Engine.process_block_small.State1 :=
  fun (bb', bbb') => do
    let x_24 ← Tr.index bb' 3
    let x_25 ← Tr.index bb' 4
    let x_26 ← Tr.index bb' 0
    let x_27 ← Tr.index bb' 1
    let x_28 ← Tr.index bb' 2
    let x_29 ← Tr.index w 2
    let x_30 ← Tr.index bb' 4
    let x_31 ← Tr.index bb' 0
    let x_32 ← Tr.index bb' 1
    let updates' := Source.Ripemd160.small_hash.round cfg x_24 x_25 x_26 x_27 x_28 x_29 15#32 0x00000000#32 ((x_30 ^^^ x_31) ^^^ x_32)
    let bb' ← Tr.indexSet bb' 3 updates'.1
    let bb' ← Tr.indexSet bb' 0 updates'.2
    pure (bb', bbb')

/-- round!(bb[<expr>], bb[<expr>], bb[<expr>], bb[<expr>], bb[<expr>], <expr>[<expr>], <expr>, 0x00000000, bb[<expr>] ^ bb[<expr>] ^ bb[<expr>]) -/
def Engine.process_block_small.line1_3 (cfg : Cfg) (w : List (BitVec 32)) : Source.Ripemd160.Engine.process_block_small.State1 → Tr Source.Ripemd160.Engine.process_block_small.State1 :=
  fun (bb', bbb') => do
    let x_35 ← Tr.index bb' 2
    let x_36 ← Tr.index bb' 3
    let x_37 ← Tr.index bb' 4
    let x_38 ← Tr.index bb' 0
    let x_39 ← Tr.index bb' 1
    let x_40 ← Tr.index w 3
    let x_41 ← Tr.index bb' 3
    let x_42 ← Tr.index bb' 4
    let x_43 ← Tr.index bb' 0
    let updates' := Source.Ripemd160.small_hash.round cfg x_35 x_36 x_37 x_38 x_39 x_40 12#32 0x00000000#32 ((x_41 ^^^ x_42) ^^^ x_43)
    let bb' ← Tr.indexSet bb' 2 updates'.1
    let bb' ← Tr.indexSet bb' 4 updates'.2
    pure (bb', bbb')

/-- round!(bb[<expr>], bb[<expr>], bb[<expr>], bb[<expr>], bb[<expr>], <expr>[<expr>], <expr>, 0x00000000, bb[<expr>] ^ bb[<expr>] ^ bb[<expr>]) -/
def Engine.process_block_small.line1_4 (cfg : Cfg) (w : List (BitVec 32)) : Source.Ripemd160.Engine.process_block_small.State1 → Tr Source.Ripemd160.Engine.process_block_small.State1 :=
  fun (bb', bbb') => do
    let x_46 ← Tr.index bb' 1
    let x_47 ← Tr.index bb' 2
    let x_48 ← Tr.index bb' 3
    let x_49 ← Tr.index bb' 4
    let x_50 ← Tr.index bb' 0
    let x_51 ← Tr.index w 4
    let x_52 ← Tr.index bb' 2
    let x_53 ← Tr.index bb' 3
    let x_54 ← Tr.index bb' 4
    let updates' := Source.Ripemd160.small_hash.round cfg x_46 x_47 x_48 x_49 x_50 x_51 5#32 0x00000000#32 ((x_52 ^^^ x_53) ^^^ x_54)
    let bb' ← Tr.indexSet bb' 1 updates'.1
    let bb' ← Tr.indexSet bb' 3 updates'.2
    pure (bb', bbb')

/-- round!(bb[<expr>], bb[<expr>], bb[<expr>], bb[<expr>], bb[<expr>], <expr>[<expr>], <expr>, 0x00000000, bb[<expr>] ^ bb[<expr>] ^ bb[<expr>]) -/
def Engine.process_block_small.line1_5 (cfg : Cfg) (w : List (BitVec 32)) : Source.Ripemd160.Engine.process_block_small.State1 → Tr Source.Ripemd160.Engine.process_block_small.State1 :=
  fun (bb', bbb') => do
    let x_57 ← Tr.index bb' 0
    let x_58 ← Tr.index bb' 1
    let x_59 ← Tr.index bb' 2
    let x_60 ← Tr.index bb' 3
    let x_61 ← Tr.index bb' 4
    let x_62 ← Tr.index w 5
    let x_63 ← Tr.index bb' 1
    let x_64 ← Tr.index bb' 2
    let x_65 ← Tr.index bb' 3
    let updates' := Source.Ripemd160.small_hash.round cfg x_57 x_58 x_59 x_60 x_61 x_62 8#32 0x00000000#32 ((x_63 ^^^ x_64) ^^^ x_65)
    let bb' ← Tr.indexSet bb' 0 updates'.1
    let bb' ← Tr.indexSet bb' 2 updates'.2
    pure (bb', bbb')

/-- round!(bb[<expr>], bb[<expr>], bb[<expr>], bb[<expr>], bb[<expr>], <expr>[<expr>], <expr>, 0x00000000, bb[<expr>] ^ bb[<expr>] ^ bb[<expr>]) -/
def Engine.process_block_small.line1_6 (cfg : Cfg) (w : List (BitVec 32)) : Source.Ripemd160.Engine.process_block_small.State1 → Tr Source.Ripemd160.Engine.process_block_small.State1 :=
  fun (bb', bbb') => do
    let x_68 ← Tr.index bb' 4
    let x_69 ← Tr.index bb' 0
    let x_70 ← Tr.index bb' 1
    let x_71 ← Tr.index bb' 2
    let x_72 ← Tr.index bb' 3
    let x_73 ← Tr.index w 6
    let x_74 ← Tr.index bb' 0
    let x_75 ← Tr.index bb' 1
    let x_76 ← Tr.index bb' 2
    let updates' := Source.Ripemd160.small_hash.round cfg x_68 x_69 x_70 x_71 x_72 x_73 7#32 0x00000000#32 ((x_74 ^^^ x_75) ^^^ x_76)
    let bb' ← Tr.indexSet bb' 4 updates'.1
    let bb' ← Tr.indexSet bb' 1 updates'.2
    pure (bb', bbb')

/-- round!(bb[<expr>], bb[<expr>], bb[<expr>], bb[<expr>], bb[<expr>], <expr>[<expr>], <expr>, 0x00000000, bb[<expr>] ^ bb[<expr>] ^ bb[<expr>]) -/
def Engine.process_block_small.line1_7 (cfg : Cfg) (w : List (BitVec 32)) : Source.Ripemd160.Engine.process_block_small.State1 → Tr Source.Ripemd160.Engine.process_block_small.State1 :=
  fun (bb', bbb') => do
    let x_79 ← Tr.index bb' 3
    let x_80 ← Tr.index bb' 4
    let x_81 ← Tr.index bb' 0
    let x_82 ← Tr.index bb' 1
    let x_83 ← Tr.index bb' 2
    let x_84 ← Tr.index w 7
    let x_85 ← Tr.index bb' 4
    let x_86 ← Tr.index bb' 0
    let x_87 ← Tr.index bb' 1
    let updates' := Source.Ripemd160.small_hash.round cfg x_79 x_80 x_81 x_82 x_83 x_84 9#32 0x00000000#32 ((x_85 ^^^ x_86) ^^^ x_87)
    let bb' ← Tr.indexSet bb' 3 updates'.1
    let bb' ← Tr.indexSet bb' 0 updates'.2
    pure (bb', bbb')

/-- round!(bb[<expr>], bb[<expr>], bb[<expr>], bb[<expr>], bb[<expr>], <expr>[<expr>], <expr>, 0x00000000, bb[<expr>] ^ bb[<expr>] ^ bb[<expr>]) -/
def Engine.process_block_small.line1_8 (cfg : Cfg) (w : List (BitVec 32)) : Source.Ripemd160.Engine.process_block_small.State1 → Tr Source.Ripemd160.Engine.process_block_small.State1 :=
  fun (bb', bbb') => do
    let x_90 ← Tr.index bb' 2
    let x_91 ← Tr.index bb' 3
    let x_92 ← Tr.index bb' 4
    let x_93 ← Tr.index bb' 0
    let x_94 ← Tr.index bb' 1
    let x_95 ← Tr.index w 8
    let x_96 ← Tr.index bb' 3
    let x_97 ← Tr.index bb' 4
    let x_98 ← Tr.index bb' 0
    let updates' := Source.Ripemd160.small_hash.round cfg x_90 x_91 x_92 x_93 x_94 x_95 11#32 0x00000000#32 ((x_96 ^^^ x_97) ^^^ x_98)
    let bb' ← Tr.indexSet bb' 2 updates'.1
    let bb' ← Tr.indexSet bb' 4 updates'.2
    pure (bb', bbb')

/-- round!(bb[<expr>], bb[<expr>], bb[<expr>], bb[<expr>], bb[<expr>], <expr>[<expr>], <expr>, 0x00000000, bb[<expr>] ^ bb[<expr>] ^ bb[<expr>]) -/
def Engine.process_block_small.line1_9 (cfg : Cfg) (w : List (BitVec 32)) : Source.Ripemd160.Engine.process_block_small.State1 → Tr Source.Ripemd160.Engine.process_block_small.State1 :=
  fun (bb', bbb') => do
    let x_101 ← Tr.index bb' 1
    let x_102 ← Tr.index bb' 2
    let x_103 ← Tr.index bb' 3
    let x_104 ← Tr.index bb' 4
    let x_105 ← Tr.index bb' 0
    let x_106 ← Tr.index w 9
    let x_107 ← Tr.index bb' 2
    let x_108 ← Tr.index bb' 3
    let x_109 ← Tr.index bb' 4
    let updates' := Source.Ripemd160.small_hash.round cfg x_101 x_102 x_103 x_104 x_105 x_106 13#32 0x00000000#32 ((x_107 ^^^ x_108) ^^^ x_109)
    let bb' ← Tr.indexSet bb' 1 updates'.1
    let bb' ← Tr.indexSet bb' 3 updates'.2
    pure (bb', bbb')

/-- round!(bb[<expr>], bb[<expr>], bb[<expr>], bb[<expr>], bb[<expr>], <expr>[<expr>], <expr>, 0x00000000, bb[<expr>] ^ bb[<expr>] ^ bb[<expr>]) -/
def Engine.process_block_small.line1_10 (cfg : Cfg) (w : List (BitVec 32)) : Source.Ripemd160.Engine.process_block_small.State1 → Tr Source.Ripemd160.Engine.process_block_small.State1 :=
  fun (bb', bbb') => do
    let x_112 ← Tr.index bb' 0
    let x_113 ← Tr.index bb' 1
    let x_114 ← Tr.index bb' 2
    let x_115 ← Tr.index bb' 3
    let x_116 ← Tr.index bb' 4
    let x_117 ← Tr.index w 10
    let x_118 ← Tr.index bb' 1
    let x_119 ← Tr.index bb' 2
    let x_120 ← Tr.index bb' 3
    let updates' := Source.Ripemd160.small_hash.round cfg x_112 x_113 x_114 x_115 x_116 x_117 14#32 0x00000000#32 ((x_118 ^^^ x_119) ^^^ x_120)
    let bb' ← Tr.indexSet bb' 0 updates'.1
    let bb' ← Tr.indexSet bb' 2 updates'.2
    pure (bb', bbb')

/-- round!(bb[<expr>], bb[<expr>], bb[<expr>], bb[<expr>], bb[<expr>], <expr>[<expr>], <expr>, 0x00000000, bb[<expr>] ^ bb[<expr>] ^ bb[<expr>]) -/
def Engine.process_block_small.line1_11 (cfg : Cfg) (w : List (BitVec 32)) : Source.Ripemd160.Engine.process_block_small.State1 → Tr Source.Ripemd160.Engine.process_block_small.State1 :=
  fun (bb', bbb') => do
    let x_123 ← Tr.index bb' 4
    let x_124 ← Tr.index bb' 0
    let x_125 ← Tr.index bb' 1
    let x_126 ← Tr.index bb' 2
    let x_127 ← Tr.index bb' 3
    let x_128 ← Tr.index w 11
    let x_129 ← Tr.index bb' 0
    let x_130 ← Tr.index bb' 1
    let x_131 ← Tr.index bb' 2
    let updates' := Source.Ripemd160.small_hash.round cfg x_123 x_124 x_125 x_126 x_127 x_128 15#32 0x00000000#32 ((x_129 ^^^ x_130) ^^^ x_131)
    let bb' ← Tr.indexSet bb' 4 updates'.1
    let bb' ← Tr.indexSet bb' 1 updates'.2
    pure (bb', bbb')

/-- round!(bb[<expr>], bb[<expr>], bb[<expr>], bb[<expr>], bb[<expr>], <expr>[<expr>], <expr>, 0x00000000, bb[<expr>] ^ bb[<expr>] ^ bb[<expr>]) -/
def Engine.process_block_small.line1_12 (cfg : Cfg) (w : List (BitVec 32)) : Source.Ripemd160.Engine.process_block_small.State1 → Tr Source.Ripemd160.Engine.process_block_small.State1 :=
  fun (bb', bbb') => do
    let x_134 ← Tr.index bb' 3
    let x_135 ← Tr.index bb' 4
    let x_136 ← Tr.index bb' 0
    let x_137 ← Tr.index bb' 1
    let x_138 ← Tr.index bb' 2
    let x_139 ← Tr.index w 12
    let x_140 ← Tr.index bb' 4
    let x_141 ← Tr.index bb' 0
    let x_142 ← Tr.index bb' 1
    let updates' := Source.Ripemd160.small_hash.round cfg x_134 x_135 x_136 x_137 x_138 x_139 6#32 0x00000000#32 ((x_140 ^^^ x_141) ^^^ x_142)
    let bb' ← Tr.indexSet bb' 3 updates'.1
    let bb' ← Tr.indexSet bb' 0 updates'.2
    pure (bb', bbb')

/-- round!(bb[<expr>], bb[<expr>], bb[<expr>], bb[<expr>], bb[<expr>], <expr>[<expr>], <expr>, 0x00000000, bb[<expr>] ^ bb[<expr>] ^ bb[<expr>]) -/
def Engine.process_block_small.line1_13 (cfg : Cfg) (w : List (BitVec 32)) : Source.Ripemd160.Engine.process_block_small.State1 → Tr Source.Ripemd160.Engine.process_block_small.State1 :=
  fun (bb', bbb') => do
    let x_145 ← Tr.index bb' 2
    let x_146 ← Tr.index bb' 3
    let x_147 ← Tr.index bb' 4
    let x_148 ← Tr.index bb' 0
    let x_149 ← Tr.index bb' 1
    let x_150 ← Tr.index w 13
    let x_151 ← Tr.index bb' 3
    let x_152 ← Tr.index bb' 4
    let x_153 ← Tr.index bb' 0
    let updates' := Source.Ripemd160.small_hash.round cfg x_145 x_146 x_147 x_148 x_149 x_150 7#32 0x00000000#32 ((x_151 ^^^ x_152) ^^^ x_153)
    let bb' ← Tr.indexSet bb' 2 updates'.1
    let bb' ← Tr.indexSet bb' 4 updates'.2
    pure (bb', bbb')

/-- round!(bb[<expr>], bb[<expr>], bb[<expr>], bb[<expr>], bb[<expr>], <expr>[<expr>], <expr>, 0x00000000, bb[<expr>] ^ bb[<expr>] ^ bb[<expr>]) -/
def Engine.process_block_small.line1_14 (cfg : Cfg) (w : List (BitVec 32)) : Source.Ripemd160.Engine.process_block_small.State1 → Tr Source.Ripemd160.Engine.process_block_small.State1 :=
  fun (bb', bbb') => do
    let x_156 ← Tr.index bb' 1
    let x_157 ← Tr.index bb' 2
    let x_158 ← Tr.index bb' 3
    let x_159 ← Tr.index bb' 4
    let x_160 ← Tr.index bb' 0
    let x_161 ← Tr.index w 14
    let x_162 ← Tr.index bb' 2
    let x_163 ← Tr.index bb' 3
    let x_164 ← Tr.index bb' 4
    let updates' := Source.Ripemd160.small_hash.round cfg x_156 x_157 x_158 x_159 x_160 x_161 9#32 0x00000000#32 ((x_162 ^^^ x_163) ^^^ x_164)
    let bb' ← Tr.indexSet bb' 1 updates'.1
    let bb' ← Tr.indexSet bb' 3 updates'.2
    pure (bb', bbb')

/-- round!(bb[<expr>], bb[<expr>], bb[<expr>], bb[<expr>], bb[<expr>], <expr>[<expr>], <expr>, 0x00000000, bb[<expr>] ^ bb[<expr>] ^ bb[<expr>]) -/
def Engine.process_block_small.line1_15 (cfg : Cfg) (w : List (BitVec 32)) : Source.Ripemd160.Engine.process_block_small.State1 → Tr Source.Ripemd160.Engine.process_block_small.State1 :=
  fun (bb', bbb') => do
    let x_167 ← Tr.index bb' 0
    let x_168 ← Tr.index bb' 1
    let x_169 ← Tr.index bb' 2
    let x_170 ← Tr.index bb' 3
    let x_171 ← Tr.index bb' 4
    let x_172 ← Tr.index w 15
    let x_173 ← Tr.index bb' 1
    let x_174 ← Tr.index bb' 2
    let x_175 ← Tr.index bb' 3
    let updates' := Source.Ripemd160.small_hash.round cfg x_167 x_168 x_169 x_170 x_171 x_172 8#32 0x00000000#32 ((x_173 ^^^ x_174) ^^^ x_175)
    let bb' ← Tr.indexSet bb' 0 updates'.1
    let bb' ← Tr.indexSet bb' 2 updates'.2
    pure (bb', bbb')

/-- round!(bb[<expr>], bb[<expr>], bb[<expr>], bb[<expr>], bb[<expr>], <expr>[<expr>], <expr>, 0x5a827999,(bb[<expr>] & bb[<expr>]) |(! bb[<expr>] & bb[<expr>])) -/
def Engine.process_block_small.line1_16 (cfg : Cfg) (w : List (BitVec 32)) : Source.Ripemd160.Engine.process_block_small.State1 → Tr Source.Ripemd160.Engine.process_block_small.State1 :=
  fun (bb', bbb') => do
    let x_178 ← Tr.index bb' 4
    let x_179 ← Tr.index bb' 0
    let x_180 ← Tr.index bb' 1
    let x_181 ← Tr.index bb' 2
    let x_182 ← Tr.index bb' 3
    let x_183 ← Tr.index w 7
    let x_184 ← Tr.index bb' 0
    let x_185 ← Tr.index bb' 1
    let x_186 ← Tr.index bb' 0
    let x_187 ← Tr.index bb' 2
    let updates' := Source.Ripemd160.small_hash.round cfg x_178 x_179 x_180 x_181 x_182 x_183 7#32 0x5a827999#32 ((x_184 &&& x_185) ||| ((~~~x_186) &&& x_187))
    let bb' ← Tr.indexSet bb' 4 updates'.1
    let bb' ← Tr.indexSet bb' 1 updates'.2
    pure (bb', bbb')

/-- round!(bb[<expr>], bb[<expr>], bb[<expr>], bb[<expr>], bb[<expr>], <expr>[<expr>], <expr>, 0x5a827999,(bb[<expr>] & bb[<expr>]) |(! bb[<expr>] & bb[<expr>])) -/
def Engine.process_block_small.line1_17 (cfg : Cfg) (w : List (BitVec 32)) : Source.Ripemd160.Engine.process_block_small.State1 → Tr Source.Ripemd160.Engine.process_block_small.State1 :=
  fun (bb', bbb') => do
    let x_190 ← Tr.index bb' 3
    let x_191 ← Tr.index bb' 4
    let x_192 ← Tr.index bb' 0
    let x_193 ← Tr.index bb' 1
    let x_194 ← Tr.index bb' 2
    let x_195 ← Tr.index w 4
    let x_196 ← Tr.index bb' 4
    let x_197 ← Tr.index bb' 0
    let x_198 ← Tr.index bb' 4
    let x_199 ← Tr.index bb' 1
    let updates' := Source.Ripemd160.small_hash.round cfg x_190 x_191 x_192 x_193 x_194 x_195 6#32 0x5a827999#32 ((x_196 &&& x_197) ||| ((~~~x_198) &&& x_199))
    let bb' ← Tr.indexSet bb' 3 updates'.1
    let bb' ← Tr.indexSet bb' 0 updates'.2
    pure (bb', bbb')

/-- round!(bb[<expr>], bb[<expr>], bb[<expr>], bb[<expr>], bb[<expr>], <expr>[<expr>], <expr>, 0x5a827999,(bb[<expr>] & bb[<expr>]) |(! bb[<expr>] & bb[<expr>])) -/
def Engine.process_block_small.line1_18 (cfg : Cfg) (w : List (BitVec 32)) : Source.Ripemd160.Engine.process_block_small.State1 → Tr Source.Ripemd160.Engine.process_block_small.State1 :=
  fun (bb', bbb') => do
    let x_202 ← Tr.index bb' 2
    let x_203 ← Tr.index bb' 3
    let x_204 ← Tr.index bb' 4
    let x_205 ← Tr.index bb' 0
    let x_206 ← Tr.index bb' 1
    let x_207 ← Tr.index w 13
    let x_208 ← Tr.index bb' 3
    let x_209 ← Tr.index bb' 4
    let x_210 ← Tr.index bb' 3
    let x_211 ← Tr.index bb' 0
    let updates' := Source.Ripemd160.small_hash.round cfg x_202 x_203 x_204 x_205 x_206 x_207 8#32 0x5a827999#32 ((x_208 &&& x_209) ||| ((~~~x_210) &&& x_211))
    let bb' ← Tr.indexSet bb' 2 updates'.1
    let bb' ← Tr.indexSet bb' 4 updates'.2
    pure (bb', bbb')

/-- round!(bb[<expr>], bb[<expr>], bb[<expr>], bb[<expr>], bb[<expr>], <expr>[<expr>], <expr>, 0x5a827999,(bb[<expr>] & bb[<expr>]) |(! bb[<expr>] & bb[<expr>])) -/
def Engine.process_block_small.line1_19 (cfg : Cfg) (w : List (BitVec 32)) : Source.Ripemd160.Engine.process_block_small.State1 → Tr Source.Ripemd160.Engine.process_block_small.State1 :=
  fun (bb', bbb') => do
    let x_214 ← Tr.index bb' 1
    let x_215 ← Tr.index bb' 2
    let x_216 ← Tr.index bb' 3
    let x_217 ← Tr.index bb' 4
    let x_218 ← Tr.index bb' 0
    let x_219 ← Tr.index w 1
    let x_220 ← Tr.index bb' 2
    let x_221 ← Tr.index bb' 3
    let x_222 ← Tr.index bb' 2
    let x_223 ← Tr.index bb' 4
    let updates' := Source.Ripemd160.small_hash.round cfg x_214 x_215 x_216 x_217 x_218 x_219 13#32 0x5a827999#32 ((x_220 &&& x_221) ||| ((~~~x_222) &&& x_223))
    let bb' ← Tr.indexSet bb' 1 updates'.1
    let bb' ← Tr.indexSet bb' 3 updates'.2
    pure (bb', bbb')

/-- round!(bb[<expr>], bb[<expr>], bb[<expr>], bb[<expr>], bb[<expr>], <expr>[<expr>], <expr>, 0x5a827999,(bb[<expr>] & bb[<expr>]) |(! bb[<expr>] & bb[<expr>])) -/
def Engine.process_block_small.line1_20 (cfg : Cfg) (w : List (BitVec 32)) : Source.Ripemd160.Engine.process_block_small.State1 → Tr Source.Ripemd160.Engine.process_block_small.State1 :=
  fun (bb', bbb') => do
    let x_226 ← Tr.index bb' 0
    let x_227 ← Tr.index bb' 1
    let x_228 ← Tr.index bb' 2
    let x_229 ← Tr.index bb' 3
    let x_230 ← Tr.index bb' 4
    let x_231 ← Tr.index w 10
    let x_232 ← Tr.index bb' 1
    let x_233 ← Tr.index bb' 2
    let x_234 ← Tr.index bb' 1
    let x_235 ← Tr.index bb' 3
    let updates' := Source.Ripemd160.small_hash.round cfg x_226 x_227 x_228 x_229 x_230 x_231 11#32 0x5a827999#32 ((x_232 &&& x_233) ||| ((~~~x_234) &&& x_235))
    let bb' ← Tr.indexSet bb' 0 updates'.1
    let bb' ← Tr.indexSet bb' 2 updates'.2
    pure (bb', bbb')

/-- round!(bb[<expr>], bb[<expr>], bb[<expr>], bb[<expr>], bb[<expr>], <expr>[<expr>], <expr>, 0x5a827999,(bb[<expr>] & bb[<expr>]) |(! bb[<expr>] & bb[<expr>])) -/
def Engine.process_block_small.line1_21 (cfg : Cfg) (w : List (BitVec 32)) : Source.Ripemd160.Engine.process_block_small.State1 → Tr Source.Ripemd160.Engine.process_block_small.State1 :=
  fun (bb', bbb') => do
    let x_238 ← Tr.index bb' 4
    let x_239 ← Tr.index bb' 0
    let x_240 ← Tr.index bb' 1
    let x_241 ← Tr.index bb' 2
    let x_242 ← Tr.index bb' 3
    let x_243 ← Tr.index w 6
    let x_244 ← Tr.index bb' 0
    let x_245 ← Tr.index bb' 1
    let x_246 ← Tr.index bb' 0
    let x_247 ← Tr.index bb' 2
    let updates' := Source.Ripemd160.small_hash.round cfg x_238 x_239 x_240 x_241 x_242 x_243 9#32 0x5a827999#32 ((x_244 &&& x_245) ||| ((~~~x_246) &&& x_247))
    let bb' ← Tr.indexSet bb' 4 updates'.1
    let bb' ← Tr.indexSet bb' 1 updates'.2
    pure (bb', bbb')

/-- round!(bb[<expr>], bb[<expr>], bb[<expr>], bb[<expr>], bb[<expr>], <expr>[<expr>], <expr>, 0x5a827999,(bb[<expr>] & bb[<expr>]) |(! bb[<expr>] & bb[<expr>])) -/
def Engine.process_block_small.line1_22 (cfg : Cfg) (w : List (BitVec 32)) : Source.Ripemd160.Engine.process_block_small.State1 → Tr Source.Ripemd160.Engine.process_block_small.State1 :=
  fun (bb', bbb') => do
    let x_250 ← Tr.index bb' 3
    let x_251 ← Tr.index bb' 4
    let x_252 ← Tr.index bb' 0
    let x_253 ← Tr.index bb' 1
    let x_254 ← Tr.index bb' 2
    let x_255 ← Tr.index w 15
    let x_256 ← Tr.index bb' 4
    let x_257 ← Tr.index bb' 0
    let x_258 ← Tr.index bb' 4
    let x_259 ← Tr.index bb' 1
    let updates' := Source.Ripemd160.small_hash.round cfg x_250 x_251 x_252 x_253 x_254 x_255 7#32 0x5a827999#32 ((x_256 &&& x_257) ||| ((~~~x_258) &&& x_259))
    let bb' ← Tr.indexSet bb' 3 updates'.1
    let bb' ← Tr.indexSet bb' 0 updates'.2
    pure (bb', bbb')

/-- round!(bb[<expr>], bb[<expr>], bb[<expr>], bb[<expr>], bb[<expr>], <expr>[<expr>], <expr>, 0x5a827999,(bb[<expr>] & bb[<expr>]) |(! bb[<expr>] & bb[<expr>])) -/
def Engine.process_block_small.line1_23 (cfg : Cfg) (w : List (BitVec 32)) : Source.Ripemd160.Engine.process_block_small.State1 → Tr Source.Ripemd160.Engine.process_block_small.State1 :=
  fun (bb', bbb') => do
    let x_262 ← Tr.index bb' 2
    let x_263 ← Tr.index bb' 3
    let x_264 ← Tr.index bb' 4
    let x_265 ← Tr.index bb' 0
    let x_266 ← Tr.index bb' 1
    let x_267 ← Tr.index w 3
    let x_268 ← Tr.index bb' 3
    let x_269 ← Tr.index bb' 4
    let x_270 ← Tr.index bb' 3
    let x_271 ← Tr.index bb' 0
    let updates' := Source.Ripemd160.small_hash.round cfg x_262 x_263 x_264 x_265 x_266 x_267 15#32 0x5a827999#32 ((x_268 &&& x_269) ||| ((~~~x_270) &&& x_271))
    let bb' ← Tr.indexSet bb' 2 updates'.1
    let bb' ← Tr.indexSet bb' 4 updates'.2
    pure (bb', bbb')

/-- round!(bb[<expr>], bb[<expr>], bb[<expr>], bb[<expr>], bb[<expr>], <expr>[<expr>], <expr>, 0x5a827999,(bb[<expr>] & bb[<expr>]) |(! bb[<expr>] & bb[<expr>])) -/
def Engine.process_block_small.line1_24 (cfg : Cfg) (w : List (BitVec 32)) : Source.Ripemd160.Engine.process_block_small.State1 → Tr Source.Ripemd160.Engine.process_block_small.State1 :=
  fun (bb', bbb') => do
    let x_274 ← Tr.index bb' 1
    let x_275 ← Tr.index bb' 2
    let x_276 ← Tr.index bb' 3
    let x_277 ← Tr.index bb' 4
    let x_278 ← Tr.index bb' 0
    let x_279 ← Tr.index w 12
    let x_280 ← Tr.index bb' 2
    let x_281 ← Tr.index bb' 3
    let x_282 ← Tr.index bb' 2
    let x_283 ← Tr.index bb' 4
    let updates' := Source.Ripemd160.small_hash.round cfg x_274 x_275 x_276 x_277 x_278 x_279 7#32 0x5a827999#32 ((x_280 &&& x_281) ||| ((~~~x_282) &&& x_283))
    let bb' ← Tr.indexSet bb' 1 updates'.1
    let bb' ← Tr.indexSet bb' 3 updates'.2
    pure (bb', bbb')

/-- round!(bb[<expr>], bb[<expr>], bb[<expr>], bb[<expr>], bb[<expr>], <expr>[<expr>], <expr>, 0x5a827999,(bb[<expr>] & bb[<expr>]) |(! bb[<expr>] & bb[<expr>])) -/
def Engine.process_block_small.line1_25 (cfg : Cfg) (w : List (BitVec 32)) : Source.Ripemd160.Engine.process_block_small.State1 → Tr Source.Ripemd160.Engine.process_block_small.State1 :=
  fun (bb', bbb') => do
    let x_286 ← Tr.index bb' 0
    let x_287 ← Tr.index bb' 1
    let x_288 ← Tr.index bb' 2
    let x_289 ← Tr.index bb' 3
    let x_290 ← Tr.index bb' 4
    let x_291 ← Tr.index w 0
    let x_292 ← Tr.index bb' 1
    let x_293 ← Tr.index bb' 2
    let x_294 ← Tr.index bb' 1
    let x_295 ← Tr.index bb' 3
    let updates' := Source.Ripemd160.small_hash.round cfg x_286 x_287 x_288 x_289 x_290 x_291 12#32 0x5a827999#32 ((x_292 &&& x_293) ||| ((~~~x_294) &&& x_295))
    let bb' ← Tr.indexSet bb' 0 updates'.1
    let bb' ← Tr.indexSet bb' 2 updates'.2
    pure (bb', bbb')

/-- round!(bb[<expr>], bb[<expr>], bb[<expr>], bb[<expr>], bb[<expr>], <expr>[<expr>], <expr>, 0x5a827999,(bb[<expr>] & bb[<expr>]) |(! bb[<expr>] & bb[<expr>])) -/
def Engine.process_block_small.line1_26 (cfg : Cfg) (w : List (BitVec 32)) : Source.Ripemd160.Engine.process_block_small.State1 → Tr Source.Ripemd160.Engine.process_block_small.State1 :=
  fun (bb', bbb') => do
    let x_298 ← Tr.index bb' 4
    let x_299 ← Tr.index bb' 0
    let x_300 ← Tr.index bb' 1
    let x_301 ← Tr.index bb' 2
    let x_302 ← Tr.index bb' 3
    let x_303 ← Tr.index w 9
    let x_304 ← Tr.index bb' 0
    let x_305 ← Tr.index bb' 1
    let x_306 ← Tr.index bb' 0
    let x_307 ← Tr.index bb' 2
    let updates' := Source.Ripemd160.small_hash.round cfg x_298 x_299 x_300 x_301 x_302 x_303 15#32 0x5a827999#32 ((x_304 &&& x_305) ||| ((~~~x_306) &&& x_307))
    let bb' ← Tr.indexSet bb' 4 updates'.1
    let bb' ← Tr.indexSet bb' 1 updates'.2
    pure (bb', bbb')

/-- round!(bb[<expr>], bb[<expr>], bb[<expr>], bb[<expr>], bb[<expr>], <expr>[<expr>], <expr>, 0x5a827999,(bb[<expr>] & bb[<expr>]) |(! bb[<expr>] & bb[<expr>])) -/
def Engine.process_block_small.line1_27 (cfg : Cfg) (w : List (BitVec 32)) : Source.Ripemd160.Engine.process_block_small.State1 → Tr Source.Ripemd160.Engine.process_block_small.State1 :=
  fun (bb', bbb') => do
    let x_310 ← Tr.index bb' 3
    let x_311 ← Tr.index bb' 4
    let x_312 ← Tr.index bb' 0
    let x_313 ← Tr.index bb' 1
    let x_314 ← Tr.index bb' 2
    let x_315 ← Tr.index w 5
    let x_316 ← Tr.index bb' 4
    let x_317 ← Tr.index bb' 0
    let x_318 ← Tr.index bb' 4
    let x_319 ← Tr.index bb' 1
    let updates' := Source.Ripemd160.small_hash.round cfg x_310 x_311 x_312 x_313 x_314 x_315 9#32 0x5a827999#32 ((x_316 &&& x_317) ||| ((~~~x_318) &&& x_319))
    let bb' ← Tr.indexSet bb' 3 updates'.1
    let bb' ← Tr.indexSet bb' 0 updates'.2
    pure (bb', bbb')

/-- round!(bb[<expr>], bb[<expr>], bb[<expr>], bb[<expr>], bb[<expr>], <expr>[<expr>], <expr>, 0x5a827999,(bb[<expr>] & bb[<expr>]) |(! bb[<expr>] & bb[<expr>])) -/
def Engine.process_block_small.line1_28 (cfg : Cfg) (w : List (BitVec 32)) : Source.Ripemd160.Engine.process_block_small.State1 → Tr Source.Ripemd160.Engine.process_block_small.State1 :=
  fun (bb', bbb') => do
    let x_322 ← Tr.index bb' 2
    let x_323 ← Tr.index bb' 3
    let x_324 ← Tr.index bb' 4
    let x_325 ← Tr.index bb' 0
    let x_326 ← Tr.index bb' 1
    let x_327 ← Tr.index w 2
    let x_328 ← Tr.index bb' 3
    let x_329 ← Tr.index bb' 4
    let x_330 ← Tr.index bb' 3
    let x_331 ← Tr.index bb' 0
    let updates' := Source.Ripemd160.small_hash.round cfg x_322 x_323 x_324 x_325 x_326 x_327 11#32 0x5a827999#32 ((x_328 &&& x_329) ||| ((~~~x_330) &&& x_331))
    let bb' ← Tr.indexSet bb' 2 updates'.1
    let bb' ← Tr.indexSet bb' 4 updates'.2
    pure (bb', bbb')

/-- round!(bb[<expr>], bb[<expr>], bb[<expr>], bb[<expr>], bb[<expr>], <expr>[<expr>], <expr>, 0x5a827999,(bb[<expr>] & bb[<expr>]) |(! bb[<expr>] & bb[<expr>])) -/
def Engine.process_block_small.line1_29 (cfg : Cfg) (w : List (BitVec 32)) : Source.Ripemd160.Engine.process_block_small.State1 → Tr Source.Ripemd160.Engine.process_block_small.State1 :=
  fun (bb', bbb') => do
    let x_334 ← Tr.index bb' 1
    let x_335 ← Tr.index bb' 2
    let x_336 ← Tr.index bb' 3
    let x_337 ← Tr.index bb' 4
    let x_338 ← Tr.index bb' 0
    let x_339 ← Tr.index w 14
    let x_340 ← Tr.index bb' 2
    let x_341 ← Tr.index bb' 3
    let x_342 ← Tr.index bb' 2
    let x_343 ← Tr.index bb' 4
    let updates' := Source.Ripemd160.small_hash.round cfg x_334 x_335 x_336 x_337 x_338 x_339 7#32 0x5a827999#32 ((x_340 &&& x_341) ||| ((~~~x_342) &&& x_343))
    let bb' ← Tr.indexSet bb' 1 updates'.1
    let bb' ← Tr.indexSet bb' 3 updates'.2
    pure (bb', bbb')

/-- round!(bb[<expr>], bb[<expr>], bb[<expr>], bb[<expr>], bb[<expr>], <expr>[<expr>], <expr>, 0x5a827999,(bb[<expr>] & bb[<expr>]) |(! bb[<expr>] & bb[<expr>])) -/
def Engine.process_block_small.line1_30 (cfg : Cfg) (w : List (BitVec 32)) : Source.Ripemd160.Engine.process_block_small.State1 → Tr Source.Ripemd160.Engine.process_block_small.State1 :=
  fun (bb', bbb') => do
    let x_346 ← Tr.index bb' 0
    let x_347 ← Tr.index bb' 1
    let x_348 ← Tr.index bb' 2
    let x_349 ← Tr.index bb' 3
    let x_350 ← Tr.index bb' 4
    let x_351 ← Tr.index w 11
    let x_352 ← Tr.index bb' 1
    let x_353 ← Tr.index bb' 2
    let x_354 ← Tr.index bb' 1
    let x_355 ← Tr.index bb' 3
    let updates' := Source.Ripemd160.small_hash.round cfg x_346 x_347 x_348 x_349 x_350 x_351 13#32 0x5a827999#32 ((x_352 &&& x_353) ||| ((~~~x_354) &&& x_355))
    let bb' ← Tr.indexSet bb' 0 updates'.1
    let bb' ← Tr.indexSet bb' 2 updates'.2
    pure (bb', bbb')

/-- round!(bb[<expr>], bb[<expr>], bb[<expr>], bb[<expr>], bb[<expr>], <expr>[<expr>], <expr>, 0x5a827999,(bb[<expr>] & bb[<expr>]) |(! bb[<expr>] & bb[<expr>])) -/
def Engine.process_block_small.line1_31 (cfg : Cfg) (w : List (BitVec 32)) : Source.Ripemd160.Engine.process_block_small.State1 → Tr Source.Ripemd160.Engine.process_block_small.State1 :=
  fun (bb', bbb') => do
    let x_358 ← Tr.index bb' 4
    let x_359 ← Tr.index bb' 0
    let x_360 ← Tr.index bb' 1
    let x_361 ← Tr.index bb' 2
    let x_362 ← Tr.index bb' 3
    let x_363 ← Tr.index w 8
    let x_364 ← Tr.index bb' 0
    let x_365 ← Tr.index bb' 1
    let x_366 ← Tr.index bb' 0
    let x_367 ← Tr.index bb' 2
    let updates' := Source.Ripemd160.small_hash.round cfg x_358 x_359 x_360 x_361 x_362 x_363 12#32 0x5a827999#32 ((x_364 &&& x_365) ||| ((~~~x_366) &&& x_367))
    let bb' ← Tr.indexSet bb' 4 updates'.1
    let bb' ← Tr.indexSet bb' 1 updates'.2
    pure (bb', bbb')

/-- round!(bb[<expr>], bb[<expr>], bb[<expr>], bb[<expr>], bb[<expr>], <expr>[<expr>], <expr>, 0x6ed9eba1,(bb[<expr>] | ! bb[<expr>]) ^ bb[<expr>]) -/
def Engine.process_block_small.line1_32 (cfg : Cfg) (w : List (BitVec 32)) : Source.Ripemd160.Engine.process_block_small.State1 → Tr Source.Ripemd160.Engine.process_block_small.State1 :=
  fun (bb', bbb') => do
    let x_370 ← Tr.index bb' 3
    let x_371 ← Tr.index bb' 4
    let x_372 ← Tr.index bb' 0
    let x_373 ← Tr.index bb' 1
    let x_374 ← Tr.index bb' 2
    let x_375 ← Tr.index w 3
    let x_376 ← Tr.index bb' 4
    let x_377 ← Tr.index bb' 0
    let x_378 ← Tr.index bb' 1
    let updates' := Source.Ripemd160.small_hash.round cfg x_370 x_371 x_372 x_373 x_374 x_375 11#32 0x6ed9eba1#32 ((x_376 ||| (~~~x_377)) ^^^ x_378)
    let bb' ← Tr.indexSet bb' 3 updates'.1
    let bb' ← Tr.indexSet bb' 0 updates'.2
    pure (bb', bbb')

/-- round!(bb[<expr>], bb[<expr>], bb[<expr>], bb[<expr>], bb[<expr>], <expr>[<expr>], <expr>, 0x6ed9eba1,(bb[<expr>] | ! bb[<expr>]) ^ bb[<expr>]) -/
def Engine.process_block_small.line1_33 (cfg : Cfg) (w : List (BitVec 32)) : Source.Ripemd160.Engine.process_block_small.State1 → Tr Source.Ripemd160.Engine.process_block_small.State1 :=
  fun (bb', bbb') => do
    let x_381 ← Tr.index bb' 2
    let x_382 ← Tr.index bb' 3
    let x_383 ← Tr.index bb' 4
    let x_384 ← Tr.index bb' 0
    let x_385 ← Tr.index bb' 1
    let x_386 ← Tr.index w 10
    let x_387 ← Tr.index bb' 3
    let x_388 ← Tr.index bb' 4
    let x_389 ← Tr.index bb' 0
    let updates' := Source.Ripemd160.small_hash.round cfg x_381 x_382 x_383 x_384 x_385 x_386 13#32 0x6ed9eba1#32 ((x_387 ||| (~~~x_388)) ^^^ x_389)
    let bb' ← Tr.indexSet bb' 2 updates'.1
    let bb' ← Tr.indexSet bb' 4 updates'.2
    pure (bb', bbb')

/-- round!(bb[<expr>], bb[<expr>], bb[<expr>], bb[<expr>], bb[<expr>], <expr>[<expr>], <expr>, 0x6ed9eba1,(bb[<expr>] | ! bb[<expr>]) ^ bb[<expr>]) -/
def Engine.process_block_small.line1_34 (cfg : Cfg) (w : List (BitVec 32)) : Source.Ripemd160.Engine.process_block_small.State1 → Tr Source.Ripemd160.Engine.process_block_small.State1 :=
  fun (bb', bbb') => do
    let x_392 ← Tr.index bb' 1
    let x_393 ← Tr.index bb' 2
    let x_394 ← Tr.index bb' 3
    let x_395 ← Tr.index bb' 4
    let x_396 ← Tr.index bb' 0
    let x_397 ← Tr.index w 14
    let x_398 ← Tr.index bb' 2
    let x_399 ← Tr.index bb' 3
    let x_400 ← Tr.index bb' 4
    let updates' := Source.Ripemd160.small_hash.round cfg x_392 x_393 x_394 x_395 x_396 x_397 6#32 0x6ed9eba1#32 ((x_398 ||| (~~~x_399)) ^^^ x_400)
    let bb' ← Tr.indexSet bb' 1 updates'.1
    let bb' ← Tr.indexSet bb' 3 updates'.2
    pure (bb', bbb')

/-- round!(bb[<expr>], bb[<expr>], bb[<expr>], bb[<expr>], bb[<expr>], <expr>[<expr>], <expr>, 0x6ed9eba1,(bb[<expr>] | ! bb[<expr>]) ^ bb[<expr>]) -/
def Engine.process_block_small.line1_35 (cfg : Cfg) (w : List (BitVec 32)) : Source.Ripemd160.Engine.process_block_small.State1 → Tr Source.Ripemd160.Engine.process_block_small.State1 :=
  fun (bb', bbb') => do
    let x_403 ← Tr.index bb' 0
    let x_404 ← Tr.index bb' 1
    let x_405 ← Tr.index bb' 2
    let x_406 ← Tr.index bb' 3
    let x_407 ← Tr.index bb' 4
    let x_408 ← Tr.index w 4
    let x_409 ← Tr.index bb' 1
    let x_410 ← Tr.index bb' 2
    let x_411 ← Tr.index bb' 3
    let updates' := Source.Ripemd160.small_hash.round cfg x_403 x_404 x_405 x_406 x_407 x_408 7#32 0x6ed9eba1#32 ((x_409 ||| (~~~x_410)) ^^^ x_411)
    let bb' ← Tr.indexSet bb' 0 updates'.1
    let bb' ← Tr.indexSet bb' 2 updates'.2
    pure (bb', bbb')

/-- round!(bb[<expr>], bb[<expr>], bb[<expr>], bb[<expr>], bb[<expr>], <expr>[<expr>], <expr>, 0x6ed9eba1,(bb[<expr>] | ! bb[<expr>]) ^ bb[<expr>]) -/
def Engine.process_block_small.line1_36 (cfg : Cfg) (w : List (BitVec 32)) : Source.Ripemd160.Engine.process_block_small.State1 → Tr Source.Ripemd160.Engine.process_block_small.State1 :=
  fun (bb', bbb') => do
    let x_414 ← Tr.index bb' 4
    let x_415 ← Tr.index bb' 0
    let x_416 ← Tr.index bb' 1
    let x_417 ← Tr.index bb' 2
    let x_418 ← Tr.index bb' 3
    let x_419 ← Tr.index w 9
    let x_420 ← Tr.index bb' 0
    let x_421 ← Tr.index bb' 1
    let x_422 ← Tr.index bb' 2
    let updates' := Source.Ripemd160.small_hash.round cfg x_414 x_415 x_416 x_417 x_418 x_419 14#32 0x6ed9eba1#32 ((x_420 ||| (~~~x_421)) ^^^ x_422)
    let bb' ← Tr.indexSet bb' 4 updates'.1
    let bb' ← Tr.indexSet bb' 1 updates'.2
    pure (bb', bbb')

/-- round!(bb[<expr>], bb[<expr>], bb[<expr>], bb[<expr>], bb[<expr>], <expr>[<expr>], <expr>, 0x6ed9eba1,(bb[<expr>] | ! bb[<expr>]) ^ bb[<expr>]) -/
def Engine.process_block_small.line1_37 (cfg : Cfg) (w : List (BitVec 32)) : Source.Ripemd160.Engine.process_block_small.State1 → Tr Source.Ripemd160.Engine.process_block_small.State1 :=
  fun (bb', bbb') => do
    let x_425 ← Tr.index bb' 3
    let x_426 ← Tr.index bb' 4
    let x_427 ← Tr.index bb' 0
    let x_428 ← Tr.index bb' 1
    let x_429 ← Tr.index bb' 2
    let x_430 ← Tr.index w 15
    let x_431 ← Tr.index bb' 4
    let x_432 ← Tr.index bb' 0
    let x_433 ← Tr.index bb' 1
    let updates' := Source.Ripemd160.small_hash.round cfg x_425 x_426 x_427 x_428 x_429 x_430 9#32 0x6ed9eba1#32 ((x_431 ||| (~~~x_432)) ^^^ x_433)
    let bb' ← Tr.indexSet bb' 3 updates'.1
    let bb' ← Tr.indexSet bb' 0 updates'.2
    pure (bb', bbb')

/-- round!(bb[<expr>], bb[<expr>], bb[<expr>], bb[<expr>], bb[<expr>], <expr>[<expr>], <expr>, 0x6ed9eba1,(bb[<expr>] | ! bb[<expr>]) ^ bb[<expr>]) -/
def Engine.process_block_small.line1_38 (cfg : Cfg) (w : List (BitVec 32)) : Source.Ripemd160.Engine.process_block_small.State1 → Tr Source.Ripemd160.Engine.process_block_small.State1 :=
  fun (bb', bbb') => do
    let x_436 ← Tr.index bb' 2
    let x_437 ← Tr.index bb' 3
    let x_438 ← Tr.index bb' 4
    let x_439 ← Tr.index bb' 0
    let x_440 ← Tr.index bb' 1
    let x_441 ← Tr.index w 8
    let x_442 ← Tr.index bb' 3
    let x_443 ← Tr.index bb' 4
    let x_444 ← Tr.index bb' 0
    let updates' := Source.Ripemd160.small_hash.round cfg x_436 x_437 x_438 x_439 x_440 x_441 13#32 0x6ed9eba1#32 ((x_442 ||| (~~~x_443)) ^^^ x_444)
    let bb' ← Tr.indexSet bb' 2 updates'.1
    let bb' ← Tr.indexSet bb' 4 updates'.2
    pure (bb', bbb')

/-- round!(bb[<expr>], bb[<expr>], bb[<expr>], bb[<expr>], bb[<expr>], <expr>[<expr>], <expr>, 0x6ed9eba1,(bb[<expr>] | ! bb[<expr>]) ^ bb[<expr>]) -/
def Engine.process_block_small.line1_39 (cfg : Cfg) (w : List (BitVec 32)) : Source.Ripemd160.Engine.process_block_small.State1 → Tr Source.Ripemd160.Engine.process_block_small.State1 :=
  fun (bb', bbb') => do
    let x_447 ← Tr.index bb' 1
    let x_448 ← Tr.index bb' 2
    let x_449 ← Tr.index bb' 3
    let x_450 ← Tr.index bb' 4
    let x_451 ← Tr.index bb' 0
    let x_452 ← Tr.index w 1
    let x_453 ← Tr.index bb' 2
    let x_454 ← Tr.index bb' 3
    let x_455 ← Tr.index bb' 4
    let updates' := Source.Ripemd160.small_hash.round cfg x_447 x_448 x_449 x_450 x_451 x_452 15#32 0x6ed9eba1#32 ((x_453 ||| (~~~x_454)) ^^^ x_455)
    let bb' ← Tr.indexSet bb' 1 updates'.1
    let bb' ← Tr.indexSet bb' 3 updates'.2
    pure (bb', bbb')

/-- round!(bb[<expr>], bb[<expr>], bb[<expr>], bb[<expr>], bb[<expr>], <expr>[<expr>], <expr>, 0x6ed9eba1,(bb[<expr>] | ! bb[<expr>]) ^ bb[<expr>]) -/
def Engine.process_block_small.line1_40 (cfg : Cfg) (w : List (BitVec 32)) : Source.Ripemd160.Engine.process_block_small.State1 → Tr Source.Ripemd160.Engine.process_block_small.State1 :=
  fun (bb', bbb') => do
    let x_458 ← Tr.index bb' 0
    let x_459 ← Tr.index bb' 1
    let x_460 ← Tr.index bb' 2
    let x_461 ← Tr.index bb' 3
    let x_462 ← Tr.index bb' 4
    let x_463 ← Tr.index w 2
    let x_464 ← Tr.index bb' 1
    let x_465 ← Tr.index bb' 2
    let x_466 ← Tr.index bb' 3
    let updates' := Source.Ripemd160.small_hash.round cfg x_458 x_459 x_460 x_461 x_462 x_463 14#32 0x6ed9eba1#32 ((x_464 ||| (~~~x_465)) ^^^ x_466)
    let bb' ← Tr.indexSet bb' 0 updates'.1
    let bb' ← Tr.indexSet bb' 2 updates'.2
    pure (bb', bbb')

/-- round!(bb[<expr>], bb[<expr>], bb[<expr>], bb[<expr>], bb[<expr>], <expr>[<expr>], <expr>, 0x6ed9eba1,(bb[<expr>] | ! bb[<expr>]) ^ bb[<expr>]) -/
def Engine.process_block_small.line1_41 (cfg : Cfg) (w : List (BitVec 32)) : Source.Ripemd160.Engine.process_block_small.State1 → Tr Source.Ripemd160.Engine.process_block_small.State1 :=
  fun (bb', bbb') => do
    let x_469 ← Tr.index bb' 4
    let x_470 ← Tr.index bb' 0
    let x_471 ← Tr.index bb' 1
    let x_472 ← Tr.index bb' 2
    let x_473 ← Tr.index bb' 3
    let x_474 ← Tr.index w 7
    let x_475 ← Tr.index bb' 0
    let x_476 ← Tr.index bb' 1
    let x_477 ← Tr.index bb' 2
    let updates' := Source.Ripemd160.small_hash.round cfg x_469 x_470 x_471 x_472 x_473 x_474 8#32 0x6ed9eba1#32 ((x_475 ||| (~~~x_476)) ^^^ x_477)
    let bb' ← Tr.indexSet bb' 4 updates'.1
    let bb' ← Tr.indexSet bb' 1 updates'.2
    pure (bb', bbb')

/-- round!(bb[<expr>], bb[<expr>], bb[<expr>], bb[<expr>], bb[<expr>], <expr>[<expr>], <expr>, 0x6ed9eba1,(bb[<expr>] | ! bb[<expr>]) ^ bb[<expr>]) -/
def Engine.process_block_small.line1_42 (cfg : Cfg) (w : List (BitVec 32)) : Source.Ripemd160.Engine.process_block_small.State1 → Tr Source.Ripemd160.Engine.process_block_small.State1 :=
  fun (bb', bbb') => do
    let x_480 ← Tr.index bb' 3
    let x_481 ← Tr.index bb' 4
    let x_482 ← Tr.index bb' 0
    let x_483 ← Tr.index bb' 1
    let x_484 ← Tr.index bb' 2
    let x_485 ← Tr.index w 0
    let x_486 ← Tr.index bb' 4
    let x_487 ← Tr.index bb' 0
    let x_488 ← Tr.index bb' 1
    let updates' := Source.Ripemd160.small_hash.round cfg x_480 x_481 x_482 x_483 x_484 x_485 13#32 0x6ed9eba1#32 ((x_486 ||| (~~~x_487)) ^^^ x_488)
    let bb' ← Tr.indexSet bb' 3 updates'.1
    let bb' ← Tr.indexSet bb' 0 updates'.2
    pure (bb', bbb')

/-- round!(bb[<expr>], bb[<expr>], bb[<expr>], bb[<expr>], bb[<expr>], <expr>[<expr>], <expr>, 0x6ed9eba1,(bb[<expr>] | ! bb[<expr>]) ^ bb[<expr>]) -/
def Engine.process_block_small.line1_43 (cfg : Cfg) (w : List (BitVec 32)) : Source.Ripemd160.Engine.process_block_small.State1 → Tr Source.Ripemd160.Engine.process_block_small.State1 :=
  fun (bb', bbb') => do
    let x_491 ← Tr.index bb' 2
    let x_492 ← Tr.index bb' 3
    let x_493 ← Tr.index bb' 4
    let x_494 ← Tr.index bb' 0
    let x_495 ← Tr.index bb' 1
    let x_496 ← Tr.index w 6
    let x_497 ← Tr.index bb' 3
    let x_498 ← Tr.index bb' 4
    let x_499 ← Tr.index bb' 0
    let updates' := Source.Ripemd160.small_hash.round cfg x_491 x_492 x_493 x_494 x_495 x_496 6#32 0x6ed9eba1#32 ((x_497 ||| (~~~x_498)) ^^^ x_499)
    let bb' ← Tr.indexSet bb' 2 updates'.1
    let bb' ← Tr.indexSet bb' 4 updates'.2
    pure (bb', bbb')

/-- round!(bb[<expr>], bb[<expr>], bb[<expr>], bb[<expr>], bb[<expr>], <expr>[<expr>], <expr>, 0x6ed9eba1,(bb[<expr>] | ! bb[<expr>]) ^ bb[<expr>]) -/
def Engine.process_block_small.line1_44 (cfg : Cfg) (w : List (BitVec 32)) : Source.Ripemd160.Engine.process_block_small.State1 → Tr Source.Ripemd160.Engine.process_block_small.State1 :=
  fun (bb', bbb') => do
    let x_502 ← Tr.index bb' 1
    let x_503 ← Tr.index bb' 2
    let x_504 ← Tr.index bb' 3
    let x_505 ← Tr.index bb' 4
    let x_506 ← Tr.index bb' 0
    let x_507 ← Tr.index w 13
    let x_508 ← Tr.index bb' 2
    let x_509 ← Tr.index bb' 3
    let x_510 ← Tr.index bb' 4
    let updates' := Source.Ripemd160.small_hash.round cfg x_502 x_503 x_504 x_505 x_506 x_507 5#32 0x6ed9eba1#32 ((x_508 ||| (~~~x_509)) ^^^ x_510)
    let bb' ← Tr.indexSet bb' 1 updates'.1
    let bb' ← Tr.indexSet bb' 3 updates'.2
    pure (bb', bbb')

/-- round!(bb[<expr>], bb[<expr>], bb[<expr>], bb[<expr>], bb[<expr>], <expr>[<expr>], <expr>, 0x6ed9eba1,(bb[<expr>] | ! bb[<expr>]) ^ bb[<expr>]) -/
def Engine.process_block_small.line1_45 (cfg : Cfg) (w : List (BitVec 32)) : Source.Ripemd160.Engine.process_block_small.State1 → Tr Source.Ripemd160.Engine.process_block_small.State1 :=
  fun (bb', bbb') => do
    let x_513 ← Tr.index bb' 0
    let x_514 ← Tr.index bb' 1
    let x_515 ← Tr.index bb' 2
    let x_516 ← Tr.index bb' 3
    let x_517 ← Tr.index bb' 4
    let x_518 ← Tr.index w 11
    let x_519 ← Tr.index bb' 1
    let x_520 ← Tr.index bb' 2
    let x_521 ← Tr.index bb' 3
    let updates' := Source.Ripemd160.small_hash.round cfg x_513 x_514 x_515 x_516 x_517 x_518 12#32 0x6ed9eba1#32 ((x_519 ||| (~~~x_520)) ^^^ x_521)
    let bb' ← Tr.indexSet bb' 0 updates'.1
    let bb' ← Tr.indexSet bb' 2 updates'.2
    pure (bb', bbb')

/-- round!(bb[<expr>], bb[<expr>], bb[<expr>], bb[<expr>], bb[<expr>], <expr>[<expr>], <expr>, 0x6ed9eba1,(bb[<expr>] | ! bb[<expr>]) ^ bb[<expr>]) -/
def Engine.process_block_small.line1_46 (cfg : Cfg) (w : List (BitVec 32)) : Source.Ripemd160.Engine.process_block_small.State1 → Tr Source.Ripemd160.Engine.process_block_small.State1 :=
  fun (bb', bbb') => do
    let x_524 ← Tr.index bb' 4
    let x_525 ← Tr.index bb' 0
    let x_526 ← Tr.index bb' 1
    let x_527 ← Tr.index bb' 2
    let x_528 ← Tr.index bb' 3
    let x_529 ← Tr.index w 5
    let x_530 ← Tr.index bb' 0
    let x_531 ← Tr.index bb' 1
    let x_532 ← Tr.index bb' 2
    let updates' := Source.Ripemd160.small_hash.round cfg x_524 x_525 x_526 x_527 x_528 x_529 7#32 0x6ed9eba1#32 ((x_530 ||| (~~~x_531)) ^^^ x_532)
    let bb' ← Tr.indexSet bb' 4 updates'.1
    let bb' ← Tr.indexSet bb' 1 updates'.2
    pure (bb', bbb')

/-- round!(bb[<expr>], bb[<expr>], bb[<expr>], bb[<expr>], bb[<expr>], <expr>[<expr>], <expr>, 0x6ed9eba1,(bb[<expr>] | ! bb[<expr>]) ^ bb[<expr>]) -/
def Engine.process_block_small.line1_47 (cfg : Cfg) (w : List (BitVec 32)) : Source.Ripemd160.Engine.process_block_small.State1 → Tr Source.Ripemd160.Engine.process_block_small.State1 :=
  fun (bb', bbb') => do
    let x_535 ← Tr.index bb' 3
    let x_536 ← Tr.index bb' 4
    let x_537 ← Tr.index bb' 0
    let x_538 ← Tr.index bb' 1
    let x_539 ← Tr.index bb' 2
    let x_540 ← Tr.index w 12
    let x_541 ← Tr.index bb' 4
    let x_542 ← Tr.index bb' 0
    let x_543 ← Tr.index bb' 1
    let updates' := Source.Ripemd160.small_hash.round cfg x_535 x_536 x_537 x_538 x_539 x_540 5#32 0x6ed9eba1#32 ((x_541 ||| (~~~x_542)) ^^^ x_543)
    let bb' ← Tr.indexSet bb' 3 updates'.1
    let bb' ← Tr.indexSet bb' 0 updates'.2
    pure (bb', bbb')

/-- round!(bb[<expr>], bb[<expr>], bb[<expr>], bb[<expr>], bb[<expr>], <expr>[<expr>], <expr>, 0x8f1bbcdc,(bb[<expr>] & bb[<expr>]) |(bb[<expr>] & ! bb[<expr>])) -/
def Engine.process_block_small.line1_48 (cfg : Cfg) (w : List (BitVec 32)) : Source.Ripemd160.Engine.process_block_small.State1 → Tr Source.Ripemd160.Engine.process_block_small.State1 :=
  fun (bb', bbb') => do
    let x_546 ← Tr.index bb' 2
    let x_547 ← Tr.index bb' 3
    let x_548 ← Tr.index bb' 4
    let x_549 ← Tr.index bb' 0
    let x_550 ← Tr.index bb' 1
    let x_551 ← Tr.index w 1
    let x_552 ← Tr.index bb' 3
    let x_553 ← Tr.index bb' 0
    let x_554 ← Tr.index bb' 4
    let x_555 ← Tr.index bb' 0
    let updates' := Source.Ripemd160.small_hash.round cfg x_546 x_547 x_548 x_549 x_550 x_551 11#32 0x8f1bbcdc#32 ((x_552 &&& x_553) ||| (x_554 &&& (~~~x_555)))
    let bb' ← Tr.indexSet bb' 2 updates'.1
    let bb' ← Tr.indexSet bb' 4 updates'.2
    pure (bb', bbb')

/-- round!(bb[<expr>], bb[<expr>], bb[<expr>], bb[<expr>], bb[<expr>], <expr>[<expr>], <expr>, 0x8f1bbcdc,(bb[<expr>] & bb[<expr>]) |(bb[<expr>] & ! bb[<expr>])) -/
def Engine.process_block_small.line1_49 (cfg : Cfg) (w : List (BitVec 32)) : Source.Ripemd160.Engine.process_block_small.State1 → Tr Source.Ripemd160.Engine.process_block_small.State1 :=
  fun (bb', bbb') => do
    let x_558 ← Tr.index bb' 1
    let x_559 ← Tr.index bb' 2
    let x_560 ← Tr.index bb' 3
    let x_561 ← Tr.index bb' 4
    let x_562 ← Tr.index bb' 0
    let x_563 ← Tr.index w 9
    let x_564 ← Tr.index bb' 2
    let x_565 ← Tr.index bb' 4
    let x_566 ← Tr.index bb' 3
    let x_567 ← Tr.index bb' 4
    let updates' := Source.Ripemd160.small_hash.round cfg x_558 x_559 x_560 x_561 x_562 x_563 12#32 0x8f1bbcdc#32 ((x_564 &&& x_565) ||| (x_566 &&& (~~~x_567)))
    let bb' ← Tr.indexSet bb' 1 updates'.1
    let bb' ← Tr.indexSet bb' 3 updates'.2
    pure (bb', bbb')

/-- round!(bb[<expr>], bb[<expr>], bb[<expr>], bb[<expr>], bb[<expr>], <expr>[<expr>], <expr>, 0x8f1bbcdc,(bb[<expr>] & bb[<expr>]) |(bb[<expr>] & ! bb[<expr>])) -/
def Engine.process_block_small.line1_50 (cfg : Cfg) (w : List (BitVec 32)) : Source.Ripemd160.Engine.process_block_small.State1 → Tr Source.Ripemd160.Engine.process_block_small.State1 :=
  fun (bb', bbb') => do
    let x_570 ← Tr.index bb' 0
    let x_571 ← Tr.index bb' 1
    let x_572 ← Tr.index bb' 2
    let x_573 ← Tr.index bb' 3
    let x_574 ← Tr.index bb' 4
    let x_575 ← Tr.index w 11
    let x_576 ← Tr.index bb' 1
    let x_577 ← Tr.index bb' 3
    let x_578 ← Tr.index bb' 2
    let x_579 ← Tr.index bb' 3
    let updates' := Source.Ripemd160.small_hash.round cfg x_570 x_571 x_572 x_573 x_574 x_575 14#32 0x8f1bbcdc#32 ((x_576 &&& x_577) ||| (x_578 &&& (~~~x_579)))
    let bb' ← Tr.indexSet bb' 0 updates'.1
    let bb' ← Tr.indexSet bb' 2 updates'.2
    pure (bb', bbb')

/-- round!(bb[<expr>], bb[<expr>], bb[<expr>], bb[<expr>], bb[<expr>], <expr>[<expr>], <expr>, 0x8f1bbcdc,(bb[<expr>] & bb[<expr>]) |(bb[<expr>] & ! bb[<expr>])) -/
def Engine.process_block_small.line1_51 (cfg : Cfg) (w : List (BitVec 32)) : Source.Ripemd160.Engine.process_block_small.State1 → Tr Source.Ripemd160.Engine.process_block_small.State1 :=
  fun (bb', bbb') => do
    let x_582 ← Tr.index bb' 4
    let x_583 ← Tr.index bb' 0
    let x_584 ← Tr.index bb' 1
    let x_585 ← Tr.index bb' 2
    let x_586 ← Tr.index bb' 3
    let x_587 ← Tr.index w 10
    let x_588 ← Tr.index bb' 0
    let x_589 ← Tr.index bb' 2
    let x_590 ← Tr.index bb' 1
    let x_591 ← Tr.index bb' 2
    let updates' := Source.Ripemd160.small_hash.round cfg x_582 x_583 x_584 x_585 x_586 x_587 15#32 0x8f1bbcdc#32 ((x_588 &&& x_589) ||| (x_590 &&& (~~~x_591)))
    let bb' ← Tr.indexSet bb' 4 updates'.1
    let bb' ← Tr.indexSet bb' 1 updates'.2
    pure (bb', bbb')

/-- round!(bb[<expr>], bb[<expr>], bb[<expr>], bb[<expr>], bb[<expr>], <expr>[<expr>], <expr>, 0x8f1bbcdc,(bb[<expr>] & bb[<expr>]) |(bb[<expr>] & ! bb[<expr>])) -/
def Engine.process_block_small.line1_52 (cfg : Cfg) (w : List (BitVec 32)) : Source.Ripemd160.Engine.process_block_small.State1 → Tr Source.Ripemd160.Engine.process_block_small.State1 :=
  fun (bb', bbb') => do
    let x_594 ← Tr.index bb' 3
    let x_595 ← Tr.index bb' 4
    let x_596 ← Tr.index bb' 0
    let x_597 ← Tr.index bb' 1
    let x_598 ← Tr.index bb' 2
    let x_599 ← Tr.index w 0
    let x_600 ← Tr.index bb' 4
    let x_601 ← Tr.index bb' 1
    let x_602 ← Tr.index bb' 0
    let x_603 ← Tr.index bb' 1
    let updates' := Source.Ripemd160.small_hash.round cfg x_594 x_595 x_596 x_597 x_598 x_599 14#32 0x8f1bbcdc#32 ((x_600 &&& x_601) ||| (x_602 &&& (~~~x_603)))
    let bb' ← Tr.indexSet bb' 3 updates'.1
    let bb' ← Tr.indexSet bb' 0 updates'.2
    pure (bb', bbb')

/-- round!(bb[<expr>], bb[<expr>], bb[<expr>], bb[<expr>], bb[<expr>], <expr>[<expr>], <expr>, 0x8f1bbcdc,(bb[<expr>] & bb[<expr>]) |(bb[<expr>] & ! bb[<expr>])) -/
def Engine.process_block_small.line1_53 (cfg : Cfg) (w : List (BitVec 32)) : Source.Ripemd160.Engine.process_block_small.State1 → Tr Source.Ripemd160.Engine.process_block_small.State1 :=
  fun (bb', bbb') => do
    let x_606 ← Tr.index bb' 2
    let x_607 ← Tr.index bb' 3
    let x_608 ← Tr.index bb' 4
    let x_609 ← Tr.index bb' 0
    let x_610 ← Tr.index bb' 1
    let x_611 ← Tr.index w 8
    let x_612 ← Tr.index bb' 3
    let x_613 ← Tr.index bb' 0
    let x_614 ← Tr.index bb' 4
    let x_615 ← Tr.index bb' 0
    let updates' := Source.Ripemd160.small_hash.round cfg x_606 x_607 x_608 x_609 x_610 x_611 15#32 0x8f1bbcdc#32 ((x_612 &&& x_613) ||| (x_614 &&& (~~~x_615)))
    let bb' ← Tr.indexSet bb' 2 updates'.1
    let bb' ← Tr.indexSet bb' 4 updates'.2
    pure (bb', bbb')

/-- round!(bb[<expr>], bb[<expr>], bb[<expr>], bb[<expr>], bb[<expr>], <expr>[<expr>], <expr>, 0x8f1bbcdc,(bb[<expr>] & bb[<expr>]) |(bb[<expr>] & ! bb[<expr>])) -/
def Engine.process_block_small.line1_54 (cfg : Cfg) (w : List (BitVec 32)) : Source.Ripemd160.Engine.process_block_small.State1 → Tr Source.Ripemd160.Engine.process_block_small.State1 :=
  fun (bb', bbb') => do
    let x_618 ← Tr.index bb' 1
    let x_619 ← Tr.index bb' 2
    let x_620 ← Tr.index bb' 3
    let x_621 ← Tr.index bb' 4
    let x_622 ← Tr.index bb' 0
    let x_623 ← Tr.index w 12
    let x_624 ← Tr.index bb' 2
    let x_625 ← Tr.index bb' 4
    let x_626 ← Tr.index bb' 3
    let x_627 ← Tr.index bb' 4
    let updates' := Source.Ripemd160.small_hash.round cfg x_618 x_619 x_620 x_621 x_622 x_623 9#32 0x8f1bbcdc#32 ((x_624 &&& x_625) ||| (x_626 &&& (~~~x_627)))
    let bb' ← Tr.indexSet bb' 1 updates'.1
    let bb' ← Tr.indexSet bb' 3 updates'.2
    pure (bb', bbb')

/-- round!(bb[<expr>], bb[<expr>], bb[<expr>], bb[<expr>], bb[<expr>], <expr>[<expr>], <expr>, 0x8f1bbcdc,(bb[<expr>] & bb[<expr>]) |(bb[<expr>] & ! bb[<expr>])) -/
def Engine.process_block_small.line1_55 (cfg : Cfg) (w : List (BitVec 32)) : Source.Ripemd160.Engine.process_block_small.State1 → Tr Source.Ripemd160.Engine.process_block_small.State1 :=
  fun (bb', bbb') => do
    let x_630 ← Tr.index bb' 0
    let x_631 ← Tr.index bb' 1
    let x_632 ← Tr.index bb' 2
    let x_633 ← Tr.index bb' 3
    let x_634 ← Tr.index bb' 4
    let x_635 ← Tr.index w 4
    let x_636 ← Tr.index bb' 1
    let x_637 ← Tr.index bb' 3
    let x_638 ← Tr.index bb' 2
    let x_639 ← Tr.index bb' 3
    let updates' := Source.Ripemd160.small_hash.round cfg x_630 x_631 x_632 x_633 x_634 x_635 8#32 0x8f1bbcdc#32 ((x_636 &&& x_637) ||| (x_638 &&& (~~~x_639)))
    let bb' ← Tr.indexSet bb' 0 updates'.1
    let bb' ← Tr.indexSet bb' 2 updates'.2
    pure (bb', bbb')

/-- round!(bb[<expr>], bb[<expr>], bb[<expr>], bb[<expr>], bb[<expr>], <expr>[<expr>], <expr>, 0x8f1bbcdc,(bb[<expr>] & bb[<expr>]) |(bb[<expr>] & ! bb[<expr>])) -/
def Engine.process_block_small.line1_56 (cfg : Cfg) (w : List (BitVec 32)) : Source.Ripemd160.Engine.process_block_small.State1 → Tr Source.Ripemd160.Engine.process_block_small.State1 :=
  fun (bb', bbb') => do
    let x_642 ← Tr.index bb' 4
    let x_643 ← Tr.index bb' 0
    let x_644 ← Tr.index bb' 1
    let x_645 ← Tr.index bb' 2
    let x_646 ← Tr.index bb' 3
    let x_647 ← Tr.index w 13
    let x_648 ← Tr.index bb' 0
    let x_649 ← Tr.index bb' 2
    let x_650 ← Tr.index bb' 1
    let x_651 ← Tr.index bb' 2
    let updates' := Source.Ripemd160.small_hash.round cfg x_642 x_643 x_644 x_645 x_646 x_647 9#32 0x8f1bbcdc#32 ((x_648 &&& x_649) ||| (x_650 &&& (~~~x_651)))
    let bb' ← Tr.indexSet bb' 4 updates'.1
    let bb' ← Tr.indexSet bb' 1 updates'.2
    pure (bb', bbb')

/-- round!(bb[<expr>], bb[<expr>], bb[<expr>], bb[<expr>], bb[<expr>], <expr>[<expr>], <expr>, 0x8f1bbcdc,(bb[<expr>] & bb[<expr>]) |(bb[<expr>] & ! bb[<expr>])) -/
def Engine.process_block_small.line1_57 (cfg : Cfg) (w : List (BitVec 32)) : Source.Ripemd160.Engine.process_block_small.State1 → Tr Source.Ripemd160.Engine.process_block_small.State1 :=
  fun (bb', bbb') => do
    let x_654 ← Tr.index bb' 3
    let x_655 ← Tr.index bb' 4
    let x_656 ← Tr.index bb' 0
    let x_657 ← Tr.index bb' 1
    let x_658 ← Tr.index bb' 2
    let x_659 ← Tr.index w 3
    let x_660 ← Tr.index bb' 4
    let x_661 ← Tr.index bb' 1
    let x_662 ← Tr.index bb' 0
    let x_663 ← Tr.index bb' 1
    let updates' := Source.Ripemd160.small_hash.round cfg x_654 x_655 x_656 x_657 x_658 x_659 14#32 0x8f1bbcdc#32 ((x_660 &&& x_661) ||| (x_662 &&& (~~~x_663)))
    let bb' ← Tr.indexSet bb' 3 updates'.1
    let bb' ← Tr.indexSet bb' 0 updates'.2
    pure (bb', bbb')

/-- round!(bb[<expr>], bb[<expr>], bb[<expr>], bb[<expr>], bb[<expr>], <expr>[<expr>], <expr>, 0x8f1bbcdc,(bb[<expr>] & bb[<expr>]) |(bb[<expr>] & ! bb[<expr>])) -/
def Engine.process_block_small.line1_58 (cfg : Cfg) (w : List (BitVec 32)) : Source.Ripemd160.Engine.process_block_small.State1 → Tr Source.Ripemd160.Engine.process_block_small.State1 :=
  fun (bb', bbb') => do
    let x_666 ← Tr.index bb' 2
    let x_667 ← Tr.index bb' 3
    let x_668 ← Tr.index bb' 4
    let x_669 ← Tr.index bb' 0
    let x_670 ← Tr.index bb' 1
    let x_671 ← Tr.index w 7
    let x_672 ← Tr.index bb' 3
    let x_673 ← Tr.index bb' 0
    let x_674 ← Tr.index bb' 4
    let x_675 ← Tr.index bb' 0
    let updates' := Source.Ripemd160.small_hash.round cfg x_666 x_667 x_668 x_669 x_670 x_671 5#32 0x8f1bbcdc#32 ((x_672 &&& x_673) ||| (x_674 &&& (~~~x_675)))
    let bb' ← Tr.indexSet bb' 2 updates'.1
    let bb' ← Tr.indexSet bb' 4 updates'.2
    pure (bb', bbb')

/-- round!(bb[<expr>], bb[<expr>], bb[<expr>], bb[<expr>], bb[<expr>], <expr>[<expr>], <expr>, 0x8f1bbcdc,(bb[<expr>] & bb[<expr>]) |(bb[<expr>] & ! bb[<expr>])) -/
def Engine.process_block_small.line1_59 (cfg : Cfg) (w : List (BitVec 32)) : Source.Ripemd160.Engine.process_block_small.State1 → Tr Source.Ripemd160.Engine.process_block_small.State1 :=
  fun (bb', bbb') => do
    let x_678 ← Tr.index bb' 1
    let x_679 ← Tr.index bb' 2
    let x_680 ← Tr.index bb' 3
    let x_681 ← Tr.index bb' 4
    let x_682 ← Tr.index bb' 0
    let x_683 ← Tr.index w 15
    let x_684 ← Tr.index bb' 2
    let x_685 ← Tr.index bb' 4
    let x_686 ← Tr.index bb' 3
    let x_687 ← Tr.index bb' 4
    let updates' := Source.Ripemd160.small_hash.round cfg x_678 x_679 x_680 x_681 x_682 x_683 6#32 0x8f1bbcdc#32 ((x_684 &&& x_685) ||| (x_686 &&& (~~~x_687)))
    let bb' ← Tr.indexSet bb' 1 updates'.1
    let bb' ← Tr.indexSet bb' 3 updates'.2
    pure (bb', bbb')

/-- round!(bb[<expr>], bb[<expr>], bb[<expr>], bb[<expr>], bb[<expr>], <expr>[<expr>], <expr>, 0x8f1bbcdc,(bb[<expr>] & bb[<expr>]) |(bb[<expr>] & ! bb[<expr>])) -/
def Engine.process_block_small.line1_60 (cfg : Cfg) (w : List (BitVec 32)) : Source.Ripemd160.Engine.process_block_small.State1 → Tr Source.Ripemd160.Engine.process_block_small.State1 :=
  fun (bb', bbb') => do
    let x_690 ← Tr.index bb' 0
    let x_691 ← Tr.index bb' 1
    let x_692 ← Tr.index bb' 2
    let x_693 ← Tr.index bb' 3
    let x_694 ← Tr.index bb' 4
    let x_695 ← Tr.index w 14
    let x_696 ← Tr.index bb' 1
    let x_697 ← Tr.index bb' 3
    let x_698 ← Tr.index bb' 2
    let x_699 ← Tr.index bb' 3
    let updates' := Source.Ripemd160.small_hash.round cfg x_690 x_691 x_692 x_693 x_694 x_695 8#32 0x8f1bbcdc#32 ((x_696 &&& x_697) ||| (x_698 &&& (~~~x_699)))
    let bb' ← Tr.indexSet bb' 0 updates'.1
    let bb' ← Tr.indexSet bb' 2 updates'.2
    pure (bb', bbb')

/-- round!(bb[<expr>], bb[<expr>], bb[<expr>], bb[<expr>], bb[<expr>], <expr>[<expr>], <expr>, 0x8f1bbcdc,(bb[<expr>] & bb[<expr>]) |(bb[<expr>] & ! bb[<expr>])) -/
def Engine.process_block_small.line1_61 (cfg : Cfg) (w : List (BitVec 32)) : Source.Ripemd160.Engine.process_block_small.State1 → Tr Source.Ripemd160.Engine.process_block_small.State1 :=
  fun (bb', bbb') => do
    let x_702 ← Tr.index bb' 4
    let x_703 ← Tr.index bb' 0
    let x_704 ← Tr.index bb' 1
    let x_705 ← Tr.index bb' 2
    let x_706 ← Tr.index bb' 3
    let x_707 ← Tr.index w 5
    let x_708 ← Tr.index bb' 0
    let x_709 ← Tr.index bb' 2
    let x_710 ← Tr.index bb' 1
    let x_711 ← Tr.index bb' 2
    let updates' := Source.Ripemd160.small_hash.round cfg x_702 x_703 x_704 x_705 x_706 x_707 6#32 0x8f1bbcdc#32 ((x_708 &&& x_709) ||| (x_710 &&& (~~~x_711)))
    let bb' ← Tr.indexSet bb' 4 updates'.1
    let bb' ← Tr.indexSet bb' 1 updates'.2
    pure (bb', bbb')

/-- round!(bb[<expr>], bb[<expr>], bb[<expr>], bb[<expr>], bb[<expr>], <expr>[<expr>], <expr>, 0x8f1bbcdc,(bb[<expr>] & bb[<expr>]) |(bb[<expr>] & ! bb[<expr>])) -/
def Engine.process_block_small.line1_62 (cfg : Cfg) (w : List (BitVec 32)) : Source.Ripemd160.Engine.process_block_small.State1 → Tr Source.Ripemd160.Engine.process_block_small.State1 :=
  fun (bb', bbb') => do
    let x_714 ← Tr.index bb' 3
    let x_715 ← Tr.index bb' 4
    let x_716 ← Tr.index bb' 0
    let x_717 ← Tr.index bb' 1
    let x_718 ← Tr.index bb' 2
    let x_719 ← Tr.index w 6
    let x_720 ← Tr.index bb' 4
    let x_721 ← Tr.index bb' 1
    let x_722 ← Tr.index bb' 0
    let x_723 ← Tr.index bb' 1
    let updates' := Source.Ripemd160.small_hash.round cfg x_714 x_715 x_716 x_717 x_718 x_719 5#32 0x8f1bbcdc#32 ((x_720 &&& x_721) ||| (x_722 &&& (~~~x_723)))
    let bb' ← Tr.indexSet bb' 3 updates'.1
    let bb' ← Tr.indexSet bb' 0 updates'.2
    pure (bb', bbb')

/-- round!(bb[<expr>], bb[<expr>], bb[<expr>], bb[<expr>], bb[<expr>], <expr>[<expr>], <expr>, 0x8f1bbcdc,(bb[<expr>] & bb[<expr>]) |(bb[<expr>] & ! bb[<expr>])) -/
def Engine.process_block_small.line1_63 (cfg : Cfg) (w : List (BitVec 32)) : Source.Ripemd160.Engine.process_block_small.State1 → Tr Source.Ripemd160.Engine.process_block_small.State1 :=
  fun (bb', bbb') => do
    let x_726 ← Tr.index bb' 2
    let x_727 ← Tr.index bb' 3
    let x_728 ← Tr.index bb' 4
    let x_729 ← Tr.index bb' 0
    let x_730 ← Tr.index bb' 1
    let x_731 ← Tr.index w 2
    let x_732 ← Tr.index bb' 3
    let x_733 ← Tr.index bb' 0
    let x_734 ← Tr.index bb' 4
    let x_735 ← Tr.index bb' 0
    let updates' := Source.Ripemd160.small_hash.round cfg x_726 x_727 x_728 x_729 x_730 x_731 12#32 0x8f1bbcdc#32 ((x_732 &&& x_733) ||| (x_734 &&& (~~~x_735)))
    let bb' ← Tr.indexSet bb' 2 updates'.1
    let bb' ← Tr.indexSet bb' 4 updates'.2
    pure (bb', bbb')

/-- round!(bb[<expr>], bb[<expr>], bb[<expr>], bb[<expr>], bb[<expr>], <expr>[<expr>], <expr>, 0xa953fd4e, bb[<expr>] ^(bb[<expr>] | ! bb[<expr>])) -/
def Engine.process_block_small.line1_64 (cfg : Cfg) (w : List (BitVec 32)) : Source.Ripemd160.Engine.process_block_small.State1 → Tr Source.Ripemd160.Engine.process_block_small.State1 :=
  fun (bb', bbb') => do
    let x_738 ← Tr.index bb' 1
    let x_739 ← Tr.index bb' 2
    let x_740 ← Tr.index bb' 3
    let x_741 ← Tr.index bb' 4
    let x_742 ← Tr.index bb' 0
    let x_743 ← Tr.index w 4
    let x_744 ← Tr.index bb' 2
    let x_745 ← Tr.index bb' 3
    let x_746 ← Tr.index bb' 4
    let updates' := Source.Ripemd160.small_hash.round cfg x_738 x_739 x_740 x_741 x_742 x_743 9#32 0xa953fd4e#32 (x_744 ^^^ (x_745 ||| (~~~x_746)))
    let bb' ← Tr.indexSet bb' 1 updates'.1
    let bb' ← Tr.indexSet bb' 3 updates'.2
    pure (bb', bbb')

/-- round!(bb[<expr>], bb[<expr>], bb[<expr>], bb[<expr>], bb[<expr>], <expr>[<expr>], <expr>, 0xa953fd4e, bb[<expr>] ^(bb[<expr>] | ! bb[<expr>])) -/
def Engine.process_block_small.line1_65 (cfg : Cfg) (w : List (BitVec 32)) : Source.Ripemd160.Engine.process_block_small.State1 → Tr Source.Ripemd160.Engine.process_block_small.State1 :=
  fun (bb', bbb') => do
    let x_749 ← Tr.index bb' 0
    let x_750 ← Tr.index bb' 1
    let x_751 ← Tr.index bb' 2
    let x_752 ← Tr.index bb' 3
    let x_753 ← Tr.index bb' 4
    let x_754 ← Tr.index w 0
    let x_755 ← Tr.index bb' 1
    let x_756 ← Tr.index bb' 2
    let x_757 ← Tr.index bb' 3
    let updates' := Source.Ripemd160.small_hash.round cfg x_749 x_750 x_751 x_752 x_753 x_754 15#32 0xa953fd4e#32 (x_755 ^^^ (x_756 ||| (~~~x_757)))
    let bb' ← Tr.indexSet bb' 0 updates'.1
    let bb' ← Tr.indexSet bb' 2 updates'.2
    pure (bb', bbb')

/-- round!(bb[<expr>], bb[<expr>], bb[<expr>], bb[<expr>], bb[<expr>], <expr>[<expr>], <expr>, 0xa953fd4e, bb[<expr>] ^(bb[<expr>] | ! bb[<expr>])) -/
def Engine.process_block_small.line1_66 (cfg : Cfg) (w : List (BitVec 32)) : Source.Ripemd160.Engine.process_block_small.State1 → Tr Source.Ripemd160.Engine.process_block_small.State1 :=
  fun (bb', bbb') => do
    let x_760 ← Tr.index bb' 4
    let x_761 ← Tr.index bb' 0
    let x_762 ← Tr.index bb' 1
    let x_763 ← Tr.index bb' 2
    let x_764 ← Tr.index bb' 3
    let x_765 ← Tr.index w 5
    let x_766 ← Tr.index bb' 0
    let x_767 ← Tr.index bb' 1
    let x_768 ← Tr.index bb' 2
    let updates' := Source.Ripemd160.small_hash.round cfg x_760 x_761 x_762 x_763 x_764 x_765 5#32 0xa953fd4e#32 (x_766 ^^^ (x_767 ||| (~~~x_768)))
    let bb' ← Tr.indexSet bb' 4 updates'.1
    let bb' ← Tr.indexSet bb' 1 updates'.2
    pure (bb', bbb')

/-- round!(bb[<expr>], bb[<expr>], bb[<expr>], bb[<expr>], bb[<expr>], <expr>[<expr>], <expr>, 0xa953fd4e, bb[<expr>] ^(bb[<expr>] | ! bb[<expr>])) -/
def Engine.process_block_small.line1_67 (cfg : Cfg) (w : List (BitVec 32)) : Source.Ripemd160.Engine.process_block_small.State1 → Tr Source.Ripemd160.Engine.process_block_small.State1 :=
  fun (bb', bbb') => do
    let x_771 ← Tr.index bb' 3
    let x_772 ← Tr.index bb' 4
    let x_773 ← Tr.index bb' 0
    let x_774 ← Tr.index bb' 1
    let x_775 ← Tr.index bb' 2
    let x_776 ← Tr.index w 9
    let x_777 ← Tr.index bb' 4
    let x_778 ← Tr.index bb' 0
    let x_779 ← Tr.index bb' 1
    let updates' := Source.Ripemd160.small_hash.round cfg x_771 x_772 x_773 x_774 x_775 x_776 11#32 0xa953fd4e#32 (x_777 ^^^ (x_778 ||| (~~~x_779)))
    let bb' ← Tr.indexSet bb' 3 updates'.1
    let bb' ← Tr.indexSet bb' 0 updates'.2
    pure (bb', bbb')

/-- round!(bb[<expr>], bb[<expr>], bb[<expr>], bb[<expr>], bb[<expr>], <expr>[<expr>], <expr>, 0xa953fd4e, bb[<expr>] ^(bb[<expr>] | ! bb[<expr>])) -/
def Engine.process_block_small.line1_68 (cfg : Cfg) (w : List (BitVec 32)) : Source.Ripemd160.Engine.process_block_small.State1 → Tr Source.Ripemd160.Engine.process_block_small.State1 :=
  fun (bb', bbb') => do
    let x_782 ← Tr.index bb' 2
    let x_783 ← Tr.index bb' 3
    let x_784 ← Tr.index bb' 4
    let x_785 ← Tr.index bb' 0
    let x_786 ← Tr.index bb' 1
    let x_787 ← Tr.index w 7
    let x_788 ← Tr.index bb' 3
    let x_789 ← Tr.index bb' 4
    let x_790 ← Tr.index bb' 0
    let updates' := Source.Ripemd160.small_hash.round cfg x_782 x_783 x_784 x_785 x_786 x_787 6#32 0xa953fd4e#32 (x_788 ^^^ (x_789 ||| (~~~x_790)))
    let bb' ← Tr.indexSet bb' 2 updates'.1
    let bb' ← Tr.indexSet bb' 4 updates'.2
    pure (bb', bbb')

/-- round!(bb[<expr>], bb[<expr>], bb[<expr>], bb[<expr>], bb[<expr>], <expr>[<expr>], <expr>, 0xa953fd4e, bb[<expr>] ^(bb[<expr>] | ! bb[<expr>])) -/
def Engine.process_block_small.line1_69 (cfg : Cfg) (w : List (BitVec 32)) : Source.Ripemd160.Engine.process_block_small.State1 → Tr Source.Ripemd160.Engine.process_block_small.State1 :=
  fun (bb', bbb') => do
    let x_793 ← Tr.index bb' 1
    let x_794 ← Tr.index bb' 2
    let x_795 ← Tr.index bb' 3
    let x_796 ← Tr.index bb' 4
    let x_797 ← Tr.index bb' 0
    let x_798 ← Tr.index w 12
    let x_799 ← Tr.index bb' 2
    let x_800 ← Tr.index bb' 3
    let x_801 ← Tr.index bb' 4
    let updates' := Source.Ripemd160.small_hash.round cfg x_793 x_794 x_795 x_796 x_797 x_798 8#32 0xa953fd4e#32 (x_799 ^^^ (x_800 ||| (~~~x_801)))
    let bb' ← Tr.indexSet bb' 1 updates'.1
    let bb' ← Tr.indexSet bb' 3 updates'.2
    pure (bb', bbb')

/-- round!(bb[<expr>], bb[<expr>], bb[<expr>], bb[<expr>], bb[<expr>], <expr>[<expr>], <expr>, 0xa953fd4e, bb[<expr>] ^(bb[<expr>] | ! bb[<expr>])) -/
def Engine.process_block_small.line1_70 (cfg : Cfg) (w : List (BitVec 32)) : Source.Ripemd160.Engine.process_block_small.State1 → Tr Source.Ripemd160.Engine.process_block_small.State1 :=
  fun (bb', bbb') => do
    let x_804 ← Tr.index bb' 0
    let x_805 ← Tr.index bb' 1
    let x_806 ← Tr.index bb' 2
    let x_807 ← Tr.index bb' 3
    let x_808 ← Tr.index bb' 4
    let x_809 ← Tr.index w 2
    let x_810 ← Tr.index bb' 1
    let x_811 ← Tr.index bb' 2
    let x_812 ← Tr.index bb' 3
    let updates' := Source.Ripemd160.small_hash.round cfg x_804 x_805 x_806 x_807 x_808 x_809 13#32 0xa953fd4e#32 (x_810 ^^^ (x_811 ||| (~~~x_812)))
    let bb' ← Tr.indexSet bb' 0 updates'.1
    let bb' ← Tr.indexSet bb' 2 updates'.2
    pure (bb', bbb')

/-- round!(bb[<expr>], bb[<expr>], bb[<expr>], bb[<expr>], bb[<expr>], <expr>[<expr>], <expr>, 0xa953fd4e, bb[<expr>] ^(bb[<expr>] | ! bb[<expr>])) -/
def Engine.process_block_small.line1_71 (cfg : Cfg) (w : List (BitVec 32)) : Source.Ripemd160.Engine.process_block_small.State1 → Tr Source.Ripemd160.Engine.process_block_small.State1 :=
  fun (bb', bbb') => do
    let x_815 ← Tr.index bb' 4
    let x_816 ← Tr.index bb' 0
    let x_817 ← Tr.index bb' 1
    let x_818 ← Tr.index bb' 2
    let x_819 ← Tr.index bb' 3
    let x_820 ← Tr.index w 10
    let x_821 ← Tr.index bb' 0
    let x_822 ← Tr.index bb' 1
    let x_823 ← Tr.index bb' 2
    let updates' := Source.Ripemd160.small_hash.round cfg x_815 x_816 x_817 x_818 x_819 x_820 12#32 0xa953fd4e#32 (x_821 ^^^ (x_822 ||| (~~~x_823)))
    let bb' ← Tr.indexSet bb' 4 updates'.1
    let bb' ← Tr.indexSet bb' 1 updates'.2
    pure (bb', bbb')

/-- round!(bb[<expr>], bb[<expr>], bb[<expr>], bb[<expr>], bb[<expr>], <expr>[<expr>], <expr>, 0xa953fd4e, bb[<expr>] ^(bb[<expr>] | ! bb[<expr>])) -/
def Engine.process_block_small.line1_72 (cfg : Cfg) (w : List (BitVec 32)) : Source.Ripemd160.Engine.process_block_small.State1 → Tr Source.Ripemd160.Engine.process_block_small.State1 :=
  fun (bb', bbb') => do
    let x_826 ← Tr.index bb' 3
    let x_827 ← Tr.index bb' 4
    let x_828 ← Tr.index bb' 0
    let x_829 ← Tr.index bb' 1
    let x_830 ← Tr.index bb' 2
    let x_831 ← Tr.index w 14
    let x_832 ← Tr.index bb' 4
    let x_833 ← Tr.index bb' 0
    let x_834 ← Tr.index bb' 1
    let updates' := Source.Ripemd160.small_hash.round cfg x_826 x_827 x_828 x_829 x_830 x_831 5#32 0xa953fd4e#32 (x_832 ^^^ (x_833 ||| (~~~x_834)))
    let bb' ← Tr.indexSet bb' 3 updates'.1
    let bb' ← Tr.indexSet bb' 0 updates'.2
    pure (bb', bbb')

/-- round!(bb[<expr>], bb[<expr>], bb[<expr>], bb[<expr>], bb[<expr>], <expr>[<expr>], <expr>, 0xa953fd4e, bb[<expr>] ^(bb[<expr>] | ! bb[<expr>])) -/
def Engine.process_block_small.line1_73 (cfg : Cfg) (w : List (BitVec 32)) : Source.Ripemd160.Engine.process_block_small.State1 → Tr Source.Ripemd160.Engine.process_block_small.State1 :=
  fun (bb', bbb') => do
    let x_837 ← Tr.index bb' 2
    let x_838 ← Tr.index bb' 3
    let x_839 ← Tr.index bb' 4
    let x_840 ← Tr.index bb' 0
    let x_841 ← Tr.index bb' 1
    let x_842 ← Tr.index w 1
    let x_843 ← Tr.index bb' 3
    let x_844 ← Tr.index bb' 4
    let x_845 ← Tr.index bb' 0
    let updates' := Source.Ripemd160.small_hash.round cfg x_837 x_838 x_839 x_840 x_841 x_842 12#32 0xa953fd4e#32 (x_843 ^^^ (x_844 ||| (~~~x_845)))
    let bb' ← Tr.indexSet bb' 2 updates'.1
    let bb' ← Tr.indexSet bb' 4 updates'.2
    pure (bb', bbb')

/-- round!(bb[<expr>], bb[<expr>], bb[<expr>], bb[<expr>], bb[<expr>], <expr>[<expr>], <expr>, 0xa953fd4e, bb[<expr>] ^(bb[<expr>] | ! bb[<expr>])) -/
def Engine.process_block_small.line1_74 (cfg : Cfg) (w : List (BitVec 32)) : Source.Ripemd160.Engine.process_block_small.State1 → Tr Source.Ripemd160.Engine.process_block_small.State1 :=
  fun (bb', bbb') => do
    let x_848 ← Tr.index bb' 1
    let x_849 ← Tr.index bb' 2
    let x_850 ← Tr.index bb' 3
    let x_851 ← Tr.index bb' 4
    let x_852 ← Tr.index bb' 0
    let x_853 ← Tr.index w 3
    let x_854 ← Tr.index bb' 2
    let x_855 ← Tr.index bb' 3
    let x_856 ← Tr.index bb' 4
    let updates' := Source.Ripemd160.small_hash.round cfg x_848 x_849 x_850 x_851 x_852 x_853 13#32 0xa953fd4e#32 (x_854 ^^^ (x_855 ||| (~~~x_856)))
    let bb' ← Tr.indexSet bb' 1 updates'.1
    let bb' ← Tr.indexSet bb' 3 updates'.2
    pure (bb', bbb')

/-- round!(bb[<expr>], bb[<expr>], bb[<expr>], bb[<expr>], bb[<expr>], <expr>[<expr>], <expr>, 0xa953fd4e, bb[<expr>] ^(bb[<expr>] | ! bb[<expr>])) -/
def Engine.process_block_small.line1_75 (cfg : Cfg) (w : List (BitVec 32)) : Source.Ripemd160.Engine.process_block_small.State1 → Tr Source.Ripemd160.Engine.process_block_small.State1 :=
  fun (bb', bbb') => do
    let x_859 ← Tr.index bb' 0
    let x_860 ← Tr.index bb' 1
    let x_861 ← Tr.index bb' 2
    let x_862 ← Tr.index bb' 3
    let x_863 ← Tr.index bb' 4
    let x_864 ← Tr.index w 8
    let x_865 ← Tr.index bb' 1
    let x_866 ← Tr.index bb' 2
    let x_867 ← Tr.index bb' 3
    let updates' := Source.Ripemd160.small_hash.round cfg x_859 x_860 x_861 x_862 x_863 x_864 14#32 0xa953fd4e#32 (x_865 ^^^ (x_866 ||| (~~~x_867)))
    let bb' ← Tr.indexSet bb' 0 updates'.1
    let bb' ← Tr.indexSet bb' 2 updates'.2
    pure (bb', bbb')

/-- round!(bb[<expr>], bb[<expr>], bb[<expr>], bb[<expr>], bb[<expr>], <expr>[<expr>], <expr>, 0xa953fd4e, bb[<expr>] ^(bb[<expr>] | ! bb[<expr>])) -/
def Engine.process_block_small.line1_76 (cfg : Cfg) (w : List (BitVec 32)) : Source.Ripemd160.Engine.process_block_small.State1 → Tr Source.Ripemd160.Engine.process_block_small.State1 :=
  fun (bb', bbb') => do
    let x_870 ← Tr.index bb' 4
    let x_871 ← Tr.index bb' 0
    let x_872 ← Tr.index bb' 1
    let x_873 ← Tr.index bb' 2
    let x_874 ← Tr.index bb' 3
    let x_875 ← Tr.index w 11
    let x_876 ← Tr.index bb' 0
    let x_877 ← Tr.index bb' 1
    let x_878 ← Tr.index bb' 2
    let updates' := Source.Ripemd160.small_hash.round cfg x_870 x_871 x_872 x_873 x_874 x_875 11#32 0xa953fd4e#32 (x_876 ^^^ (x_877 ||| (~~~x_878)))
    let bb' ← Tr.indexSet bb' 4 updates'.1
    let bb' ← Tr.indexSet bb' 1 updates'.2
    pure (bb', bbb')

/-- round!(bb[<expr>], bb[<expr>], bb[<expr>], bb[<expr>], bb[<expr>], <expr>[<expr>], <expr>, 0xa953fd4e, bb[<expr>] ^(bb[<expr>] | ! bb[<expr>])) -/
def Engine.process_block_small.line1_77 (cfg : Cfg) (w : List (BitVec 32)) : Source.Ripemd160.Engine.process_block_small.State1 → Tr Source.Ripemd160.Engine.process_block_small.State1 :=
  fun (bb', bbb') => do
    let x_881 ← Tr.index bb' 3
    let x_882 ← Tr.index bb' 4
    let x_883 ← Tr.index bb' 0
    let x_884 ← Tr.index bb' 1
    let x_885 ← Tr.index bb' 2
    let x_886 ← Tr.index w 6
    let x_887 ← Tr.index bb' 4
    let x_888 ← Tr.index bb' 0
    let x_889 ← Tr.index bb' 1
    let updates' := Source.Ripemd160.small_hash.round cfg x_881 x_882 x_883 x_884 x_885 x_886 8#32 0xa953fd4e#32 (x_887 ^^^ (x_888 ||| (~~~x_889)))
    let bb' ← Tr.indexSet bb' 3 updates'.1
    let bb' ← Tr.indexSet bb' 0 updates'.2
    pure (bb', bbb')

/-- round!(bb[<expr>], bb[<expr>], bb[<expr>], bb[<expr>], bb[<expr>], <expr>[<expr>], <expr>, 0xa953fd4e, bb[<expr>] ^(bb[<expr>] | ! bb[<expr>])) -/
def Engine.process_block_small.line1_78 (cfg : Cfg) (w : List (BitVec 32)) : Source.Ripemd160.Engine.process_block_small.State1 → Tr Source.Ripemd160.Engine.process_block_small.State1 :=
  fun (bb', bbb') => do
    let x_892 ← Tr.index bb' 2
    let x_893 ← Tr.index bb' 3
    let x_894 ← Tr.index bb' 4
    let x_895 ← Tr.index bb' 0
    let x_896 ← Tr.index bb' 1
    let x_897 ← Tr.index w 15
    let x_898 ← Tr.index bb' 3
    let x_899 ← Tr.index bb' 4
    let x_900 ← Tr.index bb' 0
    let updates' := Source.Ripemd160.small_hash.round cfg x_892 x_893 x_894 x_895 x_896 x_897 5#32 0xa953fd4e#32 (x_898 ^^^ (x_899 ||| (~~~x_900)))
    let bb' ← Tr.indexSet bb' 2 updates'.1
    let bb' ← Tr.indexSet bb' 4 updates'.2
    pure (bb', bbb')

/-- round!(bb[<expr>], bb[<expr>], bb[<expr>], bb[<expr>], bb[<expr>], <expr>[<expr>], <expr>, 0xa953fd4e, bb[<expr>] ^(bb[<expr>] | ! bb[<expr>])) -/
def Engine.process_block_small.line1_79 (cfg : Cfg) (w : List (BitVec 32)) : Source.Ripemd160.Engine.process_block_small.State1 → Tr Source.Ripemd160.Engine.process_block_small.State1 :=
  fun (bb', bbb') => do
    let x_903 ← Tr.index bb' 1
    let x_904 ← Tr.index bb' 2
    let x_905 ← Tr.index bb' 3
    let x_906 ← Tr.index bb' 4
    let x_907 ← Tr.index bb' 0
    let x_908 ← Tr.index w 13
    let x_909 ← Tr.index bb' 2
    let x_910 ← Tr.index bb' 3
    let x_911 ← Tr.index bb' 4
    let updates' := Source.Ripemd160.small_hash.round cfg x_903 x_904 x_905 x_906 x_907 x_908 6#32 0xa953fd4e#32 (x_909 ^^^ (x_910 ||| (~~~x_911)))
    let bb' ← Tr.indexSet bb' 1 updates'.1
    let bb' ← Tr.indexSet bb' 3 updates'.2
    pure (bb', bbb')

/-- round!(bbb[<expr>], bbb[<expr>], bbb[<expr>], bbb[<expr>], bbb[<expr>], <expr>[<expr>], <expr>, 0x50a28be6, bbb[<expr>] ^(bbb[<expr>] | ! bbb[<expr>])) -/
def Engine.process_block_small.line1_80 (cfg : Cfg) (w : List (BitVec 32)) : Source.Ripemd160.Engine.process_block_small.State1 → Tr Source.Ripemd160.Engine.process_block_small.State1 :=
  fun (bb', bbb') => do
    let x_914 ← Tr.index bbb' 0
    let x_915 ← Tr.index bbb' 1
    let x_916 ← Tr.index bbb' 2
    let x_917 ← Tr.index bbb' 3
    let x_918 ← Tr.index bbb' 4
    let x_919 ← Tr.index w 5
    let x_920 ← Tr.index bbb' 1
    let x_921 ← Tr.index bbb' 2
    let x_922 ← Tr.index bbb' 3
    let updates' := Source.Ripemd160.small_hash.round cfg x_914 x_915 x_916 x_917 x_918 x_919 8#32 0x50a28be6#32 (x_920 ^^^ (x_921 ||| (~~~x_922)))
    let bbb' ← Tr.indexSet bbb' 0 updates'.1
    let bbb' ← Tr.indexSet bbb' 2 updates'.2
    pure (bb', bbb')

/-- round!(bbb[<expr>], bbb[<expr>], bbb[<expr>], bbb[<expr>], bbb[<expr>], <expr>[<expr>], <expr>, 0x50a28be6, bbb[<expr>] ^(bbb[<expr>] | ! bbb[<expr>])) -/
def Engine.process_block_small.line1_81 (cfg : Cfg) (w : List (BitVec 32)) : Source.Ripemd160.Engine.process_block_small.State1 → Tr Source.Ripemd160.Engine.process_block_small.State1 :=
  fun (bb', bbb') => do
    let x_925 ← Tr.index bbb' 4
    let x_926 ← Tr.index bbb' 0
    let x_927 ← Tr.index bbb' 1
    let x_928 ← Tr.index bbb' 2
    let x_929 ← Tr.index bbb' 3
    let x_930 ← Tr.index w 14
    let x_931 ← Tr.index bbb' 0
    let x_932 ← Tr.index bbb' 1
    let x_933 ← Tr.index bbb' 2
    let updates' := Source.Ripemd160.small_hash.round cfg x_925 x_926 x_927 x_928 x_929 x_930 9#32 0x50a28be6#32 (x_931 ^^^ (x_932 ||| (~~~x_933)))
    let bbb' ← Tr.indexSet bbb' 4 updates'.1
    let bbb' ← Tr.indexSet bbb' 1 updates'.2
    pure (bb', bbb')

/-- round!(bbb[<expr>], bbb[<expr>], bbb[<expr>], bbb[<expr>], bbb[<expr>], <expr>[<expr>], <expr>, 0x50a28be6, bbb[<expr>] ^(bbb[<expr>] | ! bbb[<expr>])) -/
def Engine.process_block_small.line1_82 (cfg : Cfg) (w : List (BitVec 32)) : Source.Ripemd160.Engine.process_block_small.State1 → Tr Source.Ripemd160.Engine.process_block_small.State1 :=
  fun (bb', bbb') => do
    let x_936 ← Tr.index bbb' 3
    let x_937 ← Tr.index bbb' 4
    let x_938 ← Tr.index bbb' 0
    let x_939 ← Tr.index bbb' 1
    let x_940 ← Tr.index bbb' 2
    let x_941 ← Tr.index w 7
    let x_942 ← Tr.index bbb' 4
    let x_943 ← Tr.index bbb' 0
    let x_944 ← Tr.index bbb' 1
    let updates' := Source.Ripemd160.small_hash.round cfg x_936 x_937 x_938 x_939 x_940 x_941 9#32 0x50a28be6#32 (x_942 ^^^ (x_943 ||| (~~~x_944)))
    let bbb' ← Tr.indexSet bbb' 3 updates'.1
    let bbb' ← Tr.indexSet bbb' 0 updates'.2
    pure (bb', bbb')

/-- round!(bbb[<expr>], bbb[<expr>], bbb[<expr>], bbb[<expr>], bbb[<expr>], <expr>[<expr>], <expr>, 0x50a28be6, bbb[<expr>] ^(bbb[<expr>] | ! bbb[<expr>])) -/
def Engine.process_block_small.line1_83 (cfg : Cfg) (w : List (BitVec 32)) : Source.Ripemd160.Engine.process_block_small.State1 → Tr Source.Ripemd160.Engine.process_block_small.State1 :=
  fun (bb', bbb') => do
    let x_947 ← Tr.index bbb' 2
    let x_948 ← Tr.index bbb' 3
    let x_949 ← Tr.index bbb' 4
    let x_950 ← Tr.index bbb' 0
    let x_951 ← Tr.index bbb' 1
    let x_952 ← Tr.index w 0
    let x_953 ← Tr.index bbb' 3
    let x_954 ← Tr.index bbb' 4
    let x_955 ← Tr.index bbb' 0
    let updates' := Source.Ripemd160.small_hash.round cfg x_947 x_948 x_949 x_950 x_951 x_952 11#32 0x50a28be6#32 (x_953 ^^^ (x_954 ||| (~~~x_955)))
    let bbb' ← Tr.indexSet bbb' 2 updates'.1
    let bbb' ← Tr.indexSet bbb' 4 updates'.2
    pure (bb', bbb')

/-- round!(bbb[<expr>], bbb[<expr>], bbb[<expr>], bbb[<expr>], bbb[<expr>], <expr>[<expr>], <expr>, 0x50a28be6, bbb[<expr>] ^(bbb[<expr>] | ! bbb[<expr>])) -/
def Engine.process_block_small.line1_84 (cfg : Cfg) (w : List (BitVec 32)) : Source.Ripemd160.Engine.process_block_small.State1 → Tr Source.Ripemd160.Engine.process_block_small.State1 :=
  fun (bb', bbb') => do
    let x_958 ← Tr.index bbb' 1
    let x_959 ← Tr.index bbb' 2
    let x_960 ← Tr.index bbb' 3
    let x_961 ← Tr.index bbb' 4
    let x_962 ← Tr.index bbb' 0
    let x_963 ← Tr.index w 9
    let x_964 ← Tr.index bbb' 2
    let x_965 ← Tr.index bbb' 3
    let x_966 ← Tr.index bbb' 4
    let updates' := Source.Ripemd160.small_hash.round cfg x_958 x_959 x_960 x_961 x_962 x_963 13#32 0x50a28be6#32 (x_964 ^^^ (x_965 ||| (~~~x_966)))
    let bbb' ← Tr.indexSet bbb' 1 updates'.1
    let bbb' ← Tr.indexSet bbb' 3 updates'.2
    pure (bb', bbb')

/-- round!(bbb[<expr>], bbb[<expr>], bbb[<expr>], bbb[<expr>], bbb[<expr>], <expr>[<expr>], <expr>, 0x50a28be6, bbb[<expr>] ^(bbb[<expr>] | ! bbb[<expr>])) -/
def Engine.process_block_small.line1_85 (cfg : Cfg) (w : List (BitVec 32)) : Source.Ripemd160.Engine.process_block_small.State1 → Tr Source.Ripemd160.Engine.process_block_small.State1 :=
  fun (bb', bbb') => do
    let x_969 ← Tr.index bbb' 0
    let x_970 ← Tr.index bbb' 1
    let x_971 ← Tr.index bbb' 2
    let x_972 ← Tr.index bbb' 3
    let x_973 ← Tr.index bbb' 4
    let x_974 ← Tr.index w 2
    let x_975 ← Tr.index bbb' 1
    let x_976 ← Tr.index bbb' 2
    let x_977 ← Tr.index bbb' 3
    let updates' := Source.Ripemd160.small_hash.round cfg x_969 x_970 x_971 x_972 x_973 x_974 15#32 0x50a28be6#32 (x_975 ^^^ (x_976 ||| (~~~x_977)))
    let bbb' ← Tr.indexSet bbb' 0 updates'.1
    let bbb' ← Tr.indexSet bbb' 2 updates'.2
    pure (bb', bbb')

/-- round!(bbb[<expr>], bbb[<expr>], bbb[<expr>], bbb[<expr>], bbb[<expr>], <expr>[<expr>], <expr>, 0x50a28be6, bbb[<expr>] ^(bbb[<expr>] | ! bbb[<expr>])) -/
def Engine.process_block_small.line1_86 (cfg : Cfg) (w : List (BitVec 32)) : Source.Ripemd160.Engine.process_block_small.State1 → Tr Source.Ripemd160.Engine.process_block_small.State1 :=
  fun (bb', bbb') => do
    let x_980 ← Tr.index bbb' 4
    let x_981 ← Tr.index bbb' 0
    let x_982 ← Tr.index bbb' 1
    let x_983 ← Tr.index bbb' 2
    let x_984 ← Tr.index bbb' 3
    let x_985 ← Tr.index w 11
    let x_986 ← Tr.index bbb' 0
    let x_987 ← Tr.index bbb' 1
    let x_988 ← Tr.index bbb' 2
    let updates' := Source.Ripemd160.small_hash.round cfg x_980 x_981 x_982 x_983 x_984 x_985 15#32 0x50a28be6#32 (x_986 ^^^ (x_987 ||| (~~~x_988)))
    let bbb' ← Tr.indexSet bbb' 4 updates'.1
    let bbb' ← Tr.indexSet bbb' 1 updates'.2
    pure (bb', bbb')

/-- round!(bbb[<expr>], bbb[<expr>], bbb[<expr>], bbb[<expr>], bbb[<expr>], <expr>[<expr>], <expr>, 0x50a28be6, bbb[<expr>] ^(bbb[<expr>] | ! bbb[<expr>])) -/
def Engine.process_block_small.line1_87 (cfg : Cfg) (w : List (BitVec 32)) : Source.Ripemd160.Engine.process_block_small.State1 → Tr Source.Ripemd160.Engine.process_block_small.State1 :=
  fun (bb', bbb') => do
    let x_991 ← Tr.index bbb' 3
    let x_992 ← Tr.index bbb' 4
    let x_993 ← Tr.index bbb' 0
    let x_994 ← Tr.index bbb' 1
    let x_995 ← Tr.index bbb' 2
    let x_996 ← Tr.index w 4
    let x_997 ← Tr.index bbb' 4
    let x_998 ← Tr.index bbb' 0
    let x_999 ← Tr.index bbb' 1
    let updates' := Source.Ripemd160.small_hash.round cfg x_991 x_992 x_993 x_994 x_995 x_996 5#32 0x50a28be6#32 (x_997 ^^^ (x_998 ||| (~~~x_999)))
    let bbb' ← Tr.indexSet bbb' 3 updates'.1
    let bbb' ← Tr.indexSet bbb' 0 updates'.2
    pure (bb', bbb')

/-- round!(bbb[<expr>], bbb[<expr>], bbb[<expr>], bbb[<expr>], bbb[<expr>], <expr>[<expr>], <expr>, 0x50a28be6, bbb[<expr>] ^(bbb[<expr>] | ! bbb[<expr>])) -/
def Engine.process_block_small.line1_88 (cfg : Cfg) (w : List (BitVec 32)) : Source.Ripemd160.Engine.process_block_small.State1 → Tr Source.Ripemd160.Engine.process_block_small.State1 :=
  fun (bb', bbb') => do
    let x_1002 ← Tr.index bbb' 2
    let x_1003 ← Tr.index bbb' 3
    let x_1004 ← Tr.index bbb' 4
    let x_1005 ← Tr.index bbb' 0
    let x_1006 ← Tr.index bbb' 1
    let x_1007 ← Tr.index w 13
    let x_1008 ← Tr.index bbb' 3
    let x_1009 ← Tr.index bbb' 4
    let x_1010 ← Tr.index bbb' 0
    let updates' := Source.Ripemd160.small_hash.round cfg x_1002 x_1003 x_1004 x_1005 x_1006 x_1007 7#32 0x50a28be6#32 (x_1008 ^^^ (x_1009 ||| (~~~x_1010)))
    let bbb' ← Tr.indexSet bbb' 2 updates'.1
    let bbb' ← Tr.indexSet bbb' 4 updates'.2
    pure (bb', bbb')

/-- round!(bbb[<expr>], bbb[<expr>], bbb[<expr>], bbb[<expr>], bbb[<expr>], <expr>[<expr>], <expr>, 0x50a28be6, bbb[<expr>] ^(bbb[<expr>] | ! bbb[<expr>])) -/
def Engine.process_block_small.line1_89 (cfg : Cfg) (w : List (BitVec 32)) : Source.Ripemd160.Engine.process_block_small.State1 → Tr Source.Ripemd160.Engine.process_block_small.State1 :=
  fun (bb', bbb') => do
    let x_1013 ← Tr.index bbb' 1
    let x_1014 ← Tr.index bbb' 2
    let x_1015 ← Tr.index bbb' 3
    let x_1016 ← Tr.index bbb' 4
    let x_1017 ← Tr.index bbb' 0
    let x_1018 ← Tr.index w 6
    let x_1019 ← Tr.index bbb' 2
    let x_1020 ← Tr.index bbb' 3
    let x_1021 ← Tr.index bbb' 4
    let updates' := Source.Ripemd160.small_hash.round cfg x_1013 x_1014 x_1015 x_1016 x_1017 x_1018 7#32 0x50a28be6#32 (x_1019 ^^^ (x_1020 ||| (~~~x_1021)))
    let bbb' ← Tr.indexSet bbb' 1 updates'.1
    let bbb' ← Tr.indexSet bbb' 3 updates'.2
    pure (bb', bbb')

/-- round!(bbb[<expr>], bbb[<expr>], bbb[<expr>], bbb[<expr>], bbb[<expr>], <expr>[<expr>], <expr>, 0x50a28be6, bbb[<expr>] ^(bbb[<expr>] | ! bbb[<expr>])) -/
def Engine.process_block_small.line1_90 (cfg : Cfg) (w : List (BitVec 32)) : Source.Ripemd160.Engine.process_block_small.State1 → Tr Source.Ripemd160.Engine.process_block_small.State1 :=
  fun (bb', bbb') => do
    let x_1024 ← Tr.index bbb' 0
    let x_1025 ← Tr.index bbb' 1
    let x_1026 ← Tr.index bbb' 2
    let x_1027 ← Tr.index bbb' 3
    let x_1028 ← Tr.index bbb' 4
    let x_1029 ← Tr.index w 15
    let x_1030 ← Tr.index bbb' 1
    let x_1031 ← Tr.index bbb' 2
    let x_1032 ← Tr.index bbb' 3
    let updates' := Source.Ripemd160.small_hash.round cfg x_1024 x_1025 x_1026 x_1027 x_1028 x_1029 8#32 0x50a28be6#32 (x_1030 ^^^ (x_1031 ||| (~~~x_1032)))
    let bbb' ← Tr.indexSet bbb' 0 updates'.1
    let bbb' ← Tr.indexSet bbb' 2 updates'.2
    pure (bb', bbb')

/-- round!(bbb[<expr>], bbb[<expr>], bbb[<expr>], bbb[<expr>], bbb[<expr>], <expr>[<expr>], <expr>, 0x50a28be6, bbb[<expr>] ^(bbb[<expr>] | ! bbb[<expr>])) -/
def Engine.process_block_small.line1_91 (cfg : Cfg) (w : List (BitVec 32)) : Source.Ripemd160.Engine.process_block_small.State1 → Tr Source.Ripemd160.Engine.process_block_small.State1 :=
  fun (bb', bbb') => do
    let x_1035 ← Tr.index bbb' 4
    let x_1036 ← Tr.index bbb' 0
    let x_1037 ← Tr.index bbb' 1
    let x_1038 ← Tr.index bbb' 2
    let x_1039 ← Tr.index bbb' 3
    let x_1040 ← Tr.index w 8
    let x_1041 ← Tr.index bbb' 0
    let x_1042 ← Tr.index bbb' 1
    let x_1043 ← Tr.index bbb' 2
    let updates' := Source.Ripemd160.small_hash.round cfg x_1035 x_1036 x_1037 x_1038 x_1039 x_1040 11#32 0x50a28be6#32 (x_1041 ^^^ (x_1042 ||| (~~~x_1043)))
    let bbb' ← Tr.indexSet bbb' 4 updates'.1
    let bbb' ← Tr.indexSet bbb' 1 updates'.2
    pure (bb', bbb')

/-- round!(bbb[<expr>], bbb[<expr>], bbb[<expr>], bbb[<expr>], bbb[<expr>], <expr>[<expr>], <expr>, 0x50a28be6, bbb[<expr>] ^(bbb[<expr>] | ! bbb[<expr>])) -/
def Engine.process_block_small.line1_92 (cfg : Cfg) (w : List (BitVec 32)) : Source.Ripemd160.Engine.process_block_small.State1 → Tr Source.Ripemd160.Engine.process_block_small.State1 :=
  fun (bb', bbb') => do
    let x_1046 ← Tr.index bbb' 3
    let x_1047 ← Tr.index bbb' 4
    let x_1048 ← Tr.index bbb' 0
    let x_1049 ← Tr.index bbb' 1
    let x_1050 ← Tr.index bbb' 2
    let x_1051 ← Tr.index w 1
    let x_1052 ← Tr.index bbb' 4
    let x_1053 ← Tr.index bbb' 0
    let x_1054 ← Tr.index bbb' 1
    let updates' := Source.Ripemd160.small_hash.round cfg x_1046 x_1047 x_1048 x_1049 x_1050 x_1051 14#32 0x50a28be6#32 (x_1052 ^^^ (x_1053 ||| (~~~x_1054)))
    let bbb' ← Tr.indexSet bbb' 3 updates'.1
    let bbb' ← Tr.indexSet bbb' 0 updates'.2
    pure (bb', bbb')

/-- round!(bbb[<expr>], bbb[<expr>], bbb[<expr>], bbb[<expr>], bbb[<expr>], <expr>[<expr>], <expr>, 0x50a28be6, bbb[<expr>] ^(bbb[<expr>] | ! bbb[<expr>])) -/
def Engine.process_block_small.line1_93 (cfg : Cfg) (w : List (BitVec 32)) : Source.Ripemd160.Engine.process_block_small.State1 → Tr Source.Ripemd160.Engine.process_block_small.State1 :=
  fun (bb', bbb') => do
    let x_1057 ← Tr.index bbb' 2
    let x_1058 ← Tr.index bbb' 3
    let x_1059 ← Tr.index bbb' 4
    let x_1060 ← Tr.index bbb' 0
    let x_1061 ← Tr.index bbb' 1
    let x_1062 ← Tr.index w 10
    let x_1063 ← Tr.index bbb' 3
    let x_1064 ← Tr.index bbb' 4
    let x_1065 ← Tr.index bbb' 0
    let updates' := Source.Ripemd160.small_hash.round cfg x_1057 x_1058 x_1059 x_1060 x_1061 x_1062 14#32 0x50a28be6#32 (x_1063 ^^^ (x_1064 ||| (~~~x_1065)))
    let bbb' ← Tr.indexSet bbb' 2 updates'.1
    let bbb' ← Tr.indexSet bbb' 4 updates'.2
    pure (bb', bbb')

/-- round!(bbb[<expr>], bbb[<expr>], bbb[<expr>], bbb[<expr>], bbb[<expr>], <expr>[<expr>], <expr>, 0x50a28be6, bbb[<expr>] ^(bbb[<expr>] | ! bbb[<expr>])) -/
def Engine.process_block_small.line1_94 (cfg : Cfg) (w : List (BitVec 32)) : Source.Ripemd160.Engine.process_block_small.State1 → Tr Source.Ripemd160.Engine.process_block_small.State1 :=
  fun (bb', bbb') => do
    let x_1068 ← Tr.index bbb' 1
    let x_1069 ← Tr.index bbb' 2
    let x_1070 ← Tr.index bbb' 3
    let x_1071 ← Tr.index bbb' 4
    let x_1072 ← Tr.index bbb' 0
    let x_1073 ← Tr.index w 3
    let x_1074 ← Tr.index bbb' 2
    let x_1075 ← Tr.index bbb' 3
    let x_1076 ← Tr.index bbb' 4
    let updates' := Source.Ripemd160.small_hash.round cfg x_1068 x_1069 x_1070 x_1071 x_1072 x_1073 12#32 0x50a28be6#32 (x_1074 ^^^ (x_1075 ||| (~~~x_1076)))
    let bbb' ← Tr.indexSet bbb' 1 updates'.1
    let bbb' ← Tr.indexSet bbb' 3 updates'.2
    pure (bb', bbb')

/-- round!(bbb[<expr>], bbb[<expr>], bbb[<expr>], bbb[<expr>], bbb[<expr>], <expr>[<expr>], <expr>, 0x50a28be6, bbb[<expr>] ^(bbb[<expr>] | ! bbb[<expr>])) -/
def Engine.process_block_small.line1_95 (cfg : Cfg) (w : List (BitVec 32)) : Source.Ripemd160.Engine.process_block_small.State1 → Tr Source.Ripemd160.Engine.process_block_small.State1 :=
  fun (bb', bbb') => do
    let x_1079 ← Tr.index bbb' 0
    let x_1080 ← Tr.index bbb' 1
    let x_1081 ← Tr.index bbb' 2
    let x_1082 ← Tr.index bbb' 3
    let x_1083 ← Tr.index bbb' 4
    let x_1084 ← Tr.index w 12
    let x_1085 ← Tr.index bbb' 1
    let x_1086 ← Tr.index bbb' 2
    let x_1087 ← Tr.index bbb' 3
    let updates' := Source.Ripemd160.small_hash.round cfg x_1079 x_1080 x_1081 x_1082 x_1083 x_1084 6#32 0x50a28be6#32 (x_1085 ^^^ (x_1086 ||| (~~~x_1087)))
    let bbb' ← Tr.indexSet bbb' 0 updates'.1
    let bbb' ← Tr.indexSet bbb' 2 updates'.2
    pure (bb', bbb')

/-- round!(bbb[<expr>], bbb[<expr>], bbb[<expr>], bbb[<expr>], bbb[<expr>], <expr>[<expr>], <expr>, 0x5c4dd124,(bbb[<expr>] & bbb[<expr>]) |(bbb[<expr>] & ! bbb[<expr>])) -/
def Engine.process_block_small.line1_96 (cfg : Cfg) (w : List (BitVec 32)) : Source.Ripemd160.Engine.process_block_small.State1 → Tr Source.Ripemd160.Engine.process_block_small.State1 :=
  fun (bb', bbb') => do
    let x_1090 ← Tr.index bbb' 4
    let x_1091 ← Tr.index bbb' 0
    let x_1092 ← Tr.index bbb' 1
    let x_1093 ← Tr.index bbb' 2
    let x_1094 ← Tr.index bbb' 3
    let x_1095 ← Tr.index w 6
    let x_1096 ← Tr.index bbb' 0
    let x_1097 ← Tr.index bbb' 2
    let x_1098 ← Tr.index bbb' 1
    let x_1099 ← Tr.index bbb' 2
    let updates' := Source.Ripemd160.small_hash.round cfg x_1090 x_1091 x_1092 x_1093 x_1094 x_1095 9#32 0x5c4dd124#32 ((x_1096 &&& x_1097) ||| (x_1098 &&& (~~~x_1099)))
    let bbb' ← Tr.indexSet bbb' 4 updates'.1
    let bbb' ← Tr.indexSet bbb' 1 updates'.2
    pure (bb', bbb')

/-- round!(bbb[<expr>], bbb[<expr>], bbb[<expr>], bbb[<expr>], bbb[<expr>], <expr>[<expr>], <expr>, 0x5c4dd124,(bbb[<expr>] & bbb[<expr>]) |(bbb[<expr>] & ! bbb[<expr>])) -/
def Engine.process_block_small.line1_97 (cfg : Cfg) (w : List (BitVec 32)) : Source.Ripemd160.Engine.process_block_small.State1 → Tr Source.Ripemd160.Engine.process_block_small.State1 :=
  fun (bb', bbb') => do
    let x_1102 ← Tr.index bbb' 3
    let x_1103 ← Tr.index bbb' 4
    let x_1104 ← Tr.index bbb' 0
    let x_1105 ← Tr.index bbb' 1
    let x_1106 ← Tr.index bbb' 2
    let x_1107 ← Tr.index w 11
    let x_1108 ← Tr.index bbb' 4
    let x_1109 ← Tr.index bbb' 1
    let x_1110 ← Tr.index bbb' 0
    let x_1111 ← Tr.index bbb' 1
    let updates' := Source.Ripemd160.small_hash.round cfg x_1102 x_1103 x_1104 x_1105 x_1106 x_1107 13#32 0x5c4dd124#32 ((x_1108 &&& x_1109) ||| (x_1110 &&& (~~~x_1111)))
    let bbb' ← Tr.indexSet bbb' 3 updates'.1
    let bbb' ← Tr.indexSet bbb' 0 updates'.2
    pure (bb', bbb')

/-- round!(bbb[<expr>], bbb[<expr>], bbb[<expr>], bbb[<expr>], bbb[<expr>], <expr>[<expr>], <expr>, 0x5c4dd124,(bbb[<expr>] & bbb[<expr>]) |(bbb[<expr>] & ! bbb[<expr>])) -/
def Engine.process_block_small.line1_98 (cfg : Cfg) (w : List (BitVec 32)) : Source.Ripemd160.Engine.process_block_small.State1 → Tr Source.Ripemd160.Engine.process_block_small.State1 :=
  fun (bb', bbb') => do
    let x_1114 ← Tr.index bbb' 2
    let x_1115 ← Tr.index bbb' 3
    let x_1116 ← Tr.index bbb' 4
    let x_1117 ← Tr.index bbb' 0
    let x_1118 ← Tr.index bbb' 1
    let x_1119 ← Tr.index w 3
    let x_1120 ← Tr.index bbb' 3
    let x_1121 ← Tr.index bbb' 0
    let x_1122 ← Tr.index bbb' 4
    let x_1123 ← Tr.index bbb' 0
    let updates' := Source.Ripemd160.small_hash.round cfg x_1114 x_1115 x_1116 x_1117 x_1118 x_1119 15#32 0x5c4dd124#32 ((x_1120 &&& x_1121) ||| (x_1122 &&& (~~~x_1123)))
    let bbb' ← Tr.indexSet bbb' 2 updates'.1
    let bbb' ← Tr.indexSet bbb' 4 updates'.2
    pure (bb', bbb')

/-- round!(bbb[<expr>], bbb[<expr>], bbb[<expr>], bbb[<expr>], bbb[<expr>], <expr>[<expr>], <expr>, 0x5c4dd124,(bbb[<expr>] & bbb[<expr>]) |(bbb[<expr>] & ! bbb[<expr>])) -/
def Engine.process_block_small.line1_99 (cfg : Cfg) (w : List (BitVec 32)) : Source.Ripemd160.Engine.process_block_small.State1 → Tr Source.Ripemd160.Engine.process_block_small.State1 :=
  fun (bb', bbb') => do
    let x_1126 ← Tr.index bbb' 1
    let x_1127 ← Tr.index bbb' 2
    let x_1128 ← Tr.index bbb' 3
    let x_1129 ← Tr.index bbb' 4
    let x_1130 ← Tr.index bbb' 0
    let x_1131 ← Tr.index w 7
    let x_1132 ← Tr.index bbb' 2
    let x_1133 ← Tr.index bbb' 4
    let x_1134 ← Tr.index bbb' 3
    let x_1135 ← Tr.index bbb' 4
    let updates' := Source.Ripemd160.small_hash.round cfg x_1126 x_1127 x_1128 x_1129 x_1130 x_1131 7#32 0x5c4dd124#32 ((x_1132 &&& x_1133) ||| (x_1134 &&& (~~~x_1135)))
    let bbb' ← Tr.indexSet bbb' 1 updates'.1
    let bbb' ← Tr.indexSet bbb' 3 updates'.2
    pure (bb', bbb')

/-- round!(bbb[<expr>], bbb[<expr>], bbb[<expr>], bbb[<expr>], bbb[<expr>], <expr>[<expr>], <expr>, 0x5c4dd124,(bbb[<expr>] & bbb[<expr>]) |(bbb[<expr>] & ! bbb[<expr>])) -/
def Engine.process_block_small.line1_100 (cfg : Cfg) (w : List (BitVec 32)) : Source.Ripemd160.Engine.process_block_small.State1 → Tr Source.Ripemd160.Engine.process_block_small.State1 :=
  fun (bb', bbb') => do
    let x_1138 ← Tr.index bbb' 0
    let x_1139 ← Tr.index bbb' 1
    let x_1140 ← Tr.index bbb' 2
    let x_1141 ← Tr.index bbb' 3
    let x_1142 ← Tr.index bbb' 4
    let x_1143 ← Tr.index w 0
    let x_1144 ← Tr.index bbb' 1
    let x_1145 ← Tr.index bbb' 3
    let x_1146 ← Tr.index bbb' 2
    let x_1147 ← Tr.index bbb' 3
    let updates' := Source.Ripemd160.small_hash.round cfg x_1138 x_1139 x_1140 x_1141 x_1142 x_1143 12#32 0x5c4dd124#32 ((x_1144 &&& x_1145) ||| (x_1146 &&& (~~~x_1147)))
    let bbb' ← Tr.indexSet bbb' 0 updates'.1
    let bbb' ← Tr.indexSet bbb' 2 updates'.2
    pure (bb', bbb')

/-- round!(bbb[<expr>], bbb[<expr>], bbb[<expr>], bbb[<expr>], bbb[<expr>], <expr>[<expr>], <expr>, 0x5c4dd124,(bbb[<expr>] & bbb[<expr>]) |(bbb[<expr>] & ! bbb[<expr>])) -/
def Engine.process_block_small.line1_101 (cfg : Cfg) (w : List (BitVec 32)) : Source.Ripemd160.Engine.process_block_small.State1 → Tr Source.Ripemd160.Engine.process_block_small.State1 :=
  fun (bb', bbb') => do
    let x_1150 ← Tr.index bbb' 4
    let x_1151 ← Tr.index bbb' 0
    let x_1152 ← Tr.index bbb' 1
    let x_1153 ← Tr.index bbb' 2
    let x_1154 ← Tr.index bbb' 3
    let x_1155 ← Tr.index w 13
    let x_1156 ← Tr.index bbb' 0
    let x_1157 ← Tr.index bbb' 2
    let x_1158 ← Tr.index bbb' 1
    let x_1159 ← Tr.index bbb' 2
    let updates' := Source.Ripemd160.small_hash.round cfg x_1150 x_1151 x_1152 x_1153 x_1154 x_1155 8#32 0x5c4dd124#32 ((x_1156 &&& x_1157) ||| (x_1158 &&& (~~~x_1159)))
    let bbb' ← Tr.indexSet bbb' 4 updates'.1
    let bbb' ← Tr.indexSet bbb' 1 updates'.2
    pure (bb', bbb')

/-- round!(bbb[<expr>], bbb[<expr>], bbb[<expr>], bbb[<expr>], bbb[<expr>], <expr>[<expr>], <expr>, 0x5c4dd124,(bbb[<expr>] & bbb[<expr>]) |(bbb[<expr>] & ! bbb[<expr>])) -/
def Engine.process_block_small.line1_102 (cfg : Cfg) (w : List (BitVec 32)) : Source.Ripemd160.Engine.process_block_small.State1 → Tr Source.Ripemd160.Engine.process_block_small.State1 :=
  fun (bb', bbb') => do
    let x_1162 ← Tr.index bbb' 3
    let x_1163 ← Tr.index bbb' 4
    let x_1164 ← Tr.index bbb' 0
    let x_1165 ← Tr.index bbb' 1
    let x_1166 ← Tr.index bbb' 2
    let x_1167 ← Tr.index w 5
    let x_1168 ← Tr.index bbb' 4
    let x_1169 ← Tr.index bbb' 1
    let x_1170 ← Tr.index bbb' 0
    let x_1171 ← Tr.index bbb' 1
    let updates' := Source.Ripemd160.small_hash.round cfg x_1162 x_1163 x_1164 x_1165 x_1166 x_1167 9#32 0x5c4dd124#32 ((x_1168 &&& x_1169) ||| (x_1170 &&& (~~~x_1171)))
    let bbb' ← Tr.indexSet bbb' 3 updates'.1
    let bbb' ← Tr.indexSet bbb' 0 updates'.2
    pure (bb', bbb')

/-- round!(bbb[<expr>], bbb[<expr>], bbb[<expr>], bbb[<expr>], bbb[<expr>], <expr>[<expr>], <expr>, 0x5c4dd124,(bbb[<expr>] & bbb[<expr>]) |(bbb[<expr>] & ! bbb[<expr>])) -/
def Engine.process_block_small.line1_103 (cfg : Cfg) (w : List (BitVec 32)) : Source.Ripemd160.Engine.process_block_small.State1 → Tr Source.Ripemd160.Engine.process_block_small.State1 :=
  fun (bb', bbb') => do
    let x_1174 ← Tr.index bbb' 2
    let x_1175 ← Tr.index bbb' 3
    let x_1176 ← Tr.index bbb' 4
    let x_1177 ← Tr.index bbb' 0
    let x_1178 ← Tr.index bbb' 1
    let x_1179 ← Tr.index w 10
    let x_1180 ← Tr.index bbb' 3
    let x_1181 ← Tr.index bbb' 0
    let x_1182 ← Tr.index bbb' 4
    let x_1183 ← Tr.index bbb' 0
    let updates' := Source.Ripemd160.small_hash.round cfg x_1174 x_1175 x_1176 x_1177 x_1178 x_1179 11#32 0x5c4dd124#32 ((x_1180 &&& x_1181) ||| (x_1182 &&& (~~~x_1183)))
    let bbb' ← Tr.indexSet bbb' 2 updates'.1
    let bbb' ← Tr.indexSet bbb' 4 updates'.2
    pure (bb', bbb')

/-- round!(bbb[<expr>], bbb[<expr>], bbb[<expr>], bbb[<expr>], bbb[<expr>], <expr>[<expr>], <expr>, 0x5c4dd124,(bbb[<expr>] & bbb[<expr>]) |(bbb[<expr>] & ! bbb[<expr>])) -/
def Engine.process_block_small.line1_104 (cfg : Cfg) (w : List (BitVec 32)) : Source.Ripemd160.Engine.process_block_small.State1 → Tr Source.Ripemd160.Engine.process_block_small.State1 :=
  fun (bb', bbb') => do
    let x_1186 ← Tr.index bbb' 1
    let x_1187 ← Tr.index bbb' 2
    let x_1188 ← Tr.index bbb' 3
    let x_1189 ← Tr.index bbb' 4
    let x_1190 ← Tr.index bbb' 0
    let x_1191 ← Tr.index w 14
    let x_1192 ← Tr.index bbb' 2
    let x_1193 ← Tr.index bbb' 4
    let x_1194 ← Tr.index bbb' 3
    let x_1195 ← Tr.index bbb' 4
    let updates' := Source.Ripemd160.small_hash.round cfg x_1186 x_1187 x_1188 x_1189 x_1190 x_1191 7#32 0x5c4dd124#32 ((x_1192 &&& x_1193) ||| (x_1194 &&& (~~~x_1195)))
    let bbb' ← Tr.indexSet bbb' 1 updates'.1
    let bbb' ← Tr.indexSet bbb' 3 updates'.2
    pure (bb', bbb')

/-- round!(bbb[<expr>], bbb[<expr>], bbb[<expr>], bbb[<expr>], bbb[<expr>], <expr>[<expr>], <expr>, 0x5c4dd124,(bbb[<expr>] & bbb[<expr>]) |(bbb[<expr>] & ! bbb[<expr>])) -/
def Engine.process_block_small.line1_105 (cfg : Cfg) (w : List (BitVec 32)) : Source.Ripemd160.Engine.process_block_small.State1 → Tr Source.Ripemd160.Engine.process_block_small.State1 :=
  fun (bb', bbb') => do
    let x_1198 ← Tr.index bbb' 0
    let x_1199 ← Tr.index bbb' 1
    let x_1200 ← Tr.index bbb' 2
    let x_1201 ← Tr.index bbb' 3
    let x_1202 ← Tr.index bbb' 4
    let x_1203 ← Tr.index w 15
    let x_1204 ← Tr.index bbb' 1
    let x_1205 ← Tr.index bbb' 3
    let x_1206 ← Tr.index bbb' 2
    let x_1207 ← Tr.index bbb' 3
    let updates' := Source.Ripemd160.small_hash.round cfg x_1198 x_1199 x_1200 x_1201 x_1202 x_1203 7#32 0x5c4dd124#32 ((x_1204 &&& x_1205) ||| (x_1206 &&& (~~~x_1207)))
    let bbb' ← Tr.indexSet bbb' 0 updates'.1
    let bbb' ← Tr.indexSet bbb' 2 updates'.2
    pure (bb', bbb')

/-- round!(bbb[<expr>], bbb[<expr>], bbb[<expr>], bbb[<expr>], bbb[<expr>], <expr>[<expr>], <expr>, 0x5c4dd124,(bbb[<expr>] & bbb[<expr>]) |(bbb[<expr>] & ! bbb[<expr>])) -/
def Engine.process_block_small.line1_106 (cfg : Cfg) (w : List (BitVec 32)) : Source.Ripemd160.Engine.process_block_small.State1 → Tr Source.Ripemd160.Engine.process_block_small.State1 :=
  fun (bb', bbb') => do
    let x_1210 ← Tr.index bbb' 4
    let x_1211 ← Tr.index bbb' 0
    let x_1212 ← Tr.index bbb' 1
    let x_1213 ← Tr.index bbb' 2
    let x_1214 ← Tr.index bbb' 3
    let x_1215 ← Tr.index w 8
    let x_1216 ← Tr.index bbb' 0
    let x_1217 ← Tr.index bbb' 2
    let x_1218 ← Tr.index bbb' 1
    let x_1219 ← Tr.index bbb' 2
    let updates' := Source.Ripemd160.small_hash.round cfg x_1210 x_1211 x_1212 x_1213 x_1214 x_1215 12#32 0x5c4dd124#32 ((x_1216 &&& x_1217) ||| (x_1218 &&& (~~~x_1219)))
    let bbb' ← Tr.indexSet bbb' 4 updates'.1
    let bbb' ← Tr.indexSet bbb' 1 updates'.2
    pure (bb', bbb')

/-- round!(bbb[<expr>], bbb[<expr>], bbb[<expr>], bbb[<expr>], bbb[<expr>], <expr>[<expr>], <expr>, 0x5c4dd124,(bbb[<expr>] & bbb[<expr>]) |(bbb[<expr>] & ! bbb[<expr>])) -/
def Engine.process_block_small.line1_107 (cfg : Cfg) (w : List (BitVec 32)) : Source.Ripemd160.Engine.process_block_small.State1 → Tr Source.Ripemd160.Engine.process_block_small.State1 :=
  fun (bb', bbb') => do
    let x_1222 ← Tr.index bbb' 3
    let x_1223 ← Tr.index bbb' 4
    let x_1224 ← Tr.index bbb' 0
    let x_1225 ← Tr.index bbb' 1
    let x_1226 ← Tr.index bbb' 2
    let x_1227 ← Tr.index w 12
    let x_1228 ← Tr.index bbb' 4
    let x_1229 ← Tr.index bbb' 1
    let x_1230 ← Tr.index bbb' 0
    let x_1231 ← Tr.index bbb' 1
    let updates' := Source.Ripemd160.small_hash.round cfg x_1222 x_1223 x_1224 x_1225 x_1226 x_1227 7#32 0x5c4dd124#32 ((x_1228 &&& x_1229) ||| (x_1230 &&& (~~~x_1231)))
    let bbb' ← Tr.indexSet bbb' 3 updates'.1
    let bbb' ← Tr.indexSet bbb' 0 updates'.2
    pure (bb', bbb')

/-- round!(bbb[<expr>], bbb[<expr>], bbb[<expr>], bbb[<expr>], bbb[<expr>], <expr>[<expr>], <expr>, 0x5c4dd124,(bbb[<expr>] & bbb[<expr>]) |(bbb[<expr>] & ! bbb[<expr>])) -/
def Engine.process_block_small.line1_108 (cfg : Cfg) (w : List (BitVec 32)) : Source.Ripemd160.Engine.process_block_small.State1 → Tr Source.Ripemd160.Engine.process_block_small.State1 :=
  fun (bb', bbb') => do
    let x_1234 ← Tr.index bbb' 2
    let x_1235 ← Tr.index bbb' 3
    let x_1236 ← Tr.index bbb' 4
    let x_1237 ← Tr.index bbb' 0
    let x_1238 ← Tr.index bbb' 1
    let x_1239 ← Tr.index w 4
    let x_1240 ← Tr.index bbb' 3
    let x_1241 ← Tr.index bbb' 0
    let x_1242 ← Tr.index bbb' 4
    let x_1243 ← Tr.index bbb' 0
    let updates' := Source.Ripemd160.small_hash.round cfg x_1234 x_1235 x_1236 x_1237 x_1238 x_1239 6#32 0x5c4dd124#32 ((x_1240 &&& x_1241) ||| (x_1242 &&& (~~~x_1243)))
    let bbb' ← Tr.indexSet bbb' 2 updates'.1
    let bbb' ← Tr.indexSet bbb' 4 updates'.2
    pure (bb', bbb')

/-- round!(bbb[<expr>], bbb[<expr>], bbb[<expr>], bbb[<expr>], bbb[<expr>], <expr>[<expr>], <expr>, 0x5c4dd124,(bbb[<expr>] & bbb[<expr>]) |(bbb[<expr>] & ! bbb[<expr>])) -/
def Engine.process_block_small.line1_109 (cfg : Cfg) (w : List (BitVec 32)) : Source.Ripemd160.Engine.process_block_small.State1 → Tr Source.Ripemd160.Engine.process_block_small.State1 :=
  fun (bb', bbb') => do
    let x_1246 ← Tr.index bbb' 1
    let x_1247 ← Tr.index bbb' 2
    let x_1248 ← Tr.index bbb' 3
    let x_1249 ← Tr.index bbb' 4
    let x_1250 ← Tr.index bbb' 0
    let x_1251 ← Tr.index w 9
    let x_1252 ← Tr.index bbb' 2
    let x_1253 ← Tr.index bbb' 4
    let x_1254 ← Tr.index bbb' 3
    let x_1255 ← Tr.index bbb' 4
    let updates' := Source.Ripemd160.small_hash.round cfg x_1246 x_1247 x_1248 x_1249 x_1250 x_1251 15#32 0x5c4dd124#32 ((x_1252 &&& x_1253) ||| (x_1254 &&& (~~~x_1255)))
    let bbb' ← Tr.indexSet bbb' 1 updates'.1
    let bbb' ← Tr.indexSet bbb' 3 updates'.2
    pure (bb', bbb')

/-- round!(bbb[<expr>], bbb[<expr>], bbb[<expr>], bbb[<expr>], bbb[<expr>], <expr>[<expr>], <expr>, 0x5c4dd124,(bbb[<expr>] & bbb[<expr>]) |(bbb[<expr>] & ! bbb[<expr>])) -/
def Engine.process_block_small.line1_110 (cfg : Cfg) (w : List (BitVec 32)) : Source.Ripemd160.Engine.process_block_small.State1 → Tr Source.Ripemd160.Engine.process_block_small.State1 :=
  fun (bb', bbb') => do
    let x_1258 ← Tr.index bbb' 0
    let x_1259 ← Tr.index bbb' 1
    let x_1260 ← Tr.index bbb' 2
    let x_1261 ← Tr.index bbb' 3
    let x_1262 ← Tr.index bbb' 4
    let x_1263 ← Tr.index w 1
    let x_1264 ← Tr.index bbb' 1
    let x_1265 ← Tr.index bbb' 3
    let x_1266 ← Tr.index bbb' 2
    let x_1267 ← Tr.index bbb' 3
    let updates' := Source.Ripemd160.small_hash.round cfg x_1258 x_1259 x_1260 x_1261 x_1262 x_1263 13#32 0x5c4dd124#32 ((x_1264 &&& x_1265) ||| (x_1266 &&& (~~~x_1267)))
    let bbb' ← Tr.indexSet bbb' 0 updates'.1
    let bbb' ← Tr.indexSet bbb' 2 updates'.2
    pure (bb', bbb')

/-- round!(bbb[<expr>], bbb[<expr>], bbb[<expr>], bbb[<expr>], bbb[<expr>], <expr>[<expr>], <expr>, 0x5c4dd124,(bbb[<expr>] & bbb[<expr>]) |(bbb[<expr>] & ! bbb[<expr>])) -/
def Engine.process_block_small.line1_111 (cfg : Cfg) (w : List (BitVec 32)) : Source.Ripemd160.Engine.process_block_small.State1 → Tr Source.Ripemd160.Engine.process_block_small.State1 :=
  fun (bb', bbb') => do
    let x_1270 ← Tr.index bbb' 4
    let x_1271 ← Tr.index bbb' 0
    let x_1272 ← Tr.index bbb' 1
    let x_1273 ← Tr.index bbb' 2
    let x_1274 ← Tr.index bbb' 3
    let x_1275 ← Tr.index w 2
    let x_1276 ← Tr.index bbb' 0
    let x_1277 ← Tr.index bbb' 2
    let x_1278 ← Tr.index bbb' 1
    let x_1279 ← Tr.index bbb' 2
    let updates' := Source.Ripemd160.small_hash.round cfg x_1270 x_1271 x_1272 x_1273 x_1274 x_1275 11#32 0x5c4dd124#32 ((x_1276 &&& x_1277) ||| (x_1278 &&& (~~~x_1279)))
    let bbb' ← Tr.indexSet bbb' 4 updates'.1
    let bbb' ← Tr.indexSet bbb' 1 updates'.2
    pure (bb', bbb')

/-- round!(bbb[<expr>], bbb[<expr>], bbb[<expr>], bbb[<expr>], bbb[<expr>], <expr>[<expr>], <expr>, 0x6d703ef3,(bbb[<expr>] | ! bbb[<expr>]) ^ bbb[<expr>]) -/
def Engine.process_block_small.line1_112 (cfg : Cfg) (w : List (BitVec 32)) : Source.Ripemd160.Engine.process_block_small.State1 → Tr Source.Ripemd160.Engine.process_block_small.State1 :=
  fun (bb', bbb') => do
    let x_1282 ← Tr.index bbb' 3
    let x_1283 ← Tr.index bbb' 4
    let x_1284 ← Tr.index bbb' 0
    let x_1285 ← Tr.index bbb' 1
    let x_1286 ← Tr.index bbb' 2
    let x_1287 ← Tr.index w 15
    let x_1288 ← Tr.index bbb' 4
    let x_1289 ← Tr.index bbb' 0
    let x_1290 ← Tr.index bbb' 1
    let updates' := Source.Ripemd160.small_hash.round cfg x_1282 x_1283 x_1284 x_1285 x_1286 x_1287 9#32 0x6d703ef3#32 ((x_1288 ||| (~~~x_1289)) ^^^ x_1290)
    let bbb' ← Tr.indexSet bbb' 3 updates'.1
    let bbb' ← Tr.indexSet bbb' 0 updates'.2
    pure (bb', bbb')

/-- round!(bbb[<expr>], bbb[<expr>], bbb[<expr>], bbb[<expr>], bbb[<expr>], <expr>[<expr>], <expr>, 0x6d703ef3,(bbb[<expr>] | ! bbb[<expr>]) ^ bbb[<expr>]) -/
def Engine.process_block_small.line1_113 (cfg : Cfg) (w : List (BitVec 32)) : Source.Ripemd160.Engine.process_block_small.State1 → Tr Source.Ripemd160.Engine.process_block_small.State1 :=
  fun (bb', bbb') => do
    let x_1293 ← Tr.index bbb' 2
    let x_1294 ← Tr.index bbb' 3
    let x_1295 ← Tr.index bbb' 4
    let x_1296 ← Tr.index bbb' 0
    let x_1297 ← Tr.index bbb' 1
    let x_1298 ← Tr.index w 5
    let x_1299 ← Tr.index bbb' 3
    let x_1300 ← Tr.index bbb' 4
    let x_1301 ← Tr.index bbb' 0
    let updates' := Source.Ripemd160.small_hash.round cfg x_1293 x_1294 x_1295 x_1296 x_1297 x_1298 7#32 0x6d703ef3#32 ((x_1299 ||| (~~~x_1300)) ^^^ x_1301)
    let bbb' ← Tr.indexSet bbb' 2 updates'.1
    let bbb' ← Tr.indexSet bbb' 4 updates'.2
    pure (bb', bbb')

/-- round!(bbb[<expr>], bbb[<expr>], bbb[<expr>], bbb[<expr>], bbb[<expr>], <expr>[<expr>], <expr>, 0x6d703ef3,(bbb[<expr>] | ! bbb[<expr>]) ^ bbb[<expr>]) -/
def Engine.process_block_small.line1_114 (cfg : Cfg) (w : List (BitVec 32)) : Source.Ripemd160.Engine.process_block_small.State1 → Tr Source.Ripemd160.Engine.process_block_small.State1 :=
  fun (bb', bbb') => do
    let x_1304 ← Tr.index bbb' 1
    let x_1305 ← Tr.index bbb' 2
    let x_1306 ← Tr.index bbb' 3
    let x_1307 ← Tr.index bbb' 4
    let x_1308 ← Tr.index bbb' 0
    let x_1309 ← Tr.index w 1
    let x_1310 ← Tr.index bbb' 2
    let x_1311 ← Tr.index bbb' 3
    let x_1312 ← Tr.index bbb' 4
    let updates' := Source.Ripemd160.small_hash.round cfg x_1304 x_1305 x_1306 x_1307 x_1308 x_1309 15#32 0x6d703ef3#32 ((x_1310 ||| (~~~x_1311)) ^^^ x_1312)
    let bbb' ← Tr.indexSet bbb' 1 updates'.1
    let bbb' ← Tr.indexSet bbb' 3 updates'.2
    pure (bb', bbb')

/-- round!(bbb[<expr>], bbb[<expr>], bbb[<expr>], bbb[<expr>], bbb[<expr>], <expr>[<expr>], <expr>, 0x6d703ef3,(bbb[<expr>] | ! bbb[<expr>]) ^ bbb[<expr>]) -/
def Engine.process_block_small.line1_115 (cfg : Cfg) (w : List (BitVec 32)) : Source.Ripemd160.Engine.process_block_small.State1 → Tr Source.Ripemd160.Engine.process_block_small.State1 :=
  fun (bb', bbb') => do
    let x_1315 ← Tr.index bbb' 0
    let x_1316 ← Tr.index bbb' 1
    let x_1317 ← Tr.index bbb' 2
    let x_1318 ← Tr.index bbb' 3
    let x_1319 ← Tr.index bbb' 4
    let x_1320 ← Tr.index w 3
    let x_1321 ← Tr.index bbb' 1
    let x_1322 ← Tr.index bbb' 2
    let x_1323 ← Tr.index bbb' 3
    let updates' := Source.Ripemd160.small_hash.round cfg x_1315 x_1316 x_1317 x_1318 x_1319 x_1320 11#32 0x6d703ef3#32 ((x_1321 ||| (~~~x_1322)) ^^^ x_1323)
    let bbb' ← Tr.indexSet bbb' 0 updates'.1
    let bbb' ← Tr.indexSet bbb' 2 updates'.2
    pure (bb', bbb')

/-- round!(bbb[<expr>], bbb[<expr>], bbb[<expr>], bbb[<expr>], bbb[<expr>], <expr>[<expr>], <expr>, 0x6d703ef3,(bbb[<expr>] | ! bbb[<expr>]) ^ bbb[<expr>]) -/
def Engine.process_block_small.line1_116 (cfg : Cfg) (w : List (BitVec 32)) : Source.Ripemd160.Engine.process_block_small.State1 → Tr Source.Ripemd160.Engine.process_block_small.State1 :=
  fun (bb', bbb') => do
    let x_1326 ← Tr.index bbb' 4
    let x_1327 ← Tr.index bbb' 0
    let x_1328 ← Tr.index bbb' 1
    let x_1329 ← Tr.index bbb' 2
    let x_1330 ← Tr.index bbb' 3
    let x_1331 ← Tr.index w 7
    let x_1332 ← Tr.index bbb' 0
    let x_1333 ← Tr.index bbb' 1
    let x_1334 ← Tr.index bbb' 2
    let updates' := Source.Ripemd160.small_hash.round cfg x_1326 x_1327 x_1328 x_1329 x_1330 x_1331 8#32 0x6d703ef3#32 ((x_1332 ||| (~~~x_1333)) ^^^ x_1334)
    let bbb' ← Tr.indexSet bbb' 4 updates'.1
    let bbb' ← Tr.indexSet bbb' 1 updates'.2
    pure (bb', bbb')

/-- round!(bbb[<expr>], bbb[<expr>], bbb[<expr>], bbb[<expr>], bbb[<expr>], <expr>[<expr>], <expr>, 0x6d703ef3,(bbb[<expr>] | ! bbb[<expr>]) ^ bbb[<expr>]) -/
def Engine.process_block_small.line1_117 (cfg : Cfg) (w : List (BitVec 32)) : Source.Ripemd160.Engine.process_block_small.State1 → Tr Source.Ripemd160.Engine.process_block_small.State1 :=
  fun (bb', bbb') => do
    let x_1337 ← Tr.index bbb' 3
    let x_1338 ← Tr.index bbb' 4
    let x_1339 ← Tr.index bbb' 0
    let x_1340 ← Tr.index bbb' 1
    let x_1341 ← Tr.index bbb' 2
    let x_1342 ← Tr.index w 14
    let x_1343 ← Tr.index bbb' 4
    let x_1344 ← Tr.index bbb' 0
    let x_1345 ← Tr.index bbb' 1
    let updates' := Source.Ripemd160.small_hash.round cfg x_1337 x_1338 x_1339 x_1340 x_1341 x_1342 6#32 0x6d703ef3#32 ((x_1343 ||| (~~~x_1344)) ^^^ x_1345)
    let bbb' ← Tr.indexSet bbb' 3 updates'.1
    let bbb' ← Tr.indexSet bbb' 0 updates'.2
    pure (bb', bbb')

/-- round!(bbb[<expr>], bbb[<expr>], bbb[<expr>], bbb[<expr>], bbb[<expr>], <expr>[<expr>], <expr>, 0x6d703ef3,(bbb[<expr>] | ! bbb[<expr>]) ^ bbb[<expr>]) -/
def Engine.process_block_small.line1_118 (cfg : Cfg) (w : List (BitVec 32)) : Source.Ripemd160.Engine.process_block_small.State1 → Tr Source.Ripemd160.Engine.process_block_small.State1 :=
  fun (bb', bbb') => do
    let x_1348 ← Tr.index bbb' 2
    let x_1349 ← Tr.index bbb' 3
    let x_1350 ← Tr.index bbb' 4
    let x_1351 ← Tr.index bbb' 0
    let x_1352 ← Tr.index bbb' 1
    let x_1353 ← Tr.index w 6
    let x_1354 ← Tr.index bbb' 3
    let x_1355 ← Tr.index bbb' 4
    let x_1356 ← Tr.index bbb' 0
    let updates' := Source.Ripemd160.small_hash.round cfg x_1348 x_1349 x_1350 x_1351 x_1352 x_1353 6#32 0x6d703ef3#32 ((x_1354 ||| (~~~x_1355)) ^^^ x_1356)
    let bbb' ← Tr.indexSet bbb' 2 updates'.1
    let bbb' ← Tr.indexSet bbb' 4 updates'.2
    pure (bb', bbb')

/-- round!(bbb[<expr>], bbb[<expr>], bbb[<expr>], bbb[<expr>], bbb[<expr>], <expr>[<expr>], <expr>, 0x6d703ef3,(bbb[<expr>] | ! bbb[<expr>]) ^ bbb[<expr>]) -/
def Engine.process_block_small.line1_119 (cfg : Cfg) (w : List (BitVec 32)) : Source.Ripemd160.Engine.process_block_small.State1 → Tr Source.Ripemd160.Engine.process_block_small.State1 :=
  fun (bb', bbb') => do
    let x_1359 ← Tr.index bbb' 1
    let x_1360 ← Tr.index bbb' 2
    let x_1361 ← Tr.index bbb' 3
    let x_1362 ← Tr.index bbb' 4
    let x_1363 ← Tr.index bbb' 0
    let x_1364 ← Tr.index w 9
    let x_1365 ← Tr.index bbb' 2
    let x_1366 ← Tr.index bbb' 3
    let x_1367 ← Tr.index bbb' 4
    let updates' := Source.Ripemd160.small_hash.round cfg x_1359 x_1360 x_1361 x_1362 x_1363 x_1364 14#32 0x6d703ef3#32 ((x_1365 ||| (~~~x_1366)) ^^^ x_1367)
    let bbb' ← Tr.indexSet bbb' 1 updates'.1
    let bbb' ← Tr.indexSet bbb' 3 updates'.2
    pure (bb', bbb')

/-- round!(bbb[<expr>], bbb[<expr>], bbb[<expr>], bbb[<expr>], bbb[<expr>], <expr>[<expr>], <expr>, 0x6d703ef3,(bbb[<expr>] | ! bbb[<expr>]) ^ bbb[<expr>]) -/
def Engine.process_block_small.line1_120 (cfg : Cfg) (w : List (BitVec 32)) : Source.Ripemd160.Engine.process_block_small.State1 → Tr Source.Ripemd160.Engine.process_block_small.State1 :=
  fun (bb', bbb') => do
    let x_1370 ← Tr.index bbb' 0
    let x_1371 ← Tr.index bbb' 1
    let x_1372 ← Tr.index bbb' 2
    let x_1373 ← Tr.index bbb' 3
    let x_1374 ← Tr.index bbb' 4
    let x_1375 ← Tr.index w 11
    let x_1376 ← Tr.index bbb' 1
    let x_1377 ← Tr.index bbb' 2
    let x_1378 ← Tr.index bbb' 3
    let updates' := Source.Ripemd160.small_hash.round cfg x_1370 x_1371 x_1372 x_1373 x_1374 x_1375 12#32 0x6d703ef3#32 ((x_1376 ||| (~~~x_1377)) ^^^ x_1378)
    let bbb' ← Tr.indexSet bbb' 0 updates'.1
    let bbb' ← Tr.indexSet bbb' 2 updates'.2
    pure (bb', bbb')

/-- round!(bbb[<expr>], bbb[<expr>], bbb[<expr>], bbb[<expr>], bbb[<expr>], <expr>[<expr>], <expr>, 0x6d703ef3,(bbb[<expr>] | ! bbb[<expr>]) ^ bbb[<expr>]) -/
def Engine.process_block_small.line1_121 (cfg : Cfg) (w : List (BitVec 32)) : Source.Ripemd160.Engine.process_block_small.State1 → Tr Source.Ripemd160.Engine.process_block_small.State1 :=
  fun (bb', bbb') => do
    let x_1381 ← Tr.index bbb' 4
    let x_1382 ← Tr.index bbb' 0
    let x_1383 ← Tr.index bbb' 1
    let x_1384 ← Tr.index bbb' 2
    let x_1385 ← Tr.index bbb' 3
    let x_1386 ← Tr.index w 8
    let x_1387 ← Tr.index bbb' 0
    let x_1388 ← Tr.index bbb' 1
    let x_1389 ← Tr.index bbb' 2
    let updates' := Source.Ripemd160.small_hash.round cfg x_1381 x_1382 x_1383 x_1384 x_1385 x_1386 13#32 0x6d703ef3#32 ((x_1387 ||| (~~~x_1388)) ^^^ x_1389)
    let bbb' ← Tr.indexSet bbb' 4 updates'.1
    let bbb' ← Tr.indexSet bbb' 1 updates'.2
    pure (bb', bbb')

/-- round!(bbb[<expr>], bbb[<expr>], bbb[<expr>], bbb[<expr>], bbb[<expr>], <expr>[<expr>], <expr>, 0x6d703ef3,(bbb[<expr>] | ! bbb[<expr>]) ^ bbb[<expr>]) -/
def Engine.process_block_small.line1_122 (cfg : Cfg) (w : List (BitVec 32)) : Source.Ripemd160.Engine.process_block_small.State1 → Tr Source.Ripemd160.Engine.process_block_small.State1 :=
  fun (bb', bbb') => do
    let x_1392 ← Tr.index bbb' 3
    let x_1393 ← Tr.index bbb' 4
    let x_1394 ← Tr.index bbb' 0
    let x_1395 ← Tr.index bbb' 1
    let x_1396 ← Tr.index bbb' 2
    let x_1397 ← Tr.index w 12
    let x_1398 ← Tr.index bbb' 4
    let x_1399 ← Tr.index bbb' 0
    let x_1400 ← Tr.index bbb' 1
    let updates' := Source.Ripemd160.small_hash.round cfg x_1392 x_1393 x_1394 x_1395 x_1396 x_1397 5#32 0x6d703ef3#32 ((x_1398 ||| (~~~x_1399)) ^^^ x_1400)
    let bbb' ← Tr.indexSet bbb' 3 updates'.1
    let bbb' ← Tr.indexSet bbb' 0 updates'.2
    pure (bb', bbb')

/-- round!(bbb[<expr>], bbb[<expr>], bbb[<expr>], bbb[<expr>], bbb[<expr>], <expr>[<expr>], <expr>, 0x6d703ef3,(bbb[<expr>] | ! bbb[<expr>]) ^ bbb[<expr>]) -/
def Engine.process_block_small.line1_123 (cfg : Cfg) (w : List (BitVec 32)) : Source.Ripemd160.Engine.process_block_small.State1 → Tr Source.Ripemd160.Engine.process_block_small.State1 :=
  fun (bb', bbb') => do
    let x_1403 ← Tr.index bbb' 2
    let x_1404 ← Tr.index bbb' 3
    let x_1405 ← Tr.index bbb' 4
    let x_1406 ← Tr.index bbb' 0
    let x_1407 ← Tr.index bbb' 1
    let x_1408 ← Tr.index w 2
    let x_1409 ← Tr.index bbb' 3
    let x_1410 ← Tr.index bbb' 4
    let x_1411 ← Tr.index bbb' 0
    let updates' := Source.Ripemd160.small_hash.round cfg x_1403 x_1404 x_1405 x_1406 x_1407 x_1408 14#32 0x6d703ef3#32 ((x_1409 ||| (~~~x_1410)) ^^^ x_1411)
    let bbb' ← Tr.indexSet bbb' 2 updates'.1
    let bbb' ← Tr.indexSet bbb' 4 updates'.2
    pure (bb', bbb')

/-- round!(bbb[<expr>], bbb[<expr>], bbb[<expr>], bbb[<expr>], bbb[<expr>], <expr>[<expr>], <expr>, 0x6d703ef3,(bbb[<expr>] | ! bbb[<expr>]) ^ bbb[<expr>]) -/
def Engine.process_block_small.line1_124 (cfg : Cfg) (w : List (BitVec 32)) : Source.Ripemd160.Engine.process_block_small.State1 → Tr Source.Ripemd160.Engine.process_block_small.State1 :=
  fun (bb', bbb') => do
    let x_1414 ← Tr.index bbb' 1
    let x_1415 ← Tr.index bbb' 2
    let x_1416 ← Tr.index bbb' 3
    let x_1417 ← Tr.index bbb' 4
    let x_1418 ← Tr.index bbb' 0
    let x_1419 ← Tr.index w 10
    let x_1420 ← Tr.index bbb' 2
    let x_1421 ← Tr.index bbb' 3
    let x_1422 ← Tr.index bbb' 4
    let updates' := Source.Ripemd160.small_hash.round cfg x_1414 x_1415 x_1416 x_1417 x_1418 x_1419 13#32 0x6d703ef3#32 ((x_1420 ||| (~~~x_1421)) ^^^ x_1422)
    let bbb' ← Tr.indexSet bbb' 1 updates'.1
    let bbb' ← Tr.indexSet bbb' 3 updates'.2
    pure (bb', bbb')

/-- round!(bbb[<expr>], bbb[<expr>], bbb[<expr>], bbb[<expr>], bbb[<expr>], <expr>[<expr>], <expr>, 0x6d703ef3,(bbb[<expr>] | ! bbb[<expr>]) ^ bbb[<expr>]) -/
def Engine.process_block_small.line1_125 (cfg : Cfg) (w : List (BitVec 32)) : Source.Ripemd160.Engine.process_block_small.State1 → Tr Source.Ripemd160.Engine.process_block_small.State1 :=
  fun (bb', bbb') => do
    let x_1425 ← Tr.index bbb' 0
    let x_1426 ← Tr.index bbb' 1
    let x_1427 ← Tr.index bbb' 2
    let x_1428 ← Tr.index bbb' 3
    let x_1429 ← Tr.index bbb' 4
    let x_1430 ← Tr.index w 0
    let x_1431 ← Tr.index bbb' 1
    let x_1432 ← Tr.index bbb' 2
    let x_1433 ← Tr.index bbb' 3
    let updates' := Source.Ripemd160.small_hash.round cfg x_1425 x_1426 x_1427 x_1428 x_1429 x_1430 13#32 0x6d703ef3#32 ((x_1431 ||| (~~~x_1432)) ^^^ x_1433)
    let bbb' ← Tr.indexSet bbb' 0 updates'.1
    let bbb' ← Tr.indexSet bbb' 2 updates'.2
    pure (bb', bbb')

/-- round!(bbb[<expr>], bbb[<expr>], bbb[<expr>], bbb[<expr>], bbb[<expr>], <expr>[<expr>], <expr>, 0x6d703ef3,(bbb[<expr>] | ! bbb[<expr>]) ^ bbb[<expr>]) -/
def Engine.process_block_small.line1_126 (cfg : Cfg) (w : List (BitVec 32)) : Source.Ripemd160.Engine.process_block_small.State1 → Tr Source.Ripemd160.Engine.process_block_small.State1 :=
  fun (bb', bbb') => do
    let x_1436 ← Tr.index bbb' 4
    let x_1437 ← Tr.index bbb' 0
    let x_1438 ← Tr.index bbb' 1
    let x_1439 ← Tr.index bbb' 2
    let x_1440 ← Tr.index bbb' 3
    let x_1441 ← Tr.index w 4
    let x_1442 ← Tr.index bbb' 0
    let x_1443 ← Tr.index bbb' 1
    let x_1444 ← Tr.index bbb' 2
    let updates' := Source.Ripemd160.small_hash.round cfg x_1436 x_1437 x_1438 x_1439 x_1440 x_1441 7#32 0x6d703ef3#32 ((x_1442 ||| (~~~x_1443)) ^^^ x_1444)
    let bbb' ← Tr.indexSet bbb' 4 updates'.1
    let bbb' ← Tr.indexSet bbb' 1 updates'.2
    pure (bb', bbb')

/-- round!(bbb[<expr>], bbb[<expr>], bbb[<expr>], bbb[<expr>], bbb[<expr>], <expr>[<expr>], <expr>, 0x6d703ef3,(bbb[<expr>] | ! bbb[<expr>]) ^ bbb[<expr>]) -/
def Engine.process_block_small.line1_127 (cfg : Cfg) (w : List (BitVec 32)) : Source.Ripemd160.Engine.process_block_small.State1 → Tr Source.Ripemd160.Engine.process_block_small.State1 :=
  fun (bb', bbb') => do
    let x_1447 ← Tr.index bbb' 3
    let x_1448 ← Tr.index bbb' 4
    let x_1449 ← Tr.index bbb' 0
    let x_1450 ← Tr.index bbb' 1
    let x_1451 ← Tr.index bbb' 2
    let x_1452 ← Tr.index w 13
    let x_1453 ← Tr.index bbb' 4
    let x_1454 ← Tr.index bbb' 0
    let x_1455 ← Tr.index bbb' 1
    let updates' := Source.Ripemd160.small_hash.round cfg x_1447 x_1448 x_1449 x_1450 x_1451 x_1452 5#32 0x6d703ef3#32 ((x_1453 ||| (~~~x_1454)) ^^^ x_1455)
    let bbb' ← Tr.indexSet bbb' 3 updates'.1
    let bbb' ← Tr.indexSet bbb' 0 updates'.2
    pure (bb', bbb')

/-- round!(bbb[<expr>], bbb[<expr>], bbb[<expr>], bbb[<expr>], bbb[<expr>], <expr>[<expr>], <expr>, 0x7a6d76e9,(bbb[<expr>] & bbb[<expr>]) |(! bbb[<expr>] & bbb[<expr>])) -/
def Engine.process_block_small.line1_128 (cfg : Cfg) (w : List (BitVec 32)) : Source.Ripemd160.Engine.process_block_small.State1 → Tr Source.Ripemd160.Engine.process_block_small.State1 :=
  fun (bb', bbb') => do
    let x_1458 ← Tr.index bbb' 2
    let x_1459 ← Tr.index bbb' 3
    let x_1460 ← Tr.index bbb' 4
    let x_1461 ← Tr.index bbb' 0
    let x_1462 ← Tr.index bbb' 1
    let x_1463 ← Tr.index w 8
    let x_1464 ← Tr.index bbb' 3
    let x_1465 ← Tr.index bbb' 4
    let x_1466 ← Tr.index bbb' 3
    let x_1467 ← Tr.index bbb' 0
    let updates' := Source.Ripemd160.small_hash.round cfg x_1458 x_1459 x_1460 x_1461 x_1462 x_1463 15#32 0x7a6d76e9#32 ((x_1464 &&& x_1465) ||| ((~~~x_1466) &&& x_1467))
    let bbb' ← Tr.indexSet bbb' 2 updates'.1
    let bbb' ← Tr.indexSet bbb' 4 updates'.2
    pure (bb', bbb')

/-- round!(bbb[<expr>], bbb[<expr>], bbb[<expr>], bbb[<expr>], bbb[<expr>], <expr>[<expr>], <expr>, 0x7a6d76e9,(bbb[<expr>] & bbb[<expr>]) |(! bbb[<expr>] & bbb[<expr>])) -/
def Engine.process_block_small.line1_129 (cfg : Cfg) (w : List (BitVec 32)) : Source.Ripemd160.Engine.process_block_small.State1 → Tr Source.Ripemd160.Engine.process_block_small.State1 :=
  fun (bb', bbb') => do
    let x_1470 ← Tr.index bbb' 1
    let x_1471 ← Tr.index bbb' 2
    let x_1472 ← Tr.index bbb' 3
    let x_1473 ← Tr.index bbb' 4
    let x_1474 ← Tr.index bbb' 0
    let x_1475 ← Tr.index w 6
    let x_1476 ← Tr.index bbb' 2
    let x_1477 ← Tr.index bbb' 3
    let x_1478 ← Tr.index bbb' 2
    let x_1479 ← Tr.index bbb' 4
    let updates' := Source.Ripemd160.small_hash.round cfg x_1470 x_1471 x_1472 x_1473 x_1474 x_1475 5#32 0x7a6d76e9#32 ((x_1476 &&& x_1477) ||| ((~~~x_1478) &&& x_1479))
    let bbb' ← Tr.indexSet bbb' 1 updates'.1
    let bbb' ← Tr.indexSet bbb' 3 updates'.2
    pure (bb', bbb')

/-- round!(bbb[<expr>], bbb[<expr>], bbb[<expr>], bbb[<expr>], bbb[<expr>], <expr>[<expr>], <expr>, 0x7a6d76e9,(bbb[<expr>] & bbb[<expr>]) |(! bbb[<expr>] & bbb[<expr>])) -/
def Engine.process_block_small.line1_130 (cfg : Cfg) (w : List (BitVec 32)) : Source.Ripemd160.Engine.process_block_small.State1 → Tr Source.Ripemd160.Engine.process_block_small.State1 :=
  fun (bb', bbb') => do
    let x_1482 ← Tr.index bbb' 0
    let x_1483 ← Tr.index bbb' 1
    let x_1484 ← Tr.index bbb' 2
    let x_1485 ← Tr.index bbb' 3
    let x_1486 ← Tr.index bbb' 4
    let x_1487 ← Tr.index w 4
    let x_1488 ← Tr.index bbb' 1
    let x_1489 ← Tr.index bbb' 2
    let x_1490 ← Tr.index bbb' 1
    let x_1491 ← Tr.index bbb' 3
    let updates' := Source.Ripemd160.small_hash.round cfg x_1482 x_1483 x_1484 x_1485 x_1486 x_1487 8#32 0x7a6d76e9#32 ((x_1488 &&& x_1489) ||| ((~~~x_1490) &&& x_1491))
    let bbb' ← Tr.indexSet bbb' 0 updates'.1
    let bbb' ← Tr.indexSet bbb' 2 updates'.2
    pure (bb', bbb')

/-- round!(bbb[<expr>], bbb[<expr>], bbb[<expr>], bbb[<expr>], bbb[<expr>], <expr>[<expr>], <expr>, 0x7a6d76e9,(bbb[<expr>] & bbb[<expr>]) |(! bbb[<expr>] & bbb[<expr>])) -/
def Engine.process_block_small.line1_131 (cfg : Cfg) (w : List (BitVec 32)) : Source.Ripemd160.Engine.process_block_small.State1 → Tr Source.Ripemd160.Engine.process_block_small.State1 :=
  fun (bb', bbb') => do
    let x_1494 ← Tr.index bbb' 4
    let x_1495 ← Tr.index bbb' 0
    let x_1496 ← Tr.index bbb' 1
    let x_1497 ← Tr.index bbb' 2
    let x_1498 ← Tr.index bbb' 3
    let x_1499 ← Tr.index w 1
    let x_1500 ← Tr.index bbb' 0
    let x_1501 ← Tr.index bbb' 1
    let x_1502 ← Tr.index bbb' 0
    let x_1503 ← Tr.index bbb' 2
    let updates' := Source.Ripemd160.small_hash.round cfg x_1494 x_1495 x_1496 x_1497 x_1498 x_1499 11#32 0x7a6d76e9#32 ((x_1500 &&& x_1501) ||| ((~~~x_1502) &&& x_1503))
    let bbb' ← Tr.indexSet bbb' 4 updates'.1
    let bbb' ← Tr.indexSet bbb' 1 updates'.2
    pure (bb', bbb')

/-- round!(bbb[<expr>], bbb[<expr>], bbb[<expr>], bbb[<expr>], bbb[<expr>], <expr>[<expr>], <expr>, 0x7a6d76e9,(bbb[<expr>] & bbb[<expr>]) |(! bbb[<expr>] & bbb[<expr>])) -/
def Engine.process_block_small.line1_132 (cfg : Cfg) (w : List (BitVec 32)) : Source.Ripemd160.Engine.process_block_small.State1 → Tr Source.Ripemd160.Engine.process_block_small.State1 :=
  fun (bb', bbb') => do
    let x_1506 ← Tr.index bbb' 3
    let x_1507 ← Tr.index bbb' 4
    let x_1508 ← Tr.index bbb' 0
    let x_1509 ← Tr.index bbb' 1
    let x_1510 ← Tr.index bbb' 2
    let x_1511 ← Tr.index w 3
    let x_1512 ← Tr.index bbb' 4
    let x_1513 ← Tr.index bbb' 0
    let x_1514 ← Tr.index bbb' 4
    let x_1515 ← Tr.index bbb' 1
    let updates' := Source.Ripemd160.small_hash.round cfg x_1506 x_1507 x_1508 x_1509 x_1510 x_1511 14#32 0x7a6d76e9#32 ((x_1512 &&& x_1513) ||| ((~~~x_1514) &&& x_1515))
    let bbb' ← Tr.indexSet bbb' 3 updates'.1
    let bbb' ← Tr.indexSet bbb' 0 updates'.2
    pure (bb', bbb')

/-- round!(bbb[<expr>], bbb[<expr>], bbb[<expr>], bbb[<expr>], bbb[<expr>], <expr>[<expr>], <expr>, 0x7a6d76e9,(bbb[<expr>] & bbb[<expr>]) |(! bbb[<expr>] & bbb[<expr>])) -/
def Engine.process_block_small.line1_133 (cfg : Cfg) (w : List (BitVec 32)) : Source.Ripemd160.Engine.process_block_small.State1 → Tr Source.Ripemd160.Engine.process_block_small.State1 :=
  fun (bb', bbb') => do
    let x_1518 ← Tr.index bbb' 2
    let x_1519 ← Tr.index bbb' 3
    let x_1520 ← Tr.index bbb' 4
    let x_1521 ← Tr.index bbb' 0
    let x_1522 ← Tr.index bbb' 1
    let x_1523 ← Tr.index w 11
    let x_1524 ← Tr.index bbb' 3
    let x_1525 ← Tr.index bbb' 4
    let x_1526 ← Tr.index bbb' 3
    let x_1527 ← Tr.index bbb' 0
    let updates' := Source.Ripemd160.small_hash.round cfg x_1518 x_1519 x_1520 x_1521 x_1522 x_1523 14#32 0x7a6d76e9#32 ((x_1524 &&& x_1525) ||| ((~~~x_1526) &&& x_1527))
    let bbb' ← Tr.indexSet bbb' 2 updates'.1
    let bbb' ← Tr.indexSet bbb' 4 updates'.2
    pure (bb', bbb')

/-- round!(bbb[<expr>], bbb[<expr>], bbb[<expr>], bbb[<expr>], bbb[<expr>], <expr>[<expr>], <expr>, 0x7a6d76e9,(bbb[<expr>] & bbb[<expr>]) |(! bbb[<expr>] & bbb[<expr>])) -/
def Engine.process_block_small.line1_134 (cfg : Cfg) (w : List (BitVec 32)) : Source.Ripemd160.Engine.process_block_small.State1 → Tr Source.Ripemd160.Engine.process_block_small.State1 :=
  fun (bb', bbb') => do
    let x_1530 ← Tr.index bbb' 1
    let x_1531 ← Tr.index bbb' 2
    let x_1532 ← Tr.index bbb' 3
    let x_1533 ← Tr.index bbb' 4
    let x_1534 ← Tr.index bbb' 0
    let x_1535 ← Tr.index w 15
    let x_1536 ← Tr.index bbb' 2
    let x_1537 ← Tr.index bbb' 3
    let x_1538 ← Tr.index bbb' 2
    let x_1539 ← Tr.index bbb' 4
    let updates' := Source.Ripemd160.small_hash.round cfg x_1530 x_1531 x_1532 x_1533 x_1534 x_1535 6#32 0x7a6d76e9#32 ((x_1536 &&& x_1537) ||| ((~~~x_1538) &&& x_1539))
    let bbb' ← Tr.indexSet bbb' 1 updates'.1
    let bbb' ← Tr.indexSet bbb' 3 updates'.2
    pure (bb', bbb')

/-- round!(bbb[<expr>], bbb[<expr>], bbb[<expr>], bbb[<expr>], bbb[<expr>], <expr>[<expr>], <expr>, 0x7a6d76e9,(bbb[<expr>] & bbb[<expr>]) |(! bbb[<expr>] & bbb[<expr>])) -/
def Engine.process_block_small.line1_135 (cfg : Cfg) (w : List (BitVec 32)) : Source.Ripemd160.Engine.process_block_small.State1 → Tr Source.Ripemd160.Engine.process_block_small.State1 :=
  fun (bb', bbb') => do
    let x_1542 ← Tr.index bbb' 0
    let x_1543 ← Tr.index bbb' 1
    let x_1544 ← Tr.index bbb' 2
    let x_1545 ← Tr.index bbb' 3
    let x_1546 ← Tr.index bbb' 4
    let x_1547 ← Tr.index w 0
    let x_1548 ← Tr.index bbb' 1
    let x_1549 ← Tr.index bbb' 2
    let x_1550 ← Tr.index bbb' 1
    let x_1551 ← Tr.index bbb' 3
    let updates' := Source.Ripemd160.small_hash.round cfg x_1542 x_1543 x_1544 x_1545 x_1546 x_1547 14#32 0x7a6d76e9#32 ((x_1548 &&& x_1549) ||| ((~~~x_1550) &&& x_1551))
    let bbb' ← Tr.indexSet bbb' 0 updates'.1
    let bbb' ← Tr.indexSet bbb' 2 updates'.2
    pure (bb', bbb')

/-- round!(bbb[<expr>], bbb[<expr>], bbb[<expr>], bbb[<expr>], bbb[<expr>], <expr>[<expr>], <expr>, 0x7a6d76e9,(bbb[<expr>] & bbb[<expr>]) |(! bbb[<expr>] & bbb[<expr>])) -/
def Engine.process_block_small.line1_136 (cfg : Cfg) (w : List (BitVec 32)) : Source.Ripemd160.Engine.process_block_small.State1 → Tr Source.Ripemd160.Engine.process_block_small.State1 :=
  fun (bb', bbb') => do
    let x_1554 ← Tr.index bbb' 4
    let x_1555 ← Tr.index bbb' 0
    let x_1556 ← Tr.index bbb' 1
    let x_1557 ← Tr.index bbb' 2
    let x_1558 ← Tr.index bbb' 3
    let x_1559 ← Tr.index w 5
    let x_1560 ← Tr.index bbb' 0
    let x_1561 ← Tr.index bbb' 1
    let x_1562 ← Tr.index bbb' 0
    let x_1563 ← Tr.index bbb' 2
    let updates' := Source.Ripemd160.small_hash.round cfg x_1554 x_1555 x_1556 x_1557 x_1558 x_1559 6#32 0x7a6d76e9#32 ((x_1560 &&& x_1561) ||| ((~~~x_1562) &&& x_1563))
    let bbb' ← Tr.indexSet bbb' 4 updates'.1
    let bbb' ← Tr.indexSet bbb' 1 updates'.2
    pure (bb', bbb')

/-- round!(bbb[<expr>], bbb[<expr>], bbb[<expr>], bbb[<expr>], bbb[<expr>], <expr>[<expr>], <expr>, 0x7a6d76e9,(bbb[<expr>] & bbb[<expr>]) |(! bbb[<expr>] & bbb[<expr>])) -/
def Engine.process_block_small.line1_137 (cfg : Cfg) (w : List (BitVec 32)) : Source.Ripemd160.Engine.process_block_small.State1 → Tr Source.Ripemd160.Engine.process_block_small.State1 :=
  fun (bb', bbb') => do
    let x_1566 ← Tr.index bbb' 3
    let x_1567 ← Tr.index bbb' 4
    let x_1568 ← Tr.index bbb' 0
    let x_1569 ← Tr.index bbb' 1
    let x_1570 ← Tr.index bbb' 2
    let x_1571 ← Tr.index w 12
    let x_1572 ← Tr.index bbb' 4
    let x_1573 ← Tr.index bbb' 0
    let x_1574 ← Tr.index bbb' 4
    let x_1575 ← Tr.index bbb' 1
    let updates' := Source.Ripemd160.small_hash.round cfg x_1566 x_1567 x_1568 x_1569 x_1570 x_1571 9#32 0x7a6d76e9#32 ((x_1572 &&& x_1573) ||| ((~~~x_1574) &&& x_1575))
    let bbb' ← Tr.indexSet bbb' 3 updates'.1
    let bbb' ← Tr.indexSet bbb' 0 updates'.2
    pure (bb', bbb')

/-- round!(bbb[<expr>], bbb[<expr>], bbb[<expr>], bbb[<expr>], bbb[<expr>], <expr>[<expr>], <expr>, 0x7a6d76e9,(bbb[<expr>] & bbb[<expr>]) |(! bbb[<expr>] & bbb[<expr>])) -/
def Engine.process_block_small.line1_138 (cfg : Cfg) (w : List (BitVec 32)) : Source.Ripemd160.Engine.process_block_small.State1 → Tr Source.Ripemd160.Engine.process_block_small.State1 :=
  fun (bb', bbb') => do
    let x_1578 ← Tr.index bbb' 2
    let x_1579 ← Tr.index bbb' 3
    let x_1580 ← Tr.index bbb' 4
    let x_1581 ← Tr.index bbb' 0
    let x_1582 ← Tr.index bbb' 1
    let x_1583 ← Tr.index w 2
    let x_1584 ← Tr.index bbb' 3
    let x_1585 ← Tr.index bbb' 4
    let x_1586 ← Tr.index bbb' 3
    let x_1587 ← Tr.index bbb' 0
    let updates' := Source.Ripemd160.small_hash.round cfg x_1578 x_1579 x_1580 x_1581 x_1582 x_1583 12#32 0x7a6d76e9#32 ((x_1584 &&& x_1585) ||| ((~~~x_1586) &&& x_1587))
    let bbb' ← Tr.indexSet bbb' 2 updates'.1
    let bbb' ← Tr.indexSet bbb' 4 updates'.2
    pure (bb', bbb')

/-- round!(bbb[<expr>], bbb[<expr>], bbb[<expr>], bbb[<expr>], bbb[<expr>], <expr>[<expr>], <expr>, 0x7a6d76e9,(bbb[<expr>] & bbb[<expr>]) |(! bbb[<expr>] & bbb[<expr>])) -/
def Engine.process_block_small.line1_139 (cfg : Cfg) (w : List (BitVec 32)) : Source.Ripemd160.Engine.process_block_small.State1 → Tr Source.Ripemd160.Engine.process_block_small.State1 :=
  fun (bb', bbb') => do
    let x_1590 ← Tr.index bbb' 1
    let x_1591 ← Tr.index bbb' 2
    let x_1592 ← Tr.index bbb' 3
    let x_1593 ← Tr.index bbb' 4
    let x_1594 ← Tr.index bbb' 0
    let x_1595 ← Tr.index w 13
    let x_1596 ← Tr.index bbb' 2
    let x_1597 ← Tr.index bbb' 3
    let x_1598 ← Tr.index bbb' 2
    let x_1599 ← Tr.index bbb' 4
    let updates' := Source.Ripemd160.small_hash.round cfg x_1590 x_1591 x_1592 x_1593 x_1594 x_1595 9#32 0x7a6d76e9#32 ((x_1596 &&& x_1597) ||| ((~~~x_1598) &&& x_1599))
    let bbb' ← Tr.indexSet bbb' 1 updates'.1
    let bbb' ← Tr.indexSet bbb' 3 updates'.2
    pure (bb', bbb')

/-- round!(bbb[<expr>], bbb[<expr>], bbb[<expr>], bbb[<expr>], bbb[<expr>], <expr>[<expr>], <expr>, 0x7a6d76e9,(bbb[<expr>] & bbb[<expr>]) |(! bbb[<expr>] & bbb[<expr>])) -/
def Engine.process_block_small.line1_140 (cfg : Cfg) (w : List (BitVec 32)) : Source.Ripemd160.Engine.process_block_small.State1 → Tr Source.Ripemd160.Engine.process_block_small.State1 :=
  fun (bb', bbb') => do
    let x_1602 ← Tr.index bbb' 0
    let x_1603 ← Tr.index bbb' 1
    let x_1604 ← Tr.index bbb' 2
    let x_1605 ← Tr.index bbb' 3
    let x_1606 ← Tr.index bbb' 4
    let x_1607 ← Tr.index w 9
    let x_1608 ← Tr.index bbb' 1
    let x_1609 ← Tr.index bbb' 2
    let x_1610 ← Tr.index bbb' 1
    let x_1611 ← Tr.index bbb' 3
    let updates' := Source.Ripemd160.small_hash.round cfg x_1602 x_1603 x_1604 x_1605 x_1606 x_1607 12#32 0x7a6d76e9#32 ((x_1608 &&& x_1609) ||| ((~~~x_1610) &&& x_1611))
    let bbb' ← Tr.indexSet bbb' 0 updates'.1
    let bbb' ← Tr.indexSet bbb' 2 updates'.2
    pure (bb', bbb')

/-- round!(bbb[<expr>], bbb[<expr>], bbb[<expr>], bbb[<expr>], bbb[<expr>], <expr>[<expr>], <expr>, 0x7a6d76e9,(bbb[<expr>] & bbb[<expr>]) |(! bbb[<expr>] & bbb[<expr>])) -/
def Engine.process_block_small.line1_141 (cfg : Cfg) (w : List (BitVec 32)) : Source.Ripemd160.Engine.process_block_small.State1 → Tr Source.Ripemd160.Engine.process_block_small.State1 :=
  fun (bb', bbb') => do
    let x_1614 ← Tr.index bbb' 4
    let x_1615 ← Tr.index bbb' 0
    let x_1616 ← Tr.index bbb' 1
    let x_1617 ← Tr.index bbb' 2
    let x_1618 ← Tr.index bbb' 3
    let x_1619 ← Tr.index w 7
    let x_1620 ← Tr.index bbb' 0
    let x_1621 ← Tr.index bbb' 1
    let x_1622 ← Tr.index bbb' 0
    let x_1623 ← Tr.index bbb' 2
    let updates' := Source.Ripemd160.small_hash.round cfg x_1614 x_1615 x_1616 x_1617 x_1618 x_1619 5#32 0x7a6d76e9#32 ((x_1620 &&& x_1621) ||| ((~~~x_1622) &&& x_1623))
    let bbb' ← Tr.indexSet bbb' 4 updates'.1
    let bbb' ← Tr.indexSet bbb' 1 updates'.2
    pure (bb', bbb')

/-- round!(bbb[<expr>], bbb[<expr>], bbb[<expr>], bbb[<expr>], bbb[<expr>], <expr>[<expr>], <expr>, 0x7a6d76e9,(bbb[<expr>] & bbb[<expr>]) |(! bbb[<expr>] & bbb[<expr>])) -/
def Engine.process_block_small.line1_142 (cfg : Cfg) (w : List (BitVec 32)) : Source.Ripemd160.Engine.process_block_small.State1 → Tr Source.Ripemd160.Engine.process_block_small.State1 :=
  fun (bb', bbb') => do
    let x_1626 ← Tr.index bbb' 3
    let x_1627 ← Tr.index bbb' 4
    let x_1628 ← Tr.index bbb' 0
    let x_1629 ← Tr.index bbb' 1
    let x_1630 ← Tr.index bbb' 2
    let x_1631 ← Tr.index w 10
    let x_1632 ← Tr.index bbb' 4
    let x_1633 ← Tr.index bbb' 0
    let x_1634 ← Tr.index bbb' 4
    let x_1635 ← Tr.index bbb' 1
    let updates' := Source.Ripemd160.small_hash.round cfg x_1626 x_1627 x_1628 x_1629 x_1630 x_1631 15#32 0x7a6d76e9#32 ((x_1632 &&& x_1633) ||| ((~~~x_1634) &&& x_1635))
    let bbb' ← Tr.indexSet bbb' 3 updates'.1
    let bbb' ← Tr.indexSet bbb' 0 updates'.2
    pure (bb', bbb')

/-- round!(bbb[<expr>], bbb[<expr>], bbb[<expr>], bbb[<expr>], bbb[<expr>], <expr>[<expr>], <expr>, 0x7a6d76e9,(bbb[<expr>] & bbb[<expr>]) |(! bbb[<expr>] & bbb[<expr>])) -/
def Engine.process_block_small.line1_143 (cfg : Cfg) (w : List (BitVec 32)) : Source.Ripemd160.Engine.process_block_small.State1 → Tr Source.Ripemd160.Engine.process_block_small.State1 :=
  fun (bb', bbb') => do
    let x_1638 ← Tr.index bbb' 2
    let x_1639 ← Tr.index bbb' 3
    let x_1640 ← Tr.index bbb' 4
    let x_1641 ← Tr.index bbb' 0
    let x_1642 ← Tr.index bbb' 1
    let x_1643 ← Tr.index w 14
    let x_1644 ← Tr.index bbb' 3
    let x_1645 ← Tr.index bbb' 4
    let x_1646 ← Tr.index bbb' 3
    let x_1647 ← Tr.index bbb' 0
    let updates' := Source.Ripemd160.small_hash.round cfg x_1638 x_1639 x_1640 x_1641 x_1642 x_1643 8#32 0x7a6d76e9#32 ((x_1644 &&& x_1645) ||| ((~~~x_1646) &&& x_1647))
    let bbb' ← Tr.indexSet bbb' 2 updates'.1
    let bbb' ← Tr.indexSet bbb' 4 updates'.2
    pure (bb', bbb')

/-- round!(bbb[<expr>], bbb[<expr>], bbb[<expr>], bbb[<expr>], bbb[<expr>], <expr>[<expr>], <expr>, 0x00000000, bbb[<expr>] ^ bbb[<expr>] ^ bbb[<expr>]) -/
def Engine.process_block_small.line1_144 (cfg : Cfg) (w : List (BitVec 32)) : Source.Ripemd160.Engine.process_block_small.State1 → Tr Source.Ripemd160.Engine.process_block_small.State1 :=
  fun (bb', bbb') => do
    let x_1650 ← Tr.index bbb' 1
    let x_1651 ← Tr.index bbb' 2
    let x_1652 ← Tr.index bbb' 3
    let x_1653 ← Tr.index bbb' 4
    let x_1654 ← Tr.index bbb' 0
    let x_1655 ← Tr.index w 12
    let x_1656 ← Tr.index bbb' 2
    let x_1657 ← Tr.index bbb' 3
    let x_1658 ← Tr.index bbb' 4
    let updates' := Source.Ripemd160.small_hash.round cfg x_1650 x_1651 x_1652 x_1653 x_1654 x_1655 8#32 0x00000000#32 ((x_1656 ^^^ x_1657) ^^^ x_1658)
    let bbb' ← Tr.indexSet bbb' 1 updates'.1
    let bbb' ← Tr.indexSet bbb' 3 updates'.2
    pure (bb', bbb')

/-- round!(bbb[<expr>], bbb[<expr>], bbb[<expr>], bbb[<expr>], bbb[<expr>], <expr>[<expr>], <expr>, 0x00000000, bbb[<expr>] ^ bbb[<expr>] ^ bbb[<expr>]) -/
def Engine.process_block_small.line1_145 (cfg : Cfg) (w : List (BitVec 32)) : Source.Ripemd160.Engine.process_block_small.State1 → Tr Source.Ripemd160.Engine.process_block_small.State1 :=
  fun (bb', bbb') => do
    let x_1661 ← Tr.index bbb' 0
    let x_1662 ← Tr.index bbb' 1
    let x_1663 ← Tr.index bbb' 2
    let x_1664 ← Tr.index bbb' 3
    let x_1665 ← Tr.index bbb' 4
    let x_1666 ← Tr.index w 15
    let x_1667 ← Tr.index bbb' 1
    let x_1668 ← Tr.index bbb' 2
    let x_1669 ← Tr.index bbb' 3
    let updates' := Source.Ripemd160.small_hash.round cfg x_1661 x_1662 x_1663 x_1664 x_1665 x_1666 5#32 0x00000000#32 ((x_1667 ^^^ x_1668) ^^^ x_1669)
    let bbb' ← Tr.indexSet bbb' 0 updates'.1
    let bbb' ← Tr.indexSet bbb' 2 updates'.2
    pure (bb', bbb')

/-- round!(bbb[<expr>], bbb[<expr>], bbb[<expr>], bbb[<expr>], bbb[<expr>], <expr>[<expr>], <expr>, 0x00000000, bbb[<expr>] ^ bbb[<expr>] ^ bbb[<expr>]) -/
def Engine.process_block_small.line1_146 (cfg : Cfg) (w : List (BitVec 32)) : Source.Ripemd160.Engine.process_block_small.State1 → Tr Source.Ripemd160.Engine.process_block_small.State1 :=
  fun (bb', bbb') => do
    let x_1672 ← Tr.index bbb' 4
    let x_1673 ← Tr.index bbb' 0
    let x_1674 ← Tr.index bbb' 1
    let x_1675 ← Tr.index bbb' 2
    let x_1676 ← Tr.index bbb' 3
    let x_1677 ← Tr.index w 10
    let x_1678 ← Tr.index bbb' 0
    let x_1679 ← Tr.index bbb' 1
    let x_1680 ← Tr.index bbb' 2
    let updates' := Source.Ripemd160.small_hash.round cfg x_1672 x_1673 x_1674 x_1675 x_1676 x_1677 12#32 0x00000000#32 ((x_1678 ^^^ x_1679) ^^^ x_1680)
    let bbb' ← Tr.indexSet bbb' 4 updates'.1
    let bbb' ← Tr.indexSet bbb' 1 updates'.2
    pure (bb', bbb')

/-- round!(bbb[<expr>], bbb[<expr>], bbb[<expr>], bbb[<expr>], bbb[<expr>], <expr>[<expr>], <expr>, 0x00000000, bbb[<expr>] ^ bbb[<expr>] ^ bbb[<expr>]) -/
def Engine.process_block_small.line1_147 (cfg : Cfg) (w : List (BitVec 32)) : Source.Ripemd160.Engine.process_block_small.State1 → Tr Source.Ripemd160.Engine.process_block_small.State1 :=
  fun (bb', bbb') => do
    let x_1683 ← Tr.index bbb' 3
    let x_1684 ← Tr.index bbb' 4
    let x_1685 ← Tr.index bbb' 0
    let x_1686 ← Tr.index bbb' 1
    let x_1687 ← Tr.index bbb' 2
    let x_1688 ← Tr.index w 4
    let x_1689 ← Tr.index bbb' 4
    let x_1690 ← Tr.index bbb' 0
    let x_1691 ← Tr.index bbb' 1
    let updates' := Source.Ripemd160.small_hash.round cfg x_1683 x_1684 x_1685 x_1686 x_1687 x_1688 9#32 0x00000000#32 ((x_1689 ^^^ x_1690) ^^^ x_1691)
    let bbb' ← Tr.indexSet bbb' 3 updates'.1
    let bbb' ← Tr.indexSet bbb' 0 updates'.2
    pure (bb', bbb')

/-- round!(bbb[<expr>], bbb[<expr>], bbb[<expr>], bbb[<expr>], bbb[<expr>], <expr>[<expr>], <expr>, 0x00000000, bbb[<expr>] ^ bbb[<expr>] ^ bbb[<expr>]) -/
def Engine.process_block_small.line1_148 (cfg : Cfg) (w : List (BitVec 32)) : Source.Ripemd160.Engine.process_block_small.State1 → Tr Source.Ripemd160.Engine.process_block_small.State1 :=
  fun (bb', bbb') => do
    let x_1694 ← Tr.index bbb' 2
    let x_1695 ← Tr.index bbb' 3
    let x_1696 ← Tr.index bbb' 4
    let x_1697 ← Tr.index bbb' 0
    let x_1698 ← Tr.index bbb' 1
    let x_1699 ← Tr.index w 1
    let x_1700 ← Tr.index bbb' 3
    let x_1701 ← Tr.index bbb' 4
    let x_1702 ← Tr.index bbb' 0
    let updates' := Source.Ripemd160.small_hash.round cfg x_1694 x_1695 x_1696 x_1697 x_1698 x_1699 12#32 0x00000000#32 ((x_1700 ^^^ x_1701) ^^^ x_1702)
    let bbb' ← Tr.indexSet bbb' 2 updates'.1
    let bbb' ← Tr.indexSet bbb' 4 updates'.2
    pure (bb', bbb')

/-- round!(bbb[<expr>], bbb[<expr>], bbb[<expr>], bbb[<expr>], bbb[<expr>], <expr>[<expr>], <expr>, 0x00000000, bbb[<expr>] ^ bbb[<expr>] ^ bbb[<expr>]) -/
def Engine.process_block_small.line1_149 (cfg : Cfg) (w : List (BitVec 32)) : Source.Ripemd160.Engine.process_block_small.State1 → Tr Source.Ripemd160.Engine.process_block_small.State1 :=
  fun (bb', bbb') => do
    let x_1705 ← Tr.index bbb' 1
    let x_1706 ← Tr.index bbb' 2
    let x_1707 ← Tr.index bbb' 3
    let x_1708 ← Tr.index bbb' 4
    let x_1709 ← Tr.index bbb' 0
    let x_1710 ← Tr.index w 5
    let x_1711 ← Tr.index bbb' 2
    let x_1712 ← Tr.index bbb' 3
    let x_1713 ← Tr.index bbb' 4
    let updates' := Source.Ripemd160.small_hash.round cfg x_1705 x_1706 x_1707 x_1708 x_1709 x_1710 5#32 0x00000000#32 ((x_1711 ^^^ x_1712) ^^^ x_1713)
    let bbb' ← Tr.indexSet bbb' 1 updates'.1
    let bbb' ← Tr.indexSet bbb' 3 updates'.2
    pure (bb', bbb')

/-- round!(bbb[<expr>], bbb[<expr>], bbb[<expr>], bbb[<expr>], bbb[<expr>], <expr>[<expr>], <expr>, 0x00000000, bbb[<expr>] ^ bbb[<expr>] ^ bbb[<expr>]) -/
def Engine.process_block_small.line1_150 (cfg : Cfg) (w : List (BitVec 32)) : Source.Ripemd160.Engine.process_block_small.State1 → Tr Source.Ripemd160.Engine.process_block_small.State1 :=
  fun (bb', bbb') => do
    let x_1716 ← Tr.index bbb' 0
    let x_1717 ← Tr.index bbb' 1
    let x_1718 ← Tr.index bbb' 2
    let x_1719 ← Tr.index bbb' 3
    let x_1720 ← Tr.index bbb' 4
    let x_1721 ← Tr.index w 8
    let x_1722 ← Tr.index bbb' 1
    let x_1723 ← Tr.index bbb' 2
    let x_1724 ← Tr.index bbb' 3
    let updates' := Source.Ripemd160.small_hash.round cfg x_1716 x_1717 x_1718 x_1719 x_1720 x_1721 14#32 0x00000000#32 ((x_1722 ^^^ x_1723) ^^^ x_1724)
    let bbb' ← Tr.indexSet bbb' 0 updates'.1
    let bbb' ← Tr.indexSet bbb' 2 updates'.2
    pure (bb', bbb')

/-- round!(bbb[<expr>], bbb[<expr>], bbb[<expr>], bbb[<expr>], bbb[<expr>], <expr>[<expr>], <expr>, 0x00000000, bbb[<expr>] ^ bbb[<expr>] ^ bbb[<expr>]) -/
def Engine.process_block_small.line1_151 (cfg : Cfg) (w : List (BitVec 32)) : Source.Ripemd160.Engine.process_block_small.State1 → Tr Source.Ripemd160.Engine.process_block_small.State1 :=
  fun (bb', bbb') => do
    let x_1727 ← Tr.index bbb' 4
    let x_1728 ← Tr.index bbb' 0
    let x_1729 ← Tr.index bbb' 1
    let x_1730 ← Tr.index bbb' 2
    let x_1731 ← Tr.index bbb' 3
    let x_1732 ← Tr.index w 7
    let x_1733 ← Tr.index bbb' 0
    let x_1734 ← Tr.index bbb' 1
    let x_1735 ← Tr.index bbb' 2
    let updates' := Source.Ripemd160.small_hash.round cfg x_1727 x_1728 x_1729 x_1730 x_1731 x_1732 6#32 0x00000000#32 ((x_1733 ^^^ x_1734) ^^^ x_1735)
    let bbb' ← Tr.indexSet bbb' 4 updates'.1
    let bbb' ← Tr.indexSet bbb' 1 updates'.2
    pure (bb', bbb')

/-- round!(bbb[<expr>], bbb[<expr>], bbb[<expr>], bbb[<expr>], bbb[<expr>], <expr>[<expr>], <expr>, 0x00000000, bbb[<expr>] ^ bbb[<expr>] ^ bbb[<expr>]) -/
def Engine.process_block_small.line1_152 (cfg : Cfg) (w : List (BitVec 32)) : Source.Ripemd160.Engine.process_block_small.State1 → Tr Source.Ripemd160.Engine.process_block_small.State1 :=
  fun (bb', bbb') => do
    let x_1738 ← Tr.index bbb' 3
    let x_1739 ← Tr.index bbb' 4
    let x_1740 ← Tr.index bbb' 0
    let x_1741 ← Tr.index bbb' 1
    let x_1742 ← Tr.index bbb' 2
    let x_1743 ← Tr.index w 6
    let x_1744 ← Tr.index bbb' 4
    let x_1745 ← Tr.index bbb' 0
    let x_1746 ← Tr.index bbb' 1
    let updates' := Source.Ripemd160.small_hash.round cfg x_1738 x_1739 x_1740 x_1741 x_1742 x_1743 8#32 0x00000000#32 ((x_1744 ^^^ x_1745) ^^^ x_1746)
    let bbb' ← Tr.indexSet bbb' 3 updates'.1
    let bbb' ← Tr.indexSet bbb' 0 updates'.2
    pure (bb', bbb')

/-- round!(bbb[<expr>], bbb[<expr>], bbb[<expr>], bbb[<expr>], bbb[<expr>], <expr>[<expr>], <expr>, 0x00000000, bbb[<expr>] ^ bbb[<expr>] ^ bbb[<expr>]) -/
def Engine.process_block_small.line1_153 (cfg : Cfg) (w : List (BitVec 32)) : Source.Ripemd160.Engine.process_block_small.State1 → Tr Source.Ripemd160.Engine.process_block_small.State1 :=
  fun (bb', bbb') => do
    let x_1749 ← Tr.index bbb' 2
    let x_1750 ← Tr.index bbb' 3
    let x_1751 ← Tr.index bbb' 4
    let x_1752 ← Tr.index bbb' 0
    let x_1753 ← Tr.index bbb' 1
    let x_1754 ← Tr.index w 2
    let x_1755 ← Tr.index bbb' 3
    let x_1756 ← Tr.index bbb' 4
    let x_1757 ← Tr.index bbb' 0
    let updates' := Source.Ripemd160.small_hash.round cfg x_1749 x_1750 x_1751 x_1752 x_1753 x_1754 13#32 0x00000000#32 ((x_1755 ^^^ x_1756) ^^^ x_1757)
    let bbb' ← Tr.indexSet bbb' 2 updates'.1
    let bbb' ← Tr.indexSet bbb' 4 updates'.2
    pure (bb', bbb')

/-- round!(bbb[<expr>], bbb[<expr>], bbb[<expr>], bbb[<expr>], bbb[<expr>], <expr>[<expr>], <expr>, 0x00000000, bbb[<expr>] ^ bbb[<expr>] ^ bbb[<expr>]) -/
def Engine.process_block_small.line1_154 (cfg : Cfg) (w : List (BitVec 32)) : Source.Ripemd160.Engine.process_block_small.State1 → Tr Source.Ripemd160.Engine.process_block_small.State1 :=
  fun (bb', bbb') => do
    let x_1760 ← Tr.index bbb' 1
    let x_1761 ← Tr.index bbb' 2
    let x_1762 ← Tr.index bbb' 3
    let x_1763 ← Tr.index bbb' 4
    let x_1764 ← Tr.index bbb' 0
    let x_1765 ← Tr.index w 13
    let x_1766 ← Tr.index bbb' 2
    let x_1767 ← Tr.index bbb' 3
    let x_1768 ← Tr.index bbb' 4
    let updates' := Source.Ripemd160.small_hash.round cfg x_1760 x_1761 x_1762 x_1763 x_1764 x_1765 6#32 0x00000000#32 ((x_1766 ^^^ x_1767) ^^^ x_1768)
    let bbb' ← Tr.indexSet bbb' 1 updates'.1
    let bbb' ← Tr.indexSet bbb' 3 updates'.2
    pure (bb', bbb')

/-- round!(bbb[<expr>], bbb[<expr>], bbb[<expr>], bbb[<expr>], bbb[<expr>], <expr>[<expr>], <expr>, 0x00000000, bbb[<expr>] ^ bbb[<expr>] ^ bbb[<expr>]) -/
def Engine.process_block_small.line1_155 (cfg : Cfg) (w : List (BitVec 32)) : Source.Ripemd160.Engine.process_block_small.State1 → Tr Source.Ripemd160.Engine.process_block_small.State1 :=
  fun (bb', bbb') => do
    let x_1771 ← Tr.index bbb' 0
    let x_1772 ← Tr.index bbb' 1
    let x_1773 ← Tr.index bbb' 2
    let x_1774 ← Tr.index bbb' 3
    let x_1775 ← Tr.index bbb' 4
    let x_1776 ← Tr.index w 14
    let x_1777 ← Tr.index bbb' 1
    let x_1778 ← Tr.index bbb' 2
    let x_1779 ← Tr.index bbb' 3
    let updates' := Source.Ripemd160.small_hash.round cfg x_1771 x_1772 x_1773 x_1774 x_1775 x_1776 5#32 0x00000000#32 ((x_1777 ^^^ x_1778) ^^^ x_1779)
    let bbb' ← Tr.indexSet bbb' 0 updates'.1
    let bbb' ← Tr.indexSet bbb' 2 updates'.2
    pure (bb', bbb')

/-- round!(bbb[<expr>], bbb[<expr>], bbb[<expr>], bbb[<expr>], bbb[<expr>], <expr>[<expr>], <expr>, 0x00000000, bbb[<expr>] ^ bbb[<expr>] ^ bbb[<expr>]) -/
def Engine.process_block_small.line1_156 (cfg : Cfg) (w : List (BitVec 32)) : Source.Ripemd160.Engine.process_block_small.State1 → Tr Source.Ripemd160.Engine.process_block_small.State1 :=
  fun (bb', bbb') => do
    let x_1782 ← Tr.index bbb' 4
    let x_1783 ← Tr.index bbb' 0
    let x_1784 ← Tr.index bbb' 1
    let x_1785 ← Tr.index bbb' 2
    let x_1786 ← Tr.index bbb' 3
    let x_1787 ← Tr.index w 0
    let x_1788 ← Tr.index bbb' 0
    let x_1789 ← Tr.index bbb' 1
    let x_1790 ← Tr.index bbb' 2
    let updates' := Source.Ripemd160.small_hash.round cfg x_1782 x_1783 x_1784 x_1785 x_1786 x_1787 15#32 0x00000000#32 ((x_1788 ^^^ x_1789) ^^^ x_1790)
    let bbb' ← Tr.indexSet bbb' 4 updates'.1
    let bbb' ← Tr.indexSet bbb' 1 updates'.2
    pure (bb', bbb')

/-- round!(bbb[<expr>], bbb[<expr>], bbb[<expr>], bbb[<expr>], bbb[<expr>], <expr>[<expr>], <expr>, 0x00000000, bbb[<expr>] ^ bbb[<expr>] ^ bbb[<expr>]) -/
def Engine.process_block_small.line1_157 (cfg : Cfg) (w : List (BitVec 32)) : Source.Ripemd160.Engine.process_block_small.State1 → Tr Source.Ripemd160.Engine.process_block_small.State1 :=
  fun (bb', bbb') => do
    let x_1793 ← Tr.index bbb' 3
    let x_1794 ← Tr.index bbb' 4
    let x_1795 ← Tr.index bbb' 0
    let x_1796 ← Tr.index bbb' 1
    let x_1797 ← Tr.index bbb' 2
    let x_1798 ← Tr.index w 3
    let x_1799 ← Tr.index bbb' 4
    let x_1800 ← Tr.index bbb' 0
    let x_1801 ← Tr.index bbb' 1
    let updates' := Source.Ripemd160.small_hash.round cfg x_1793 x_1794 x_1795 x_1796 x_1797 x_1798 13#32 0x00000000#32 ((x_1799 ^^^ x_1800) ^^^ x_1801)
    let bbb' ← Tr.indexSet bbb' 3 updates'.1
    let bbb' ← Tr.indexSet bbb' 0 updates'.2
    pure (bb', bbb')

/-- round!(bbb[<expr>], bbb[<expr>], bbb[<expr>], bbb[<expr>], bbb[<expr>], <expr>[<expr>], <expr>, 0x00000000, bbb[<expr>] ^ bbb[<expr>] ^ bbb[<expr>]) -/
def Engine.process_block_small.line1_158 (cfg : Cfg) (w : List (BitVec 32)) : Source.Ripemd160.Engine.process_block_small.State1 → Tr Source.Ripemd160.Engine.process_block_small.State1 :=
  fun (bb', bbb') => do
    let x_1804 ← Tr.index bbb' 2
    let x_1805 ← Tr.index bbb' 3
    let x_1806 ← Tr.index bbb' 4
    let x_1807 ← Tr.index bbb' 0
    let x_1808 ← Tr.index bbb' 1
    let x_1809 ← Tr.index w 9
    let x_1810 ← Tr.index bbb' 3
    let x_1811 ← Tr.index bbb' 4
    let x_1812 ← Tr.index bbb' 0
    let updates' := Source.Ripemd160.small_hash.round cfg x_1804 x_1805 x_1806 x_1807 x_1808 x_1809 11#32 0x00000000#32 ((x_1810 ^^^ x_1811) ^^^ x_1812)
    let bbb' ← Tr.indexSet bbb' 2 updates'.1
    let bbb' ← Tr.indexSet bbb' 4 updates'.2
    pure (bb', bbb')

/-- round!(bbb[<expr>], bbb[<expr>], bbb[<expr>], bbb[<expr>], bbb[<expr>], <expr>[<expr>], <expr>, 0x00000000, bbb[<expr>] ^ bbb[<expr>] ^ bbb[<expr>]) -/
def Engine.process_block_small.line1_159 (cfg : Cfg) (w : List (BitVec 32)) : Source.Ripemd160.Engine.process_block_small.State1 → Tr Source.Ripemd160.Engine.process_block_small.State1 :=
  fun (bb', bbb') => do
    let x_1815 ← Tr.index bbb' 1
    let x_1816 ← Tr.index bbb' 2
    let x_1817 ← Tr.index bbb' 3
    let x_1818 ← Tr.index bbb' 4
    let x_1819 ← Tr.index bbb' 0
    let x_1820 ← Tr.index w 11
    let x_1821 ← Tr.index bbb' 2
    let x_1822 ← Tr.index bbb' 3
    let x_1823 ← Tr.index bbb' 4
    let updates' := Source.Ripemd160.small_hash.round cfg x_1815 x_1816 x_1817 x_1818 x_1819 x_1820 11#32 0x00000000#32 ((x_1821 ^^^ x_1822) ^^^ x_1823)
    let bbb' ← Tr.indexSet bbb' 1 updates'.1
    let bbb' ← Tr.indexSet bbb' 3 updates'.2
    pure (bb', bbb')

/-- The 160 statements. -/
def Engine.process_block_small.lines1 (cfg : Cfg) (w : List (BitVec 32)) : List (Source.Ripemd160.Engine.process_block_small.State1 → Tr Source.Ripemd160.Engine.process_block_small.State1) := [
  Seen.Ripemd160.Engine.process_block_small.line1_0 cfg w,
  Seen.Ripemd160.Engine.process_block_small.line1_1 cfg w,
  Seen.Ripemd160.Engine.process_block_small.line1_2 cfg w,
  Seen.Ripemd160.Engine.process_block_small.line1_3 cfg w,
  Seen.Ripemd160.Engine.process_block_small.line1_4 cfg w,
  Seen.Ripemd160.Engine.process_block_small.line1_5 cfg w,
  Seen.Ripemd160.Engine.process_block_small.line1_6 cfg w,
  Seen.Ripemd160.Engine.process_block_small.line1_7 cfg w,
  Seen.Ripemd160.Engine.process_block_small.line1_8 cfg w,
  Seen.Ripemd160.Engine.process_block_small.line1_9 cfg w,
  Seen.Ripemd160.Engine.process_block_small.line1_10 cfg w,
  Seen.Ripemd160.Engine.process_block_small.line1_11 cfg w,
  Seen.Ripemd160.Engine.process_block_small.line1_12 cfg w,
  Seen.Ripemd160.Engine.process_block_small.line1_13 cfg w,
  Seen.Ripemd160.Engine.process_block_small.line1_14 cfg w,
  Seen.Ripemd160.Engine.process_block_small.line1_15 cfg w,
  Seen.Ripemd160.Engine.process_block_small.line1_16 cfg w,
  Seen.Ripemd160.Engine.process_block_small.line1_17 cfg w,
  Seen.Ripemd160.Engine.process_block_small.line1_18 cfg w,
  Seen.Ripemd160.Engine.process_block_small.line1_19 cfg w,
  Seen.Ripemd160.Engine.process_block_small.line1_20 cfg w,
  Seen.Ripemd160.Engine.process_block_small.line1_21 cfg w,
  Seen.Ripemd160.Engine.process_block_small.line1_22 cfg w,
  Seen.Ripemd160.Engine.process_block_small.line1_23 cfg w,
  Seen.Ripemd160.Engine.process_block_small.line1_24 cfg w,
  Seen.Ripemd160.Engine.process_block_small.line1_25 cfg w,
  Seen.Ripemd160.Engine.process_block_small.line1_26 cfg w,
  Seen.Ripemd160.Engine.process_block_small.line1_27 cfg w,
  Seen.Ripemd160.Engine.process_block_small.line1_28 cfg w,
  Seen.Ripemd160.Engine.process_block_small.line1_29 cfg w,
  Seen.Ripemd160.Engine.process_block_small.line1_30 cfg w,
  Seen.Ripemd160.Engine.process_block_small.line1_31 cfg w,
  Seen.Ripemd160.Engine.process_block_small.line1_32 cfg w,
  Seen.Ripemd160.Engine.process_block_small.line1_33 cfg w,
  Seen.Ripemd160.Engine.process_block_small.line1_34 cfg w,
  Seen.Ripemd160.Engine.process_block_small.line1_35 cfg w,
  Seen.Ripemd160.Engine.process_block_small.line1_36 cfg w,
  Seen.Ripemd160.Engine.process_block_small.line1_37 cfg w,
  Seen.Ripemd160.Engine.process_block_small.line1_38 cfg w,
  Seen.Ripemd160.Engine.process_block_small.line1_39 cfg w,
  Seen.Ripemd160.Engine.process_block_small.line1_40 cfg w,
  Seen.Ripemd160.Engine.process_block_small.line1_41 cfg w,
  Seen.Ripemd160.Engine.process_block_small.line1_42 cfg w,
  Seen.Ripemd160.Engine.process_block_small.line1_43 cfg w,
  Seen.Ripemd160.Engine.process_block_small.line1_44 cfg w,
  Seen.Ripemd160.Engine.process_block_small.line1_45 cfg w,
  Seen.Ripemd160.Engine.process_block_small.line1_46 cfg w,
  Seen.Ripemd160.Engine.process_block_small.line1_47 cfg w,
  Seen.Ripemd160.Engine.process_block_small.line1_48 cfg w,
  Seen.Ripemd160.Engine.process_block_small.line1_49 cfg w,
  Seen.Ripemd160.Engine.process_block_small.line1_50 cfg w,
  Seen.Ripemd160.Engine.process_block_small.line1_51 cfg w,
  Seen.Ripemd160.Engine.process_block_small.line1_52 cfg w,
  Seen.Ripemd160.Engine.process_block_small.line1_53 cfg w,
  Seen.Ripemd160.Engine.process_block_small.line1_54 cfg w,
  Seen.Ripemd160.Engine.process_block_small.line1_55 cfg w,
  Seen.Ripemd160.Engine.process_block_small.line1_56 cfg w,
  Seen.Ripemd160.Engine.process_block_small.line1_57 cfg w,
  Seen.Ripemd160.Engine.process_block_small.line1_58 cfg w,
  Seen.Ripemd160.Engine.process_block_small.line1_59 cfg w,
  Seen.Ripemd160.Engine.process_block_small.line1_60 cfg w,
  Seen.Ripemd160.Engine.process_block_small.line1_61 cfg w,
  Seen.Ripemd160.Engine.process_block_small.line1_62 cfg w,
  Seen.Ripemd160.Engine.process_block_small.line1_63 cfg w,
  Seen.Ripemd160.Engine.process_block_small.line1_64 cfg w,
  Seen.Ripemd160.Engine.process_block_small.line1_65 cfg w,
  Seen.Ripemd160.Engine.process_block_small.line1_66 cfg w,
  Seen.Ripemd160.Engine.process_block_small.line1_67 cfg w,
  Seen.Ripemd160.Engine.process_block_small.line1_68 cfg w,
  Seen.Ripemd160.Engine.process_block_small.line1_69 cfg w,
  Seen.Ripemd160.Engine.process_block_small.line1_70 cfg w,
  Seen.Ripemd160.Engine.process_block_small.line1_71 cfg w,
  Seen.Ripemd160.Engine.process_block_small.line1_72 cfg w,
  Seen.Ripemd160.Engine.process_block_small.line1_73 cfg w,
  Seen.Ripemd160.Engine.process_block_small.line1_74 cfg w,
  Seen.Ripemd160.Engine.process_block_small.line1_75 cfg w,
  Seen.Ripemd160.Engine.process_block_small.line1_76 cfg w,
  Seen.Ripemd160.Engine.process_block_small.line1_77 cfg w,
  Seen.Ripemd160.Engine.process_block_small.line1_78 cfg w,
  Seen.Ripemd160.Engine.process_block_small.line1_79 cfg w,
  Seen.Ripemd160.Engine.process_block_small.line1_80 cfg w,
  Seen.Ripemd160.Engine.process_block_small.line1_81 cfg w,
  Seen.Ripemd160.Engine.process_block_small.line1_82 cfg w,
  Seen.Ripemd160.Engine.process_block_small.line1_83 cfg w,
  Seen.Ripemd160.Engine.process_block_small.line1_84 cfg w,
  Seen.Ripemd160.Engine.process_block_small.line1_85 cfg w,
  Seen.Ripemd160.Engine.process_block_small.line1_86 cfg w,
  Seen.Ripemd160.Engine.process_block_small.line1_87 cfg w,
  Seen.Ripemd160.Engine.process_block_small.line1_88 cfg w,
  Seen.Ripemd160.Engine.process_block_small.line1_89 cfg w,
  Seen.Ripemd160.Engine.process_block_small.line1_90 cfg w,
  Seen.Ripemd160.Engine.process_block_small.line1_91 cfg w,
  Seen.Ripemd160.Engine.process_block_small.line1_92 cfg w,
  Seen.Ripemd160.Engine.process_block_small.line1_93 cfg w,
  Seen.Ripemd160.Engine.process_block_small.line1_94 cfg w,
  Seen.Ripemd160.Engine.process_block_small.line1_95 cfg w,
  Seen.Ripemd160.Engine.process_block_small.line1_96 cfg w,
  Seen.Ripemd160.Engine.process_block_small.line1_97 cfg w,
  Seen.Ripemd160.Engine.process_block_small.line1_98 cfg w,
  Seen.Ripemd160.Engine.process_block_small.line1_99 cfg w,
  Seen.Ripemd160.Engine.process_block_small.line1_100 cfg w,
  Seen.Ripemd160.Engine.process_block_small.line1_101 cfg w,
  Seen.Ripemd160.Engine.process_block_small.line1_102 cfg w,
  Seen.Ripemd160.Engine.process_block_small.line1_103 cfg w,
  Seen.Ripemd160.Engine.process_block_small.line1_104 cfg w,
  Seen.Ripemd160.Engine.process_block_small.line1_105 cfg w,
  Seen.Ripemd160.Engine.process_block_small.line1_106 cfg w,
  Seen.Ripemd160.Engine.process_block_small.line1_107 cfg w,
  Seen.Ripemd160.Engine.process_block_small.line1_108 cfg w,
  Seen.Ripemd160.Engine.process_block_small.line1_109 cfg w,
  Seen.Ripemd160.Engine.process_block_small.line1_110 cfg w,
  Seen.Ripemd160.Engine.process_block_small.line1_111 cfg w,
  Seen.Ripemd160.Engine.process_block_small.line1_112 cfg w,
  Seen.Ripemd160.Engine.process_block_small.line1_113 cfg w,
  Seen.Ripemd160.Engine.process_block_small.line1_114 cfg w,
  Seen.Ripemd160.Engine.process_block_small.line1_115 cfg w,
  Seen.Ripemd160.Engine.process_block_small.line1_116 cfg w,
  Seen.Ripemd160.Engine.process_block_small.line1_117 cfg w,
  Seen.Ripemd160.Engine.process_block_small.line1_118 cfg w,
  Seen.Ripemd160.Engine.process_block_small.line1_119 cfg w,
  Seen.Ripemd160.Engine.process_block_small.line1_120 cfg w,
  Seen.Ripemd160.Engine.process_block_small.line1_121 cfg w,
  Seen.Ripemd160.Engine.process_block_small.line1_122 cfg w,
  Seen.Ripemd160.Engine.process_block_small.line1_123 cfg w,
  Seen.Ripemd160.Engine.process_block_small.line1_124 cfg w,
  Seen.Ripemd160.Engine.process_block_small.line1_125 cfg w,
  Seen.Ripemd160.Engine.process_block_small.line1_126 cfg w,
  Seen.Ripemd160.Engine.process_block_small.line1_127 cfg w,
  Seen.Ripemd160.Engine.process_block_small.line1_128 cfg w,
  Seen.Ripemd160.Engine.process_block_small.line1_129 cfg w,
  Seen.Ripemd160.Engine.process_block_small.line1_130 cfg w,
  Seen.Ripemd160.Engine.process_block_small.line1_131 cfg w,
  Seen.Ripemd160.Engine.process_block_small.line1_132 cfg w,
  Seen.Ripemd160.Engine.process_block_small.line1_133 cfg w,
  Seen.Ripemd160.Engine.process_block_small.line1_134 cfg w,
  Seen.Ripemd160.Engine.process_block_small.line1_135 cfg w,
  Seen.Ripemd160.Engine.process_block_small.line1_136 cfg w,
  Seen.Ripemd160.Engine.process_block_small.line1_137 cfg w,
  Seen.Ripemd160.Engine.process_block_small.line1_138 cfg w,
  Seen.Ripemd160.Engine.process_block_small.line1_139 cfg w,
  Seen.Ripemd160.Engine.process_block_small.line1_140 cfg w,
  Seen.Ripemd160.Engine.process_block_small.line1_141 cfg w,
  Seen.Ripemd160.Engine.process_block_small.line1_142 cfg w,
  Seen.Ripemd160.Engine.process_block_small.line1_143 cfg w,
  Seen.Ripemd160.Engine.process_block_small.line1_144 cfg w,
  Seen.Ripemd160.Engine.process_block_small.line1_145 cfg w,
  Seen.Ripemd160.Engine.process_block_small.line1_146 cfg w,
  Seen.Ripemd160.Engine.process_block_small.line1_147 cfg w,
  Seen.Ripemd160.Engine.process_block_small.line1_148 cfg w,
  Seen.Ripemd160.Engine.process_block_small.line1_149 cfg w,
  Seen.Ripemd160.Engine.process_block_small.line1_150 cfg w,
  Seen.Ripemd160.Engine.process_block_small.line1_151 cfg w,
  Seen.Ripemd160.Engine.process_block_small.line1_152 cfg w,
  Seen.Ripemd160.Engine.process_block_small.line1_153 cfg w,
  Seen.Ripemd160.Engine.process_block_small.line1_154 cfg w,
  Seen.Ripemd160.Engine.process_block_small.line1_155 cfg w,
  Seen.Ripemd160.Engine.process_block_small.line1_156 cfg w,
  Seen.Ripemd160.Engine.process_block_small.line1_157 cfg w,
  Seen.Ripemd160.Engine.process_block_small.line1_158 cfg w,
  Seen.Ripemd160.Engine.process_block_small.line1_159 cfg w]

/-- `Engine::process_block`, ripemd160.rs 228-417, with feature `small-hash`. -/
def Engine.process_block_small (cfg : Cfg) (self : Source.Ripemd160.Engine) : Tr Source.Ripemd160.Engine := do
  Tr.debugAssert cfg (self.buffer.length == Source.Ripemd160.BLOCK_SIZE)
  let w : List (BitVec 32) := List.replicate 16 0#32
  let w ← Tr.zipMut w (chunksExact 4 self.buffer) fun w_val buff_bytes => do
    let x_1 ← Tr.tryInto 4 buff_bytes
    let w_val := Rs.fromLeBytes 32 x_1
    pure w_val
  let bb' : List (BitVec 32) := self.h
  let bbb' : List (BitVec 32) := self.h
  let (bb', bbb') ← Tr.runLines (Seen.Ripemd160.Engine.process_block_small.lines1 cfg w) (bb', bbb')
  let x_1826 ← Tr.index bbb' 3
  let x_1827 ← Tr.index self.h 1
  let x_1828 ← Tr.index bb' 2
  let bbb' ← Tr.indexSet bbb' 3 ((x_1826 + x_1827) + x_1828)
  let x_1830 ← Tr.index self.h 2
  let x_1831 ← Tr.index bb' 3
  let x_1832 ← Tr.index bbb' 4
  let x_1833 ← Tr.indexSet self.h 1 ((x_1830 + x_1831) + x_1832)
  let self := { self with h := x_1833 }
  let x_1834 ← Tr.index self.h 3
  let x_1835 ← Tr.index bb' 4
  let x_1836 ← Tr.index bbb' 0
  let x_1837 ← Tr.indexSet self.h 2 ((x_1834 + x_1835) + x_1836)
  let self := { self with h := x_1837 }
  let x_1838 ← Tr.index self.h 4
  let x_1839 ← Tr.index bb' 0
  let x_1840 ← Tr.index bbb' 1
  let x_1841 ← Tr.indexSet self.h 3 ((x_1838 + x_1839) + x_1840)
  let self := { self with h := x_1841 }
  let x_1842 ← Tr.index self.h 0
  let x_1843 ← Tr.index bb' 1
  let x_1844 ← Tr.index bbb' 2
  let x_1845 ← Tr.indexSet self.h 4 ((x_1842 + x_1843) + x_1844)
  let self := { self with h := x_1845 }
  let x_1846 ← Tr.index bbb' 3
  let x_1847 ← Tr.indexSet self.h 0 x_1846
  let self := { self with h := x_1847 }
  pure self

/-- `Engine::process_block`, ripemd160.rs 228-417. -/
def Engine.process_block (cfg : Cfg) (self : Source.Ripemd160.Engine) : Tr Source.Ripemd160.Engine :=
  if cfg.smallHash then Seen.Ripemd160.Engine.process_block_small cfg self else Seen.Ripemd160.Engine.process_block_fast cfg self

/-- `Engine::input`, internal_macros.rs 22-36. -/
def Engine.input (cfg : Cfg) (self : Source.Ripemd160.Engine) (inp : List Byte) : Tr Source.Ripemd160.Engine := do
  let (self, inp) ← Tr.whileR cfg.usizeMod
    (fun (self, inp) => pure (!inp.isEmpty))
    (fun (self, inp) => do
      let buf_idx : Nat := self.length % Source.Ripemd160.Engine.BLOCK_SIZE
      let rem_len ← Tr.subUsize cfg Source.Ripemd160.Engine.BLOCK_SIZE buf_idx
      let write_len : Nat := min rem_len inp.length
      let x_2 ← Tr.addUsize cfg buf_idx write_len
      Tr.checkRange self.buffer buf_idx x_2
      let x_3 ← Tr.sliceTo inp write_len
      let x_4 ← Tr.copyIntoRange self.buffer buf_idx x_2 x_3
      let self := { self with buffer := x_4 }
      let x_5 ← Tr.addUsize cfg self.length write_len
      let self := { self with length := x_5 }
      let self ←
        Tr.test ((self.length % Source.Ripemd160.Engine.BLOCK_SIZE) == 0) >>= fun b_1 => if b_1 then do
          let self ← Seen.Ripemd160.Engine.process_block cfg self
          pure self
        else do
          pure self
      let inp ← Tr.sliceFrom inp write_len
      pure (self, inp)) (self, inp)
  pure self

/-- `Engine::midstate`, ripemd160.rs 74-80. -/
def Engine.midstate (cfg : Cfg) (self : Source.Ripemd160.Engine) : Tr (List Byte) := do
  let ret : List Byte := List.replicate 20 0#8
  let ret ← Tr.zipChunksMut 4 self.h ret fun val ret_bytes => do
    let ret_bytes ← Tr.copyFromSlice ret_bytes (Rs.toLeBytes val)
    pure ret_bytes
  pure ret

/-- `Engine::finalize`, ripemd160.rs 46-63. -/
def Engine.finalize (cfg : Cfg) (self : Source.Ripemd160.Engine) : Tr (List Byte) := do
  let data_len : BitVec 64 := BitVec.ofNat 64 self.length
  let zeroes : List Byte := List.replicate 56 0#8
  let self ← Seen.Ripemd160.Engine.input cfg self [0x80#8]
  let self ←
    Tr.test (decide ((self.length % Source.Ripemd160.BLOCK_SIZE) > zeroes.length)) >>= fun b_1 => if b_1 then do
      let self ← Seen.Ripemd160.Engine.input cfg self zeroes
      pure self
    else do
      pure self
  let pad_length ← Tr.subUsize cfg zeroes.length (self.length % Source.Ripemd160.BLOCK_SIZE)
  let x_4 ← Tr.sliceTo zeroes pad_length
  let self ← Seen.Ripemd160.Engine.input cfg self x_4
  Tr.debugAssert cfg ((self.length % Source.Ripemd160.BLOCK_SIZE) == zeroes.length)
  let x_6 ← Tr.mulU cfg 8#64 data_len
  let self ← Seen.Ripemd160.Engine.input cfg self (Rs.toLeBytes x_6)
  Tr.debugAssert cfg ((self.length % Source.Ripemd160.BLOCK_SIZE) == 0)
  let x_8 ← Seen.Ripemd160.Engine.midstate cfg self
  pure x_8

/-- `Hash::hash`, internal_macros.rs 158-162. -/
def Hash.hash (cfg : Cfg) (bytes : List Byte) : Tr Source.Ripemd160.Hash := do
  let engine := Source.Ripemd160.Hash.engine cfg
  let engine ← Seen.Ripemd160.Engine.input cfg engine bytes
  let x_2 ← Seen.Ripemd160.Engine.finalize cfg engine
  pure ({ f0 := x_2 } : Source.Ripemd160.Hash)

/-- `Engine::from_midstate`, ripemd160.rs 90-99. -/
def Engine.from_midstate (cfg : Cfg) (midstate : List Byte) (length : Nat) : Tr Source.Ripemd160.Engine := do
  Tr.assertR ((length % Source.Ripemd160.BLOCK_SIZE) == 0)
  let ret : List (BitVec 32) := List.replicate 5 0#32
  let ret ← Tr.zipMut ret (chunksExact 4 midstate) fun ret_val midstate_bytes => do
    let x_1 ← Tr.tryInto 4 midstate_bytes
    let ret_val := Rs.fromBeBytes 32 x_1
    pure ret_val
  pure ({ buffer := List.replicate 64 0#8, h := ret, length := length } : Source.Ripemd160.Engine)

/-- `impl HashEngine for Engine`, ripemd160.rs 34. -/
def engine (cfg : Cfg) : Tr.HashEngine (Source.Ripemd160.engine cfg) where
  default := pure (Source.Ripemd160.Engine.default cfg)
  new := pure (Source.Ripemd160.Engine.default cfg)
  input self data := Seen.Ripemd160.Engine.input cfg self data
  finalize self := Seen.Ripemd160.Engine.finalize cfg self
  midstate self := Seen.Ripemd160.Engine.midstate cfg self
  fromMidstate midstate length := Seen.Ripemd160.Engine.from_midstate cfg midstate length

end Chf.Seen.Ripemd160
