/- Generated from /repo/src/ripemd160.rs by tools/rust2lean.py; do not edit. -/
import Verif.Source.Lib
import Verif.Source.SerdeMacros

namespace Chf.Source.Ripemd160
open Chf
set_option linter.unusedVariables false

/-- `struct Hash`. -/
structure Hash where
  f0 : List Byte

/-- `struct Engine`. -/
structure Engine where
  buffer : List Byte
  h : List (BitVec 32)
  length : Nat

/-- `const Hash::LEN`. -/
def Hash.LEN : Nat := 20

/-- `const Hash::N`. -/
def Hash.N : Nat := 20

/-- `const BLOCK_SIZE`. -/
def BLOCK_SIZE : Nat := 64

/-- `const Engine::BLOCK_SIZE`. -/
def Engine.BLOCK_SIZE : Nat := 64

/-- `Engine::default`, ripemd160.rs 25-31. -/
def Engine.default (cfg : Cfg) : Engine :=
  ({ h := [0x67452301#32, 0xefcdab89#32, 0x98badcfe#32, 0x10325476#32, 0xc3d2e1f0#32], length := 0, buffer := List.replicate 64 0#8 } : Engine)

/-- `Hash::engine`, internal_macros.rs 165. -/
def Hash.engine (cfg : Cfg) : Engine :=
  Engine.default cfg

/-- `small_hash::round`, ripemd160.rs 106-114. -/
def small_hash.round (cfg : Cfg) (a : BitVec 32) (b : BitVec 32) (c : BitVec 32) (d : BitVec 32) (e : BitVec 32) (x : BitVec 32) (bits : BitVec 32) (add : BitVec 32) (round : BitVec 32) : ((BitVec 32) × (BitVec 32)) :=
  let a_1 : BitVec 32 := ((a + round) + x) + add
  let a_1 : BitVec 32 := (a_1.rotateLeft bits.toNat) + e
  let c_1 : BitVec 32 := c.rotateLeft 10
  (a_1, c_1)

/-- The variables bb', bbb' of `process_block`. -/
abbrev Engine.process_block_fast.State1 := (List (BitVec 32)) × (List (BitVec 32))

/-- round!(bb[<expr>], bb[<expr>], bb[<expr>], bb[<expr>], bb[<expr>], <expr>[<expr>], <expr>, 0x00000000, bb[<expr>] ^ bb[<expr>] ^ bb[<expr>]) -/
def Engine.process_block_fast.line1_0 (cfg : Cfg) (w : List (BitVec 32)) : Engine.process_block_fast.State1 → Res Engine.process_block_fast.State1 :=
  fun (bb', bbb') => do
    let x_2 ← index bb' 0
    let x_3 ← index bb' 1
    let x_4 ← index bb' 2
    let x_5 ← index bb' 3
    let x_6 ← index w 0
    let bb' ← indexSet bb' 0 (((x_2 + ((x_3 ^^^ x_4) ^^^ x_5)) + x_6) + 0x00000000#32)
    let x_8 ← index bb' 0
    let x_9 ← index bb' 4
    let bb' ← indexSet bb' 0 ((x_8.rotateLeft 11) + x_9)
    let x_11 ← index bb' 2
    let bb' ← indexSet bb' 2 (x_11.rotateLeft 10)
    pure (bb', bbb')

/-- round!(bb[<expr>], bb[<expr>], bb[<expr>], bb[<expr>], bb[<expr>], <expr>[<expr>], <expr>, 0x00000000, bb[<expr>] ^ bb[<expr>] ^ bb[<expr>]) -/
def Engine.process_block_fast.line1_1 (cfg : Cfg) (w : List (BitVec 32)) : Engine.process_block_fast.State1 → Res Engine.process_block_fast.State1 :=
  fun (bb', bbb') => do
    let x_13 ← index bb' 4
    let x_14 ← index bb' 0
    let x_15 ← index bb' 1
    let x_16 ← index bb' 2
    let x_17 ← index w 1
    let bb' ← indexSet bb' 4 (((x_13 + ((x_14 ^^^ x_15) ^^^ x_16)) + x_17) + 0x00000000#32)
    let x_19 ← index bb' 4
    let x_20 ← index bb' 3
    let bb' ← indexSet bb' 4 ((x_19.rotateLeft 14) + x_20)
    let x_22 ← index bb' 1
    let bb' ← indexSet bb' 1 (x_22.rotateLeft 10)
    pure (bb', bbb')

/-- round!(bb[<expr>], bb[<expr>], bb[<expr>], bb[<expr>], bb[<expr>], <expr>[<expr>], <expr>, 0x00000000, bb[<expr>] ^ bb[<expr>] ^ bb[<expr>]) -/
def Engine.process_block_fast.line1_2 (cfg : Cfg) (w : List (BitVec 32)) : Engine.process_block_fast.State1 → Res Engine.process_block_fast.State1 :=
  fun (bb', bbb') => do
    let x_24 ← index bb' 3
    let x_25 ← index bb' 4
    let x_26 ← index bb' 0
    let x_27 ← index bb' 1
    let x_28 ← index w 2
    let bb' ← indexSet bb' 3 (((x_24 + ((x_25 ^^^ x_26) ^^^ x_27)) + x_28) + 0x00000000#32)
    let x_30 ← index bb' 3
    let x_31 ← index bb' 2
    let bb' ← indexSet bb' 3 ((x_30.rotateLeft 15) + x_31)
    let x_33 ← index bb' 0
    let bb' ← indexSet bb' 0 (x_33.rotateLeft 10)
    pure (bb', bbb')

/-- round!(bb[<expr>], bb[<expr>], bb[<expr>], bb[<expr>], bb[<expr>], <expr>[<expr>], <expr>, 0x00000000, bb[<expr>] ^ bb[<expr>] ^ bb[<expr>]) -/
def Engine.process_block_fast.line1_3 (cfg : Cfg) (w : List (BitVec 32)) : Engine.process_block_fast.State1 → Res Engine.process_block_fast.State1 :=
  fun (bb', bbb') => do
    let x_35 ← index bb' 2
    let x_36 ← index bb' 3
    let x_37 ← index bb' 4
    let x_38 ← index bb' 0
    let x_39 ← index w 3
    let bb' ← indexSet bb' 2 (((x_35 + ((x_36 ^^^ x_37) ^^^ x_38)) + x_39) + 0x00000000#32)
    let x_41 ← index bb' 2
    let x_42 ← index bb' 1
    let bb' ← indexSet bb' 2 ((x_41.rotateLeft 12) + x_42)
    let x_44 ← index bb' 4
    let bb' ← indexSet bb' 4 (x_44.rotateLeft 10)
    pure (bb', bbb')

/-- round!(bb[<expr>], bb[<expr>], bb[<expr>], bb[<expr>], bb[<expr>], <expr>[<expr>], <expr>, 0x00000000, bb[<expr>] ^ bb[<expr>] ^ bb[<expr>]) -/
def Engine.process_block_fast.line1_4 (cfg : Cfg) (w : List (BitVec 32)) : Engine.process_block_fast.State1 → Res Engine.process_block_fast.State1 :=
  fun (bb', bbb') => do
    let x_46 ← index bb' 1
    let x_47 ← index bb' 2
    let x_48 ← index bb' 3
    let x_49 ← index bb' 4
    let x_50 ← index w 4
    let bb' ← indexSet bb' 1 (((x_46 + ((x_47 ^^^ x_48) ^^^ x_49)) + x_50) + 0x00000000#32)
    let x_52 ← index bb' 1
    let x_53 ← index bb' 0
    let bb' ← indexSet bb' 1 ((x_52.rotateLeft 5) + x_53)
    let x_55 ← index bb' 3
    let bb' ← indexSet bb' 3 (x_55.rotateLeft 10)
    pure (bb', bbb')

/-- round!(bb[<expr>], bb[<expr>], bb[<expr>], bb[<expr>], bb[<expr>], <expr>[<expr>], <expr>, 0x00000000, bb[<expr>] ^ bb[<expr>] ^ bb[<expr>]) -/
def Engine.process_block_fast.line1_5 (cfg : Cfg) (w : List (BitVec 32)) : Engine.process_block_fast.State1 → Res Engine.process_block_fast.State1 :=
  fun (bb', bbb') => do
    let x_57 ← index bb' 0
    let x_58 ← index bb' 1
    let x_59 ← index bb' 2
    let x_60 ← index bb' 3
    let x_61 ← index w 5
    let bb' ← indexSet bb' 0 (((x_57 + ((x_58 ^^^ x_59) ^^^ x_60)) + x_61) + 0x00000000#32)
    let x_63 ← index bb' 0
    let x_64 ← index bb' 4
    let bb' ← indexSet bb' 0 ((x_63.rotateLeft 8) + x_64)
    let x_66 ← index bb' 2
    let bb' ← indexSet bb' 2 (x_66.rotateLeft 10)
    pure (bb', bbb')

/-- round!(bb[<expr>], bb[<expr>], bb[<expr>], bb[<expr>], bb[<expr>], <expr>[<expr>], <expr>, 0x00000000, bb[<expr>] ^ bb[<expr>] ^ bb[<expr>]) -/
def Engine.process_block_fast.line1_6 (cfg : Cfg) (w : List (BitVec 32)) : Engine.process_block_fast.State1 → Res Engine.process_block_fast.State1 :=
  fun (bb', bbb') => do
    let x_68 ← index bb' 4
    let x_69 ← index bb' 0
    let x_70 ← index bb' 1
    let x_71 ← index bb' 2
    let x_72 ← index w 6
    let bb' ← indexSet bb' 4 (((x_68 + ((x_69 ^^^ x_70) ^^^ x_71)) + x_72) + 0x00000000#32)
    let x_74 ← index bb' 4
    let x_75 ← index bb' 3
    let bb' ← indexSet bb' 4 ((x_74.rotateLeft 7) + x_75)
    let x_77 ← index bb' 1
    let bb' ← indexSet bb' 1 (x_77.rotateLeft 10)
    pure (bb', bbb')

/-- round!(bb[<expr>], bb[<expr>], bb[<expr>], bb[<expr>], bb[<expr>], <expr>[<expr>], <expr>, 0x00000000, bb[<expr>] ^ bb[<expr>] ^ bb[<expr>]) -/
def Engine.process_block_fast.line1_7 (cfg : Cfg) (w : List (BitVec 32)) : Engine.process_block_fast.State1 → Res Engine.process_block_fast.State1 :=
  fun (bb', bbb') => do
    let x_79 ← index bb' 3
    let x_80 ← index bb' 4
    let x_81 ← index bb' 0
    let x_82 ← index bb' 1
    let x_83 ← index w 7
    let bb' ← indexSet bb' 3 (((x_79 + ((x_80 ^^^ x_81) ^^^ x_82)) + x_83) + 0x00000000#32)
    let x_85 ← index bb' 3
    let x_86 ← index bb' 2
    let bb' ← indexSet bb' 3 ((x_85.rotateLeft 9) + x_86)
    let x_88 ← index bb' 0
    let bb' ← indexSet bb' 0 (x_88.rotateLeft 10)
    pure (bb', bbb')

/-- round!(bb[<expr>], bb[<expr>], bb[<expr>], bb[<expr>], bb[<expr>], <expr>[<expr>], <expr>, 0x00000000, bb[<expr>] ^ bb[<expr>] ^ bb[<expr>]) -/
def Engine.process_block_fast.line1_8 (cfg : Cfg) (w : List (BitVec 32)) : Engine.process_block_fast.State1 → Res Engine.process_block_fast.State1 :=
  fun (bb', bbb') => do
    let x_90 ← index bb' 2
    let x_91 ← index bb' 3
    let x_92 ← index bb' 4
    let x_93 ← index bb' 0
    let x_94 ← index w 8
    let bb' ← indexSet bb' 2 (((x_90 + ((x_91 ^^^ x_92) ^^^ x_93)) + x_94) + 0x00000000#32)
    let x_96 ← index bb' 2
    let x_97 ← index bb' 1
    let bb' ← indexSet bb' 2 ((x_96.rotateLeft 11) + x_97)
    let x_99 ← index bb' 4
    let bb' ← indexSet bb' 4 (x_99.rotateLeft 10)
    pure (bb', bbb')

/-- round!(bb[<expr>], bb[<expr>], bb[<expr>], bb[<expr>], bb[<expr>], <expr>[<expr>], <expr>, 0x00000000, bb[<expr>] ^ bb[<expr>] ^ bb[<expr>]) -/
def Engine.process_block_fast.line1_9 (cfg : Cfg) (w : List (BitVec 32)) : Engine.process_block_fast.State1 → Res Engine.process_block_fast.State1 :=
  fun (bb', bbb') => do
    let x_101 ← index bb' 1
    let x_102 ← index bb' 2
    let x_103 ← index bb' 3
    let x_104 ← index bb' 4
    let x_105 ← index w 9
    let bb' ← indexSet bb' 1 (((x_101 + ((x_102 ^^^ x_103) ^^^ x_104)) + x_105) + 0x00000000#32)
    let x_107 ← index bb' 1
    let x_108 ← index bb' 0
    let bb' ← indexSet bb' 1 ((x_107.rotateLeft 13) + x_108)
    let x_110 ← index bb' 3
    let bb' ← indexSet bb' 3 (x_110.rotateLeft 10)
    pure (bb', bbb')

/-- round!(bb[<expr>], bb[<expr>], bb[<expr>], bb[<expr>], bb[<expr>], <expr>[<expr>], <expr>, 0x00000000, bb[<expr>] ^ bb[<expr>] ^ bb[<expr>]) -/
def Engine.process_block_fast.line1_10 (cfg : Cfg) (w : List (BitVec 32)) : Engine.process_block_fast.State1 → Res Engine.process_block_fast.State1 :=
  fun (bb', bbb') => do
    let x_112 ← index bb' 0
    let x_113 ← index bb' 1
    let x_114 ← index bb' 2
    let x_115 ← index bb' 3
    let x_116 ← index w 10
    let bb' ← indexSet bb' 0 (((x_112 + ((x_113 ^^^ x_114) ^^^ x_115)) + x_116) + 0x00000000#32)
    let x_118 ← index bb' 0
    let x_119 ← index bb' 4
    let bb' ← indexSet bb' 0 ((x_118.rotateLeft 14) + x_119)
    let x_121 ← index bb' 2
    let bb' ← indexSet bb' 2 (x_121.rotateLeft 10)
    pure (bb', bbb')

/-- round!(bb[<expr>], bb[<expr>], bb[<expr>], bb[<expr>], bb[<expr>], <expr>[<expr>], <expr>, 0x00000000, bb[<expr>] ^ bb[<expr>] ^ bb[<expr>]) -/
def Engine.process_block_fast.line1_11 (cfg : Cfg) (w : List (BitVec 32)) : Engine.process_block_fast.State1 → Res Engine.process_block_fast.State1 :=
  fun (bb', bbb') => do
    let x_123 ← index bb' 4
    let x_124 ← index bb' 0
    let x_125 ← index bb' 1
    let x_126 ← index bb' 2
    let x_127 ← index w 11
    let bb' ← indexSet bb' 4 (((x_123 + ((x_124 ^^^ x_125) ^^^ x_126)) + x_127) + 0x00000000#32)
    let x_129 ← index bb' 4
    let x_130 ← index bb' 3
    let bb' ← indexSet bb' 4 ((x_129.rotateLeft 15) + x_130)
    let x_132 ← index bb' 1
    let bb' ← indexSet bb' 1 (x_132.rotateLeft 10)
    pure (bb', bbb')

/-- round!(bb[<expr>], bb[<expr>], bb[<expr>], bb[<expr>], bb[<expr>], <expr>[<expr>], <expr>, 0x00000000, bb[<expr>] ^ bb[<expr>] ^ bb[<expr>]) -/
def Engine.process_block_fast.line1_12 (cfg : Cfg) (w : List (BitVec 32)) : Engine.process_block_fast.State1 → Res Engine.process_block_fast.State1 :=
  fun (bb', bbb') => do
    let x_134 ← index bb' 3
    let x_135 ← index bb' 4
    let x_136 ← index bb' 0
    let x_137 ← index bb' 1
    let x_138 ← index w 12
    let bb' ← indexSet bb' 3 (((x_134 + ((x_135 ^^^ x_136) ^^^ x_137)) + x_138) + 0x00000000#32)
    let x_140 ← index bb' 3
    let x_141 ← index bb' 2
    let bb' ← indexSet bb' 3 ((x_140.rotateLeft 6) + x_141)
    let x_143 ← index bb' 0
    let bb' ← indexSet bb' 0 (x_143.rotateLeft 10)
    pure (bb', bbb')

/-- round!(bb[<expr>], bb[<expr>], bb[<expr>], bb[<expr>], bb[<expr>], <expr>[<expr>], <expr>, 0x00000000, bb[<expr>] ^ bb[<expr>] ^ bb[<expr>]) -/
def Engine.process_block_fast.line1_13 (cfg : Cfg) (w : List (BitVec 32)) : Engine.process_block_fast.State1 → Res Engine.process_block_fast.State1 :=
  fun (bb', bbb') => do
    let x_145 ← index bb' 2
    let x_146 ← index bb' 3
    let x_147 ← index bb' 4
    let x_148 ← index bb' 0
    let x_149 ← index w 13
    let bb' ← indexSet bb' 2 (((x_145 + ((x_146 ^^^ x_147) ^^^ x_148)) + x_149) + 0x00000000#32)
    let x_151 ← index bb' 2
    let x_152 ← index bb' 1
    let bb' ← indexSet bb' 2 ((x_151.rotateLeft 7) + x_152)
    let x_154 ← index bb' 4
    let bb' ← indexSet bb' 4 (x_154.rotateLeft 10)
    pure (bb', bbb')

/-- round!(bb[<expr>], bb[<expr>], bb[<expr>], bb[<expr>], bb[<expr>], <expr>[<expr>], <expr>, 0x00000000, bb[<expr>] ^ bb[<expr>] ^ bb[<expr>]) -/
def Engine.process_block_fast.line1_14 (cfg : Cfg) (w : List (BitVec 32)) : Engine.process_block_fast.State1 → Res Engine.process_block_fast.State1 :=
  fun (bb', bbb') => do
    let x_156 ← index bb' 1
    let x_157 ← index bb' 2
    let x_158 ← index bb' 3
    let x_159 ← index bb' 4
    let x_160 ← index w 14
    let bb' ← indexSet bb' 1 (((x_156 + ((x_157 ^^^ x_158) ^^^ x_159)) + x_160) + 0x00000000#32)
    let x_162 ← index bb' 1
    let x_163 ← index bb' 0
    let bb' ← indexSet bb' 1 ((x_162.rotateLeft 9) + x_163)
    let x_165 ← index bb' 3
    let bb' ← indexSet bb' 3 (x_165.rotateLeft 10)
    pure (bb', bbb')

/-- round!(bb[<expr>], bb[<expr>], bb[<expr>], bb[<expr>], bb[<expr>], <expr>[<expr>], <expr>, 0x00000000, bb[<expr>] ^ bb[<expr>] ^ bb[<expr>]) -/
def Engine.process_block_fast.line1_15 (cfg : Cfg) (w : List (BitVec 32)) : Engine.process_block_fast.State1 → Res Engine.process_block_fast.State1 :=
  fun (bb', bbb') => do
    let x_167 ← index bb' 0
    let x_168 ← index bb' 1
    let x_169 ← index bb' 2
    let x_170 ← index bb' 3
    let x_171 ← index w 15
    let bb' ← indexSet bb' 0 (((x_167 + ((x_168 ^^^ x_169) ^^^ x_170)) + x_171) + 0x00000000#32)
    let x_173 ← index bb' 0
    let x_174 ← index bb' 4
    let bb' ← indexSet bb' 0 ((x_173.rotateLeft 8) + x_174)
    let x_176 ← index bb' 2
    let bb' ← indexSet bb' 2 (x_176.rotateLeft 10)
    pure (bb', bbb')

/-- round!(bb[<expr>], bb[<expr>], bb[<expr>], bb[<expr>], bb[<expr>], <expr>[<expr>], <expr>, 0x5a827999,(bb[<expr>] & bb[<expr>]) |(! bb[<expr>] & bb[<expr>])) -/
def Engine.process_block_fast.line1_16 (cfg : Cfg) (w : List (BitVec 32)) : Engine.process_block_fast.State1 → Res Engine.process_block_fast.State1 :=
  fun (bb', bbb') => do
    let x_178 ← index bb' 4
    let x_179 ← index bb' 0
    let x_180 ← index bb' 1
    let x_181 ← index bb' 0
    let x_182 ← index bb' 2
    let x_183 ← index w 7
    let bb' ← indexSet bb' 4 (((x_178 + ((x_179 &&& x_180) ||| ((~~~x_181) &&& x_182))) + x_183) + 0x5a827999#32)
    let x_185 ← index bb' 4
    let x_186 ← index bb' 3
    let bb' ← indexSet bb' 4 ((x_185.rotateLeft 7) + x_186)
    let x_188 ← index bb' 1
    let bb' ← indexSet bb' 1 (x_188.rotateLeft 10)
    pure (bb', bbb')

/-- round!(bb[<expr>], bb[<expr>], bb[<expr>], bb[<expr>], bb[<expr>], <expr>[<expr>], <expr>, 0x5a827999,(bb[<expr>] & bb[<expr>]) |(! bb[<expr>] & bb[<expr>])) -/
def Engine.process_block_fast.line1_17 (cfg : Cfg) (w : List (BitVec 32)) : Engine.process_block_fast.State1 → Res Engine.process_block_fast.State1 :=
  fun (bb', bbb') => do
    let x_190 ← index bb' 3
    let x_191 ← index bb' 4
    let x_192 ← index bb' 0
    let x_193 ← index bb' 4
    let x_194 ← index bb' 1
    let x_195 ← index w 4
    let bb' ← indexSet bb' 3 (((x_190 + ((x_191 &&& x_192) ||| ((~~~x_193) &&& x_194))) + x_195) + 0x5a827999#32)
    let x_197 ← index bb' 3
    let x_198 ← index bb' 2
    let bb' ← indexSet bb' 3 ((x_197.rotateLeft 6) + x_198)
    let x_200 ← index bb' 0
    let bb' ← indexSet bb' 0 (x_200.rotateLeft 10)
    pure (bb', bbb')

/-- round!(bb[<expr>], bb[<expr>], bb[<expr>], bb[<expr>], bb[<expr>], <expr>[<expr>], <expr>, 0x5a827999,(bb[<expr>] & bb[<expr>]) |(! bb[<expr>] & bb[<expr>])) -/
def Engine.process_block_fast.line1_18 (cfg : Cfg) (w : List (BitVec 32)) : Engine.process_block_fast.State1 → Res Engine.process_block_fast.State1 :=
  fun (bb', bbb') => do
    let x_202 ← index bb' 2
    let x_203 ← index bb' 3
    let x_204 ← index bb' 4
    let x_205 ← index bb' 3
    let x_206 ← index bb' 0
    let x_207 ← index w 13
    let bb' ← indexSet bb' 2 (((x_202 + ((x_203 &&& x_204) ||| ((~~~x_205) &&& x_206))) + x_207) + 0x5a827999#32)
    let x_209 ← index bb' 2
    let x_210 ← index bb' 1
    let bb' ← indexSet bb' 2 ((x_209.rotateLeft 8) + x_210)
    let x_212 ← index bb' 4
    let bb' ← indexSet bb' 4 (x_212.rotateLeft 10)
    pure (bb', bbb')

/-- round!(bb[<expr>], bb[<expr>], bb[<expr>], bb[<expr>], bb[<expr>], <expr>[<expr>], <expr>, 0x5a827999,(bb[<expr>] & bb[<expr>]) |(! bb[<expr>] & bb[<expr>])) -/
def Engine.process_block_fast.line1_19 (cfg : Cfg) (w : List (BitVec 32)) : Engine.process_block_fast.State1 → Res Engine.process_block_fast.State1 :=
  fun (bb', bbb') => do
    let x_214 ← index bb' 1
    let x_215 ← index bb' 2
    let x_216 ← index bb' 3
    let x_217 ← index bb' 2
    let x_218 ← index bb' 4
    let x_219 ← index w 1
    let bb' ← indexSet bb' 1 (((x_214 + ((x_215 &&& x_216) ||| ((~~~x_217) &&& x_218))) + x_219) + 0x5a827999#32)
    let x_221 ← index bb' 1
    let x_222 ← index bb' 0
    let bb' ← indexSet bb' 1 ((x_221.rotateLeft 13) + x_222)
    let x_224 ← index bb' 3
    let bb' ← indexSet bb' 3 (x_224.rotateLeft 10)
    pure (bb', bbb')

/-- round!(bb[<expr>], bb[<expr>], bb[<expr>], bb[<expr>], bb[<expr>], <expr>[<expr>], <expr>, 0x5a827999,(bb[<expr>] & bb[<expr>]) |(! bb[<expr>] & bb[<expr>])) -/
def Engine.process_block_fast.line1_20 (cfg : Cfg) (w : List (BitVec 32)) : Engine.process_block_fast.State1 → Res Engine.process_block_fast.State1 :=
  fun (bb', bbb') => do
    let x_226 ← index bb' 0
    let x_227 ← index bb' 1
    let x_228 ← index bb' 2
    let x_229 ← index bb' 1
    let x_230 ← index bb' 3
    let x_231 ← index w 10
    let bb' ← indexSet bb' 0 (((x_226 + ((x_227 &&& x_228) ||| ((~~~x_229) &&& x_230))) + x_231) + 0x5a827999#32)
    let x_233 ← index bb' 0
    let x_234 ← index bb' 4
    let bb' ← indexSet bb' 0 ((x_233.rotateLeft 11) + x_234)
    let x_236 ← index bb' 2
    let bb' ← indexSet bb' 2 (x_236.rotateLeft 10)
    pure (bb', bbb')

/-- round!(bb[<expr>], bb[<expr>], bb[<expr>], bb[<expr>], bb[<expr>], <expr>[<expr>], <expr>, 0x5a827999,(bb[<expr>] & bb[<expr>]) |(! bb[<expr>] & bb[<expr>])) -/
def Engine.process_block_fast.line1_21 (cfg : Cfg) (w : List (BitVec 32)) : Engine.process_block_fast.State1 → Res Engine.process_block_fast.State1 :=
  fun (bb', bbb') => do
    let x_238 ← index bb' 4
    let x_239 ← index bb' 0
    let x_240 ← index bb' 1
    let x_241 ← index bb' 0
    let x_242 ← index bb' 2
    let x_243 ← index w 6
    let bb' ← indexSet bb' 4 (((x_238 + ((x_239 &&& x_240) ||| ((~~~x_241) &&& x_242))) + x_243) + 0x5a827999#32)
    let x_245 ← index bb' 4
    let x_246 ← index bb' 3
    let bb' ← indexSet bb' 4 ((x_245.rotateLeft 9) + x_246)
    let x_248 ← index bb' 1
    let bb' ← indexSet bb' 1 (x_248.rotateLeft 10)
    pure (bb', bbb')

/-- round!(bb[<expr>], bb[<expr>], bb[<expr>], bb[<expr>], bb[<expr>], <expr>[<expr>], <expr>, 0x5a827999,(bb[<expr>] & bb[<expr>]) |(! bb[<expr>] & bb[<expr>])) -/
def Engine.process_block_fast.line1_22 (cfg : Cfg) (w : List (BitVec 32)) : Engine.process_block_fast.State1 → Res Engine.process_block_fast.State1 :=
  fun (bb', bbb') => do
    let x_250 ← index bb' 3
    let x_251 ← index bb' 4
    let x_252 ← index bb' 0
    let x_253 ← index bb' 4
    let x_254 ← index bb' 1
    let x_255 ← index w 15
    let bb' ← indexSet bb' 3 (((x_250 + ((x_251 &&& x_252) ||| ((~~~x_253) &&& x_254))) + x_255) + 0x5a827999#32)
    let x_257 ← index bb' 3
    let x_258 ← index bb' 2
    let bb' ← indexSet bb' 3 ((x_257.rotateLeft 7) + x_258)
    let x_260 ← index bb' 0
    let bb' ← indexSet bb' 0 (x_260.rotateLeft 10)
    pure (bb', bbb')

/-- round!(bb[<expr>], bb[<expr>], bb[<expr>], bb[<expr>], bb[<expr>], <expr>[<expr>], <expr>, 0x5a827999,(bb[<expr>] & bb[<expr>]) |(! bb[<expr>] & bb[<expr>])) -/
def Engine.process_block_fast.line1_23 (cfg : Cfg) (w : List (BitVec 32)) : Engine.process_block_fast.State1 → Res Engine.process_block_fast.State1 :=
  fun (bb', bbb') => do
    let x_262 ← index bb' 2
    let x_263 ← index bb' 3
    let x_264 ← index bb' 4
    let x_265 ← index bb' 3
    let x_266 ← index bb' 0
    let x_267 ← index w 3
    let bb' ← indexSet bb' 2 (((x_262 + ((x_263 &&& x_264) ||| ((~~~x_265) &&& x_266))) + x_267) + 0x5a827999#32)
    let x_269 ← index bb' 2
    let x_270 ← index bb' 1
    let bb' ← indexSet bb' 2 ((x_269.rotateLeft 15) + x_270)
    let x_272 ← index bb' 4
    let bb' ← indexSet bb' 4 (x_272.rotateLeft 10)
    pure (bb', bbb')

/-- round!(bb[<expr>], bb[<expr>], bb[<expr>], bb[<expr>], bb[<expr>], <expr>[<expr>], <expr>, 0x5a827999,(bb[<expr>] & bb[<expr>]) |(! bb[<expr>] & bb[<expr>])) -/
def Engine.process_block_fast.line1_24 (cfg : Cfg) (w : List (BitVec 32)) : Engine.process_block_fast.State1 → Res Engine.process_block_fast.State1 :=
  fun (bb', bbb') => do
    let x_274 ← index bb' 1
    let x_275 ← index bb' 2
    let x_276 ← index bb' 3
    let x_277 ← index bb' 2
    let x_278 ← index bb' 4
    let x_279 ← index w 12
    let bb' ← indexSet bb' 1 (((x_274 + ((x_275 &&& x_276) ||| ((~~~x_277) &&& x_278))) + x_279) + 0x5a827999#32)
    let x_281 ← index bb' 1
    let x_282 ← index bb' 0
    let bb' ← indexSet bb' 1 ((x_281.rotateLeft 7) + x_282)
    let x_284 ← index bb' 3
    let bb' ← indexSet bb' 3 (x_284.rotateLeft 10)
    pure (bb', bbb')

/-- round!(bb[<expr>], bb[<expr>], bb[<expr>], bb[<expr>], bb[<expr>], <expr>[<expr>], <expr>, 0x5a827999,(bb[<expr>] & bb[<expr>]) |(! bb[<expr>] & bb[<expr>])) -/
def Engine.process_block_fast.line1_25 (cfg : Cfg) (w : List (BitVec 32)) : Engine.process_block_fast.State1 → Res Engine.process_block_fast.State1 :=
  fun (bb', bbb') => do
    let x_286 ← index bb' 0
    let x_287 ← index bb' 1
    let x_288 ← index bb' 2
    let x_289 ← index bb' 1
    let x_290 ← index bb' 3
    let x_291 ← index w 0
    let bb' ← indexSet bb' 0 (((x_286 + ((x_287 &&& x_288) ||| ((~~~x_289) &&& x_290))) + x_291) + 0x5a827999#32)
    let x_293 ← index bb' 0
    let x_294 ← index bb' 4
    let bb' ← indexSet bb' 0 ((x_293.rotateLeft 12) + x_294)
    let x_296 ← index bb' 2
    let bb' ← indexSet bb' 2 (x_296.rotateLeft 10)
    pure (bb', bbb')

/-- round!(bb[<expr>], bb[<expr>], bb[<expr>], bb[<expr>], bb[<expr>], <expr>[<expr>], <expr>, 0x5a827999,(bb[<expr>] & bb[<expr>]) |(! bb[<expr>] & bb[<expr>])) -/
def Engine.process_block_fast.line1_26 (cfg : Cfg) (w : List (BitVec 32)) : Engine.process_block_fast.State1 → Res Engine.process_block_fast.State1 :=
  fun (bb', bbb') => do
    let x_298 ← index bb' 4
    let x_299 ← index bb' 0
    let x_300 ← index bb' 1
    let x_301 ← index bb' 0
    let x_302 ← index bb' 2
    let x_303 ← index w 9
    let bb' ← indexSet bb' 4 (((x_298 + ((x_299 &&& x_300) ||| ((~~~x_301) &&& x_302))) + x_303) + 0x5a827999#32)
    let x_305 ← index bb' 4
    let x_306 ← index bb' 3
    let bb' ← indexSet bb' 4 ((x_305.rotateLeft 15) + x_306)
    let x_308 ← index bb' 1
    let bb' ← indexSet bb' 1 (x_308.rotateLeft 10)
    pure (bb', bbb')

/-- round!(bb[<expr>], bb[<expr>], bb[<expr>], bb[<expr>], bb[<expr>], <expr>[<expr>], <expr>, 0x5a827999,(bb[<expr>] & bb[<expr>]) |(! bb[<expr>] & bb[<expr>])) -/
def Engine.process_block_fast.line1_27 (cfg : Cfg) (w : List (BitVec 32)) : Engine.process_block_fast.State1 → Res Engine.process_block_fast.State1 :=
  fun (bb', bbb') => do
    let x_310 ← index bb' 3
    let x_311 ← index bb' 4
    let x_312 ← index bb' 0
    let x_313 ← index bb' 4
    let x_314 ← index bb' 1
    let x_315 ← index w 5
    let bb' ← indexSet bb' 3 (((x_310 + ((x_311 &&& x_312) ||| ((~~~x_313) &&& x_314))) + x_315) + 0x5a827999#32)
    let x_317 ← index bb' 3
    let x_318 ← index bb' 2
    let bb' ← indexSet bb' 3 ((x_317.rotateLeft 9) + x_318)
    let x_320 ← index bb' 0
    let bb' ← indexSet bb' 0 (x_320.rotateLeft 10)
    pure (bb', bbb')

/-- round!(bb[<expr>], bb[<expr>], bb[<expr>], bb[<expr>], bb[<expr>], <expr>[<expr>], <expr>, 0x5a827999,(bb[<expr>] & bb[<expr>]) |(! bb[<expr>] & bb[<expr>])) -/
def Engine.process_block_fast.line1_28 (cfg : Cfg) (w : List (BitVec 32)) : Engine.process_block_fast.State1 → Res Engine.process_block_fast.State1 :=
  fun (bb', bbb') => do
    let x_322 ← index bb' 2
    let x_323 ← index bb' 3
    let x_324 ← index bb' 4
    let x_325 ← index bb' 3
    let x_326 ← index bb' 0
    let x_327 ← index w 2
    let bb' ← indexSet bb' 2 (((x_322 + ((x_323 &&& x_324) ||| ((~~~x_325) &&& x_326))) + x_327) + 0x5a827999#32)
    let x_329 ← index bb' 2
    let x_330 ← index bb' 1
    let bb' ← indexSet bb' 2 ((x_329.rotateLeft 11) + x_330)
    let x_332 ← index bb' 4
    let bb' ← indexSet bb' 4 (x_332.rotateLeft 10)
    pure (bb', bbb')

/-- round!(bb[<expr>], bb[<expr>], bb[<expr>], bb[<expr>], bb[<expr>], <expr>[<expr>], <expr>, 0x5a827999,(bb[<expr>] & bb[<expr>]) |(! bb[<expr>] & bb[<expr>])) -/
def Engine.process_block_fast.line1_29 (cfg : Cfg) (w : List (BitVec 32)) : Engine.process_block_fast.State1 → Res Engine.process_block_fast.State1 :=
  fun (bb', bbb') => do
    let x_334 ← index bb' 1
    let x_335 ← index bb' 2
    let x_336 ← index bb' 3
    let x_337 ← index bb' 2
    let x_338 ← index bb' 4
    let x_339 ← index w 14
    let bb' ← indexSet bb' 1 (((x_334 + ((x_335 &&& x_336) ||| ((~~~x_337) &&& x_338))) + x_339) + 0x5a827999#32)
    let x_341 ← index bb' 1
    let x_342 ← index bb' 0
    let bb' ← indexSet bb' 1 ((x_341.rotateLeft 7) + x_342)
    let x_344 ← index bb' 3
    let bb' ← indexSet bb' 3 (x_344.rotateLeft 10)
    pure (bb', bbb')

/-- round!(bb[<expr>], bb[<expr>], bb[<expr>], bb[<expr>], bb[<expr>], <expr>[<expr>], <expr>, 0x5a827999,(bb[<expr>] & bb[<expr>]) |(! bb[<expr>] & bb[<expr>])) -/
def Engine.process_block_fast.line1_30 (cfg : Cfg) (w : List (BitVec 32)) : Engine.process_block_fast.State1 → Res Engine.process_block_fast.State1 :=
  fun (bb', bbb') => do
    let x_346 ← index bb' 0
    let x_347 ← index bb' 1
    let x_348 ← index bb' 2
    let x_349 ← index bb' 1
    let x_350 ← index bb' 3
    let x_351 ← index w 11
    let bb' ← indexSet bb' 0 (((x_346 + ((x_347 &&& x_348) ||| ((~~~x_349) &&& x_350))) + x_351) + 0x5a827999#32)
    let x_353 ← index bb' 0
    let x_354 ← index bb' 4
    let bb' ← indexSet bb' 0 ((x_353.rotateLeft 13) + x_354)
    let x_356 ← index bb' 2
    let bb' ← indexSet bb' 2 (x_356.rotateLeft 10)
    pure (bb', bbb')

/-- round!(bb[<expr>], bb[<expr>], bb[<expr>], bb[<expr>], bb[<expr>], <expr>[<expr>], <expr>, 0x5a827999,(bb[<expr>] & bb[<expr>]) |(! bb[<expr>] & bb[<expr>])) -/
def Engine.process_block_fast.line1_31 (cfg : Cfg) (w : List (BitVec 32)) : Engine.process_block_fast.State1 → Res Engine.process_block_fast.State1 :=
  fun (bb', bbb') => do
    let x_358 ← index bb' 4
    let x_359 ← index bb' 0
    let x_360 ← index bb' 1
    let x_361 ← index bb' 0
    let x_362 ← index bb' 2
    let x_363 ← index w 8
    let bb' ← indexSet bb' 4 (((x_358 + ((x_359 &&& x_360) ||| ((~~~x_361) &&& x_362))) + x_363) + 0x5a827999#32)
    let x_365 ← index bb' 4
    let x_366 ← index bb' 3
    let bb' ← indexSet bb' 4 ((x_365.rotateLeft 12) + x_366)
    let x_368 ← index bb' 1
    let bb' ← indexSet bb' 1 (x_368.rotateLeft 10)
    pure (bb', bbb')

/-- round!(bb[<expr>], bb[<expr>], bb[<expr>], bb[<expr>], bb[<expr>], <expr>[<expr>], <expr>, 0x6ed9eba1,(bb[<expr>] | ! bb[<expr>]) ^ bb[<expr>]) -/
def Engine.process_block_fast.line1_32 (cfg : Cfg) (w : List (BitVec 32)) : Engine.process_block_fast.State1 → Res Engine.process_block_fast.State1 :=
  fun (bb', bbb') => do
    let x_370 ← index bb' 3
    let x_371 ← index bb' 4
    let x_372 ← index bb' 0
    let x_373 ← index bb' 1
    let x_374 ← index w 3
    let bb' ← indexSet bb' 3 (((x_370 + ((x_371 ||| (~~~x_372)) ^^^ x_373)) + x_374) + 0x6ed9eba1#32)
    let x_376 ← index bb' 3
    let x_377 ← index bb' 2
    let bb' ← indexSet bb' 3 ((x_376.rotateLeft 11) + x_377)
    let x_379 ← index bb' 0
    let bb' ← indexSet bb' 0 (x_379.rotateLeft 10)
    pure (bb', bbb')

/-- round!(bb[<expr>], bb[<expr>], bb[<expr>], bb[<expr>], bb[<expr>], <expr>[<expr>], <expr>, 0x6ed9eba1,(bb[<expr>] | ! bb[<expr>]) ^ bb[<expr>]) -/
def Engine.process_block_fast.line1_33 (cfg : Cfg) (w : List (BitVec 32)) : Engine.process_block_fast.State1 → Res Engine.process_block_fast.State1 :=
  fun (bb', bbb') => do
    let x_381 ← index bb' 2
    let x_382 ← index bb' 3
    let x_383 ← index bb' 4
    let x_384 ← index bb' 0
    let x_385 ← index w 10
    let bb' ← indexSet bb' 2 (((x_381 + ((x_382 ||| (~~~x_383)) ^^^ x_384)) + x_385) + 0x6ed9eba1#32)
    let x_387 ← index bb' 2
    let x_388 ← index bb' 1
    let bb' ← indexSet bb' 2 ((x_387.rotateLeft 13) + x_388)
    let x_390 ← index bb' 4
    let bb' ← indexSet bb' 4 (x_390.rotateLeft 10)
    pure (bb', bbb')

/-- round!(bb[<expr>], bb[<expr>], bb[<expr>], bb[<expr>], bb[<expr>], <expr>[<expr>], <expr>, 0x6ed9eba1,(bb[<expr>] | ! bb[<expr>]) ^ bb[<expr>]) -/
def Engine.process_block_fast.line1_34 (cfg : Cfg) (w : List (BitVec 32)) : Engine.process_block_fast.State1 → Res Engine.process_block_fast.State1 :=
  fun (bb', bbb') => do
    let x_392 ← index bb' 1
    let x_393 ← index bb' 2
    let x_394 ← index bb' 3
    let x_395 ← index bb' 4
    let x_396 ← index w 14
    let bb' ← indexSet bb' 1 (((x_392 + ((x_393 ||| (~~~x_394)) ^^^ x_395)) + x_396) + 0x6ed9eba1#32)
    let x_398 ← index bb' 1
    let x_399 ← index bb' 0
    let bb' ← indexSet bb' 1 ((x_398.rotateLeft 6) + x_399)
    let x_401 ← index bb' 3
    let bb' ← indexSet bb' 3 (x_401.rotateLeft 10)
    pure (bb', bbb')

/-- round!(bb[<expr>], bb[<expr>], bb[<expr>], bb[<expr>], bb[<expr>], <expr>[<expr>], <expr>, 0x6ed9eba1,(bb[<expr>] | ! bb[<expr>]) ^ bb[<expr>]) -/
def Engine.process_block_fast.line1_35 (cfg : Cfg) (w : List (BitVec 32)) : Engine.process_block_fast.State1 → Res Engine.process_block_fast.State1 :=
  fun (bb', bbb') => do
    let x_403 ← index bb' 0
    let x_404 ← index bb' 1
    let x_405 ← index bb' 2
    let x_406 ← index bb' 3
    let x_407 ← index w 4
    let bb' ← indexSet bb' 0 (((x_403 + ((x_404 ||| (~~~x_405)) ^^^ x_406)) + x_407) + 0x6ed9eba1#32)
    let x_409 ← index bb' 0
    let x_410 ← index bb' 4
    let bb' ← indexSet bb' 0 ((x_409.rotateLeft 7) + x_410)
    let x_412 ← index bb' 2
    let bb' ← indexSet bb' 2 (x_412.rotateLeft 10)
    pure (bb', bbb')

/-- round!(bb[<expr>], bb[<expr>], bb[<expr>], bb[<expr>], bb[<expr>], <expr>[<expr>], <expr>, 0x6ed9eba1,(bb[<expr>] | ! bb[<expr>]) ^ bb[<expr>]) -/
def Engine.process_block_fast.line1_36 (cfg : Cfg) (w : List (BitVec 32)) : Engine.process_block_fast.State1 → Res Engine.process_block_fast.State1 :=
  fun (bb', bbb') => do
    let x_414 ← index bb' 4
    let x_415 ← index bb' 0
    let x_416 ← index bb' 1
    let x_417 ← index bb' 2
    let x_418 ← index w 9
    let bb' ← indexSet bb' 4 (((x_414 + ((x_415 ||| (~~~x_416)) ^^^ x_417)) + x_418) + 0x6ed9eba1#32)
    let x_420 ← index bb' 4
    let x_421 ← index bb' 3
    let bb' ← indexSet bb' 4 ((x_420.rotateLeft 14) + x_421)
    let x_423 ← index bb' 1
    let bb' ← indexSet bb' 1 (x_423.rotateLeft 10)
    pure (bb', bbb')

/-- round!(bb[<expr>], bb[<expr>], bb[<expr>], bb[<expr>], bb[<expr>], <expr>[<expr>], <expr>, 0x6ed9eba1,(bb[<expr>] | ! bb[<expr>]) ^ bb[<expr>]) -/
def Engine.process_block_fast.line1_37 (cfg : Cfg) (w : List (BitVec 32)) : Engine.process_block_fast.State1 → Res Engine.process_block_fast.State1 :=
  fun (bb', bbb') => do
    let x_425 ← index bb' 3
    let x_426 ← index bb' 4
    let x_427 ← index bb' 0
    let x_428 ← index bb' 1
    let x_429 ← index w 15
    let bb' ← indexSet bb' 3 (((x_425 + ((x_426 ||| (~~~x_427)) ^^^ x_428)) + x_429) + 0x6ed9eba1#32)
    let x_431 ← index bb' 3
    let x_432 ← index bb' 2
    let bb' ← indexSet bb' 3 ((x_431.rotateLeft 9) + x_432)
    let x_434 ← index bb' 0
    let bb' ← indexSet bb' 0 (x_434.rotateLeft 10)
    pure (bb', bbb')

/-- round!(bb[<expr>], bb[<expr>], bb[<expr>], bb[<expr>], bb[<expr>], <expr>[<expr>], <expr>, 0x6ed9eba1,(bb[<expr>] | ! bb[<expr>]) ^ bb[<expr>]) -/
def Engine.process_block_fast.line1_38 (cfg : Cfg) (w : List (BitVec 32)) : Engine.process_block_fast.State1 → Res Engine.process_block_fast.State1 :=
  fun (bb', bbb') => do
    let x_436 ← index bb' 2
    let x_437 ← index bb' 3
    let x_438 ← index bb' 4
    let x_439 ← index bb' 0
    let x_440 ← index w 8
    let bb' ← indexSet bb' 2 (((x_436 + ((x_437 ||| (~~~x_438)) ^^^ x_439)) + x_440) + 0x6ed9eba1#32)
    let x_442 ← index bb' 2
    let x_443 ← index bb' 1
    let bb' ← indexSet bb' 2 ((x_442.rotateLeft 13) + x_443)
    let x_445 ← index bb' 4
    let bb' ← indexSet bb' 4 (x_445.rotateLeft 10)
    pure (bb', bbb')

/-- round!(bb[<expr>], bb[<expr>], bb[<expr>], bb[<expr>], bb[<expr>], <expr>[<expr>], <expr>, 0x6ed9eba1,(bb[<expr>] | ! bb[<expr>]) ^ bb[<expr>]) -/
def Engine.process_block_fast.line1_39 (cfg : Cfg) (w : List (BitVec 32)) : Engine.process_block_fast.State1 → Res Engine.process_block_fast.State1 :=
  fun (bb', bbb') => do
    let x_447 ← index bb' 1
    let x_448 ← index bb' 2
    let x_449 ← index bb' 3
    let x_450 ← index bb' 4
    let x_451 ← index w 1
    let bb' ← indexSet bb' 1 (((x_447 + ((x_448 ||| (~~~x_449)) ^^^ x_450)) + x_451) + 0x6ed9eba1#32)
    let x_453 ← index bb' 1
    let x_454 ← index bb' 0
    let bb' ← indexSet bb' 1 ((x_453.rotateLeft 15) + x_454)
    let x_456 ← index bb' 3
    let bb' ← indexSet bb' 3 (x_456.rotateLeft 10)
    pure (bb', bbb')

/-- round!(bb[<expr>], bb[<expr>], bb[<expr>], bb[<expr>], bb[<expr>], <expr>[<expr>], <expr>, 0x6ed9eba1,(bb[<expr>] | ! bb[<expr>]) ^ bb[<expr>]) -/
def Engine.process_block_fast.line1_40 (cfg : Cfg) (w : List (BitVec 32)) : Engine.process_block_fast.State1 → Res Engine.process_block_fast.State1 :=
  fun (bb', bbb') => do
    let x_458 ← index bb' 0
    let x_459 ← index bb' 1
    let x_460 ← index bb' 2
    let x_461 ← index bb' 3
    let x_462 ← index w 2
    let bb' ← indexSet bb' 0 (((x_458 + ((x_459 ||| (~~~x_460)) ^^^ x_461)) + x_462) + 0x6ed9eba1#32)
    let x_464 ← index bb' 0
    let x_465 ← index bb' 4
    let bb' ← indexSet bb' 0 ((x_464.rotateLeft 14) + x_465)
    let x_467 ← index bb' 2
    let bb' ← indexSet bb' 2 (x_467.rotateLeft 10)
    pure (bb', bbb')

/-- round!(bb[<expr>], bb[<expr>], bb[<expr>], bb[<expr>], bb[<expr>], <expr>[<expr>], <expr>, 0x6ed9eba1,(bb[<expr>] | ! bb[<expr>]) ^ bb[<expr>]) -/
def Engine.process_block_fast.line1_41 (cfg : Cfg) (w : List (BitVec 32)) : Engine.process_block_fast.State1 → Res Engine.process_block_fast.State1 :=
  fun (bb', bbb') => do
    let x_469 ← index bb' 4
    let x_470 ← index bb' 0
    let x_471 ← index bb' 1
    let x_472 ← index bb' 2
    let x_473 ← index w 7
    let bb' ← indexSet bb' 4 (((x_469 + ((x_470 ||| (~~~x_471)) ^^^ x_472)) + x_473) + 0x6ed9eba1#32)
    let x_475 ← index bb' 4
    let x_476 ← index bb' 3
    let bb' ← indexSet bb' 4 ((x_475.rotateLeft 8) + x_476)
    let x_478 ← index bb' 1
    let bb' ← indexSet bb' 1 (x_478.rotateLeft 10)
    pure (bb', bbb')

/-- round!(bb[<expr>], bb[<expr>], bb[<expr>], bb[<expr>], bb[<expr>], <expr>[<expr>], <expr>, 0x6ed9eba1,(bb[<expr>] | ! bb[<expr>]) ^ bb[<expr>]) -/
def Engine.process_block_fast.line1_42 (cfg : Cfg) (w : List (BitVec 32)) : Engine.process_block_fast.State1 → Res Engine.process_block_fast.State1 :=
  fun (bb', bbb') => do
    let x_480 ← index bb' 3
    let x_481 ← index bb' 4
    let x_482 ← index bb' 0
    let x_483 ← index bb' 1
    let x_484 ← index w 0
    let bb' ← indexSet bb' 3 (((x_480 + ((x_481 ||| (~~~x_482)) ^^^ x_483)) + x_484) + 0x6ed9eba1#32)
    let x_486 ← index bb' 3
    let x_487 ← index bb' 2
    let bb' ← indexSet bb' 3 ((x_486.rotateLeft 13) + x_487)
    let x_489 ← index bb' 0
    let bb' ← indexSet bb' 0 (x_489.rotateLeft 10)
    pure (bb', bbb')

/-- round!(bb[<expr>], bb[<expr>], bb[<expr>], bb[<expr>], bb[<expr>], <expr>[<expr>], <expr>, 0x6ed9eba1,(bb[<expr>] | ! bb[<expr>]) ^ bb[<expr>]) -/
def Engine.process_block_fast.line1_43 (cfg : Cfg) (w : List (BitVec 32)) : Engine.process_block_fast.State1 → Res Engine.process_block_fast.State1 :=
  fun (bb', bbb') => do
    let x_491 ← index bb' 2
    let x_492 ← index bb' 3
    let x_493 ← index bb' 4
    let x_494 ← index bb' 0
    let x_495 ← index w 6
    let bb' ← indexSet bb' 2 (((x_491 + ((x_492 ||| (~~~x_493)) ^^^ x_494)) + x_495) + 0x6ed9eba1#32)
    let x_497 ← index bb' 2
    let x_498 ← index bb' 1
    let bb' ← indexSet bb' 2 ((x_497.rotateLeft 6) + x_498)
    let x_500 ← index bb' 4
    let bb' ← indexSet bb' 4 (x_500.rotateLeft 10)
    pure (bb', bbb')

/-- round!(bb[<expr>], bb[<expr>], bb[<expr>], bb[<expr>], bb[<expr>], <expr>[<expr>], <expr>, 0x6ed9eba1,(bb[<expr>] | ! bb[<expr>]) ^ bb[<expr>]) -/
def Engine.process_block_fast.line1_44 (cfg : Cfg) (w : List (BitVec 32)) : Engine.process_block_fast.State1 → Res Engine.process_block_fast.State1 :=
  fun (bb', bbb') => do
    let x_502 ← index bb' 1
    let x_503 ← index bb' 2
    let x_504 ← index bb' 3
    let x_505 ← index bb' 4
    let x_506 ← index w 13
    let bb' ← indexSet bb' 1 (((x_502 + ((x_503 ||| (~~~x_504)) ^^^ x_505)) + x_506) + 0x6ed9eba1#32)
    let x_508 ← index bb' 1
    let x_509 ← index bb' 0
    let bb' ← indexSet bb' 1 ((x_508.rotateLeft 5) + x_509)
    let x_511 ← index bb' 3
    let bb' ← indexSet bb' 3 (x_511.rotateLeft 10)
    pure (bb', bbb')

/-- round!(bb[<expr>], bb[<expr>], bb[<expr>], bb[<expr>], bb[<expr>], <expr>[<expr>], <expr>, 0x6ed9eba1,(bb[<expr>] | ! bb[<expr>]) ^ bb[<expr>]) -/
def Engine.process_block_fast.line1_45 (cfg : Cfg) (w : List (BitVec 32)) : Engine.process_block_fast.State1 → Res Engine.process_block_fast.State1 :=
  fun (bb', bbb') => do
    let x_513 ← index bb' 0
    let x_514 ← index bb' 1
    let x_515 ← index bb' 2
    let x_516 ← index bb' 3
    let x_517 ← index w 11
    let bb' ← indexSet bb' 0 (((x_513 + ((x_514 ||| (~~~x_515)) ^^^ x_516)) + x_517) + 0x6ed9eba1#32)
    let x_519 ← index bb' 0
    let x_520 ← index bb' 4
    let bb' ← indexSet bb' 0 ((x_519.rotateLeft 12) + x_520)
    let x_522 ← index bb' 2
    let bb' ← indexSet bb' 2 (x_522.rotateLeft 10)
    pure (bb', bbb')

/-- round!(bb[<expr>], bb[<expr>], bb[<expr>], bb[<expr>], bb[<expr>], <expr>[<expr>], <expr>, 0x6ed9eba1,(bb[<expr>] | ! bb[<expr>]) ^ bb[<expr>]) -/
def Engine.process_block_fast.line1_46 (cfg : Cfg) (w : List (BitVec 32)) : Engine.process_block_fast.State1 → Res Engine.process_block_fast.State1 :=
  fun (bb', bbb') => do
    let x_524 ← index bb' 4
    let x_525 ← index bb' 0
    let x_526 ← index bb' 1
    let x_527 ← index bb' 2
    let x_528 ← index w 5
    let bb' ← indexSet bb' 4 (((x_524 + ((x_525 ||| (~~~x_526)) ^^^ x_527)) + x_528) + 0x6ed9eba1#32)
    let x_530 ← index bb' 4
    let x_531 ← index bb' 3
    let bb' ← indexSet bb' 4 ((x_530.rotateLeft 7) + x_531)
    let x_533 ← index bb' 1
    let bb' ← indexSet bb' 1 (x_533.rotateLeft 10)
    pure (bb', bbb')

/-- round!(bb[<expr>], bb[<expr>], bb[<expr>], bb[<expr>], bb[<expr>], <expr>[<expr>], <expr>, 0x6ed9eba1,(bb[<expr>] | ! bb[<expr>]) ^ bb[<expr>]) -/
def Engine.process_block_fast.line1_47 (cfg : Cfg) (w : List (BitVec 32)) : Engine.process_block_fast.State1 → Res Engine.process_block_fast.State1 :=
  fun (bb', bbb') => do
    let x_535 ← index bb' 3
    let x_536 ← index bb' 4
    let x_537 ← index bb' 0
    let x_538 ← index bb' 1
    let x_539 ← index w 12
    let bb' ← indexSet bb' 3 (((x_535 + ((x_536 ||| (~~~x_537)) ^^^ x_538)) + x_539) + 0x6ed9eba1#32)
    let x_541 ← index bb' 3
    let x_542 ← index bb' 2
    let bb' ← indexSet bb' 3 ((x_541.rotateLeft 5) + x_542)
    let x_544 ← index bb' 0
    let bb' ← indexSet bb' 0 (x_544.rotateLeft 10)
    pure (bb', bbb')

/-- round!(bb[<expr>], bb[<expr>], bb[<expr>], bb[<expr>], bb[<expr>], <expr>[<expr>], <expr>, 0x8f1bbcdc,(bb[<expr>] & bb[<expr>]) |(bb[<expr>] & ! bb[<expr>])) -/
def Engine.process_block_fast.line1_48 (cfg : Cfg) (w : List (BitVec 32)) : Engine.process_block_fast.State1 → Res Engine.process_block_fast.State1 :=
  fun (bb', bbb') => do
    let x_546 ← index bb' 2
    let x_547 ← index bb' 3
    let x_548 ← index bb' 0
    let x_549 ← index bb' 4
    let x_550 ← index bb' 0
    let x_551 ← index w 1
    let bb' ← indexSet bb' 2 (((x_546 + ((x_547 &&& x_548) ||| (x_549 &&& (~~~x_550)))) + x_551) + 0x8f1bbcdc#32)
    let x_553 ← index bb' 2
    let x_554 ← index bb' 1
    let bb' ← indexSet bb' 2 ((x_553.rotateLeft 11) + x_554)
    let x_556 ← index bb' 4
    let bb' ← indexSet bb' 4 (x_556.rotateLeft 10)
    pure (bb', bbb')

/-- round!(bb[<expr>], bb[<expr>], bb[<expr>], bb[<expr>], bb[<expr>], <expr>[<expr>], <expr>, 0x8f1bbcdc,(bb[<expr>] & bb[<expr>]) |(bb[<expr>] & ! bb[<expr>])) -/
def Engine.process_block_fast.line1_49 (cfg : Cfg) (w : List (BitVec 32)) : Engine.process_block_fast.State1 → Res Engine.process_block_fast.State1 :=
  fun (bb', bbb') => do
    let x_558 ← index bb' 1
    let x_559 ← index bb' 2
    let x_560 ← index bb' 4
    let x_561 ← index bb' 3
    let x_562 ← index bb' 4
    let x_563 ← index w 9
    let bb' ← indexSet bb' 1 (((x_558 + ((x_559 &&& x_560) ||| (x_561 &&& (~~~x_562)))) + x_563) + 0x8f1bbcdc#32)
    let x_565 ← index bb' 1
    let x_566 ← index bb' 0
    let bb' ← indexSet bb' 1 ((x_565.rotateLeft 12) + x_566)
    let x_568 ← index bb' 3
    let bb' ← indexSet bb' 3 (x_568.rotateLeft 10)
    pure (bb', bbb')

/-- round!(bb[<expr>], bb[<expr>], bb[<expr>], bb[<expr>], bb[<expr>], <expr>[<expr>], <expr>, 0x8f1bbcdc,(bb[<expr>] & bb[<expr>]) |(bb[<expr>] & ! bb[<expr>])) -/
def Engine.process_block_fast.line1_50 (cfg : Cfg) (w : List (BitVec 32)) : Engine.process_block_fast.State1 → Res Engine.process_block_fast.State1 :=
  fun (bb', bbb') => do
    let x_570 ← index bb' 0
    let x_571 ← index bb' 1
    let x_572 ← index bb' 3
    let x_573 ← index bb' 2
    let x_574 ← index bb' 3
    let x_575 ← index w 11
    let bb' ← indexSet bb' 0 (((x_570 + ((x_571 &&& x_572) ||| (x_573 &&& (~~~x_574)))) + x_575) + 0x8f1bbcdc#32)
    let x_577 ← index bb' 0
    let x_578 ← index bb' 4
    let bb' ← indexSet bb' 0 ((x_577.rotateLeft 14) + x_578)
    let x_580 ← index bb' 2
    let bb' ← indexSet bb' 2 (x_580.rotateLeft 10)
    pure (bb', bbb')

/-- round!(bb[<expr>], bb[<expr>], bb[<expr>], bb[<expr>], bb[<expr>], <expr>[<expr>], <expr>, 0x8f1bbcdc,(bb[<expr>] & bb[<expr>]) |(bb[<expr>] & ! bb[<expr>])) -/
def Engine.process_block_fast.line1_51 (cfg : Cfg) (w : List (BitVec 32)) : Engine.process_block_fast.State1 → Res Engine.process_block_fast.State1 :=
  fun (bb', bbb') => do
    let x_582 ← index bb' 4
    let x_583 ← index bb' 0
    let x_584 ← index bb' 2
    let x_585 ← index bb' 1
    let x_586 ← index bb' 2
    let x_587 ← index w 10
    let bb' ← indexSet bb' 4 (((x_582 + ((x_583 &&& x_584) ||| (x_585 &&& (~~~x_586)))) + x_587) + 0x8f1bbcdc#32)
    let x_589 ← index bb' 4
    let x_590 ← index bb' 3
    let bb' ← indexSet bb' 4 ((x_589.rotateLeft 15) + x_590)
    let x_592 ← index bb' 1
    let bb' ← indexSet bb' 1 (x_592.rotateLeft 10)
    pure (bb', bbb')

/-- round!(bb[<expr>], bb[<expr>], bb[<expr>], bb[<expr>], bb[<expr>], <expr>[<expr>], <expr>, 0x8f1bbcdc,(bb[<expr>] & bb[<expr>]) |(bb[<expr>] & ! bb[<expr>])) -/
def Engine.process_block_fast.line1_52 (cfg : Cfg) (w : List (BitVec 32)) : Engine.process_block_fast.State1 → Res Engine.process_block_fast.State1 :=
  fun (bb', bbb') => do
    let x_594 ← index bb' 3
    let x_595 ← index bb' 4
    let x_596 ← index bb' 1
    let x_597 ← index bb' 0
    let x_598 ← index bb' 1
    let x_599 ← index w 0
    let bb' ← indexSet bb' 3 (((x_594 + ((x_595 &&& x_596) ||| (x_597 &&& (~~~x_598)))) + x_599) + 0x8f1bbcdc#32)
    let x_601 ← index bb' 3
    let x_602 ← index bb' 2
    let bb' ← indexSet bb' 3 ((x_601.rotateLeft 14) + x_602)
    let x_604 ← index bb' 0
    let bb' ← indexSet bb' 0 (x_604.rotateLeft 10)
    pure (bb', bbb')

/-- round!(bb[<expr>], bb[<expr>], bb[<expr>], bb[<expr>], bb[<expr>], <expr>[<expr>], <expr>, 0x8f1bbcdc,(bb[<expr>] & bb[<expr>]) |(bb[<expr>] & ! bb[<expr>])) -/
def Engine.process_block_fast.line1_53 (cfg : Cfg) (w : List (BitVec 32)) : Engine.process_block_fast.State1 → Res Engine.process_block_fast.State1 :=
  fun (bb', bbb') => do
    let x_606 ← index bb' 2
    let x_607 ← index bb' 3
    let x_608 ← index bb' 0
    let x_609 ← index bb' 4
    let x_610 ← index bb' 0
    let x_611 ← index w 8
    let bb' ← indexSet bb' 2 (((x_606 + ((x_607 &&& x_608) ||| (x_609 &&& (~~~x_610)))) + x_611) + 0x8f1bbcdc#32)
    let x_613 ← index bb' 2
    let x_614 ← index bb' 1
    let bb' ← indexSet bb' 2 ((x_613.rotateLeft 15) + x_614)
    let x_616 ← index bb' 4
    let bb' ← indexSet bb' 4 (x_616.rotateLeft 10)
    pure (bb', bbb')

/-- round!(bb[<expr>], bb[<expr>], bb[<expr>], bb[<expr>], bb[<expr>], <expr>[<expr>], <expr>, 0x8f1bbcdc,(bb[<expr>] & bb[<expr>]) |(bb[<expr>] & ! bb[<expr>])) -/
def Engine.process_block_fast.line1_54 (cfg : Cfg) (w : List (BitVec 32)) : Engine.process_block_fast.State1 → Res Engine.process_block_fast.State1 :=
  fun (bb', bbb') => do
    let x_618 ← index bb' 1
    let x_619 ← index bb' 2
    let x_620 ← index bb' 4
    let x_621 ← index bb' 3
    let x_622 ← index bb' 4
    let x_623 ← index w 12
    let bb' ← indexSet bb' 1 (((x_618 + ((x_619 &&& x_620) ||| (x_621 &&& (~~~x_622)))) + x_623) + 0x8f1bbcdc#32)
    let x_625 ← index bb' 1
    let x_626 ← index bb' 0
    let bb' ← indexSet bb' 1 ((x_625.rotateLeft 9) + x_626)
    let x_628 ← index bb' 3
    let bb' ← indexSet bb' 3 (x_628.rotateLeft 10)
    pure (bb', bbb')

/-- round!(bb[<expr>], bb[<expr>], bb[<expr>], bb[<expr>], bb[<expr>], <expr>[<expr>], <expr>, 0x8f1bbcdc,(bb[<expr>] & bb[<expr>]) |(bb[<expr>] & ! bb[<expr>])) -/
def Engine.process_block_fast.line1_55 (cfg : Cfg) (w : List (BitVec 32)) : Engine.process_block_fast.State1 → Res Engine.process_block_fast.State1 :=
  fun (bb', bbb') => do
    let x_630 ← index bb' 0
    let x_631 ← index bb' 1
    let x_632 ← index bb' 3
    let x_633 ← index bb' 2
    let x_634 ← index bb' 3
    let x_635 ← index w 4
    let bb' ← indexSet bb' 0 (((x_630 + ((x_631 &&& x_632) ||| (x_633 &&& (~~~x_634)))) + x_635) + 0x8f1bbcdc#32)
    let x_637 ← index bb' 0
    let x_638 ← index bb' 4
    let bb' ← indexSet bb' 0 ((x_637.rotateLeft 8) + x_638)
    let x_640 ← index bb' 2
    let bb' ← indexSet bb' 2 (x_640.rotateLeft 10)
    pure (bb', bbb')

/-- round!(bb[<expr>], bb[<expr>], bb[<expr>], bb[<expr>], bb[<expr>], <expr>[<expr>], <expr>, 0x8f1bbcdc,(bb[<expr>] & bb[<expr>]) |(bb[<expr>] & ! bb[<expr>])) -/
def Engine.process_block_fast.line1_56 (cfg : Cfg) (w : List (BitVec 32)) : Engine.process_block_fast.State1 → Res Engine.process_block_fast.State1 :=
  fun (bb', bbb') => do
    let x_642 ← index bb' 4
    let x_643 ← index bb' 0
    let x_644 ← index bb' 2
    let x_645 ← index bb' 1
    let x_646 ← index bb' 2
    let x_647 ← index w 13
    let bb' ← indexSet bb' 4 (((x_642 + ((x_643 &&& x_644) ||| (x_645 &&& (~~~x_646)))) + x_647) + 0x8f1bbcdc#32)
    let x_649 ← index bb' 4
    let x_650 ← index bb' 3
    let bb' ← indexSet bb' 4 ((x_649.rotateLeft 9) + x_650)
    let x_652 ← index bb' 1
    let bb' ← indexSet bb' 1 (x_652.rotateLeft 10)
    pure (bb', bbb')

/-- round!(bb[<expr>], bb[<expr>], bb[<expr>], bb[<expr>], bb[<expr>], <expr>[<expr>], <expr>, 0x8f1bbcdc,(bb[<expr>] & bb[<expr>]) |(bb[<expr>] & ! bb[<expr>])) -/
def Engine.process_block_fast.line1_57 (cfg : Cfg) (w : List (BitVec 32)) : Engine.process_block_fast.State1 → Res Engine.process_block_fast.State1 :=
  fun (bb', bbb') => do
    let x_654 ← index bb' 3
    let x_655 ← index bb' 4
    let x_656 ← index bb' 1
    let x_657 ← index bb' 0
    let x_658 ← index bb' 1
    let x_659 ← index w 3
    let bb' ← indexSet bb' 3 (((x_654 + ((x_655 &&& x_656) ||| (x_657 &&& (~~~x_658)))) + x_659) + 0x8f1bbcdc#32)
    let x_661 ← index bb' 3
    let x_662 ← index bb' 2
    let bb' ← indexSet bb' 3 ((x_661.rotateLeft 14) + x_662)
    let x_664 ← index bb' 0
    let bb' ← indexSet bb' 0 (x_664.rotateLeft 10)
    pure (bb', bbb')

/-- round!(bb[<expr>], bb[<expr>], bb[<expr>], bb[<expr>], bb[<expr>], <expr>[<expr>], <expr>, 0x8f1bbcdc,(bb[<expr>] & bb[<expr>]) |(bb[<expr>] & ! bb[<expr>])) -/
def Engine.process_block_fast.line1_58 (cfg : Cfg) (w : List (BitVec 32)) : Engine.process_block_fast.State1 → Res Engine.process_block_fast.State1 :=
  fun (bb', bbb') => do
    let x_666 ← index bb' 2
    let x_667 ← index bb' 3
    let x_668 ← index bb' 0
    let x_669 ← index bb' 4
    let x_670 ← index bb' 0
    let x_671 ← index w 7
    let bb' ← indexSet bb' 2 (((x_666 + ((x_667 &&& x_668) ||| (x_669 &&& (~~~x_670)))) + x_671) + 0x8f1bbcdc#32)
    let x_673 ← index bb' 2
    let x_674 ← index bb' 1
    let bb' ← indexSet bb' 2 ((x_673.rotateLeft 5) + x_674)
    let x_676 ← index bb' 4
    let bb' ← indexSet bb' 4 (x_676.rotateLeft 10)
    pure (bb', bbb')

/-- round!(bb[<expr>], bb[<expr>], bb[<expr>], bb[<expr>], bb[<expr>], <expr>[<expr>], <expr>, 0x8f1bbcdc,(bb[<expr>] & bb[<expr>]) |(bb[<expr>] & ! bb[<expr>])) -/
def Engine.process_block_fast.line1_59 (cfg : Cfg) (w : List (BitVec 32)) : Engine.process_block_fast.State1 → Res Engine.process_block_fast.State1 :=
  fun (bb', bbb') => do
    let x_678 ← index bb' 1
    let x_679 ← index bb' 2
    let x_680 ← index bb' 4
    let x_681 ← index bb' 3
    let x_682 ← index bb' 4
    let x_683 ← index w 15
    let bb' ← indexSet bb' 1 (((x_678 + ((x_679 &&& x_680) ||| (x_681 &&& (~~~x_682)))) + x_683) + 0x8f1bbcdc#32)
    let x_685 ← index bb' 1
    let x_686 ← index bb' 0
    let bb' ← indexSet bb' 1 ((x_685.rotateLeft 6) + x_686)
    let x_688 ← index bb' 3
    let bb' ← indexSet bb' 3 (x_688.rotateLeft 10)
    pure (bb', bbb')

/-- round!(bb[<expr>], bb[<expr>], bb[<expr>], bb[<expr>], bb[<expr>], <expr>[<expr>], <expr>, 0x8f1bbcdc,(bb[<expr>] & bb[<expr>]) |(bb[<expr>] & ! bb[<expr>])) -/
def Engine.process_block_fast.line1_60 (cfg : Cfg) (w : List (BitVec 32)) : Engine.process_block_fast.State1 → Res Engine.process_block_fast.State1 :=
  fun (bb', bbb') => do
    let x_690 ← index bb' 0
    let x_691 ← index bb' 1
    let x_692 ← index bb' 3
    let x_693 ← index bb' 2
    let x_694 ← index bb' 3
    let x_695 ← index w 14
    let bb' ← indexSet bb' 0 (((x_690 + ((x_691 &&& x_692) ||| (x_693 &&& (~~~x_694)))) + x_695) + 0x8f1bbcdc#32)
    let x_697 ← index bb' 0
    let x_698 ← index bb' 4
    let bb' ← indexSet bb' 0 ((x_697.rotateLeft 8) + x_698)
    let x_700 ← index bb' 2
    let bb' ← indexSet bb' 2 (x_700.rotateLeft 10)
    pure (bb', bbb')

/-- round!(bb[<expr>], bb[<expr>], bb[<expr>], bb[<expr>], bb[<expr>], <expr>[<expr>], <expr>, 0x8f1bbcdc,(bb[<expr>] & bb[<expr>]) |(bb[<expr>] & ! bb[<expr>])) -/
def Engine.process_block_fast.line1_61 (cfg : Cfg) (w : List (BitVec 32)) : Engine.process_block_fast.State1 → Res Engine.process_block_fast.State1 :=
  fun (bb', bbb') => do
    let x_702 ← index bb' 4
    let x_703 ← index bb' 0
    let x_704 ← index bb' 2
    let x_705 ← index bb' 1
    let x_706 ← index bb' 2
    let x_707 ← index w 5
    let bb' ← indexSet bb' 4 (((x_702 + ((x_703 &&& x_704) ||| (x_705 &&& (~~~x_706)))) + x_707) + 0x8f1bbcdc#32)
    let x_709 ← index bb' 4
    let x_710 ← index bb' 3
    let bb' ← indexSet bb' 4 ((x_709.rotateLeft 6) + x_710)
    let x_712 ← index bb' 1
    let bb' ← indexSet bb' 1 (x_712.rotateLeft 10)
    pure (bb', bbb')

/-- round!(bb[<expr>], bb[<expr>], bb[<expr>], bb[<expr>], bb[<expr>], <expr>[<expr>], <expr>, 0x8f1bbcdc,(bb[<expr>] & bb[<expr>]) |(bb[<expr>] & ! bb[<expr>])) -/
def Engine.process_block_fast.line1_62 (cfg : Cfg) (w : List (BitVec 32)) : Engine.process_block_fast.State1 → Res Engine.process_block_fast.State1 :=
  fun (bb', bbb') => do
    let x_714 ← index bb' 3
    let x_715 ← index bb' 4
    let x_716 ← index bb' 1
    let x_717 ← index bb' 0
    let x_718 ← index bb' 1
    let x_719 ← index w 6
    let bb' ← indexSet bb' 3 (((x_714 + ((x_715 &&& x_716) ||| (x_717 &&& (~~~x_718)))) + x_719) + 0x8f1bbcdc#32)
    let x_721 ← index bb' 3
    let x_722 ← index bb' 2
    let bb' ← indexSet bb' 3 ((x_721.rotateLeft 5) + x_722)
    let x_724 ← index bb' 0
    let bb' ← indexSet bb' 0 (x_724.rotateLeft 10)
    pure (bb', bbb')

/-- round!(bb[<expr>], bb[<expr>], bb[<expr>], bb[<expr>], bb[<expr>], <expr>[<expr>], <expr>, 0x8f1bbcdc,(bb[<expr>] & bb[<expr>]) |(bb[<expr>] & ! bb[<expr>])) -/
def Engine.process_block_fast.line1_63 (cfg : Cfg) (w : List (BitVec 32)) : Engine.process_block_fast.State1 → Res Engine.process_block_fast.State1 :=
  fun (bb', bbb') => do
    let x_726 ← index bb' 2
    let x_727 ← index bb' 3
    let x_728 ← index bb' 0
    let x_729 ← index bb' 4
    let x_730 ← index bb' 0
    let x_731 ← index w 2
    let bb' ← indexSet bb' 2 (((x_726 + ((x_727 &&& x_728) ||| (x_729 &&& (~~~x_730)))) + x_731) + 0x8f1bbcdc#32)
    let x_733 ← index bb' 2
    let x_734 ← index bb' 1
    let bb' ← indexSet bb' 2 ((x_733.rotateLeft 12) + x_734)
    let x_736 ← index bb' 4
    let bb' ← indexSet bb' 4 (x_736.rotateLeft 10)
    pure (bb', bbb')

/-- round!(bb[<expr>], bb[<expr>], bb[<expr>], bb[<expr>], bb[<expr>], <expr>[<expr>], <expr>, 0xa953fd4e, bb[<expr>] ^(bb[<expr>] | ! bb[<expr>])) -/
def Engine.process_block_fast.line1_64 (cfg : Cfg) (w : List (BitVec 32)) : Engine.process_block_fast.State1 → Res Engine.process_block_fast.State1 :=
  fun (bb', bbb') => do
    let x_738 ← index bb' 1
    let x_739 ← index bb' 2
    let x_740 ← index bb' 3
    let x_741 ← index bb' 4
    let x_742 ← index w 4
    let bb' ← indexSet bb' 1 (((x_738 + (x_739 ^^^ (x_740 ||| (~~~x_741)))) + x_742) + 0xa953fd4e#32)
    let x_744 ← index bb' 1
    let x_745 ← index bb' 0
    let bb' ← indexSet bb' 1 ((x_744.rotateLeft 9) + x_745)
    let x_747 ← index bb' 3
    let bb' ← indexSet bb' 3 (x_747.rotateLeft 10)
    pure (bb', bbb')

/-- round!(bb[<expr>], bb[<expr>], bb[<expr>], bb[<expr>], bb[<expr>], <expr>[<expr>], <expr>, 0xa953fd4e, bb[<expr>] ^(bb[<expr>] | ! bb[<expr>])) -/
def Engine.process_block_fast.line1_65 (cfg : Cfg) (w : List (BitVec 32)) : Engine.process_block_fast.State1 → Res Engine.process_block_fast.State1 :=
  fun (bb', bbb') => do
    let x_749 ← index bb' 0
    let x_750 ← index bb' 1
    let x_751 ← index bb' 2
    let x_752 ← index bb' 3
    let x_753 ← index w 0
    let bb' ← indexSet bb' 0 (((x_749 + (x_750 ^^^ (x_751 ||| (~~~x_752)))) + x_753) + 0xa953fd4e#32)
    let x_755 ← index bb' 0
    let x_756 ← index bb' 4
    let bb' ← indexSet bb' 0 ((x_755.rotateLeft 15) + x_756)
    let x_758 ← index bb' 2
    let bb' ← indexSet bb' 2 (x_758.rotateLeft 10)
    pure (bb', bbb')

/-- round!(bb[<expr>], bb[<expr>], bb[<expr>], bb[<expr>], bb[<expr>], <expr>[<expr>], <expr>, 0xa953fd4e, bb[<expr>] ^(bb[<expr>] | ! bb[<expr>])) -/
def Engine.process_block_fast.line1_66 (cfg : Cfg) (w : List (BitVec 32)) : Engine.process_block_fast.State1 → Res Engine.process_block_fast.State1 :=
  fun (bb', bbb') => do
    let x_760 ← index bb' 4
    let x_761 ← index bb' 0
    let x_762 ← index bb' 1
    let x_763 ← index bb' 2
    let x_764 ← index w 5
    let bb' ← indexSet bb' 4 (((x_760 + (x_761 ^^^ (x_762 ||| (~~~x_763)))) + x_764) + 0xa953fd4e#32)
    let x_766 ← index bb' 4
    let x_767 ← index bb' 3
    let bb' ← indexSet bb' 4 ((x_766.rotateLeft 5) + x_767)
    let x_769 ← index bb' 1
    let bb' ← indexSet bb' 1 (x_769.rotateLeft 10)
    pure (bb', bbb')

/-- round!(bb[<expr>], bb[<expr>], bb[<expr>], bb[<expr>], bb[<expr>], <expr>[<expr>], <expr>, 0xa953fd4e, bb[<expr>] ^(bb[<expr>] | ! bb[<expr>])) -/
def Engine.process_block_fast.line1_67 (cfg : Cfg) (w : List (BitVec 32)) : Engine.process_block_fast.State1 → Res Engine.process_block_fast.State1 :=
  fun (bb', bbb') => do
    let x_771 ← index bb' 3
    let x_772 ← index bb' 4
    let x_773 ← index bb' 0
    let x_774 ← index bb' 1
    let x_775 ← index w 9
    let bb' ← indexSet bb' 3 (((x_771 + (x_772 ^^^ (x_773 ||| (~~~x_774)))) + x_775) + 0xa953fd4e#32)
    let x_777 ← index bb' 3
    let x_778 ← index bb' 2
    let bb' ← indexSet bb' 3 ((x_777.rotateLeft 11) + x_778)
    let x_780 ← index bb' 0
    let bb' ← indexSet bb' 0 (x_780.rotateLeft 10)
    pure (bb', bbb')

/-- round!(bb[<expr>], bb[<expr>], bb[<expr>], bb[<expr>], bb[<expr>], <expr>[<expr>], <expr>, 0xa953fd4e, bb[<expr>] ^(bb[<expr>] | ! bb[<expr>])) -/
def Engine.process_block_fast.line1_68 (cfg : Cfg) (w : List (BitVec 32)) : Engine.process_block_fast.State1 → Res Engine.process_block_fast.State1 :=
  fun (bb', bbb') => do
    let x_782 ← index bb' 2
    let x_783 ← index bb' 3
    let x_784 ← index bb' 4
    let x_785 ← index bb' 0
    let x_786 ← index w 7
    let bb' ← indexSet bb' 2 (((x_782 + (x_783 ^^^ (x_784 ||| (~~~x_785)))) + x_786) + 0xa953fd4e#32)
    let x_788 ← index bb' 2
    let x_789 ← index bb' 1
    let bb' ← indexSet bb' 2 ((x_788.rotateLeft 6) + x_789)
    let x_791 ← index bb' 4
    let bb' ← indexSet bb' 4 (x_791.rotateLeft 10)
    pure (bb', bbb')

/-- round!(bb[<expr>], bb[<expr>], bb[<expr>], bb[<expr>], bb[<expr>], <expr>[<expr>], <expr>, 0xa953fd4e, bb[<expr>] ^(bb[<expr>] | ! bb[<expr>])) -/
def Engine.process_block_fast.line1_69 (cfg : Cfg) (w : List (BitVec 32)) : Engine.process_block_fast.State1 → Res Engine.process_block_fast.State1 :=
  fun (bb', bbb') => do
    let x_793 ← index bb' 1
    let x_794 ← index bb' 2
    let x_795 ← index bb' 3
    let x_796 ← index bb' 4
    let x_797 ← index w 12
    let bb' ← indexSet bb' 1 (((x_793 + (x_794 ^^^ (x_795 ||| (~~~x_796)))) + x_797) + 0xa953fd4e#32)
    let x_799 ← index bb' 1
    let x_800 ← index bb' 0
    let bb' ← indexSet bb' 1 ((x_799.rotateLeft 8) + x_800)
    let x_802 ← index bb' 3
    let bb' ← indexSet bb' 3 (x_802.rotateLeft 10)
    pure (bb', bbb')

/-- round!(bb[<expr>], bb[<expr>], bb[<expr>], bb[<expr>], bb[<expr>], <expr>[<expr>], <expr>, 0xa953fd4e, bb[<expr>] ^(bb[<expr>] | ! bb[<expr>])) -/
def Engine.process_block_fast.line1_70 (cfg : Cfg) (w : List (BitVec 32)) : Engine.process_block_fast.State1 → Res Engine.process_block_fast.State1 :=
  fun (bb', bbb') => do
    let x_804 ← index bb' 0
    let x_805 ← index bb' 1
    let x_806 ← index bb' 2
    let x_807 ← index bb' 3
    let x_808 ← index w 2
    let bb' ← indexSet bb' 0 (((x_804 + (x_805 ^^^ (x_806 ||| (~~~x_807)))) + x_808) + 0xa953fd4e#32)
    let x_810 ← index bb' 0
    let x_811 ← index bb' 4
    let bb' ← indexSet bb' 0 ((x_810.rotateLeft 13) + x_811)
    let x_813 ← index bb' 2
    let bb' ← indexSet bb' 2 (x_813.rotateLeft 10)
    pure (bb', bbb')

/-- round!(bb[<expr>], bb[<expr>], bb[<expr>], bb[<expr>], bb[<expr>], <expr>[<expr>], <expr>, 0xa953fd4e, bb[<expr>] ^(bb[<expr>] | ! bb[<expr>])) -/
def Engine.process_block_fast.line1_71 (cfg : Cfg) (w : List (BitVec 32)) : Engine.process_block_fast.State1 → Res Engine.process_block_fast.State1 :=
  fun (bb', bbb') => do
    let x_815 ← index bb' 4
    let x_816 ← index bb' 0
    let x_817 ← index bb' 1
    let x_818 ← index bb' 2
    let x_819 ← index w 10
    let bb' ← indexSet bb' 4 (((x_815 + (x_816 ^^^ (x_817 ||| (~~~x_818)))) + x_819) + 0xa953fd4e#32)
    let x_821 ← index bb' 4
    let x_822 ← index bb' 3
    let bb' ← indexSet bb' 4 ((x_821.rotateLeft 12) + x_822)
    let x_824 ← index bb' 1
    let bb' ← indexSet bb' 1 (x_824.rotateLeft 10)
    pure (bb', bbb')

/-- round!(bb[<expr>], bb[<expr>], bb[<expr>], bb[<expr>], bb[<expr>], <expr>[<expr>], <expr>, 0xa953fd4e, bb[<expr>] ^(bb[<expr>] | ! bb[<expr>])) -/
def Engine.process_block_fast.line1_72 (cfg : Cfg) (w : List (BitVec 32)) : Engine.process_block_fast.State1 → Res Engine.process_block_fast.State1 :=
  fun (bb', bbb') => do
    let x_826 ← index bb' 3
    let x_827 ← index bb' 4
    let x_828 ← index bb' 0
    let x_829 ← index bb' 1
    let x_830 ← index w 14
    let bb' ← indexSet bb' 3 (((x_826 + (x_827 ^^^ (x_828 ||| (~~~x_829)))) + x_830) + 0xa953fd4e#32)
    let x_832 ← index bb' 3
    let x_833 ← index bb' 2
    let bb' ← indexSet bb' 3 ((x_832.rotateLeft 5) + x_833)
    let x_835 ← index bb' 0
    let bb' ← indexSet bb' 0 (x_835.rotateLeft 10)
    pure (bb', bbb')

/-- round!(bb[<expr>], bb[<expr>], bb[<expr>], bb[<expr>], bb[<expr>], <expr>[<expr>], <expr>, 0xa953fd4e, bb[<expr>] ^(bb[<expr>] | ! bb[<expr>])) -/
def Engine.process_block_fast.line1_73 (cfg : Cfg) (w : List (BitVec 32)) : Engine.process_block_fast.State1 → Res Engine.process_block_fast.State1 :=
  fun (bb', bbb') => do
    let x_837 ← index bb' 2
    let x_838 ← index bb' 3
    let x_839 ← index bb' 4
    let x_840 ← index bb' 0
    let x_841 ← index w 1
    let bb' ← indexSet bb' 2 (((x_837 + (x_838 ^^^ (x_839 ||| (~~~x_840)))) + x_841) + 0xa953fd4e#32)
    let x_843 ← index bb' 2
    let x_844 ← index bb' 1
    let bb' ← indexSet bb' 2 ((x_843.rotateLeft 12) + x_844)
    let x_846 ← index bb' 4
    let bb' ← indexSet bb' 4 (x_846.rotateLeft 10)
    pure (bb', bbb')

/-- round!(bb[<expr>], bb[<expr>], bb[<expr>], bb[<expr>], bb[<expr>], <expr>[<expr>], <expr>, 0xa953fd4e, bb[<expr>] ^(bb[<expr>] | ! bb[<expr>])) -/
def Engine.process_block_fast.line1_74 (cfg : Cfg) (w : List (BitVec 32)) : Engine.process_block_fast.State1 → Res Engine.process_block_fast.State1 :=
  fun (bb', bbb') => do
    let x_848 ← index bb' 1
    let x_849 ← index bb' 2
    let x_850 ← index bb' 3
    let x_851 ← index bb' 4
    let x_852 ← index w 3
    let bb' ← indexSet bb' 1 (((x_848 + (x_849 ^^^ (x_850 ||| (~~~x_851)))) + x_852) + 0xa953fd4e#32)
    let x_854 ← index bb' 1
    let x_855 ← index bb' 0
    let bb' ← indexSet bb' 1 ((x_854.rotateLeft 13) + x_855)
    let x_857 ← index bb' 3
    let bb' ← indexSet bb' 3 (x_857.rotateLeft 10)
    pure (bb', bbb')

/-- round!(bb[<expr>], bb[<expr>], bb[<expr>], bb[<expr>], bb[<expr>], <expr>[<expr>], <expr>, 0xa953fd4e, bb[<expr>] ^(bb[<expr>] | ! bb[<expr>])) -/
def Engine.process_block_fast.line1_75 (cfg : Cfg) (w : List (BitVec 32)) : Engine.process_block_fast.State1 → Res Engine.process_block_fast.State1 :=
  fun (bb', bbb') => do
    let x_859 ← index bb' 0
    let x_860 ← index bb' 1
    let x_861 ← index bb' 2
    let x_862 ← index bb' 3
    let x_863 ← index w 8
    let bb' ← indexSet bb' 0 (((x_859 + (x_860 ^^^ (x_861 ||| (~~~x_862)))) + x_863) + 0xa953fd4e#32)
    let x_865 ← index bb' 0
    let x_866 ← index bb' 4
    let bb' ← indexSet bb' 0 ((x_865.rotateLeft 14) + x_866)
    let x_868 ← index bb' 2
    let bb' ← indexSet bb' 2 (x_868.rotateLeft 10)
    pure (bb', bbb')

/-- round!(bb[<expr>], bb[<expr>], bb[<expr>], bb[<expr>], bb[<expr>], <expr>[<expr>], <expr>, 0xa953fd4e, bb[<expr>] ^(bb[<expr>] | ! bb[<expr>])) -/
def Engine.process_block_fast.line1_76 (cfg : Cfg) (w : List (BitVec 32)) : Engine.process_block_fast.State1 → Res Engine.process_block_fast.State1 :=
  fun (bb', bbb') => do
    let x_870 ← index bb' 4
    let x_871 ← index bb' 0
    let x_872 ← index bb' 1
    let x_873 ← index bb' 2
    let x_874 ← index w 11
    let bb' ← indexSet bb' 4 (((x_870 + (x_871 ^^^ (x_872 ||| (~~~x_873)))) + x_874) + 0xa953fd4e#32)
    let x_876 ← index bb' 4
    let x_877 ← index bb' 3
    let bb' ← indexSet bb' 4 ((x_876.rotateLeft 11) + x_877)
    let x_879 ← index bb' 1
    let bb' ← indexSet bb' 1 (x_879.rotateLeft 10)
    pure (bb', bbb')

/-- round!(bb[<expr>], bb[<expr>], bb[<expr>], bb[<expr>], bb[<expr>], <expr>[<expr>], <expr>, 0xa953fd4e, bb[<expr>] ^(bb[<expr>] | ! bb[<expr>])) -/
def Engine.process_block_fast.line1_77 (cfg : Cfg) (w : List (BitVec 32)) : Engine.process_block_fast.State1 → Res Engine.process_block_fast.State1 :=
  fun (bb', bbb') => do
    let x_881 ← index bb' 3
    let x_882 ← index bb' 4
    let x_883 ← index bb' 0
    let x_884 ← index bb' 1
    let x_885 ← index w 6
    let bb' ← indexSet bb' 3 (((x_881 + (x_882 ^^^ (x_883 ||| (~~~x_884)))) + x_885) + 0xa953fd4e#32)
    let x_887 ← index bb' 3
    let x_888 ← index bb' 2
    let bb' ← indexSet bb' 3 ((x_887.rotateLeft 8) + x_888)
    let x_890 ← index bb' 0
    let bb' ← indexSet bb' 0 (x_890.rotateLeft 10)
    pure (bb', bbb')

/-- round!(bb[<expr>], bb[<expr>], bb[<expr>], bb[<expr>], bb[<expr>], <expr>[<expr>], <expr>, 0xa953fd4e, bb[<expr>] ^(bb[<expr>] | ! bb[<expr>])) -/
def Engine.process_block_fast.line1_78 (cfg : Cfg) (w : List (BitVec 32)) : Engine.process_block_fast.State1 → Res Engine.process_block_fast.State1 :=
  fun (bb', bbb') => do
    let x_892 ← index bb' 2
    let x_893 ← index bb' 3
    let x_894 ← index bb' 4
    let x_895 ← index bb' 0
    let x_896 ← index w 15
    let bb' ← indexSet bb' 2 (((x_892 + (x_893 ^^^ (x_894 ||| (~~~x_895)))) + x_896) + 0xa953fd4e#32)
    let x_898 ← index bb' 2
    let x_899 ← index bb' 1
    let bb' ← indexSet bb' 2 ((x_898.rotateLeft 5) + x_899)
    let x_901 ← index bb' 4
    let bb' ← indexSet bb' 4 (x_901.rotateLeft 10)
    pure (bb', bbb')

/-- round!(bb[<expr>], bb[<expr>], bb[<expr>], bb[<expr>], bb[<expr>], <expr>[<expr>], <expr>, 0xa953fd4e, bb[<expr>] ^(bb[<expr>] | ! bb[<expr>])) -/
def Engine.process_block_fast.line1_79 (cfg : Cfg) (w : List (BitVec 32)) : Engine.process_block_fast.State1 → Res Engine.process_block_fast.State1 :=
  fun (bb', bbb') => do
    let x_903 ← index bb' 1
    let x_904 ← index bb' 2
    let x_905 ← index bb' 3
    let x_906 ← index bb' 4
    let x_907 ← index w 13
    let bb' ← indexSet bb' 1 (((x_903 + (x_904 ^^^ (x_905 ||| (~~~x_906)))) + x_907) + 0xa953fd4e#32)
    let x_909 ← index bb' 1
    let x_910 ← index bb' 0
    let bb' ← indexSet bb' 1 ((x_909.rotateLeft 6) + x_910)
    let x_912 ← index bb' 3
    let bb' ← indexSet bb' 3 (x_912.rotateLeft 10)
    pure (bb', bbb')

/-- round!(bbb[<expr>], bbb[<expr>], bbb[<expr>], bbb[<expr>], bbb[<expr>], <expr>[<expr>], <expr>, 0x50a28be6, bbb[<expr>] ^(bbb[<expr>] | ! bbb[<expr>])) -/
def Engine.process_block_fast.line1_80 (cfg : Cfg) (w : List (BitVec 32)) : Engine.process_block_fast.State1 → Res Engine.process_block_fast.State1 :=
  fun (bb', bbb') => do
    let x_914 ← index bbb' 0
    let x_915 ← index bbb' 1
    let x_916 ← index bbb' 2
    let x_917 ← index bbb' 3
    let x_918 ← index w 5
    let bbb' ← indexSet bbb' 0 (((x_914 + (x_915 ^^^ (x_916 ||| (~~~x_917)))) + x_918) + 0x50a28be6#32)
    let x_920 ← index bbb' 0
    let x_921 ← index bbb' 4
    let bbb' ← indexSet bbb' 0 ((x_920.rotateLeft 8) + x_921)
    let x_923 ← index bbb' 2
    let bbb' ← indexSet bbb' 2 (x_923.rotateLeft 10)
    pure (bb', bbb')

/-- round!(bbb[<expr>], bbb[<expr>], bbb[<expr>], bbb[<expr>], bbb[<expr>], <expr>[<expr>], <expr>, 0x50a28be6, bbb[<expr>] ^(bbb[<expr>] | ! bbb[<expr>])) -/
def Engine.process_block_fast.line1_81 (cfg : Cfg) (w : List (BitVec 32)) : Engine.process_block_fast.State1 → Res Engine.process_block_fast.State1 :=
  fun (bb', bbb') => do
    let x_925 ← index bbb' 4
    let x_926 ← index bbb' 0
    let x_927 ← index bbb' 1
    let x_928 ← index bbb' 2
    let x_929 ← index w 14
    let bbb' ← indexSet bbb' 4 (((x_925 + (x_926 ^^^ (x_927 ||| (~~~x_928)))) + x_929) + 0x50a28be6#32)
    let x_931 ← index bbb' 4
    let x_932 ← index bbb' 3
    let bbb' ← indexSet bbb' 4 ((x_931.rotateLeft 9) + x_932)
    let x_934 ← index bbb' 1
    let bbb' ← indexSet bbb' 1 (x_934.rotateLeft 10)
    pure (bb', bbb')

/-- round!(bbb[<expr>], bbb[<expr>], bbb[<expr>], bbb[<expr>], bbb[<expr>], <expr>[<expr>], <expr>, 0x50a28be6, bbb[<expr>] ^(bbb[<expr>] | ! bbb[<expr>])) -/
def Engine.process_block_fast.line1_82 (cfg : Cfg) (w : List (BitVec 32)) : Engine.process_block_fast.State1 → Res Engine.process_block_fast.State1 :=
  fun (bb', bbb') => do
    let x_936 ← index bbb' 3
    let x_937 ← index bbb' 4
    let x_938 ← index bbb' 0
    let x_939 ← index bbb' 1
    let x_940 ← index w 7
    let bbb' ← indexSet bbb' 3 (((x_936 + (x_937 ^^^ (x_938 ||| (~~~x_939)))) + x_940) + 0x50a28be6#32)
    let x_942 ← index bbb' 3
    let x_943 ← index bbb' 2
    let bbb' ← indexSet bbb' 3 ((x_942.rotateLeft 9) + x_943)
    let x_945 ← index bbb' 0
    let bbb' ← indexSet bbb' 0 (x_945.rotateLeft 10)
    pure (bb', bbb')

/-- round!(bbb[<expr>], bbb[<expr>], bbb[<expr>], bbb[<expr>], bbb[<expr>], <expr>[<expr>], <expr>, 0x50a28be6, bbb[<expr>] ^(bbb[<expr>] | ! bbb[<expr>])) -/
def Engine.process_block_fast.line1_83 (cfg : Cfg) (w : List (BitVec 32)) : Engine.process_block_fast.State1 → Res Engine.process_block_fast.State1 :=
  fun (bb', bbb') => do
    let x_947 ← index bbb' 2
    let x_948 ← index bbb' 3
    let x_949 ← index bbb' 4
    let x_950 ← index bbb' 0
    let x_951 ← index w 0
    let bbb' ← indexSet bbb' 2 (((x_947 + (x_948 ^^^ (x_949 ||| (~~~x_950)))) + x_951) + 0x50a28be6#32)
    let x_953 ← index bbb' 2
    let x_954 ← index bbb' 1
    let bbb' ← indexSet bbb' 2 ((x_953.rotateLeft 11) + x_954)
    let x_956 ← index bbb' 4
    let bbb' ← indexSet bbb' 4 (x_956.rotateLeft 10)
    pure (bb', bbb')

/-- round!(bbb[<expr>], bbb[<expr>], bbb[<expr>], bbb[<expr>], bbb[<expr>], <expr>[<expr>], <expr>, 0x50a28be6, bbb[<expr>] ^(bbb[<expr>] | ! bbb[<expr>])) -/
def Engine.process_block_fast.line1_84 (cfg : Cfg) (w : List (BitVec 32)) : Engine.process_block_fast.State1 → Res Engine.process_block_fast.State1 :=
  fun (bb', bbb') => do
    let x_958 ← index bbb' 1
    let x_959 ← index bbb' 2
    let x_960 ← index bbb' 3
    let x_961 ← index bbb' 4
    let x_962 ← index w 9
    let bbb' ← indexSet bbb' 1 (((x_958 + (x_959 ^^^ (x_960 ||| (~~~x_961)))) + x_962) + 0x50a28be6#32)
    let x_964 ← index bbb' 1
    let x_965 ← index bbb' 0
    let bbb' ← indexSet bbb' 1 ((x_964.rotateLeft 13) + x_965)
    let x_967 ← index bbb' 3
    let bbb' ← indexSet bbb' 3 (x_967.rotateLeft 10)
    pure (bb', bbb')

/-- round!(bbb[<expr>], bbb[<expr>], bbb[<expr>], bbb[<expr>], bbb[<expr>], <expr>[<expr>], <expr>, 0x50a28be6, bbb[<expr>] ^(bbb[<expr>] | ! bbb[<expr>])) -/
def Engine.process_block_fast.line1_85 (cfg : Cfg) (w : List (BitVec 32)) : Engine.process_block_fast.State1 → Res Engine.process_block_fast.State1 :=
  fun (bb', bbb') => do
    let x_969 ← index bbb' 0
    let x_970 ← index bbb' 1
    let x_971 ← index bbb' 2
    let x_972 ← index bbb' 3
    let x_973 ← index w 2
    let bbb' ← indexSet bbb' 0 (((x_969 + (x_970 ^^^ (x_971 ||| (~~~x_972)))) + x_973) + 0x50a28be6#32)
    let x_975 ← index bbb' 0
    let x_976 ← index bbb' 4
    let bbb' ← indexSet bbb' 0 ((x_975.rotateLeft 15) + x_976)
    let x_978 ← index bbb' 2
    let bbb' ← indexSet bbb' 2 (x_978.rotateLeft 10)
    pure (bb', bbb')

/-- round!(bbb[<expr>], bbb[<expr>], bbb[<expr>], bbb[<expr>], bbb[<expr>], <expr>[<expr>], <expr>, 0x50a28be6, bbb[<expr>] ^(bbb[<expr>] | ! bbb[<expr>])) -/
def Engine.process_block_fast.line1_86 (cfg : Cfg) (w : List (BitVec 32)) : Engine.process_block_fast.State1 → Res Engine.process_block_fast.State1 :=
  fun (bb', bbb') => do
    let x_980 ← index bbb' 4
    let x_981 ← index bbb' 0
    let x_982 ← index bbb' 1
    let x_983 ← index bbb' 2
    let x_984 ← index w 11
    let bbb' ← indexSet bbb' 4 (((x_980 + (x_981 ^^^ (x_982 ||| (~~~x_983)))) + x_984) + 0x50a28be6#32)
    let x_986 ← index bbb' 4
    let x_987 ← index bbb' 3
    let bbb' ← indexSet bbb' 4 ((x_986.rotateLeft 15) + x_987)
    let x_989 ← index bbb' 1
    let bbb' ← indexSet bbb' 1 (x_989.rotateLeft 10)
    pure (bb', bbb')

/-- round!(bbb[<expr>], bbb[<expr>], bbb[<expr>], bbb[<expr>], bbb[<expr>], <expr>[<expr>], <expr>, 0x50a28be6, bbb[<expr>] ^(bbb[<expr>] | ! bbb[<expr>])) -/
def Engine.process_block_fast.line1_87 (cfg : Cfg) (w : List (BitVec 32)) : Engine.process_block_fast.State1 → Res Engine.process_block_fast.State1 :=
  fun (bb', bbb') => do
    let x_991 ← index bbb' 3
    let x_992 ← index bbb' 4
    let x_993 ← index bbb' 0
    let x_994 ← index bbb' 1
    let x_995 ← index w 4
    let bbb' ← indexSet bbb' 3 (((x_991 + (x_992 ^^^ (x_993 ||| (~~~x_994)))) + x_995) + 0x50a28be6#32)
    let x_997 ← index bbb' 3
    let x_998 ← index bbb' 2
    let bbb' ← indexSet bbb' 3 ((x_997.rotateLeft 5) + x_998)
    let x_1000 ← index bbb' 0
    let bbb' ← indexSet bbb' 0 (x_1000.rotateLeft 10)
    pure (bb', bbb')

/-- round!(bbb[<expr>], bbb[<expr>], bbb[<expr>], bbb[<expr>], bbb[<expr>], <expr>[<expr>], <expr>, 0x50a28be6, bbb[<expr>] ^(bbb[<expr>] | ! bbb[<expr>])) -/
def Engine.process_block_fast.line1_88 (cfg : Cfg) (w : List (BitVec 32)) : Engine.process_block_fast.State1 → Res Engine.process_block_fast.State1 :=
  fun (bb', bbb') => do
    let x_1002 ← index bbb' 2
    let x_1003 ← index bbb' 3
    let x_1004 ← index bbb' 4
    let x_1005 ← index bbb' 0
    let x_1006 ← index w 13
    let bbb' ← indexSet bbb' 2 (((x_1002 + (x_1003 ^^^ (x_1004 ||| (~~~x_1005)))) + x_1006) + 0x50a28be6#32)
    let x_1008 ← index bbb' 2
    let x_1009 ← index bbb' 1
    let bbb' ← indexSet bbb' 2 ((x_1008.rotateLeft 7) + x_1009)
    let x_1011 ← index bbb' 4
    let bbb' ← indexSet bbb' 4 (x_1011.rotateLeft 10)
    pure (bb', bbb')

/-- round!(bbb[<expr>], bbb[<expr>], bbb[<expr>], bbb[<expr>], bbb[<expr>], <expr>[<expr>], <expr>, 0x50a28be6, bbb[<expr>] ^(bbb[<expr>] | ! bbb[<expr>])) -/
def Engine.process_block_fast.line1_89 (cfg : Cfg) (w : List (BitVec 32)) : Engine.process_block_fast.State1 → Res Engine.process_block_fast.State1 :=
  fun (bb', bbb') => do
    let x_1013 ← index bbb' 1
    let x_1014 ← index bbb' 2
    let x_1015 ← index bbb' 3
    let x_1016 ← index bbb' 4
    let x_1017 ← index w 6
    let bbb' ← indexSet bbb' 1 (((x_1013 + (x_1014 ^^^ (x_1015 ||| (~~~x_1016)))) + x_1017) + 0x50a28be6#32)
    let x_1019 ← index bbb' 1
    let x_1020 ← index bbb' 0
    let bbb' ← indexSet bbb' 1 ((x_1019.rotateLeft 7) + x_1020)
    let x_1022 ← index bbb' 3
    let bbb' ← indexSet bbb' 3 (x_1022.rotateLeft 10)
    pure (bb', bbb')

/-- round!(bbb[<expr>], bbb[<expr>], bbb[<expr>], bbb[<expr>], bbb[<expr>], <expr>[<expr>], <expr>, 0x50a28be6, bbb[<expr>] ^(bbb[<expr>] | ! bbb[<expr>])) -/
def Engine.process_block_fast.line1_90 (cfg : Cfg) (w : List (BitVec 32)) : Engine.process_block_fast.State1 → Res Engine.process_block_fast.State1 :=
  fun (bb', bbb') => do
    let x_1024 ← index bbb' 0
    let x_1025 ← index bbb' 1
    let x_1026 ← index bbb' 2
    let x_1027 ← index bbb' 3
    let x_1028 ← index w 15
    let bbb' ← indexSet bbb' 0 (((x_1024 + (x_1025 ^^^ (x_1026 ||| (~~~x_1027)))) + x_1028) + 0x50a28be6#32)
    let x_1030 ← index bbb' 0
    let x_1031 ← index bbb' 4
    let bbb' ← indexSet bbb' 0 ((x_1030.rotateLeft 8) + x_1031)
    let x_1033 ← index bbb' 2
    let bbb' ← indexSet bbb' 2 (x_1033.rotateLeft 10)
    pure (bb', bbb')

/-- round!(bbb[<expr>], bbb[<expr>], bbb[<expr>], bbb[<expr>], bbb[<expr>], <expr>[<expr>], <expr>, 0x50a28be6, bbb[<expr>] ^(bbb[<expr>] | ! bbb[<expr>])) -/
def Engine.process_block_fast.line1_91 (cfg : Cfg) (w : List (BitVec 32)) : Engine.process_block_fast.State1 → Res Engine.process_block_fast.State1 :=
  fun (bb', bbb') => do
    let x_1035 ← index bbb' 4
    let x_1036 ← index bbb' 0
    let x_1037 ← index bbb' 1
    let x_1038 ← index bbb' 2
    let x_1039 ← index w 8
    let bbb' ← indexSet bbb' 4 (((x_1035 + (x_1036 ^^^ (x_1037 ||| (~~~x_1038)))) + x_1039) + 0x50a28be6#32)
    let x_1041 ← index bbb' 4
    let x_1042 ← index bbb' 3
    let bbb' ← indexSet bbb' 4 ((x_1041.rotateLeft 11) + x_1042)
    let x_1044 ← index bbb' 1
    let bbb' ← indexSet bbb' 1 (x_1044.rotateLeft 10)
    pure (bb', bbb')

/-- round!(bbb[<expr>], bbb[<expr>], bbb[<expr>], bbb[<expr>], bbb[<expr>], <expr>[<expr>], <expr>, 0x50a28be6, bbb[<expr>] ^(bbb[<expr>] | ! bbb[<expr>])) -/
def Engine.process_block_fast.line1_92 (cfg : Cfg) (w : List (BitVec 32)) : Engine.process_block_fast.State1 → Res Engine.process_block_fast.State1 :=
  fun (bb', bbb') => do
    let x_1046 ← index bbb' 3
    let x_1047 ← index bbb' 4
    let x_1048 ← index bbb' 0
    let x_1049 ← index bbb' 1
    let x_1050 ← index w 1
    let bbb' ← indexSet bbb' 3 (((x_1046 + (x_1047 ^^^ (x_1048 ||| (~~~x_1049)))) + x_1050) + 0x50a28be6#32)
    let x_1052 ← index bbb' 3
    let x_1053 ← index bbb' 2
    let bbb' ← indexSet bbb' 3 ((x_1052.rotateLeft 14) + x_1053)
    let x_1055 ← index bbb' 0
    let bbb' ← indexSet bbb' 0 (x_1055.rotateLeft 10)
    pure (bb', bbb')

/-- round!(bbb[<expr>], bbb[<expr>], bbb[<expr>], bbb[<expr>], bbb[<expr>], <expr>[<expr>], <expr>, 0x50a28be6, bbb[<expr>] ^(bbb[<expr>] | ! bbb[<expr>])) -/
def Engine.process_block_fast.line1_93 (cfg : Cfg) (w : List (BitVec 32)) : Engine.process_block_fast.State1 → Res Engine.process_block_fast.State1 :=
  fun (bb', bbb') => do
    let x_1057 ← index bbb' 2
    let x_1058 ← index bbb' 3
    let x_1059 ← index bbb' 4
    let x_1060 ← index bbb' 0
    let x_1061 ← index w 10
    let bbb' ← indexSet bbb' 2 (((x_1057 + (x_1058 ^^^ (x_1059 ||| (~~~x_1060)))) + x_1061) + 0x50a28be6#32)
    let x_1063 ← index bbb' 2
    let x_1064 ← index bbb' 1
    let bbb' ← indexSet bbb' 2 ((x_1063.rotateLeft 14) + x_1064)
    let x_1066 ← index bbb' 4
    let bbb' ← indexSet bbb' 4 (x_1066.rotateLeft 10)
    pure (bb', bbb')

/-- round!(bbb[<expr>], bbb[<expr>], bbb[<expr>], bbb[<expr>], bbb[<expr>], <expr>[<expr>], <expr>, 0x50a28be6, bbb[<expr>] ^(bbb[<expr>] | ! bbb[<expr>])) -/
def Engine.process_block_fast.line1_94 (cfg : Cfg) (w : List (BitVec 32)) : Engine.process_block_fast.State1 → Res Engine.process_block_fast.State1 :=
  fun (bb', bbb') => do
    let x_1068 ← index bbb' 1
    let x_1069 ← index bbb' 2
    let x_1070 ← index bbb' 3
    let x_1071 ← index bbb' 4
    let x_1072 ← index w 3
    let bbb' ← indexSet bbb' 1 (((x_1068 + (x_1069 ^^^ (x_1070 ||| (~~~x_1071)))) + x_1072) + 0x50a28be6#32)
    let x_1074 ← index bbb' 1
    let x_1075 ← index bbb' 0
    let bbb' ← indexSet bbb' 1 ((x_1074.rotateLeft 12) + x_1075)
    let x_1077 ← index bbb' 3
    let bbb' ← indexSet bbb' 3 (x_1077.rotateLeft 10)
    pure (bb', bbb')

/-- round!(bbb[<expr>], bbb[<expr>], bbb[<expr>], bbb[<expr>], bbb[<expr>], <expr>[<expr>], <expr>, 0x50a28be6, bbb[<expr>] ^(bbb[<expr>] | ! bbb[<expr>])) -/
def Engine.process_block_fast.line1_95 (cfg : Cfg) (w : List (BitVec 32)) : Engine.process_block_fast.State1 → Res Engine.process_block_fast.State1 :=
  fun (bb', bbb') => do
    let x_1079 ← index bbb' 0
    let x_1080 ← index bbb' 1
    let x_1081 ← index bbb' 2
    let x_1082 ← index bbb' 3
    let x_1083 ← index w 12
    let bbb' ← indexSet bbb' 0 (((x_1079 + (x_1080 ^^^ (x_1081 ||| (~~~x_1082)))) + x_1083) + 0x50a28be6#32)
    let x_1085 ← index bbb' 0
    let x_1086 ← index bbb' 4
    let bbb' ← indexSet bbb' 0 ((x_1085.rotateLeft 6) + x_1086)
    let x_1088 ← index bbb' 2
    let bbb' ← indexSet bbb' 2 (x_1088.rotateLeft 10)
    pure (bb', bbb')

/-- round!(bbb[<expr>], bbb[<expr>], bbb[<expr>], bbb[<expr>], bbb[<expr>], <expr>[<expr>], <expr>, 0x5c4dd124,(bbb[<expr>] & bbb[<expr>]) |(bbb[<expr>] & ! bbb[<expr>])) -/
def Engine.process_block_fast.line1_96 (cfg : Cfg) (w : List (BitVec 32)) : Engine.process_block_fast.State1 → Res Engine.process_block_fast.State1 :=
  fun (bb', bbb') => do
    let x_1090 ← index bbb' 4
    let x_1091 ← index bbb' 0
    let x_1092 ← index bbb' 2
    let x_1093 ← index bbb' 1
    let x_1094 ← index bbb' 2
    let x_1095 ← index w 6
    let bbb' ← indexSet bbb' 4 (((x_1090 + ((x_1091 &&& x_1092) ||| (x_1093 &&& (~~~x_1094)))) + x_1095) + 0x5c4dd124#32)
    let x_1097 ← index bbb' 4
    let x_1098 ← index bbb' 3
    let bbb' ← indexSet bbb' 4 ((x_1097.rotateLeft 9) + x_1098)
    let x_1100 ← index bbb' 1
    let bbb' ← indexSet bbb' 1 (x_1100.rotateLeft 10)
    pure (bb', bbb')

/-- round!(bbb[<expr>], bbb[<expr>], bbb[<expr>], bbb[<expr>], bbb[<expr>], <expr>[<expr>], <expr>, 0x5c4dd124,(bbb[<expr>] & bbb[<expr>]) |(bbb[<expr>] & ! bbb[<expr>])) -/
def Engine.process_block_fast.line1_97 (cfg : Cfg) (w : List (BitVec 32)) : Engine.process_block_fast.State1 → Res Engine.process_block_fast.State1 :=
  fun (bb', bbb') => do
    let x_1102 ← index bbb' 3
    let x_1103 ← index bbb' 4
    let x_1104 ← index bbb' 1
    let x_1105 ← index bbb' 0
    let x_1106 ← index bbb' 1
    let x_1107 ← index w 11
    let bbb' ← indexSet bbb' 3 (((x_1102 + ((x_1103 &&& x_1104) ||| (x_1105 &&& (~~~x_1106)))) + x_1107) + 0x5c4dd124#32)
    let x_1109 ← index bbb' 3
    let x_1110 ← index bbb' 2
    let bbb' ← indexSet bbb' 3 ((x_1109.rotateLeft 13) + x_1110)
    let x_1112 ← index bbb' 0
    let bbb' ← indexSet bbb' 0 (x_1112.rotateLeft 10)
    pure (bb', bbb')

/-- round!(bbb[<expr>], bbb[<expr>], bbb[<expr>], bbb[<expr>], bbb[<expr>], <expr>[<expr>], <expr>, 0x5c4dd124,(bbb[<expr>] & bbb[<expr>]) |(bbb[<expr>] & ! bbb[<expr>])) -/
def Engine.process_block_fast.line1_98 (cfg : Cfg) (w : List (BitVec 32)) : Engine.process_block_fast.State1 → Res Engine.process_block_fast.State1 :=
  fun (bb', bbb') => do
    let x_1114 ← index bbb' 2
    let x_1115 ← index bbb' 3
    let x_1116 ← index bbb' 0
    let x_1117 ← index bbb' 4
    let x_1118 ← index bbb' 0
    let x_1119 ← index w 3
    let bbb' ← indexSet bbb' 2 (((x_1114 + ((x_1115 &&& x_1116) ||| (x_1117 &&& (~~~x_1118)))) + x_1119) + 0x5c4dd124#32)
    let x_1121 ← index bbb' 2
    let x_1122 ← index bbb' 1
    let bbb' ← indexSet bbb' 2 ((x_1121.rotateLeft 15) + x_1122)
    let x_1124 ← index bbb' 4
    let bbb' ← indexSet bbb' 4 (x_1124.rotateLeft 10)
    pure (bb', bbb')

/-- round!(bbb[<expr>], bbb[<expr>], bbb[<expr>], bbb[<expr>], bbb[<expr>], <expr>[<expr>], <expr>, 0x5c4dd124,(bbb[<expr>] & bbb[<expr>]) |(bbb[<expr>] & ! bbb[<expr>])) -/
def Engine.process_block_fast.line1_99 (cfg : Cfg) (w : List (BitVec 32)) : Engine.process_block_fast.State1 → Res Engine.process_block_fast.State1 :=
  fun (bb', bbb') => do
    let x_1126 ← index bbb' 1
    let x_1127 ← index bbb' 2
    let x_1128 ← index bbb' 4
    let x_1129 ← index bbb' 3
    let x_1130 ← index bbb' 4
    let x_1131 ← index w 7
    let bbb' ← indexSet bbb' 1 (((x_1126 + ((x_1127 &&& x_1128) ||| (x_1129 &&& (~~~x_1130)))) + x_1131) + 0x5c4dd124#32)
    let x_1133 ← index bbb' 1
    let x_1134 ← index bbb' 0
    let bbb' ← indexSet bbb' 1 ((x_1133.rotateLeft 7) + x_1134)
    let x_1136 ← index bbb' 3
    let bbb' ← indexSet bbb' 3 (x_1136.rotateLeft 10)
    pure (bb', bbb')

/-- round!(bbb[<expr>], bbb[<expr>], bbb[<expr>], bbb[<expr>], bbb[<expr>], <expr>[<expr>], <expr>, 0x5c4dd124,(bbb[<expr>] & bbb[<expr>]) |(bbb[<expr>] & ! bbb[<expr>])) -/
def Engine.process_block_fast.line1_100 (cfg : Cfg) (w : List (BitVec 32)) : Engine.process_block_fast.State1 → Res Engine.process_block_fast.State1 :=
  fun (bb', bbb') => do
    let x_1138 ← index bbb' 0
    let x_1139 ← index bbb' 1
    let x_1140 ← index bbb' 3
    let x_1141 ← index bbb' 2
    let x_1142 ← index bbb' 3
    let x_1143 ← index w 0
    let bbb' ← indexSet bbb' 0 (((x_1138 + ((x_1139 &&& x_1140) ||| (x_1141 &&& (~~~x_1142)))) + x_1143) + 0x5c4dd124#32)
    let x_1145 ← index bbb' 0
    let x_1146 ← index bbb' 4
    let bbb' ← indexSet bbb' 0 ((x_1145.rotateLeft 12) + x_1146)
    let x_1148 ← index bbb' 2
    let bbb' ← indexSet bbb' 2 (x_1148.rotateLeft 10)
    pure (bb', bbb')

/-- round!(bbb[<expr>], bbb[<expr>], bbb[<expr>], bbb[<expr>], bbb[<expr>], <expr>[<expr>], <expr>, 0x5c4dd124,(bbb[<expr>] & bbb[<expr>]) |(bbb[<expr>] & ! bbb[<expr>])) -/
def Engine.process_block_fast.line1_101 (cfg : Cfg) (w : List (BitVec 32)) : Engine.process_block_fast.State1 → Res Engine.process_block_fast.State1 :=
  fun (bb', bbb') => do
    let x_1150 ← index bbb' 4
    let x_1151 ← index bbb' 0
    let x_1152 ← index bbb' 2
    let x_1153 ← index bbb' 1
    let x_1154 ← index bbb' 2
    let x_1155 ← index w 13
    let bbb' ← indexSet bbb' 4 (((x_1150 + ((x_1151 &&& x_1152) ||| (x_1153 &&& (~~~x_1154)))) + x_1155) + 0x5c4dd124#32)
    let x_1157 ← index bbb' 4
    let x_1158 ← index bbb' 3
    let bbb' ← indexSet bbb' 4 ((x_1157.rotateLeft 8) + x_1158)
    let x_1160 ← index bbb' 1
    let bbb' ← indexSet bbb' 1 (x_1160.rotateLeft 10)
    pure (bb', bbb')

/-- round!(bbb[<expr>], bbb[<expr>], bbb[<expr>], bbb[<expr>], bbb[<expr>], <expr>[<expr>], <expr>, 0x5c4dd124,(bbb[<expr>] & bbb[<expr>]) |(bbb[<expr>] & ! bbb[<expr>])) -/
def Engine.process_block_fast.line1_102 (cfg : Cfg) (w : List (BitVec 32)) : Engine.process_block_fast.State1 → Res Engine.process_block_fast.State1 :=
  fun (bb', bbb') => do
    let x_1162 ← index bbb' 3
    let x_1163 ← index bbb' 4
    let x_1164 ← index bbb' 1
    let x_1165 ← index bbb' 0
    let x_1166 ← index bbb' 1
    let x_1167 ← index w 5
    let bbb' ← indexSet bbb' 3 (((x_1162 + ((x_1163 &&& x_1164) ||| (x_1165 &&& (~~~x_1166)))) + x_1167) + 0x5c4dd124#32)
    let x_1169 ← index bbb' 3
    let x_1170 ← index bbb' 2
    let bbb' ← indexSet bbb' 3 ((x_1169.rotateLeft 9) + x_1170)
    let x_1172 ← index bbb' 0
    let bbb' ← indexSet bbb' 0 (x_1172.rotateLeft 10)
    pure (bb', bbb')

/-- round!(bbb[<expr>], bbb[<expr>], bbb[<expr>], bbb[<expr>], bbb[<expr>], <expr>[<expr>], <expr>, 0x5c4dd124,(bbb[<expr>] & bbb[<expr>]) |(bbb[<expr>] & ! bbb[<expr>])) -/
def Engine.process_block_fast.line1_103 (cfg : Cfg) (w : List (BitVec 32)) : Engine.process_block_fast.State1 → Res Engine.process_block_fast.State1 :=
  fun (bb', bbb') => do
    let x_1174 ← index bbb' 2
    let x_1175 ← index bbb' 3
    let x_1176 ← index bbb' 0
    let x_1177 ← index bbb' 4
    let x_1178 ← index bbb' 0
    let x_1179 ← index w 10
    let bbb' ← indexSet bbb' 2 (((x_1174 + ((x_1175 &&& x_1176) ||| (x_1177 &&& (~~~x_1178)))) + x_1179) + 0x5c4dd124#32)
    let x_1181 ← index bbb' 2
    let x_1182 ← index bbb' 1
    let bbb' ← indexSet bbb' 2 ((x_1181.rotateLeft 11) + x_1182)
    let x_1184 ← index bbb' 4
    let bbb' ← indexSet bbb' 4 (x_1184.rotateLeft 10)
    pure (bb', bbb')

/-- round!(bbb[<expr>], bbb[<expr>], bbb[<expr>], bbb[<expr>], bbb[<expr>], <expr>[<expr>], <expr>, 0x5c4dd124,(bbb[<expr>] & bbb[<expr>]) |(bbb[<expr>] & ! bbb[<expr>])) -/
def Engine.process_block_fast.line1_104 (cfg : Cfg) (w : List (BitVec 32)) : Engine.process_block_fast.State1 → Res Engine.process_block_fast.State1 :=
  fun (bb', bbb') => do
    let x_1186 ← index bbb' 1
    let x_1187 ← index bbb' 2
    let x_1188 ← index bbb' 4
    let x_1189 ← index bbb' 3
    let x_1190 ← index bbb' 4
    let x_1191 ← index w 14
    let bbb' ← indexSet bbb' 1 (((x_1186 + ((x_1187 &&& x_1188) ||| (x_1189 &&& (~~~x_1190)))) + x_1191) + 0x5c4dd124#32)
    let x_1193 ← index bbb' 1
    let x_1194 ← index bbb' 0
    let bbb' ← indexSet bbb' 1 ((x_1193.rotateLeft 7) + x_1194)
    let x_1196 ← index bbb' 3
    let bbb' ← indexSet bbb' 3 (x_1196.rotateLeft 10)
    pure (bb', bbb')

/-- round!(bbb[<expr>], bbb[<expr>], bbb[<expr>], bbb[<expr>], bbb[<expr>], <expr>[<expr>], <expr>, 0x5c4dd124,(bbb[<expr>] & bbb[<expr>]) |(bbb[<expr>] & ! bbb[<expr>])) -/
def Engine.process_block_fast.line1_105 (cfg : Cfg) (w : List (BitVec 32)) : Engine.process_block_fast.State1 → Res Engine.process_block_fast.State1 :=
  fun (bb', bbb') => do
    let x_1198 ← index bbb' 0
    let x_1199 ← index bbb' 1
    let x_1200 ← index bbb' 3
    let x_1201 ← index bbb' 2
    let x_1202 ← index bbb' 3
    let x_1203 ← index w 15
    let bbb' ← indexSet bbb' 0 (((x_1198 + ((x_1199 &&& x_1200) ||| (x_1201 &&& (~~~x_1202)))) + x_1203) + 0x5c4dd124#32)
    let x_1205 ← index bbb' 0
    let x_1206 ← index bbb' 4
    let bbb' ← indexSet bbb' 0 ((x_1205.rotateLeft 7) + x_1206)
    let x_1208 ← index bbb' 2
    let bbb' ← indexSet bbb' 2 (x_1208.rotateLeft 10)
    pure (bb', bbb')

/-- round!(bbb[<expr>], bbb[<expr>], bbb[<expr>], bbb[<expr>], bbb[<expr>], <expr>[<expr>], <expr>, 0x5c4dd124,(bbb[<expr>] & bbb[<expr>]) |(bbb[<expr>] & ! bbb[<expr>])) -/
def Engine.process_block_fast.line1_106 (cfg : Cfg) (w : List (BitVec 32)) : Engine.process_block_fast.State1 → Res Engine.process_block_fast.State1 :=
  fun (bb', bbb') => do
    let x_1210 ← index bbb' 4
    let x_1211 ← index bbb' 0
    let x_1212 ← index bbb' 2
    let x_1213 ← index bbb' 1
    let x_1214 ← index bbb' 2
    let x_1215 ← index w 8
    let bbb' ← indexSet bbb' 4 (((x_1210 + ((x_1211 &&& x_1212) ||| (x_1213 &&& (~~~x_1214)))) + x_1215) + 0x5c4dd124#32)
    let x_1217 ← index bbb' 4
    let x_1218 ← index bbb' 3
    let bbb' ← indexSet bbb' 4 ((x_1217.rotateLeft 12) + x_1218)
    let x_1220 ← index bbb' 1
    let bbb' ← indexSet bbb' 1 (x_1220.rotateLeft 10)
    pure (bb', bbb')

/-- round!(bbb[<expr>], bbb[<expr>], bbb[<expr>], bbb[<expr>], bbb[<expr>], <expr>[<expr>], <expr>, 0x5c4dd124,(bbb[<expr>] & bbb[<expr>]) |(bbb[<expr>] & ! bbb[<expr>])) -/
def Engine.process_block_fast.line1_107 (cfg : Cfg) (w : List (BitVec 32)) : Engine.process_block_fast.State1 → Res Engine.process_block_fast.State1 :=
  fun (bb', bbb') => do
    let x_1222 ← index bbb' 3
    let x_1223 ← index bbb' 4
    let x_1224 ← index bbb' 1
    let x_1225 ← index bbb' 0
    let x_1226 ← index bbb' 1
    let x_1227 ← index w 12
    let bbb' ← indexSet bbb' 3 (((x_1222 + ((x_1223 &&& x_1224) ||| (x_1225 &&& (~~~x_1226)))) + x_1227) + 0x5c4dd124#32)
    let x_1229 ← index bbb' 3
    let x_1230 ← index bbb' 2
    let bbb' ← indexSet bbb' 3 ((x_1229.rotateLeft 7) + x_1230)
    let x_1232 ← index bbb' 0
    let bbb' ← indexSet bbb' 0 (x_1232.rotateLeft 10)
    pure (bb', bbb')

/-- round!(bbb[<expr>], bbb[<expr>], bbb[<expr>], bbb[<expr>], bbb[<expr>], <expr>[<expr>], <expr>, 0x5c4dd124,(bbb[<expr>] & bbb[<expr>]) |(bbb[<expr>] & ! bbb[<expr>])) -/
def Engine.process_block_fast.line1_108 (cfg : Cfg) (w : List (BitVec 32)) : Engine.process_block_fast.State1 → Res Engine.process_block_fast.State1 :=
  fun (bb', bbb') => do
    let x_1234 ← index bbb' 2
    let x_1235 ← index bbb' 3
    let x_1236 ← index bbb' 0
    let x_1237 ← index bbb' 4
    let x_1238 ← index bbb' 0
    let x_1239 ← index w 4
    let bbb' ← indexSet bbb' 2 (((x_1234 + ((x_1235 &&& x_1236) ||| (x_1237 &&& (~~~x_1238)))) + x_1239) + 0x5c4dd124#32)
    let x_1241 ← index bbb' 2
    let x_1242 ← index bbb' 1
    let bbb' ← indexSet bbb' 2 ((x_1241.rotateLeft 6) + x_1242)
    let x_1244 ← index bbb' 4
    let bbb' ← indexSet bbb' 4 (x_1244.rotateLeft 10)
    pure (bb', bbb')

/-- round!(bbb[<expr>], bbb[<expr>], bbb[<expr>], bbb[<expr>], bbb[<expr>], <expr>[<expr>], <expr>, 0x5c4dd124,(bbb[<expr>] & bbb[<expr>]) |(bbb[<expr>] & ! bbb[<expr>])) -/
def Engine.process_block_fast.line1_109 (cfg : Cfg) (w : List (BitVec 32)) : Engine.process_block_fast.State1 → Res Engine.process_block_fast.State1 :=
  fun (bb', bbb') => do
    let x_1246 ← index bbb' 1
    let x_1247 ← index bbb' 2
    let x_1248 ← index bbb' 4
    let x_1249 ← index bbb' 3
    let x_1250 ← index bbb' 4
    let x_1251 ← index w 9
    let bbb' ← indexSet bbb' 1 (((x_1246 + ((x_1247 &&& x_1248) ||| (x_1249 &&& (~~~x_1250)))) + x_1251) + 0x5c4dd124#32)
    let x_1253 ← index bbb' 1
    let x_1254 ← index bbb' 0
    let bbb' ← indexSet bbb' 1 ((x_1253.rotateLeft 15) + x_1254)
    let x_1256 ← index bbb' 3
    let bbb' ← indexSet bbb' 3 (x_1256.rotateLeft 10)
    pure (bb', bbb')

/-- round!(bbb[<expr>], bbb[<expr>], bbb[<expr>], bbb[<expr>], bbb[<expr>], <expr>[<expr>], <expr>, 0x5c4dd124,(bbb[<expr>] & bbb[<expr>]) |(bbb[<expr>] & ! bbb[<expr>])) -/
def Engine.process_block_fast.line1_110 (cfg : Cfg) (w : List (BitVec 32)) : Engine.process_block_fast.State1 → Res Engine.process_block_fast.State1 :=
  fun (bb', bbb') => do
    let x_1258 ← index bbb' 0
    let x_1259 ← index bbb' 1
    let x_1260 ← index bbb' 3
    let x_1261 ← index bbb' 2
    let x_1262 ← index bbb' 3
    let x_1263 ← index w 1
    let bbb' ← indexSet bbb' 0 (((x_1258 + ((x_1259 &&& x_1260) ||| (x_1261 &&& (~~~x_1262)))) + x_1263) + 0x5c4dd124#32)
    let x_1265 ← index bbb' 0
    let x_1266 ← index bbb' 4
    let bbb' ← indexSet bbb' 0 ((x_1265.rotateLeft 13) + x_1266)
    let x_1268 ← index bbb' 2
    let bbb' ← indexSet bbb' 2 (x_1268.rotateLeft 10)
    pure (bb', bbb')

/-- round!(bbb[<expr>], bbb[<expr>], bbb[<expr>], bbb[<expr>], bbb[<expr>], <expr>[<expr>], <expr>, 0x5c4dd124,(bbb[<expr>] & bbb[<expr>]) |(bbb[<expr>] & ! bbb[<expr>])) -/
def Engine.process_block_fast.line1_111 (cfg : Cfg) (w : List (BitVec 32)) : Engine.process_block_fast.State1 → Res Engine.process_block_fast.State1 :=
  fun (bb', bbb') => do
    let x_1270 ← index bbb' 4
    let x_1271 ← index bbb' 0
    let x_1272 ← index bbb' 2
    let x_1273 ← index bbb' 1
    let x_1274 ← index bbb' 2
    let x_1275 ← index w 2
    let bbb' ← indexSet bbb' 4 (((x_1270 + ((x_1271 &&& x_1272) ||| (x_1273 &&& (~~~x_1274)))) + x_1275) + 0x5c4dd124#32)
    let x_1277 ← index bbb' 4
    let x_1278 ← index bbb' 3
    let bbb' ← indexSet bbb' 4 ((x_1277.rotateLeft 11) + x_1278)
    let x_1280 ← index bbb' 1
    let bbb' ← indexSet bbb' 1 (x_1280.rotateLeft 10)
    pure (bb', bbb')

/-- round!(bbb[<expr>], bbb[<expr>], bbb[<expr>], bbb[<expr>], bbb[<expr>], <expr>[<expr>], <expr>, 0x6d703ef3,(bbb[<expr>] | ! bbb[<expr>]) ^ bbb[<expr>]) -/
def Engine.process_block_fast.line1_112 (cfg : Cfg) (w : List (BitVec 32)) : Engine.process_block_fast.State1 → Res Engine.process_block_fast.State1 :=
  fun (bb', bbb') => do
    let x_1282 ← index bbb' 3
    let x_1283 ← index bbb' 4
    let x_1284 ← index bbb' 0
    let x_1285 ← index bbb' 1
    let x_1286 ← index w 15
    let bbb' ← indexSet bbb' 3 (((x_1282 + ((x_1283 ||| (~~~x_1284)) ^^^ x_1285)) + x_1286) + 0x6d703ef3#32)
    let x_1288 ← index bbb' 3
    let x_1289 ← index bbb' 2
    let bbb' ← indexSet bbb' 3 ((x_1288.rotateLeft 9) + x_1289)
    let x_1291 ← index bbb' 0
    let bbb' ← indexSet bbb' 0 (x_1291.rotateLeft 10)
    pure (bb', bbb')

/-- round!(bbb[<expr>], bbb[<expr>], bbb[<expr>], bbb[<expr>], bbb[<expr>], <expr>[<expr>], <expr>, 0x6d703ef3,(bbb[<expr>] | ! bbb[<expr>]) ^ bbb[<expr>]) -/
def Engine.process_block_fast.line1_113 (cfg : Cfg) (w : List (BitVec 32)) : Engine.process_block_fast.State1 → Res Engine.process_block_fast.State1 :=
  fun (bb', bbb') => do
    let x_1293 ← index bbb' 2
    let x_1294 ← index bbb' 3
    let x_1295 ← index bbb' 4
    let x_1296 ← index bbb' 0
    let x_1297 ← index w 5
    let bbb' ← indexSet bbb' 2 (((x_1293 + ((x_1294 ||| (~~~x_1295)) ^^^ x_1296)) + x_1297) + 0x6d703ef3#32)
    let x_1299 ← index bbb' 2
    let x_1300 ← index bbb' 1
    let bbb' ← indexSet bbb' 2 ((x_1299.rotateLeft 7) + x_1300)
    let x_1302 ← index bbb' 4
    let bbb' ← indexSet bbb' 4 (x_1302.rotateLeft 10)
    pure (bb', bbb')

/-- round!(bbb[<expr>], bbb[<expr>], bbb[<expr>], bbb[<expr>], bbb[<expr>], <expr>[<expr>], <expr>, 0x6d703ef3,(bbb[<expr>] | ! bbb[<expr>]) ^ bbb[<expr>]) -/
def Engine.process_block_fast.line1_114 (cfg : Cfg) (w : List (BitVec 32)) : Engine.process_block_fast.State1 → Res Engine.process_block_fast.State1 :=
  fun (bb', bbb') => do
    let x_1304 ← index bbb' 1
    let x_1305 ← index bbb' 2
    let x_1306 ← index bbb' 3
    let x_1307 ← index bbb' 4
    let x_1308 ← index w 1
    let bbb' ← indexSet bbb' 1 (((x_1304 + ((x_1305 ||| (~~~x_1306)) ^^^ x_1307)) + x_1308) + 0x6d703ef3#32)
    let x_1310 ← index bbb' 1
    let x_1311 ← index bbb' 0
    let bbb' ← indexSet bbb' 1 ((x_1310.rotateLeft 15) + x_1311)
    let x_1313 ← index bbb' 3
    let bbb' ← indexSet bbb' 3 (x_1313.rotateLeft 10)
    pure (bb', bbb')

/-- round!(bbb[<expr>], bbb[<expr>], bbb[<expr>], bbb[<expr>], bbb[<expr>], <expr>[<expr>], <expr>, 0x6d703ef3,(bbb[<expr>] | ! bbb[<expr>]) ^ bbb[<expr>]) -/
def Engine.process_block_fast.line1_115 (cfg : Cfg) (w : List (BitVec 32)) : Engine.process_block_fast.State1 → Res Engine.process_block_fast.State1 :=
  fun (bb', bbb') => do
    let x_1315 ← index bbb' 0
    let x_1316 ← index bbb' 1
    let x_1317 ← index bbb' 2
    let x_1318 ← index bbb' 3
    let x_1319 ← index w 3
    let bbb' ← indexSet bbb' 0 (((x_1315 + ((x_1316 ||| (~~~x_1317)) ^^^ x_1318)) + x_1319) + 0x6d703ef3#32)
    let x_1321 ← index bbb' 0
    let x_1322 ← index bbb' 4
    let bbb' ← indexSet bbb' 0 ((x_1321.rotateLeft 11) + x_1322)
    let x_1324 ← index bbb' 2
    let bbb' ← indexSet bbb' 2 (x_1324.rotateLeft 10)
    pure (bb', bbb')

/-- round!(bbb[<expr>], bbb[<expr>], bbb[<expr>], bbb[<expr>], bbb[<expr>], <expr>[<expr>], <expr>, 0x6d703ef3,(bbb[<expr>] | ! bbb[<expr>]) ^ bbb[<expr>]) -/
def Engine.process_block_fast.line1_116 (cfg : Cfg) (w : List (BitVec 32)) : Engine.process_block_fast.State1 → Res Engine.process_block_fast.State1 :=
  fun (bb', bbb') => do
    let x_1326 ← index bbb' 4
    let x_1327 ← index bbb' 0
    let x_1328 ← index bbb' 1
    let x_1329 ← index bbb' 2
    let x_1330 ← index w 7
    let bbb' ← indexSet bbb' 4 (((x_1326 + ((x_1327 ||| (~~~x_1328)) ^^^ x_1329)) + x_1330) + 0x6d703ef3#32)
    let x_1332 ← index bbb' 4
    let x_1333 ← index bbb' 3
    let bbb' ← indexSet bbb' 4 ((x_1332.rotateLeft 8) + x_1333)
    let x_1335 ← index bbb' 1
    let bbb' ← indexSet bbb' 1 (x_1335.rotateLeft 10)
    pure (bb', bbb')

/-- round!(bbb[<expr>], bbb[<expr>], bbb[<expr>], bbb[<expr>], bbb[<expr>], <expr>[<expr>], <expr>, 0x6d703ef3,(bbb[<expr>] | ! bbb[<expr>]) ^ bbb[<expr>]) -/
def Engine.process_block_fast.line1_117 (cfg : Cfg) (w : List (BitVec 32)) : Engine.process_block_fast.State1 → Res Engine.process_block_fast.State1 :=
  fun (bb', bbb') => do
    let x_1337 ← index bbb' 3
    let x_1338 ← index bbb' 4
    let x_1339 ← index bbb' 0
    let x_1340 ← index bbb' 1
    let x_1341 ← index w 14
    let bbb' ← indexSet bbb' 3 (((x_1337 + ((x_1338 ||| (~~~x_1339)) ^^^ x_1340)) + x_1341) + 0x6d703ef3#32)
    let x_1343 ← index bbb' 3
    let x_1344 ← index bbb' 2
    let bbb' ← indexSet bbb' 3 ((x_1343.rotateLeft 6) + x_1344)
    let x_1346 ← index bbb' 0
    let bbb' ← indexSet bbb' 0 (x_1346.rotateLeft 10)
    pure (bb', bbb')

/-- round!(bbb[<expr>], bbb[<expr>], bbb[<expr>], bbb[<expr>], bbb[<expr>], <expr>[<expr>], <expr>, 0x6d703ef3,(bbb[<expr>] | ! bbb[<expr>]) ^ bbb[<expr>]) -/
def Engine.process_block_fast.line1_118 (cfg : Cfg) (w : List (BitVec 32)) : Engine.process_block_fast.State1 → Res Engine.process_block_fast.State1 :=
  fun (bb', bbb') => do
    let x_1348 ← index bbb' 2
    let x_1349 ← index bbb' 3
    let x_1350 ← index bbb' 4
    let x_1351 ← index bbb' 0
    let x_1352 ← index w 6
    let bbb' ← indexSet bbb' 2 (((x_1348 + ((x_1349 ||| (~~~x_1350)) ^^^ x_1351)) + x_1352) + 0x6d703ef3#32)
    let x_1354 ← index bbb' 2
    let x_1355 ← index bbb' 1
    let bbb' ← indexSet bbb' 2 ((x_1354.rotateLeft 6) + x_1355)
    let x_1357 ← index bbb' 4
    let bbb' ← indexSet bbb' 4 (x_1357.rotateLeft 10)
    pure (bb', bbb')

/-- round!(bbb[<expr>], bbb[<expr>], bbb[<expr>], bbb[<expr>], bbb[<expr>], <expr>[<expr>], <expr>, 0x6d703ef3,(bbb[<expr>] | ! bbb[<expr>]) ^ bbb[<expr>]) -/
def Engine.process_block_fast.line1_119 (cfg : Cfg) (w : List (BitVec 32)) : Engine.process_block_fast.State1 → Res Engine.process_block_fast.State1 :=
  fun (bb', bbb') => do
    let x_1359 ← index bbb' 1
    let x_1360 ← index bbb' 2
    let x_1361 ← index bbb' 3
    let x_1362 ← index bbb' 4
    let x_1363 ← index w 9
    let bbb' ← indexSet bbb' 1 (((x_1359 + ((x_1360 ||| (~~~x_1361)) ^^^ x_1362)) + x_1363) + 0x6d703ef3#32)
    let x_1365 ← index bbb' 1
    let x_1366 ← index bbb' 0
    let bbb' ← indexSet bbb' 1 ((x_1365.rotateLeft 14) + x_1366)
    let x_1368 ← index bbb' 3
    let bbb' ← indexSet bbb' 3 (x_1368.rotateLeft 10)
    pure (bb', bbb')

/-- round!(bbb[<expr>], bbb[<expr>], bbb[<expr>], bbb[<expr>], bbb[<expr>], <expr>[<expr>], <expr>, 0x6d703ef3,(bbb[<expr>] | ! bbb[<expr>]) ^ bbb[<expr>]) -/
def Engine.process_block_fast.line1_120 (cfg : Cfg) (w : List (BitVec 32)) : Engine.process_block_fast.State1 → Res Engine.process_block_fast.State1 :=
  fun (bb', bbb') => do
    let x_1370 ← index bbb' 0
    let x_1371 ← index bbb' 1
    let x_1372 ← index bbb' 2
    let x_1373 ← index bbb' 3
    let x_1374 ← index w 11
    let bbb' ← indexSet bbb' 0 (((x_1370 + ((x_1371 ||| (~~~x_1372)) ^^^ x_1373)) + x_1374) + 0x6d703ef3#32)
    let x_1376 ← index bbb' 0
    let x_1377 ← index bbb' 4
    let bbb' ← indexSet bbb' 0 ((x_1376.rotateLeft 12) + x_1377)
    let x_1379 ← index bbb' 2
    let bbb' ← indexSet bbb' 2 (x_1379.rotateLeft 10)
    pure (bb', bbb')

/-- round!(bbb[<expr>], bbb[<expr>], bbb[<expr>], bbb[<expr>], bbb[<expr>], <expr>[<expr>], <expr>, 0x6d703ef3,(bbb[<expr>] | ! bbb[<expr>]) ^ bbb[<expr>]) -/
def Engine.process_block_fast.line1_121 (cfg : Cfg) (w : List (BitVec 32)) : Engine.process_block_fast.State1 → Res Engine.process_block_fast.State1 :=
  fun (bb', bbb') => do
    let x_1381 ← index bbb' 4
    let x_1382 ← index bbb' 0
    let x_1383 ← index bbb' 1
    let x_1384 ← index bbb' 2
    let x_1385 ← index w 8
    let bbb' ← indexSet bbb' 4 (((x_1381 + ((x_1382 ||| (~~~x_1383)) ^^^ x_1384)) + x_1385) + 0x6d703ef3#32)
    let x_1387 ← index bbb' 4
    let x_1388 ← index bbb' 3
    let bbb' ← indexSet bbb' 4 ((x_1387.rotateLeft 13) + x_1388)
    let x_1390 ← index bbb' 1
    let bbb' ← indexSet bbb' 1 (x_1390.rotateLeft 10)
    pure (bb', bbb')

/-- round!(bbb[<expr>], bbb[<expr>], bbb[<expr>], bbb[<expr>], bbb[<expr>], <expr>[<expr>], <expr>, 0x6d703ef3,(bbb[<expr>] | ! bbb[<expr>]) ^ bbb[<expr>]) -/
def Engine.process_block_fast.line1_122 (cfg : Cfg) (w : List (BitVec 32)) : Engine.process_block_fast.State1 → Res Engine.process_block_fast.State1 :=
  fun (bb', bbb') => do
    let x_1392 ← index bbb' 3
    let x_1393 ← index bbb' 4
    let x_1394 ← index bbb' 0
    let x_1395 ← index bbb' 1
    let x_1396 ← index w 12
    let bbb' ← indexSet bbb' 3 (((x_1392 + ((x_1393 ||| (~~~x_1394)) ^^^ x_1395)) + x_1396) + 0x6d703ef3#32)
    let x_1398 ← index bbb' 3
    let x_1399 ← index bbb' 2
    let bbb' ← indexSet bbb' 3 ((x_1398.rotateLeft 5) + x_1399)
    let x_1401 ← index bbb' 0
    let bbb' ← indexSet bbb' 0 (x_1401.rotateLeft 10)
    pure (bb', bbb')

/-- round!(bbb[<expr>], bbb[<expr>], bbb[<expr>], bbb[<expr>], bbb[<expr>], <expr>[<expr>], <expr>, 0x6d703ef3,(bbb[<expr>] | ! bbb[<expr>]) ^ bbb[<expr>]) -/
def Engine.process_block_fast.line1_123 (cfg : Cfg) (w : List (BitVec 32)) : Engine.process_block_fast.State1 → Res Engine.process_block_fast.State1 :=
  fun (bb', bbb') => do
    let x_1403 ← index bbb' 2
    let x_1404 ← index bbb' 3
    let x_1405 ← index bbb' 4
    let x_1406 ← index bbb' 0
    let x_1407 ← index w 2
    let bbb' ← indexSet bbb' 2 (((x_1403 + ((x_1404 ||| (~~~x_1405)) ^^^ x_1406)) + x_1407) + 0x6d703ef3#32)
    let x_1409 ← index bbb' 2
    let x_1410 ← index bbb' 1
    let bbb' ← indexSet bbb' 2 ((x_1409.rotateLeft 14) + x_1410)
    let x_1412 ← index bbb' 4
    let bbb' ← indexSet bbb' 4 (x_1412.rotateLeft 10)
    pure (bb', bbb')

/-- round!(bbb[<expr>], bbb[<expr>], bbb[<expr>], bbb[<expr>], bbb[<expr>], <expr>[<expr>], <expr>, 0x6d703ef3,(bbb[<expr>] | ! bbb[<expr>]) ^ bbb[<expr>]) -/
def Engine.process_block_fast.line1_124 (cfg : Cfg) (w : List (BitVec 32)) : Engine.process_block_fast.State1 → Res Engine.process_block_fast.State1 :=
  fun (bb', bbb') => do
    let x_1414 ← index bbb' 1
    let x_1415 ← index bbb' 2
    let x_1416 ← index bbb' 3
    let x_1417 ← index bbb' 4
    let x_1418 ← index w 10
    let bbb' ← indexSet bbb' 1 (((x_1414 + ((x_1415 ||| (~~~x_1416)) ^^^ x_1417)) + x_1418) + 0x6d703ef3#32)
    let x_1420 ← index bbb' 1
    let x_1421 ← index bbb' 0
    let bbb' ← indexSet bbb' 1 ((x_1420.rotateLeft 13) + x_1421)
    let x_1423 ← index bbb' 3
    let bbb' ← indexSet bbb' 3 (x_1423.rotateLeft 10)
    pure (bb', bbb')

/-- round!(bbb[<expr>], bbb[<expr>], bbb[<expr>], bbb[<expr>], bbb[<expr>], <expr>[<expr>], <expr>, 0x6d703ef3,(bbb[<expr>] | ! bbb[<expr>]) ^ bbb[<expr>]) -/
def Engine.process_block_fast.line1_125 (cfg : Cfg) (w : List (BitVec 32)) : Engine.process_block_fast.State1 → Res Engine.process_block_fast.State1 :=
  fun (bb', bbb') => do
    let x_1425 ← index bbb' 0
    let x_1426 ← index bbb' 1
    let x_1427 ← index bbb' 2
    let x_1428 ← index bbb' 3
    let x_1429 ← index w 0
    let bbb' ← indexSet bbb' 0 (((x_1425 + ((x_1426 ||| (~~~x_1427)) ^^^ x_1428)) + x_1429) + 0x6d703ef3#32)
    let x_1431 ← index bbb' 0
    let x_1432 ← index bbb' 4
    let bbb' ← indexSet bbb' 0 ((x_1431.rotateLeft 13) + x_1432)
    let x_1434 ← index bbb' 2
    let bbb' ← indexSet bbb' 2 (x_1434.rotateLeft 10)
    pure (bb', bbb')

/-- round!(bbb[<expr>], bbb[<expr>], bbb[<expr>], bbb[<expr>], bbb[<expr>], <expr>[<expr>], <expr>, 0x6d703ef3,(bbb[<expr>] | ! bbb[<expr>]) ^ bbb[<expr>]) -/
def Engine.process_block_fast.line1_126 (cfg : Cfg) (w : List (BitVec 32)) : Engine.process_block_fast.State1 → Res Engine.process_block_fast.State1 :=
  fun (bb', bbb') => do
    let x_1436 ← index bbb' 4
    let x_1437 ← index bbb' 0
    let x_1438 ← index bbb' 1
    let x_1439 ← index bbb' 2
    let x_1440 ← index w 4
    let bbb' ← indexSet bbb' 4 (((x_1436 + ((x_1437 ||| (~~~x_1438)) ^^^ x_1439)) + x_1440) + 0x6d703ef3#32)
    let x_1442 ← index bbb' 4
    let x_1443 ← index bbb' 3
    let bbb' ← indexSet bbb' 4 ((x_1442.rotateLeft 7) + x_1443)
    let x_1445 ← index bbb' 1
    let bbb' ← indexSet bbb' 1 (x_1445.rotateLeft 10)
    pure (bb', bbb')

/-- round!(bbb[<expr>], bbb[<expr>], bbb[<expr>], bbb[<expr>], bbb[<expr>], <expr>[<expr>], <expr>, 0x6d703ef3,(bbb[<expr>] | ! bbb[<expr>]) ^ bbb[<expr>]) -/
def Engine.process_block_fast.line1_127 (cfg : Cfg) (w : List (BitVec 32)) : Engine.process_block_fast.State1 → Res Engine.process_block_fast.State1 :=
  fun (bb', bbb') => do
    let x_1447 ← index bbb' 3
    let x_1448 ← index bbb' 4
    let x_1449 ← index bbb' 0
    let x_1450 ← index bbb' 1
    let x_1451 ← index w 13
    let bbb' ← indexSet bbb' 3 (((x_1447 + ((x_1448 ||| (~~~x_1449)) ^^^ x_1450)) + x_1451) + 0x6d703ef3#32)
    let x_1453 ← index bbb' 3
    let x_1454 ← index bbb' 2
    let bbb' ← indexSet bbb' 3 ((x_1453.rotateLeft 5) + x_1454)
    let x_1456 ← index bbb' 0
    let bbb' ← indexSet bbb' 0 (x_1456.rotateLeft 10)
    pure (bb', bbb')

/-- round!(bbb[<expr>], bbb[<expr>], bbb[<expr>], bbb[<expr>], bbb[<expr>], <expr>[<expr>], <expr>, 0x7a6d76e9,(bbb[<expr>] & bbb[<expr>]) |(! bbb[<expr>] & bbb[<expr>])) -/
def Engine.process_block_fast.line1_128 (cfg : Cfg) (w : List (BitVec 32)) : Engine.process_block_fast.State1 → Res Engine.process_block_fast.State1 :=
  fun (bb', bbb') => do
    let x_1458 ← index bbb' 2
    let x_1459 ← index bbb' 3
    let x_1460 ← index bbb' 4
    let x_1461 ← index bbb' 3
    let x_1462 ← index bbb' 0
    let x_1463 ← index w 8
    let bbb' ← indexSet bbb' 2 (((x_1458 + ((x_1459 &&& x_1460) ||| ((~~~x_1461) &&& x_1462))) + x_1463) + 0x7a6d76e9#32)
    let x_1465 ← index bbb' 2
    let x_1466 ← index bbb' 1
    let bbb' ← indexSet bbb' 2 ((x_1465.rotateLeft 15) + x_1466)
    let x_1468 ← index bbb' 4
    let bbb' ← indexSet bbb' 4 (x_1468.rotateLeft 10)
    pure (bb', bbb')

/-- round!(bbb[<expr>], bbb[<expr>], bbb[<expr>], bbb[<expr>], bbb[<expr>], <expr>[<expr>], <expr>, 0x7a6d76e9,(bbb[<expr>] & bbb[<expr>]) |(! bbb[<expr>] & bbb[<expr>])) -/
def Engine.process_block_fast.line1_129 (cfg : Cfg) (w : List (BitVec 32)) : Engine.process_block_fast.State1 → Res Engine.process_block_fast.State1 :=
  fun (bb', bbb') => do
    let x_1470 ← index bbb' 1
    let x_1471 ← index bbb' 2
    let x_1472 ← index bbb' 3
    let x_1473 ← index bbb' 2
    let x_1474 ← index bbb' 4
    let x_1475 ← index w 6
    let bbb' ← indexSet bbb' 1 (((x_1470 + ((x_1471 &&& x_1472) ||| ((~~~x_1473) &&& x_1474))) + x_1475) + 0x7a6d76e9#32)
    let x_1477 ← index bbb' 1
    let x_1478 ← index bbb' 0
    let bbb' ← indexSet bbb' 1 ((x_1477.rotateLeft 5) + x_1478)
    let x_1480 ← index bbb' 3
    let bbb' ← indexSet bbb' 3 (x_1480.rotateLeft 10)
    pure (bb', bbb')

/-- round!(bbb[<expr>], bbb[<expr>], bbb[<expr>], bbb[<expr>], bbb[<expr>], <expr>[<expr>], <expr>, 0x7a6d76e9,(bbb[<expr>] & bbb[<expr>]) |(! bbb[<expr>] & bbb[<expr>])) -/
def Engine.process_block_fast.line1_130 (cfg : Cfg) (w : List (BitVec 32)) : Engine.process_block_fast.State1 → Res Engine.process_block_fast.State1 :=
  fun (bb', bbb') => do
    let x_1482 ← index bbb' 0
    let x_1483 ← index bbb' 1
    let x_1484 ← index bbb' 2
    let x_1485 ← index bbb' 1
    let x_1486 ← index bbb' 3
    let x_1487 ← index w 4
    let bbb' ← indexSet bbb' 0 (((x_1482 + ((x_1483 &&& x_1484) ||| ((~~~x_1485) &&& x_1486))) + x_1487) + 0x7a6d76e9#32)
    let x_1489 ← index bbb' 0
    let x_1490 ← index bbb' 4
    let bbb' ← indexSet bbb' 0 ((x_1489.rotateLeft 8) + x_1490)
    let x_1492 ← index bbb' 2
    let bbb' ← indexSet bbb' 2 (x_1492.rotateLeft 10)
    pure (bb', bbb')

/-- round!(bbb[<expr>], bbb[<expr>], bbb[<expr>], bbb[<expr>], bbb[<expr>], <expr>[<expr>], <expr>, 0x7a6d76e9,(bbb[<expr>] & bbb[<expr>]) |(! bbb[<expr>] & bbb[<expr>])) -/
def Engine.process_block_fast.line1_131 (cfg : Cfg) (w : List (BitVec 32)) : Engine.process_block_fast.State1 → Res Engine.process_block_fast.State1 :=
  fun (bb', bbb') => do
    let x_1494 ← index bbb' 4
    let x_1495 ← index bbb' 0
    let x_1496 ← index bbb' 1
    let x_1497 ← index bbb' 0
    let x_1498 ← index bbb' 2
    let x_1499 ← index w 1
    let bbb' ← indexSet bbb' 4 (((x_1494 + ((x_1495 &&& x_1496) ||| ((~~~x_1497) &&& x_1498))) + x_1499) + 0x7a6d76e9#32)
    let x_1501 ← index bbb' 4
    let x_1502 ← index bbb' 3
    let bbb' ← indexSet bbb' 4 ((x_1501.rotateLeft 11) + x_1502)
    let x_1504 ← index bbb' 1
    let bbb' ← indexSet bbb' 1 (x_1504.rotateLeft 10)
    pure (bb', bbb')

/-- round!(bbb[<expr>], bbb[<expr>], bbb[<expr>], bbb[<expr>], bbb[<expr>], <expr>[<expr>], <expr>, 0x7a6d76e9,(bbb[<expr>] & bbb[<expr>]) |(! bbb[<expr>] & bbb[<expr>])) -/
def Engine.process_block_fast.line1_132 (cfg : Cfg) (w : List (BitVec 32)) : Engine.process_block_fast.State1 → Res Engine.process_block_fast.State1 :=
  fun (bb', bbb') => do
    let x_1506 ← index bbb' 3
    let x_1507 ← index bbb' 4
    let x_1508 ← index bbb' 0
    let x_1509 ← index bbb' 4
    let x_1510 ← index bbb' 1
    let x_1511 ← index w 3
    let bbb' ← indexSet bbb' 3 (((x_1506 + ((x_1507 &&& x_1508) ||| ((~~~x_1509) &&& x_1510))) + x_1511) + 0x7a6d76e9#32)
    let x_1513 ← index bbb' 3
    let x_1514 ← index bbb' 2
    let bbb' ← indexSet bbb' 3 ((x_1513.rotateLeft 14) + x_1514)
    let x_1516 ← index bbb' 0
    let bbb' ← indexSet bbb' 0 (x_1516.rotateLeft 10)
    pure (bb', bbb')

/-- round!(bbb[<expr>], bbb[<expr>], bbb[<expr>], bbb[<expr>], bbb[<expr>], <expr>[<expr>], <expr>, 0x7a6d76e9,(bbb[<expr>] & bbb[<expr>]) |(! bbb[<expr>] & bbb[<expr>])) -/
def Engine.process_block_fast.line1_133 (cfg : Cfg) (w : List (BitVec 32)) : Engine.process_block_fast.State1 → Res Engine.process_block_fast.State1 :=
  fun (bb', bbb') => do
    let x_1518 ← index bbb' 2
    let x_1519 ← index bbb' 3
    let x_1520 ← index bbb' 4
    let x_1521 ← index bbb' 3
    let x_1522 ← index bbb' 0
    let x_1523 ← index w 11
    let bbb' ← indexSet bbb' 2 (((x_1518 + ((x_1519 &&& x_1520) ||| ((~~~x_1521) &&& x_1522))) + x_1523) + 0x7a6d76e9#32)
    let x_1525 ← index bbb' 2
    let x_1526 ← index bbb' 1
    let bbb' ← indexSet bbb' 2 ((x_1525.rotateLeft 14) + x_1526)
    let x_1528 ← index bbb' 4
    let bbb' ← indexSet bbb' 4 (x_1528.rotateLeft 10)
    pure (bb', bbb')

/-- round!(bbb[<expr>], bbb[<expr>], bbb[<expr>], bbb[<expr>], bbb[<expr>], <expr>[<expr>], <expr>, 0x7a6d76e9,(bbb[<expr>] & bbb[<expr>]) |(! bbb[<expr>] & bbb[<expr>])) -/
def Engine.process_block_fast.line1_134 (cfg : Cfg) (w : List (BitVec 32)) : Engine.process_block_fast.State1 → Res Engine.process_block_fast.State1 :=
  fun (bb', bbb') => do
    let x_1530 ← index bbb' 1
    let x_1531 ← index bbb' 2
    let x_1532 ← index bbb' 3
    let x_1533 ← index bbb' 2
    let x_1534 ← index bbb' 4
    let x_1535 ← index w 15
    let bbb' ← indexSet bbb' 1 (((x_1530 + ((x_1531 &&& x_1532) ||| ((~~~x_1533) &&& x_1534))) + x_1535) + 0x7a6d76e9#32)
    let x_1537 ← index bbb' 1
    let x_1538 ← index bbb' 0
    let bbb' ← indexSet bbb' 1 ((x_1537.rotateLeft 6) + x_1538)
    let x_1540 ← index bbb' 3
    let bbb' ← indexSet bbb' 3 (x_1540.rotateLeft 10)
    pure (bb', bbb')

/-- round!(bbb[<expr>], bbb[<expr>], bbb[<expr>], bbb[<expr>], bbb[<expr>], <expr>[<expr>], <expr>, 0x7a6d76e9,(bbb[<expr>] & bbb[<expr>]) |(! bbb[<expr>] & bbb[<expr>])) -/
def Engine.process_block_fast.line1_135 (cfg : Cfg) (w : List (BitVec 32)) : Engine.process_block_fast.State1 → Res Engine.process_block_fast.State1 :=
  fun (bb', bbb') => do
    let x_1542 ← index bbb' 0
    let x_1543 ← index bbb' 1
    let x_1544 ← index bbb' 2
    let x_1545 ← index bbb' 1
    let x_1546 ← index bbb' 3
    let x_1547 ← index w 0
    let bbb' ← indexSet bbb' 0 (((x_1542 + ((x_1543 &&& x_1544) ||| ((~~~x_1545) &&& x_1546))) + x_1547) + 0x7a6d76e9#32)
    let x_1549 ← index bbb' 0
    let x_1550 ← index bbb' 4
    let bbb' ← indexSet bbb' 0 ((x_1549.rotateLeft 14) + x_1550)
    let x_1552 ← index bbb' 2
    let bbb' ← indexSet bbb' 2 (x_1552.rotateLeft 10)
    pure (bb', bbb')

/-- round!(bbb[<expr>], bbb[<expr>], bbb[<expr>], bbb[<expr>], bbb[<expr>], <expr>[<expr>], <expr>, 0x7a6d76e9,(bbb[<expr>] & bbb[<expr>]) |(! bbb[<expr>] & bbb[<expr>])) -/
def Engine.process_block_fast.line1_136 (cfg : Cfg) (w : List (BitVec 32)) : Engine.process_block_fast.State1 → Res Engine.process_block_fast.State1 :=
  fun (bb', bbb') => do
    let x_1554 ← index bbb' 4
    let x_1555 ← index bbb' 0
    let x_1556 ← index bbb' 1
    let x_1557 ← index bbb' 0
    let x_1558 ← index bbb' 2
    let x_1559 ← index w 5
    let bbb' ← indexSet bbb' 4 (((x_1554 + ((x_1555 &&& x_1556) ||| ((~~~x_1557) &&& x_1558))) + x_1559) + 0x7a6d76e9#32)
    let x_1561 ← index bbb' 4
    let x_1562 ← index bbb' 3
    let bbb' ← indexSet bbb' 4 ((x_1561.rotateLeft 6) + x_1562)
    let x_1564 ← index bbb' 1
    let bbb' ← indexSet bbb' 1 (x_1564.rotateLeft 10)
    pure (bb', bbb')

/-- round!(bbb[<expr>], bbb[<expr>], bbb[<expr>], bbb[<expr>], bbb[<expr>], <expr>[<expr>], <expr>, 0x7a6d76e9,(bbb[<expr>] & bbb[<expr>]) |(! bbb[<expr>] & bbb[<expr>])) -/
def Engine.process_block_fast.line1_137 (cfg : Cfg) (w : List (BitVec 32)) : Engine.process_block_fast.State1 → Res Engine.process_block_fast.State1 :=
  fun (bb', bbb') => do
    let x_1566 ← index bbb' 3
    let x_1567 ← index bbb' 4
    let x_1568 ← index bbb' 0
    let x_1569 ← index bbb' 4
    let x_1570 ← index bbb' 1
    let x_1571 ← index w 12
    let bbb' ← indexSet bbb' 3 (((x_1566 + ((x_1567 &&& x_1568) ||| ((~~~x_1569) &&& x_1570))) + x_1571) + 0x7a6d76e9#32)
    let x_1573 ← index bbb' 3
    let x_1574 ← index bbb' 2
    let bbb' ← indexSet bbb' 3 ((x_1573.rotateLeft 9) + x_1574)
    let x_1576 ← index bbb' 0
    let bbb' ← indexSet bbb' 0 (x_1576.rotateLeft 10)
    pure (bb', bbb')

/-- round!(bbb[<expr>], bbb[<expr>], bbb[<expr>], bbb[<expr>], bbb[<expr>], <expr>[<expr>], <expr>, 0x7a6d76e9,(bbb[<expr>] & bbb[<expr>]) |(! bbb[<expr>] & bbb[<expr>])) -/
def Engine.process_block_fast.line1_138 (cfg : Cfg) (w : List (BitVec 32)) : Engine.process_block_fast.State1 → Res Engine.process_block_fast.State1 :=
  fun (bb', bbb') => do
    let x_1578 ← index bbb' 2
    let x_1579 ← index bbb' 3
    let x_1580 ← index bbb' 4
    let x_1581 ← index bbb' 3
    let x_1582 ← index bbb' 0
    let x_1583 ← index w 2
    let bbb' ← indexSet bbb' 2 (((x_1578 + ((x_1579 &&& x_1580) ||| ((~~~x_1581) &&& x_1582))) + x_1583) + 0x7a6d76e9#32)
    let x_1585 ← index bbb' 2
    let x_1586 ← index bbb' 1
    let bbb' ← indexSet bbb' 2 ((x_1585.rotateLeft 12) + x_1586)
    let x_1588 ← index bbb' 4
    let bbb' ← indexSet bbb' 4 (x_1588.rotateLeft 10)
    pure (bb', bbb')

/-- round!(bbb[<expr>], bbb[<expr>], bbb[<expr>], bbb[<expr>], bbb[<expr>], <expr>[<expr>], <expr>, 0x7a6d76e9,(bbb[<expr>] & bbb[<expr>]) |(! bbb[<expr>] & bbb[<expr>])) -/
def Engine.process_block_fast.line1_139 (cfg : Cfg) (w : List (BitVec 32)) : Engine.process_block_fast.State1 → Res Engine.process_block_fast.State1 :=
  fun (bb', bbb') => do
    let x_1590 ← index bbb' 1
    let x_1591 ← index bbb' 2
    let x_1592 ← index bbb' 3
    let x_1593 ← index bbb' 2
    let x_1594 ← index bbb' 4
    let x_1595 ← index w 13
    let bbb' ← indexSet bbb' 1 (((x_1590 + ((x_1591 &&& x_1592) ||| ((~~~x_1593) &&& x_1594))) + x_1595) + 0x7a6d76e9#32)
    let x_1597 ← index bbb' 1
    let x_1598 ← index bbb' 0
    let bbb' ← indexSet bbb' 1 ((x_1597.rotateLeft 9) + x_1598)
    let x_1600 ← index bbb' 3
    let bbb' ← indexSet bbb' 3 (x_1600.rotateLeft 10)
    pure (bb', bbb')

/-- round!(bbb[<expr>], bbb[<expr>], bbb[<expr>], bbb[<expr>], bbb[<expr>], <expr>[<expr>], <expr>, 0x7a6d76e9,(bbb[<expr>] & bbb[<expr>]) |(! bbb[<expr>] & bbb[<expr>])) -/
def Engine.process_block_fast.line1_140 (cfg : Cfg) (w : List (BitVec 32)) : Engine.process_block_fast.State1 → Res Engine.process_block_fast.State1 :=
  fun (bb', bbb') => do
    let x_1602 ← index bbb' 0
    let x_1603 ← index bbb' 1
    let x_1604 ← index bbb' 2
    let x_1605 ← index bbb' 1
    let x_1606 ← index bbb' 3
    let x_1607 ← index w 9
    let bbb' ← indexSet bbb' 0 (((x_1602 + ((x_1603 &&& x_1604) ||| ((~~~x_1605) &&& x_1606))) + x_1607) + 0x7a6d76e9#32)
    let x_1609 ← index bbb' 0
    let x_1610 ← index bbb' 4
    let bbb' ← indexSet bbb' 0 ((x_1609.rotateLeft 12) + x_1610)
    let x_1612 ← index bbb' 2
    let bbb' ← indexSet bbb' 2 (x_1612.rotateLeft 10)
    pure (bb', bbb')

/-- round!(bbb[<expr>], bbb[<expr>], bbb[<expr>], bbb[<expr>], bbb[<expr>], <expr>[<expr>], <expr>, 0x7a6d76e9,(bbb[<expr>] & bbb[<expr>]) |(! bbb[<expr>] & bbb[<expr>])) -/
def Engine.process_block_fast.line1_141 (cfg : Cfg) (w : List (BitVec 32)) : Engine.process_block_fast.State1 → Res Engine.process_block_fast.State1 :=
  fun (bb', bbb') => do
    let x_1614 ← index bbb' 4
    let x_1615 ← index bbb' 0
    let x_1616 ← index bbb' 1
    let x_1617 ← index bbb' 0
    let x_1618 ← index bbb' 2
    let x_1619 ← index w 7
    let bbb' ← indexSet bbb' 4 (((x_1614 + ((x_1615 &&& x_1616) ||| ((~~~x_1617) &&& x_1618))) + x_1619) + 0x7a6d76e9#32)
    let x_1621 ← index bbb' 4
    let x_1622 ← index bbb' 3
    let bbb' ← indexSet bbb' 4 ((x_1621.rotateLeft 5) + x_1622)
    let x_1624 ← index bbb' 1
    let bbb' ← indexSet bbb' 1 (x_1624.rotateLeft 10)
    pure (bb', bbb')

/-- round!(bbb[<expr>], bbb[<expr>], bbb[<expr>], bbb[<expr>], bbb[<expr>], <expr>[<expr>], <expr>, 0x7a6d76e9,(bbb[<expr>] & bbb[<expr>]) |(! bbb[<expr>] & bbb[<expr>])) -/
def Engine.process_block_fast.line1_142 (cfg : Cfg) (w : List (BitVec 32)) : Engine.process_block_fast.State1 → Res Engine.process_block_fast.State1 :=
  fun (bb', bbb') => do
    let x_1626 ← index bbb' 3
    let x_1627 ← index bbb' 4
    let x_1628 ← index bbb' 0
    let x_1629 ← index bbb' 4
    let x_1630 ← index bbb' 1
    let x_1631 ← index w 10
    let bbb' ← indexSet bbb' 3 (((x_1626 + ((x_1627 &&& x_1628) ||| ((~~~x_1629) &&& x_1630))) + x_1631) + 0x7a6d76e9#32)
    let x_1633 ← index bbb' 3
    let x_1634 ← index bbb' 2
    let bbb' ← indexSet bbb' 3 ((x_1633.rotateLeft 15) + x_1634)
    let x_1636 ← index bbb' 0
    let bbb' ← indexSet bbb' 0 (x_1636.rotateLeft 10)
    pure (bb', bbb')

/-- round!(bbb[<expr>], bbb[<expr>], bbb[<expr>], bbb[<expr>], bbb[<expr>], <expr>[<expr>], <expr>, 0x7a6d76e9,(bbb[<expr>] & bbb[<expr>]) |(! bbb[<expr>] & bbb[<expr>])) -/
def Engine.process_block_fast.line1_143 (cfg : Cfg) (w : List (BitVec 32)) : Engine.process_block_fast.State1 → Res Engine.process_block_fast.State1 :=
  fun (bb', bbb') => do
    let x_1638 ← index bbb' 2
    let x_1639 ← index bbb' 3
    let x_1640 ← index bbb' 4
    let x_1641 ← index bbb' 3
    let x_1642 ← index bbb' 0
    let x_1643 ← index w 14
    let bbb' ← indexSet bbb' 2 (((x_1638 + ((x_1639 &&& x_1640) ||| ((~~~x_1641) &&& x_1642))) + x_1643) + 0x7a6d76e9#32)
    let x_1645 ← index bbb' 2
    let x_1646 ← index bbb' 1
    let bbb' ← indexSet bbb' 2 ((x_1645.rotateLeft 8) + x_1646)
    let x_1648 ← index bbb' 4
    let bbb' ← indexSet bbb' 4 (x_1648.rotateLeft 10)
    pure (bb', bbb')

/-- round!(bbb[<expr>], bbb[<expr>], bbb[<expr>], bbb[<expr>], bbb[<expr>], <expr>[<expr>], <expr>, 0x00000000, bbb[<expr>] ^ bbb[<expr>] ^ bbb[<expr>]) -/
def Engine.process_block_fast.line1_144 (cfg : Cfg) (w : List (BitVec 32)) : Engine.process_block_fast.State1 → Res Engine.process_block_fast.State1 :=
  fun (bb', bbb') => do
    let x_1650 ← index bbb' 1
    let x_1651 ← index bbb' 2
    let x_1652 ← index bbb' 3
    let x_1653 ← index bbb' 4
    let x_1654 ← index w 12
    let bbb' ← indexSet bbb' 1 (((x_1650 + ((x_1651 ^^^ x_1652) ^^^ x_1653)) + x_1654) + 0x00000000#32)
    let x_1656 ← index bbb' 1
    let x_1657 ← index bbb' 0
    let bbb' ← indexSet bbb' 1 ((x_1656.rotateLeft 8) + x_1657)
    let x_1659 ← index bbb' 3
    let bbb' ← indexSet bbb' 3 (x_1659.rotateLeft 10)
    pure (bb', bbb')

/-- round!(bbb[<expr>], bbb[<expr>], bbb[<expr>], bbb[<expr>], bbb[<expr>], <expr>[<expr>], <expr>, 0x00000000, bbb[<expr>] ^ bbb[<expr>] ^ bbb[<expr>]) -/
def Engine.process_block_fast.line1_145 (cfg : Cfg) (w : List (BitVec 32)) : Engine.process_block_fast.State1 → Res Engine.process_block_fast.State1 :=
  fun (bb', bbb') => do
    let x_1661 ← index bbb' 0
    let x_1662 ← index bbb' 1
    let x_1663 ← index bbb' 2
    let x_1664 ← index bbb' 3
    let x_1665 ← index w 15
    let bbb' ← indexSet bbb' 0 (((x_1661 + ((x_1662 ^^^ x_1663) ^^^ x_1664)) + x_1665) + 0x00000000#32)
    let x_1667 ← index bbb' 0
    let x_1668 ← index bbb' 4
    let bbb' ← indexSet bbb' 0 ((x_1667.rotateLeft 5) + x_1668)
    let x_1670 ← index bbb' 2
    let bbb' ← indexSet bbb' 2 (x_1670.rotateLeft 10)
    pure (bb', bbb')

/-- round!(bbb[<expr>], bbb[<expr>], bbb[<expr>], bbb[<expr>], bbb[<expr>], <expr>[<expr>], <expr>, 0x00000000, bbb[<expr>] ^ bbb[<expr>] ^ bbb[<expr>]) -/
def Engine.process_block_fast.line1_146 (cfg : Cfg) (w : List (BitVec 32)) : Engine.process_block_fast.State1 → Res Engine.process_block_fast.State1 :=
  fun (bb', bbb') => do
    let x_1672 ← index bbb' 4
    let x_1673 ← index bbb' 0
    let x_1674 ← index bbb' 1
    let x_1675 ← index bbb' 2
    let x_1676 ← index w 10
    let bbb' ← indexSet bbb' 4 (((x_1672 + ((x_1673 ^^^ x_1674) ^^^ x_1675)) + x_1676) + 0x00000000#32)
    let x_1678 ← index bbb' 4
    let x_1679 ← index bbb' 3
    let bbb' ← indexSet bbb' 4 ((x_1678.rotateLeft 12) + x_1679)
    let x_1681 ← index bbb' 1
    let bbb' ← indexSet bbb' 1 (x_1681.rotateLeft 10)
    pure (bb', bbb')

/-- round!(bbb[<expr>], bbb[<expr>], bbb[<expr>], bbb[<expr>], bbb[<expr>], <expr>[<expr>], <expr>, 0x00000000, bbb[<expr>] ^ bbb[<expr>] ^ bbb[<expr>]) -/
def Engine.process_block_fast.line1_147 (cfg : Cfg) (w : List (BitVec 32)) : Engine.process_block_fast.State1 → Res Engine.process_block_fast.State1 :=
  fun (bb', bbb') => do
    let x_1683 ← index bbb' 3
    let x_1684 ← index bbb' 4
    let x_1685 ← index bbb' 0
    let x_1686 ← index bbb' 1
    let x_1687 ← index w 4
    let bbb' ← indexSet bbb' 3 (((x_1683 + ((x_1684 ^^^ x_1685) ^^^ x_1686)) + x_1687) + 0x00000000#32)
    let x_1689 ← index bbb' 3
    let x_1690 ← index bbb' 2
    let bbb' ← indexSet bbb' 3 ((x_1689.rotateLeft 9) + x_1690)
    let x_1692 ← index bbb' 0
    let bbb' ← indexSet bbb' 0 (x_1692.rotateLeft 10)
    pure (bb', bbb')

/-- round!(bbb[<expr>], bbb[<expr>], bbb[<expr>], bbb[<expr>], bbb[<expr>], <expr>[<expr>], <expr>, 0x00000000, bbb[<expr>] ^ bbb[<expr>] ^ bbb[<expr>]) -/
def Engine.process_block_fast.line1_148 (cfg : Cfg) (w : List (BitVec 32)) : Engine.process_block_fast.State1 → Res Engine.process_block_fast.State1 :=
  fun (bb', bbb') => do
    let x_1694 ← index bbb' 2
    let x_1695 ← index bbb' 3
    let x_1696 ← index bbb' 4
    let x_1697 ← index bbb' 0
    let x_1698 ← index w 1
    let bbb' ← indexSet bbb' 2 (((x_1694 + ((x_1695 ^^^ x_1696) ^^^ x_1697)) + x_1698) + 0x00000000#32)
    let x_1700 ← index bbb' 2
    let x_1701 ← index bbb' 1
    let bbb' ← indexSet bbb' 2 ((x_1700.rotateLeft 12) + x_1701)
    let x_1703 ← index bbb' 4
    let bbb' ← indexSet bbb' 4 (x_1703.rotateLeft 10)
    pure (bb', bbb')

/-- round!(bbb[<expr>], bbb[<expr>], bbb[<expr>], bbb[<expr>], bbb[<expr>], <expr>[<expr>], <expr>, 0x00000000, bbb[<expr>] ^ bbb[<expr>] ^ bbb[<expr>]) -/
def Engine.process_block_fast.line1_149 (cfg : Cfg) (w : List (BitVec 32)) : Engine.process_block_fast.State1 → Res Engine.process_block_fast.State1 :=
  fun (bb', bbb') => do
    let x_1705 ← index bbb' 1
    let x_1706 ← index bbb' 2
    let x_1707 ← index bbb' 3
    let x_1708 ← index bbb' 4
    let x_1709 ← index w 5
    let bbb' ← indexSet bbb' 1 (((x_1705 + ((x_1706 ^^^ x_1707) ^^^ x_1708)) + x_1709) + 0x00000000#32)
    let x_1711 ← index bbb' 1
    let x_1712 ← index bbb' 0
    let bbb' ← indexSet bbb' 1 ((x_1711.rotateLeft 5) + x_1712)
    let x_1714 ← index bbb' 3
    let bbb' ← indexSet bbb' 3 (x_1714.rotateLeft 10)
    pure (bb', bbb')

/-- round!(bbb[<expr>], bbb[<expr>], bbb[<expr>], bbb[<expr>], bbb[<expr>], <expr>[<expr>], <expr>, 0x00000000, bbb[<expr>] ^ bbb[<expr>] ^ bbb[<expr>]) -/
def Engine.process_block_fast.line1_150 (cfg : Cfg) (w : List (BitVec 32)) : Engine.process_block_fast.State1 → Res Engine.process_block_fast.State1 :=
  fun (bb', bbb') => do
    let x_1716 ← index bbb' 0
    let x_1717 ← index bbb' 1
    let x_1718 ← index bbb' 2
    let x_1719 ← index bbb' 3
    let x_1720 ← index w 8
    let bbb' ← indexSet bbb' 0 (((x_1716 + ((x_1717 ^^^ x_1718) ^^^ x_1719)) + x_1720) + 0x00000000#32)
    let x_1722 ← index bbb' 0
    let x_1723 ← index bbb' 4
    let bbb' ← indexSet bbb' 0 ((x_1722.rotateLeft 14) + x_1723)
    let x_1725 ← index bbb' 2
    let bbb' ← indexSet bbb' 2 (x_1725.rotateLeft 10)
    pure (bb', bbb')

/-- round!(bbb[<expr>], bbb[<expr>], bbb[<expr>], bbb[<expr>], bbb[<expr>], <expr>[<expr>], <expr>, 0x00000000, bbb[<expr>] ^ bbb[<expr>] ^ bbb[<expr>]) -/
def Engine.process_block_fast.line1_151 (cfg : Cfg) (w : List (BitVec 32)) : Engine.process_block_fast.State1 → Res Engine.process_block_fast.State1 :=
  fun (bb', bbb') => do
    let x_1727 ← index bbb' 4
    let x_1728 ← index bbb' 0
    let x_1729 ← index bbb' 1
    let x_1730 ← index bbb' 2
    let x_1731 ← index w 7
    let bbb' ← indexSet bbb' 4 (((x_1727 + ((x_1728 ^^^ x_1729) ^^^ x_1730)) + x_1731) + 0x00000000#32)
    let x_1733 ← index bbb' 4
    let x_1734 ← index bbb' 3
    let bbb' ← indexSet bbb' 4 ((x_1733.rotateLeft 6) + x_1734)
    let x_1736 ← index bbb' 1
    let bbb' ← indexSet bbb' 1 (x_1736.rotateLeft 10)
    pure (bb', bbb')

/-- round!(bbb[<expr>], bbb[<expr>], bbb[<expr>], bbb[<expr>], bbb[<expr>], <expr>[<expr>], <expr>, 0x00000000, bbb[<expr>] ^ bbb[<expr>] ^ bbb[<expr>]) -/
def Engine.process_block_fast.line1_152 (cfg : Cfg) (w : List (BitVec 32)) : Engine.process_block_fast.State1 → Res Engine.process_block_fast.State1 :=
  fun (bb', bbb') => do
    let x_1738 ← index bbb' 3
    let x_1739 ← index bbb' 4
    let x_1740 ← index bbb' 0
    let x_1741 ← index bbb' 1
    let x_1742 ← index w 6
    let bbb' ← indexSet bbb' 3 (((x_1738 + ((x_1739 ^^^ x_1740) ^^^ x_1741)) + x_1742) + 0x00000000#32)
    let x_1744 ← index bbb' 3
    let x_1745 ← index bbb' 2
    let bbb' ← indexSet bbb' 3 ((x_1744.rotateLeft 8) + x_1745)
    let x_1747 ← index bbb' 0
    let bbb' ← indexSet bbb' 0 (x_1747.rotateLeft 10)
    pure (bb', bbb')

/-- round!(bbb[<expr>], bbb[<expr>], bbb[<expr>], bbb[<expr>], bbb[<expr>], <expr>[<expr>], <expr>, 0x00000000, bbb[<expr>] ^ bbb[<expr>] ^ bbb[<expr>]) -/
def Engine.process_block_fast.line1_153 (cfg : Cfg) (w : List (BitVec 32)) : Engine.process_block_fast.State1 → Res Engine.process_block_fast.State1 :=
  fun (bb', bbb') => do
    let x_1749 ← index bbb' 2
    let x_1750 ← index bbb' 3
    let x_1751 ← index bbb' 4
    let x_1752 ← index bbb' 0
    let x_1753 ← index w 2
    let bbb' ← indexSet bbb' 2 (((x_1749 + ((x_1750 ^^^ x_1751) ^^^ x_1752)) + x_1753) + 0x00000000#32)
    let x_1755 ← index bbb' 2
    let x_1756 ← index bbb' 1
    let bbb' ← indexSet bbb' 2 ((x_1755.rotateLeft 13) + x_1756)
    let x_1758 ← index bbb' 4
    let bbb' ← indexSet bbb' 4 (x_1758.rotateLeft 10)
    pure (bb', bbb')

/-- round!(bbb[<expr>], bbb[<expr>], bbb[<expr>], bbb[<expr>], bbb[<expr>], <expr>[<expr>], <expr>, 0x00000000, bbb[<expr>] ^ bbb[<expr>] ^ bbb[<expr>]) -/
def Engine.process_block_fast.line1_154 (cfg : Cfg) (w : List (BitVec 32)) : Engine.process_block_fast.State1 → Res Engine.process_block_fast.State1 :=
  fun (bb', bbb') => do
    let x_1760 ← index bbb' 1
    let x_1761 ← index bbb' 2
    let x_1762 ← index bbb' 3
    let x_1763 ← index bbb' 4
    let x_1764 ← index w 13
    let bbb' ← indexSet bbb' 1 (((x_1760 + ((x_1761 ^^^ x_1762) ^^^ x_1763)) + x_1764) + 0x00000000#32)
    let x_1766 ← index bbb' 1
    let x_1767 ← index bbb' 0
    let bbb' ← indexSet bbb' 1 ((x_1766.rotateLeft 6) + x_1767)
    let x_1769 ← index bbb' 3
    let bbb' ← indexSet bbb' 3 (x_1769.rotateLeft 10)
    pure (bb', bbb')

/-- round!(bbb[<expr>], bbb[<expr>], bbb[<expr>], bbb[<expr>], bbb[<expr>], <expr>[<expr>], <expr>, 0x00000000, bbb[<expr>] ^ bbb[<expr>] ^ bbb[<expr>]) -/
def Engine.process_block_fast.line1_155 (cfg : Cfg) (w : List (BitVec 32)) : Engine.process_block_fast.State1 → Res Engine.process_block_fast.State1 :=
  fun (bb', bbb') => do
    let x_1771 ← index bbb' 0
    let x_1772 ← index bbb' 1
    let x_1773 ← index bbb' 2
    let x_1774 ← index bbb' 3
    let x_1775 ← index w 14
    let bbb' ← indexSet bbb' 0 (((x_1771 + ((x_1772 ^^^ x_1773) ^^^ x_1774)) + x_1775) + 0x00000000#32)
    let x_1777 ← index bbb' 0
    let x_1778 ← index bbb' 4
    let bbb' ← indexSet bbb' 0 ((x_1777.rotateLeft 5) + x_1778)
    let x_1780 ← index bbb' 2
    let bbb' ← indexSet bbb' 2 (x_1780.rotateLeft 10)
    pure (bb', bbb')

/-- round!(bbb[<expr>], bbb[<expr>], bbb[<expr>], bbb[<expr>], bbb[<expr>], <expr>[<expr>], <expr>, 0x00000000, bbb[<expr>] ^ bbb[<expr>] ^ bbb[<expr>]) -/
def Engine.process_block_fast.line1_156 (cfg : Cfg) (w : List (BitVec 32)) : Engine.process_block_fast.State1 → Res Engine.process_block_fast.State1 :=
  fun (bb', bbb') => do
    let x_1782 ← index bbb' 4
    let x_1783 ← index bbb' 0
    let x_1784 ← index bbb' 1
    let x_1785 ← index bbb' 2
    let x_1786 ← index w 0
    let bbb' ← indexSet bbb' 4 (((x_1782 + ((x_1783 ^^^ x_1784) ^^^ x_1785)) + x_1786) + 0x00000000#32)
    let x_1788 ← index bbb' 4
    let x_1789 ← index bbb' 3
    let bbb' ← indexSet bbb' 4 ((x_1788.rotateLeft 15) + x_1789)
    let x_1791 ← index bbb' 1
    let bbb' ← indexSet bbb' 1 (x_1791.rotateLeft 10)
    pure (bb', bbb')

/-- round!(bbb[<expr>], bbb[<expr>], bbb[<expr>], bbb[<expr>], bbb[<expr>], <expr>[<expr>], <expr>, 0x00000000, bbb[<expr>] ^ bbb[<expr>] ^ bbb[<expr>]) -/
def Engine.process_block_fast.line1_157 (cfg : Cfg) (w : List (BitVec 32)) : Engine.process_block_fast.State1 → Res Engine.process_block_fast.State1 :=
  fun (bb', bbb') => do
    let x_1793 ← index bbb' 3
    let x_1794 ← index bbb' 4
    let x_1795 ← index bbb' 0
    let x_1796 ← index bbb' 1
    let x_1797 ← index w 3
    let bbb' ← indexSet bbb' 3 (((x_1793 + ((x_1794 ^^^ x_1795) ^^^ x_1796)) + x_1797) + 0x00000000#32)
    let x_1799 ← index bbb' 3
    let x_1800 ← index bbb' 2
    let bbb' ← indexSet bbb' 3 ((x_1799.rotateLeft 13) + x_1800)
    let x_1802 ← index bbb' 0
    let bbb' ← indexSet bbb' 0 (x_1802.rotateLeft 10)
    pure (bb', bbb')

/-- round!(bbb[<expr>], bbb[<expr>], bbb[<expr>], bbb[<expr>], bbb[<expr>], <expr>[<expr>], <expr>, 0x00000000, bbb[<expr>] ^ bbb[<expr>] ^ bbb[<expr>]) -/
def Engine.process_block_fast.line1_158 (cfg : Cfg) (w : List (BitVec 32)) : Engine.process_block_fast.State1 → Res Engine.process_block_fast.State1 :=
  fun (bb', bbb') => do
    let x_1804 ← index bbb' 2
    let x_1805 ← index bbb' 3
    let x_1806 ← index bbb' 4
    let x_1807 ← index bbb' 0
    let x_1808 ← index w 9
    let bbb' ← indexSet bbb' 2 (((x_1804 + ((x_1805 ^^^ x_1806) ^^^ x_1807)) + x_1808) + 0x00000000#32)
    let x_1810 ← index bbb' 2
    let x_1811 ← index bbb' 1
    let bbb' ← indexSet bbb' 2 ((x_1810.rotateLeft 11) + x_1811)
    let x_1813 ← index bbb' 4
    let bbb' ← indexSet bbb' 4 (x_1813.rotateLeft 10)
    pure (bb', bbb')

/-- round!(bbb[<expr>], bbb[<expr>], bbb[<expr>], bbb[<expr>], bbb[<expr>], <expr>[<expr>], <expr>, 0x00000000, bbb[<expr>] ^ bbb[<expr>] ^ bbb[<expr>]) -/
def Engine.process_block_fast.line1_159 (cfg : Cfg) (w : List (BitVec 32)) : Engine.process_block_fast.State1 → Res Engine.process_block_fast.State1 :=
  fun (bb', bbb') => do
    let x_1815 ← index bbb' 1
    let x_1816 ← index bbb' 2
    let x_1817 ← index bbb' 3
    let x_1818 ← index bbb' 4
    let x_1819 ← index w 11
    let bbb' ← indexSet bbb' 1 (((x_1815 + ((x_1816 ^^^ x_1817) ^^^ x_1818)) + x_1819) + 0x00000000#32)
    let x_1821 ← index bbb' 1
    let x_1822 ← index bbb' 0
    let bbb' ← indexSet bbb' 1 ((x_1821.rotateLeft 11) + x_1822)
    let x_1824 ← index bbb' 3
    let bbb' ← indexSet bbb' 3 (x_1824.rotateLeft 10)
    pure (bb', bbb')

/-- The 160 statements. -/
def Engine.process_block_fast.lines1 (cfg : Cfg) (w : List (BitVec 32)) : List (Engine.process_block_fast.State1 → Res Engine.process_block_fast.State1) := [
  Engine.process_block_fast.line1_0 cfg w,
  Engine.process_block_fast.line1_1 cfg w,
  Engine.process_block_fast.line1_2 cfg w,
  Engine.process_block_fast.line1_3 cfg w,
  Engine.process_block_fast.line1_4 cfg w,
  Engine.process_block_fast.line1_5 cfg w,
  Engine.process_block_fast.line1_6 cfg w,
  Engine.process_block_fast.line1_7 cfg w,
  Engine.process_block_fast.line1_8 cfg w,
  Engine.process_block_fast.line1_9 cfg w,
  Engine.process_block_fast.line1_10 cfg w,
  Engine.process_block_fast.line1_11 cfg w,
  Engine.process_block_fast.line1_12 cfg w,
  Engine.process_block_fast.line1_13 cfg w,
  Engine.process_block_fast.line1_14 cfg w,
  Engine.process_block_fast.line1_15 cfg w,
  Engine.process_block_fast.line1_16 cfg w,
  Engine.process_block_fast.line1_17 cfg w,
  Engine.process_block_fast.line1_18 cfg w,
  Engine.process_block_fast.line1_19 cfg w,
  Engine.process_block_fast.line1_20 cfg w,
  Engine.process_block_fast.line1_21 cfg w,
  Engine.process_block_fast.line1_22 cfg w,
  Engine.process_block_fast.line1_23 cfg w,
  Engine.process_block_fast.line1_24 cfg w,
  Engine.process_block_fast.line1_25 cfg w,
  Engine.process_block_fast.line1_26 cfg w,
  Engine.process_block_fast.line1_27 cfg w,
  Engine.process_block_fast.line1_28 cfg w,
  Engine.process_block_fast.line1_29 cfg w,
  Engine.process_block_fast.line1_30 cfg w,
  Engine.process_block_fast.line1_31 cfg w,
  Engine.process_block_fast.line1_32 cfg w,
  Engine.process_block_fast.line1_33 cfg w,
  Engine.process_block_fast.line1_34 cfg w,
  Engine.process_block_fast.line1_35 cfg w,
  Engine.process_block_fast.line1_36 cfg w,
  Engine.process_block_fast.line1_37 cfg w,
  Engine.process_block_fast.line1_38 cfg w,
  Engine.process_block_fast.line1_39 cfg w,
  Engine.process_block_fast.line1_40 cfg w,
  Engine.process_block_fast.line1_41 cfg w,
  Engine.process_block_fast.line1_42 cfg w,
  Engine.process_block_fast.line1_43 cfg w,
  Engine.process_block_fast.line1_44 cfg w,
  Engine.process_block_fast.line1_45 cfg w,
  Engine.process_block_fast.line1_46 cfg w,
  Engine.process_block_fast.line1_47 cfg w,
  Engine.process_block_fast.line1_48 cfg w,
  Engine.process_block_fast.line1_49 cfg w,
  Engine.process_block_fast.line1_50 cfg w,
  Engine.process_block_fast.line1_51 cfg w,
  Engine.process_block_fast.line1_52 cfg w,
  Engine.process_block_fast.line1_53 cfg w,
  Engine.process_block_fast.line1_54 cfg w,
  Engine.process_block_fast.line1_55 cfg w,
  Engine.process_block_fast.line1_56 cfg w,
  Engine.process_block_fast.line1_57 cfg w,
  Engine.process_block_fast.line1_58 cfg w,
  Engine.process_block_fast.line1_59 cfg w,
  Engine.process_block_fast.line1_60 cfg w,
  Engine.process_block_fast.line1_61 cfg w,
  Engine.process_block_fast.line1_62 cfg w,
  Engine.process_block_fast.line1_63 cfg w,
  Engine.process_block_fast.line1_64 cfg w,
  Engine.process_block_fast.line1_65 cfg w,
  Engine.process_block_fast.line1_66 cfg w,
  Engine.process_block_fast.line1_67 cfg w,
  Engine.process_block_fast.line1_68 cfg w,
  Engine.process_block_fast.line1_69 cfg w,
  Engine.process_block_fast.line1_70 cfg w,
  Engine.process_block_fast.line1_71 cfg w,
  Engine.process_block_fast.line1_72 cfg w,
  Engine.process_block_fast.line1_73 cfg w,
  Engine.process_block_fast.line1_74 cfg w,
  Engine.process_block_fast.line1_75 cfg w,
  Engine.process_block_fast.line1_76 cfg w,
  Engine.process_block_fast.line1_77 cfg w,
  Engine.process_block_fast.line1_78 cfg w,
  Engine.process_block_fast.line1_79 cfg w,
  Engine.process_block_fast.line1_80 cfg w,
  Engine.process_block_fast.line1_81 cfg w,
  Engine.process_block_fast.line1_82 cfg w,
  Engine.process_block_fast.line1_83 cfg w,
  Engine.process_block_fast.line1_84 cfg w,
  Engine.process_block_fast.line1_85 cfg w,
  Engine.process_block_fast.line1_86 cfg w,
  Engine.process_block_fast.line1_87 cfg w,
  Engine.process_block_fast.line1_88 cfg w,
  Engine.process_block_fast.line1_89 cfg w,
  Engine.process_block_fast.line1_90 cfg w,
  Engine.process_block_fast.line1_91 cfg w,
  Engine.process_block_fast.line1_92 cfg w,
  Engine.process_block_fast.line1_93 cfg w,
  Engine.process_block_fast.line1_94 cfg w,
  Engine.process_block_fast.line1_95 cfg w,
  Engine.process_block_fast.line1_96 cfg w,
  Engine.process_block_fast.line1_97 cfg w,
  Engine.process_block_fast.line1_98 cfg w,
  Engine.process_block_fast.line1_99 cfg w,
  Engine.process_block_fast.line1_100 cfg w,
  Engine.process_block_fast.line1_101 cfg w,
  Engine.process_block_fast.line1_102 cfg w,
  Engine.process_block_fast.line1_103 cfg w,
  Engine.process_block_fast.line1_104 cfg w,
  Engine.process_block_fast.line1_105 cfg w,
  Engine.process_block_fast.line1_106 cfg w,
  Engine.process_block_fast.line1_107 cfg w,
  Engine.process_block_fast.line1_108 cfg w,
  Engine.process_block_fast.line1_109 cfg w,
  Engine.process_block_fast.line1_110 cfg w,
  Engine.process_block_fast.line1_111 cfg w,
  Engine.process_block_fast.line1_112 cfg w,
  Engine.process_block_fast.line1_113 cfg w,
  Engine.process_block_fast.line1_114 cfg w,
  Engine.process_block_fast.line1_115 cfg w,
  Engine.process_block_fast.line1_116 cfg w,
  Engine.process_block_fast.line1_117 cfg w,
  Engine.process_block_fast.line1_118 cfg w,
  Engine.process_block_fast.line1_119 cfg w,
  Engine.process_block_fast.line1_120 cfg w,
  Engine.process_block_fast.line1_121 cfg w,
  Engine.process_block_fast.line1_122 cfg w,
  Engine.process_block_fast.line1_123 cfg w,
  Engine.process_block_fast.line1_124 cfg w,
  Engine.process_block_fast.line1_125 cfg w,
  Engine.process_block_fast.line1_126 cfg w,
  Engine.process_block_fast.line1_127 cfg w,
  Engine.process_block_fast.line1_128 cfg w,
  Engine.process_block_fast.line1_129 cfg w,
  Engine.process_block_fast.line1_130 cfg w,
  Engine.process_block_fast.line1_131 cfg w,
  Engine.process_block_fast.line1_132 cfg w,
  Engine.process_block_fast.line1_133 cfg w,
  Engine.process_block_fast.line1_134 cfg w,
  Engine.process_block_fast.line1_135 cfg w,
  Engine.process_block_fast.line1_136 cfg w,
  Engine.process_block_fast.line1_137 cfg w,
  Engine.process_block_fast.line1_138 cfg w,
  Engine.process_block_fast.line1_139 cfg w,
  Engine.process_block_fast.line1_140 cfg w,
  Engine.process_block_fast.line1_141 cfg w,
  Engine.process_block_fast.line1_142 cfg w,
  Engine.process_block_fast.line1_143 cfg w,
  Engine.process_block_fast.line1_144 cfg w,
  Engine.process_block_fast.line1_145 cfg w,
  Engine.process_block_fast.line1_146 cfg w,
  Engine.process_block_fast.line1_147 cfg w,
  Engine.process_block_fast.line1_148 cfg w,
  Engine.process_block_fast.line1_149 cfg w,
  Engine.process_block_fast.line1_150 cfg w,
  Engine.process_block_fast.line1_151 cfg w,
  Engine.process_block_fast.line1_152 cfg w,
  Engine.process_block_fast.line1_153 cfg w,
  Engine.process_block_fast.line1_154 cfg w,
  Engine.process_block_fast.line1_155 cfg w,
  Engine.process_block_fast.line1_156 cfg w,
  Engine.process_block_fast.line1_157 cfg w,
  Engine.process_block_fast.line1_158 cfg w,
  Engine.process_block_fast.line1_159 cfg w]

/-- `Engine::process_block`, ripemd160.rs 228-417, without feature `small-hash`. -/
def Engine.process_block_fast (cfg : Cfg) (self : Engine) : Res Engine := do
  debugAssert cfg (self.buffer.length == Ripemd160.BLOCK_SIZE)
  let w : List (BitVec 32) := List.replicate 16 0#32
  let w ← Rs.zipMut w (chunksExact 4 self.buffer) fun w_val buff_bytes => do
    let x_1 ← Rs.tryInto 4 buff_bytes
    let w_val := Rs.fromLeBytes 32 x_1
    pure w_val
  let bb' : List (BitVec 32) := self.h
  let bbb' : List (BitVec 32) := self.h
  let (bb', bbb') ← Rs.runLines (Engine.process_block_fast.lines1 cfg w) (bb', bbb')
  let x_1826 ← index bbb' 3
  let x_1827 ← index self.h 1
  let x_1828 ← index bb' 2
  let bbb' ← indexSet bbb' 3 ((x_1826 + x_1827) + x_1828)
  let x_1830 ← index self.h 2
  let x_1831 ← index bb' 3
  let x_1832 ← index bbb' 4
  let x_1833 ← indexSet self.h 1 ((x_1830 + x_1831) + x_1832)
  let self := { self with h := x_1833 }
  let x_1834 ← index self.h 3
  let x_1835 ← index bb' 4
  let x_1836 ← index bbb' 0
  let x_1837 ← indexSet self.h 2 ((x_1834 + x_1835) + x_1836)
  let self := { self with h := x_1837 }
  let x_1838 ← index self.h 4
  let x_1839 ← index bb' 0
  let x_1840 ← index bbb' 1
  let x_1841 ← indexSet self.h 3 ((x_1838 + x_1839) + x_1840)
  let self := { self with h := x_1841 }
  let x_1842 ← index self.h 0
  let x_1843 ← index bb' 1
  let x_1844 ← index bbb' 2
  let x_1845 ← indexSet self.h 4 ((x_1842 + x_1843) + x_1844)
  let self := { self with h := x_1845 }
  let x_1846 ← index bbb' 3
  let x_1847 ← indexSet self.h 0 x_1846
  let self := { self with h := x_1847 }
  pure self

/-- The variables bb', bbb' of `process_block`. -/
abbrev Engine.process_block_small.State1 := (List (BitVec 32)) × (List (BitVec 32))

/-- round!(bb[<expr>], bb[<expr>], bb[<expr>], bb[<expr>], bb[<expr>], <expr>[<expr>], <expr>, 0x00000000, bb[<expr>] ^ bb[<expr>] ^ bb[<expr>]) -/
def Engine.process_block_small.line1_0 (cfg : Cfg) (w : List (BitVec 32)) : Engine.process_block_small.State1 → Res Engine.process_block_small.State1 :=
  fun (bb', bbb') => do
    let x_2 ← index bb' 0
    let x_3 ← index bb' 1
    let x_4 ← index bb' 2
    let x_5 ← index bb' 3
    let x_6 ← index bb' 4
    let x_7 ← index w 0
    let x_8 ← index bb' 1
    let x_9 ← index bb' 2
    let x_10 ← index bb' 3
    let updates' := small_hash.round cfg x_2 x_3 x_4 x_5 x_6 x_7 11#32 0x00000000#32 ((x_8 ^^^ x_9) ^^^ x_10)
    let bb' ← indexSet bb' 0 updates'.1
    let bb' ← indexSet bb' 2 updates'.2
    pure (bb', bbb')

/-- round!(bb[<expr>], bb[<expr>], bb[<expr>], bb[<expr>], bb[<expr>], <expr>[<expr>], <expr>, 0x00000000, bb[<expr>] ^ bb[<expr>] ^ bb[<expr>]) -/
def Engine.process_block_small.line1_1 (cfg : Cfg) (w : List (BitVec 32)) : Engine.process_block_small.State1 → Res Engine.process_block_small.State1 :=
  fun (bb', bbb') => do
    let x_13 ← index bb' 4
    let x_14 ← index bb' 0
    let x_15 ← index bb' 1
    let x_16 ← index bb' 2
    let x_17 ← index bb' 3
    let x_18 ← index w 1
    let x_19 ← index bb' 0
    let x_20 ← index bb' 1
    let x_21 ← index bb' 2
    let updates' := small_hash.round cfg x_13 x_14 x_15 x_16 x_17 x_18 14#32 0x00000000#32 ((x_19 ^^^ x_20) ^^^ x_21)
    let bb' ← indexSet bb' 4 updates'.1
    let bb' ← indexSet bb' 1 updates'.2
    pure (bb', bbb')

/-- round!(bb[<expr>], bb[<expr>], bb[<expr>], bb[<expr>], bb[<expr>], <expr>[<expr>], <expr>, 0x00000000, bb[<expr>] ^ bb[<expr>] ^ bb[<expr>]) -/
def Engine.process_block_small.line1_2 (cfg : Cfg) (w : List (BitVec 32)) : Engine.process_block_small.State1 → Res Engine.process_block_small.State1 :=
  fun (bb', bbb') => do
    let x_24 ← index bb' 3
    let x_25 ← index bb' 4
    let x_26 ← index bb' 0
    let x_27 ← index bb' 1
    let x_28 ← index bb' 2
    let x_29 ← index w 2
    let x_30 ← index bb' 4
    let x_31 ← index bb' 0
    let x_32 ← index bb' 1
    let updates' := small_hash.round cfg x_24 x_25 x_26 x_27 x_28 x_29 15#32 0x00000000#32 ((x_30 ^^^ x_31) ^^^ x_32)
    let bb' ← indexSet bb' 3 updates'.1
    let bb' ← indexSet bb' 0 updates'.2
    pure (bb', bbb')

/-- round!(bb[<expr>], bb[<expr>], bb[<expr>], bb[<expr>], bb[<expr>], <expr>[<expr>], <expr>, 0x00000000, bb[<expr>] ^ bb[<expr>] ^ bb[<expr>]) -/
def Engine.process_block_small.line1_3 (cfg : Cfg) (w : List (BitVec 32)) : Engine.process_block_small.State1 → Res Engine.process_block_small.State1 :=
  fun (bb', bbb') => do
    let x_35 ← index bb' 2
    let x_36 ← index bb' 3
    let x_37 ← index bb' 4
    let x_38 ← index bb' 0
    let x_39 ← index bb' 1
    let x_40 ← index w 3
    let x_41 ← index bb' 3
    let x_42 ← index bb' 4
    let x_43 ← index bb' 0
    let updates' := small_hash.round cfg x_35 x_36 x_37 x_38 x_39 x_40 12#32 0x00000000#32 ((x_41 ^^^ x_42) ^^^ x_43)
    let bb' ← indexSet bb' 2 updates'.1
    let bb' ← indexSet bb' 4 updates'.2
    pure (bb', bbb')

/-- round!(bb[<expr>], bb[<expr>], bb[<expr>], bb[<expr>], bb[<expr>], <expr>[<expr>], <expr>, 0x00000000, bb[<expr>] ^ bb[<expr>] ^ bb[<expr>]) -/
def Engine.process_block_small.line1_4 (cfg : Cfg) (w : List (BitVec 32)) : Engine.process_block_small.State1 → Res Engine.process_block_small.State1 :=
  fun (bb', bbb') => do
    let x_46 ← index bb' 1
    let x_47 ← index bb' 2
    let x_48 ← index bb' 3
    let x_49 ← index bb' 4
    let x_50 ← index bb' 0
    let x_51 ← index w 4
    let x_52 ← index bb' 2
    let x_53 ← index bb' 3
    let x_54 ← index bb' 4
    let updates' := small_hash.round cfg x_46 x_47 x_48 x_49 x_50 x_51 5#32 0x00000000#32 ((x_52 ^^^ x_53) ^^^ x_54)
    let bb' ← indexSet bb' 1 updates'.1
    let bb' ← indexSet bb' 3 updates'.2
    pure (bb', bbb')

/-- round!(bb[<expr>], bb[<expr>], bb[<expr>], bb[<expr>], bb[<expr>], <expr>[<expr>], <expr>, 0x00000000, bb[<expr>] ^ bb[<expr>] ^ bb[<expr>]) -/
def Engine.process_block_small.line1_5 (cfg : Cfg) (w : List (BitVec 32)) : Engine.process_block_small.State1 → Res Engine.process_block_small.State1 :=
  fun (bb', bbb') => do
    let x_57 ← index bb' 0
    let x_58 ← index bb' 1
    let x_59 ← index bb' 2
    let x_60 ← index bb' 3
    let x_61 ← index bb' 4
    let x_62 ← index w 5
    let x_63 ← index bb' 1
    let x_64 ← index bb' 2
    let x_65 ← index bb' 3
    let updates' := small_hash.round cfg x_57 x_58 x_59 x_60 x_61 x_62 8#32 0x00000000#32 ((x_63 ^^^ x_64) ^^^ x_65)
    let bb' ← indexSet bb' 0 updates'.1
    let bb' ← indexSet bb' 2 updates'.2
    pure (bb', bbb')

/-- round!(bb[<expr>], bb[<expr>], bb[<expr>], bb[<expr>], bb[<expr>], <expr>[<expr>], <expr>, 0x00000000, bb[<expr>] ^ bb[<expr>] ^ bb[<expr>]) -/
def Engine.process_block_small.line1_6 (cfg : Cfg) (w : List (BitVec 32)) : Engine.process_block_small.State1 → Res Engine.process_block_small.State1 :=
  fun (bb', bbb') => do
    let x_68 ← index bb' 4
    let x_69 ← index bb' 0
    let x_70 ← index bb' 1
    let x_71 ← index bb' 2
    let x_72 ← index bb' 3
    let x_73 ← index w 6
    let x_74 ← index bb' 0
    let x_75 ← index bb' 1
    let x_76 ← index bb' 2
    let updates' := small_hash.round cfg x_68 x_69 x_70 x_71 x_72 x_73 7#32 0x00000000#32 ((x_74 ^^^ x_75) ^^^ x_76)
    let bb' ← indexSet bb' 4 updates'.1
    let bb' ← indexSet bb' 1 updates'.2
    pure (bb', bbb')

/-- round!(bb[<expr>], bb[<expr>], bb[<expr>], bb[<expr>], bb[<expr>], <expr>[<expr>], <expr>, 0x00000000, bb[<expr>] ^ bb[<expr>] ^ bb[<expr>]) -/
def Engine.process_block_small.line1_7 (cfg : Cfg) (w : List (BitVec 32)) : Engine.process_block_small.State1 → Res Engine.process_block_small.State1 :=
  fun (bb', bbb') => do
    let x_79 ← index bb' 3
    let x_80 ← index bb' 4
    let x_81 ← index bb' 0
    let x_82 ← index bb' 1
    let x_83 ← index bb' 2
    let x_84 ← index w 7
    let x_85 ← index bb' 4
    let x_86 ← index bb' 0
    let x_87 ← index bb' 1
    let updates' := small_hash.round cfg x_79 x_80 x_81 x_82 x_83 x_84 9#32 0x00000000#32 ((x_85 ^^^ x_86) ^^^ x_87)
    let bb' ← indexSet bb' 3 updates'.1
    let bb' ← indexSet bb' 0 updates'.2
    pure (bb', bbb')

/-- round!(bb[<expr>], bb[<expr>], bb[<expr>], bb[<expr>], bb[<expr>], <expr>[<expr>], <expr>, 0x00000000, bb[<expr>] ^ bb[<expr>] ^ bb[<expr>]) -/
def Engine.process_block_small.line1_8 (cfg : Cfg) (w : List (BitVec 32)) : Engine.process_block_small.State1 → Res Engine.process_block_small.State1 :=
  fun (bb', bbb') => do
    let x_90 ← index bb' 2
    let x_91 ← index bb' 3
    let x_92 ← index bb' 4
    let x_93 ← index bb' 0
    let x_94 ← index bb' 1
    let x_95 ← index w 8
    let x_96 ← index bb' 3
    let x_97 ← index bb' 4
    let x_98 ← index bb' 0
    let updates' := small_hash.round cfg x_90 x_91 x_92 x_93 x_94 x_95 11#32 0x00000000#32 ((x_96 ^^^ x_97) ^^^ x_98)
    let bb' ← indexSet bb' 2 updates'.1
    let bb' ← indexSet bb' 4 updates'.2
    pure (bb', bbb')

/-- round!(bb[<expr>], bb[<expr>], bb[<expr>], bb[<expr>], bb[<expr>], <expr>[<expr>], <expr>, 0x00000000, bb[<expr>] ^ bb[<expr>] ^ bb[<expr>]) -/
def Engine.process_block_small.line1_9 (cfg : Cfg) (w : List (BitVec 32)) : Engine.process_block_small.State1 → Res Engine.process_block_small.State1 :=
  fun (bb', bbb') => do
    let x_101 ← index bb' 1
    let x_102 ← index bb' 2
    let x_103 ← index bb' 3
    let x_104 ← index bb' 4
    let x_105 ← index bb' 0
    let x_106 ← index w 9
    let x_107 ← index bb' 2
    let x_108 ← index bb' 3
    let x_109 ← index bb' 4
    let updates' := small_hash.round cfg x_101 x_102 x_103 x_104 x_105 x_106 13#32 0x00000000#32 ((x_107 ^^^ x_108) ^^^ x_109)
    let bb' ← indexSet bb' 1 updates'.1
    let bb' ← indexSet bb' 3 updates'.2
    pure (bb', bbb')

/-- round!(bb[<expr>], bb[<expr>], bb[<expr>], bb[<expr>], bb[<expr>], <expr>[<expr>], <expr>, 0x00000000, bb[<expr>] ^ bb[<expr>] ^ bb[<expr>]) -/
def Engine.process_block_small.line1_10 (cfg : Cfg) (w : List (BitVec 32)) : Engine.process_block_small.State1 → Res Engine.process_block_small.State1 :=
  fun (bb', bbb') => do
    let x_112 ← index bb' 0
    let x_113 ← index bb' 1
    let x_114 ← index bb' 2
    let x_115 ← index bb' 3
    let x_116 ← index bb' 4
    let x_117 ← index w 10
    let x_118 ← index bb' 1
    let x_119 ← index bb' 2
    let x_120 ← index bb' 3
    let updates' := small_hash.round cfg x_112 x_113 x_114 x_115 x_116 x_117 14#32 0x00000000#32 ((x_118 ^^^ x_119) ^^^ x_120)
    let bb' ← indexSet bb' 0 updates'.1
    let bb' ← indexSet bb' 2 updates'.2
    pure (bb', bbb')

/-- round!(bb[<expr>], bb[<expr>], bb[<expr>], bb[<expr>], bb[<expr>], <expr>[<expr>], <expr>, 0x00000000, bb[<expr>] ^ bb[<expr>] ^ bb[<expr>]) -/
def Engine.process_block_small.line1_11 (cfg : Cfg) (w : List (BitVec 32)) : Engine.process_block_small.State1 → Res Engine.process_block_small.State1 :=
  fun (bb', bbb') => do
    let x_123 ← index bb' 4
    let x_124 ← index bb' 0
    let x_125 ← index bb' 1
    let x_126 ← index bb' 2
    let x_127 ← index bb' 3
    let x_128 ← index w 11
    let x_129 ← index bb' 0
    let x_130 ← index bb' 1
    let x_131 ← index bb' 2
    let updates' := small_hash.round cfg x_123 x_124 x_125 x_126 x_127 x_128 15#32 0x00000000#32 ((x_129 ^^^ x_130) ^^^ x_131)
    let bb' ← indexSet bb' 4 updates'.1
    let bb' ← indexSet bb' 1 updates'.2
    pure (bb', bbb')

/-- round!(bb[<expr>], bb[<expr>], bb[<expr>], bb[<expr>], bb[<expr>], <expr>[<expr>], <expr>, 0x00000000, bb[<expr>] ^ bb[<expr>] ^ bb[<expr>]) -/
def Engine.process_block_small.line1_12 (cfg : Cfg) (w : List (BitVec 32)) : Engine.process_block_small.State1 → Res Engine.process_block_small.State1 :=
  fun (bb', bbb') => do
    let x_134 ← index bb' 3
    let x_135 ← index bb' 4
    let x_136 ← index bb' 0
    let x_137 ← index bb' 1
    let x_138 ← index bb' 2
    let x_139 ← index w 12
    let x_140 ← index bb' 4
    let x_141 ← index bb' 0
    let x_142 ← index bb' 1
    let updates' := small_hash.round cfg x_134 x_135 x_136 x_137 x_138 x_139 6#32 0x00000000#32 ((x_140 ^^^ x_141) ^^^ x_142)
    let bb' ← indexSet bb' 3 updates'.1
    let bb' ← indexSet bb' 0 updates'.2
    pure (bb', bbb')

/-- round!(bb[<expr>], bb[<expr>], bb[<expr>], bb[<expr>], bb[<expr>], <expr>[<expr>], <expr>, 0x00000000, bb[<expr>] ^ bb[<expr>] ^ bb[<expr>]) -/
def Engine.process_block_small.line1_13 (cfg : Cfg) (w : List (BitVec 32)) : Engine.process_block_small.State1 → Res Engine.process_block_small.State1 :=
  fun (bb', bbb') => do
    let x_145 ← index bb' 2
    let x_146 ← index bb' 3
    let x_147 ← index bb' 4
    let x_148 ← index bb' 0
    let x_149 ← index bb' 1
    let x_150 ← index w 13
    let x_151 ← index bb' 3
    let x_152 ← index bb' 4
    let x_153 ← index bb' 0
    let updates' := small_hash.round cfg x_145 x_146 x_147 x_148 x_149 x_150 7#32 0x00000000#32 ((x_151 ^^^ x_152) ^^^ x_153)
    let bb' ← indexSet bb' 2 updates'.1
    let bb' ← indexSet bb' 4 updates'.2
    pure (bb', bbb')

/-- round!(bb[<expr>], bb[<expr>], bb[<expr>], bb[<expr>], bb[<expr>], <expr>[<expr>], <expr>, 0x00000000, bb[<expr>] ^ bb[<expr>] ^ bb[<expr>]) -/
def Engine.process_block_small.line1_14 (cfg : Cfg) (w : List (BitVec 32)) : Engine.process_block_small.State1 → Res Engine.process_block_small.State1 :=
  fun (bb', bbb') => do
    let x_156 ← index bb' 1
    let x_157 ← index bb' 2
    let x_158 ← index bb' 3
    let x_159 ← index bb' 4
    let x_160 ← index bb' 0
    let x_161 ← index w 14
    let x_162 ← index bb' 2
    let x_163 ← index bb' 3
    let x_164 ← index bb' 4
    let updates' := small_hash.round cfg x_156 x_157 x_158 x_159 x_160 x_161 9#32 0x00000000#32 ((x_162 ^^^ x_163) ^^^ x_164)
    let bb' ← indexSet bb' 1 updates'.1
    let bb' ← indexSet bb' 3 updates'.2
    pure (bb', bbb')

/-- round!(bb[<expr>], bb[<expr>], bb[<expr>], bb[<expr>], bb[<expr>], <expr>[<expr>], <expr>, 0x00000000, bb[<expr>] ^ bb[<expr>] ^ bb[<expr>]) -/
def Engine.process_block_small.line1_15 (cfg : Cfg) (w : List (BitVec 32)) : Engine.process_block_small.State1 → Res Engine.process_block_small.State1 :=
  fun (bb', bbb') => do
    let x_167 ← index bb' 0
    let x_168 ← index bb' 1
    let x_169 ← index bb' 2
    let x_170 ← index bb' 3
    let x_171 ← index bb' 4
    let x_172 ← index w 15
    let x_173 ← index bb' 1
    let x_174 ← index bb' 2
    let x_175 ← index bb' 3
    let updates' := small_hash.round cfg x_167 x_168 x_169 x_170 x_171 x_172 8#32 0x00000000#32 ((x_173 ^^^ x_174) ^^^ x_175)
    let bb' ← indexSet bb' 0 updates'.1
    let bb' ← indexSet bb' 2 updates'.2
    pure (bb', bbb')

/-- round!(bb[<expr>], bb[<expr>], bb[<expr>], bb[<expr>], bb[<expr>], <expr>[<expr>], <expr>, 0x5a827999,(bb[<expr>] & bb[<expr>]) |(! bb[<expr>] & bb[<expr>])) -/
def Engine.process_block_small.line1_16 (cfg : Cfg) (w : List (BitVec 32)) : Engine.process_block_small.State1 → Res Engine.process_block_small.State1 :=
  fun (bb', bbb') => do
    let x_178 ← index bb' 4
    let x_179 ← index bb' 0
    let x_180 ← index bb' 1
    let x_181 ← index bb' 2
    let x_182 ← index bb' 3
    let x_183 ← index w 7
    let x_184 ← index bb' 0
    let x_185 ← index bb' 1
    let x_186 ← index bb' 0
    let x_187 ← index bb' 2
    let updates' := small_hash.round cfg x_178 x_179 x_180 x_181 x_182 x_183 7#32 0x5a827999#32 ((x_184 &&& x_185) ||| ((~~~x_186) &&& x_187))
    let bb' ← indexSet bb' 4 updates'.1
    let bb' ← indexSet bb' 1 updates'.2
    pure (bb', bbb')

/-- round!(bb[<expr>], bb[<expr>], bb[<expr>], bb[<expr>], bb[<expr>], <expr>[<expr>], <expr>, 0x5a827999,(bb[<expr>] & bb[<expr>]) |(! bb[<expr>] & bb[<expr>])) -/
def Engine.process_block_small.line1_17 (cfg : Cfg) (w : List (BitVec 32)) : Engine.process_block_small.State1 → Res Engine.process_block_small.State1 :=
  fun (bb', bbb') => do
    let x_190 ← index bb' 3
    let x_191 ← index bb' 4
    let x_192 ← index bb' 0
    let x_193 ← index bb' 1
    let x_194 ← index bb' 2
    let x_195 ← index w 4
    let x_196 ← index bb' 4
    let x_197 ← index bb' 0
    let x_198 ← index bb' 4
    let x_199 ← index bb' 1
    let updates' := small_hash.round cfg x_190 x_191 x_192 x_193 x_194 x_195 6#32 0x5a827999#32 ((x_196 &&& x_197) ||| ((~~~x_198) &&& x_199))
    let bb' ← indexSet bb' 3 updates'.1
    let bb' ← indexSet bb' 0 updates'.2
    pure (bb', bbb')

/-- round!(bb[<expr>], bb[<expr>], bb[<expr>], bb[<expr>], bb[<expr>], <expr>[<expr>], <expr>, 0x5a827999,(bb[<expr>] & bb[<expr>]) |(! bb[<expr>] & bb[<expr>])) -/
def Engine.process_block_small.line1_18 (cfg : Cfg) (w : List (BitVec 32)) : Engine.process_block_small.State1 → Res Engine.process_block_small.State1 :=
  fun (bb', bbb') => do
    let x_202 ← index bb' 2
    let x_203 ← index bb' 3
    let x_204 ← index bb' 4
    let x_205 ← index bb' 0
    let x_206 ← index bb' 1
    let x_207 ← index w 13
    let x_208 ← index bb' 3
    let x_209 ← index bb' 4
    let x_210 ← index bb' 3
    let x_211 ← index bb' 0
    let updates' := small_hash.round cfg x_202 x_203 x_204 x_205 x_206 x_207 8#32 0x5a827999#32 ((x_208 &&& x_209) ||| ((~~~x_210) &&& x_211))
    let bb' ← indexSet bb' 2 updates'.1
    let bb' ← indexSet bb' 4 updates'.2
    pure (bb', bbb')

/-- round!(bb[<expr>], bb[<expr>], bb[<expr>], bb[<expr>], bb[<expr>], <expr>[<expr>], <expr>, 0x5a827999,(bb[<expr>] & bb[<expr>]) |(! bb[<expr>] & bb[<expr>])) -/
def Engine.process_block_small.line1_19 (cfg : Cfg) (w : List (BitVec 32)) : Engine.process_block_small.State1 → Res Engine.process_block_small.State1 :=
  fun (bb', bbb') => do
    let x_214 ← index bb' 1
    let x_215 ← index bb' 2
    let x_216 ← index bb' 3
    let x_217 ← index bb' 4
    let x_218 ← index bb' 0
    let x_219 ← index w 1
    let x_220 ← index bb' 2
    let x_221 ← index bb' 3
    let x_222 ← index bb' 2
    let x_223 ← index bb' 4
    let updates' := small_hash.round cfg x_214 x_215 x_216 x_217 x_218 x_219 13#32 0x5a827999#32 ((x_220 &&& x_221) ||| ((~~~x_222) &&& x_223))
    let bb' ← indexSet bb' 1 updates'.1
    let bb' ← indexSet bb' 3 updates'.2
    pure (bb', bbb')

/-- round!(bb[<expr>], bb[<expr>], bb[<expr>], bb[<expr>], bb[<expr>], <expr>[<expr>], <expr>, 0x5a827999,(bb[<expr>] & bb[<expr>]) |(! bb[<expr>] & bb[<expr>])) -/
def Engine.process_block_small.line1_20 (cfg : Cfg) (w : List (BitVec 32)) : Engine.process_block_small.State1 → Res Engine.process_block_small.State1 :=
  fun (bb', bbb') => do
    let x_226 ← index bb' 0
    let x_227 ← index bb' 1
    let x_228 ← index bb' 2
    let x_229 ← index bb' 3
    let x_230 ← index bb' 4
    let x_231 ← index w 10
    let x_232 ← index bb' 1
    let x_233 ← index bb' 2
    let x_234 ← index bb' 1
    let x_235 ← index bb' 3
    let updates' := small_hash.round cfg x_226 x_227 x_228 x_229 x_230 x_231 11#32 0x5a827999#32 ((x_232 &&& x_233) ||| ((~~~x_234) &&& x_235))
    let bb' ← indexSet bb' 0 updates'.1
    let bb' ← indexSet bb' 2 updates'.2
    pure (bb', bbb')

/-- round!(bb[<expr>], bb[<expr>], bb[<expr>], bb[<expr>], bb[<expr>], <expr>[<expr>], <expr>, 0x5a827999,(bb[<expr>] & bb[<expr>]) |(! bb[<expr>] & bb[<expr>])) -/
def Engine.process_block_small.line1_21 (cfg : Cfg) (w : List (BitVec 32)) : Engine.process_block_small.State1 → Res Engine.process_block_small.State1 :=
  fun (bb', bbb') => do
    let x_238 ← index bb' 4
    let x_239 ← index bb' 0
    let x_240 ← index bb' 1
    let x_241 ← index bb' 2
    let x_242 ← index bb' 3
    let x_243 ← index w 6
    let x_244 ← index bb' 0
    let x_245 ← index bb' 1
    let x_246 ← index bb' 0
    let x_247 ← index bb' 2
    let updates' := small_hash.round cfg x_238 x_239 x_240 x_241 x_242 x_243 9#32 0x5a827999#32 ((x_244 &&& x_245) ||| ((~~~x_246) &&& x_247))
    let bb' ← indexSet bb' 4 updates'.1
    let bb' ← indexSet bb' 1 updates'.2
    pure (bb', bbb')

/-- round!(bb[<expr>], bb[<expr>], bb[<expr>], bb[<expr>], bb[<expr>], <expr>[<expr>], <expr>, 0x5a827999,(bb[<expr>] & bb[<expr>]) |(! bb[<expr>] & bb[<expr>])) -/
def Engine.process_block_small.line1_22 (cfg : Cfg) (w : List (BitVec 32)) : Engine.process_block_small.State1 → Res Engine.process_block_small.State1 :=
  fun (bb', bbb') => do
    let x_250 ← index bb' 3
    let x_251 ← index bb' 4
    let x_252 ← index bb' 0
    let x_253 ← index bb' 1
    let x_254 ← index bb' 2
    let x_255 ← index w 15
    let x_256 ← index bb' 4
    let x_257 ← index bb' 0
    let x_258 ← index bb' 4
    let x_259 ← index bb' 1
    let updates' := small_hash.round cfg x_250 x_251 x_252 x_253 x_254 x_255 7#32 0x5a827999#32 ((x_256 &&& x_257) ||| ((~~~x_258) &&& x_259))
    let bb' ← indexSet bb' 3 updates'.1
    let bb' ← indexSet bb' 0 updates'.2
    pure (bb', bbb')

/-- round!(bb[<expr>], bb[<expr>], bb[<expr>], bb[<expr>], bb[<expr>], <expr>[<expr>], <expr>, 0x5a827999,(bb[<expr>] & bb[<expr>]) |(! bb[<expr>] & bb[<expr>])) -/
def Engine.process_block_small.line1_23 (cfg : Cfg) (w : List (BitVec 32)) : Engine.process_block_small.State1 → Res Engine.process_block_small.State1 :=
  fun (bb', bbb') => do
    let x_262 ← index bb' 2
    let x_263 ← index bb' 3
    let x_264 ← index bb' 4
    let x_265 ← index bb' 0
    let x_266 ← index bb' 1
    let x_267 ← index w 3
    let x_268 ← index bb' 3
    let x_269 ← index bb' 4
    let x_270 ← index bb' 3
    let x_271 ← index bb' 0
    let updates' := small_hash.round cfg x_262 x_263 x_264 x_265 x_266 x_267 15#32 0x5a827999#32 ((x_268 &&& x_269) ||| ((~~~x_270) &&& x_271))
    let bb' ← indexSet bb' 2 updates'.1
    let bb' ← indexSet bb' 4 updates'.2
    pure (bb', bbb')

/-- round!(bb[<expr>], bb[<expr>], bb[<expr>], bb[<expr>], bb[<expr>], <expr>[<expr>], <expr>, 0x5a827999,(bb[<expr>] & bb[<expr>]) |(! bb[<expr>] & bb[<expr>])) -/
def Engine.process_block_small.line1_24 (cfg : Cfg) (w : List (BitVec 32)) : Engine.process_block_small.State1 → Res Engine.process_block_small.State1 :=
  fun (bb', bbb') => do
    let x_274 ← index bb' 1
    let x_275 ← index bb' 2
    let x_276 ← index bb' 3
    let x_277 ← index bb' 4
    let x_278 ← index bb' 0
    let x_279 ← index w 12
    let x_280 ← index bb' 2
    let x_281 ← index bb' 3
    let x_282 ← index bb' 2
    let x_283 ← index bb' 4
    let updates' := small_hash.round cfg x_274 x_275 x_276 x_277 x_278 x_279 7#32 0x5a827999#32 ((x_280 &&& x_281) ||| ((~~~x_282) &&& x_283))
    let bb' ← indexSet bb' 1 updates'.1
    let bb' ← indexSet bb' 3 updates'.2
    pure (bb', bbb')

/-- round!(bb[<expr>], bb[<expr>], bb[<expr>], bb[<expr>], bb[<expr>], <expr>[<expr>], <expr>, 0x5a827999,(bb[<expr>] & bb[<expr>]) |(! bb[<expr>] & bb[<expr>])) -/
def Engine.process_block_small.line1_25 (cfg : Cfg) (w : List (BitVec 32)) : Engine.process_block_small.State1 → Res Engine.process_block_small.State1 :=
  fun (bb', bbb') => do
    let x_286 ← index bb' 0
    let x_287 ← index bb' 1
    let x_288 ← index bb' 2
    let x_289 ← index bb' 3
    let x_290 ← index bb' 4
    let x_291 ← index w 0
    let x_292 ← index bb' 1
    let x_293 ← index bb' 2
    let x_294 ← index bb' 1
    let x_295 ← index bb' 3
    let updates' := small_hash.round cfg x_286 x_287 x_288 x_289 x_290 x_291 12#32 0x5a827999#32 ((x_292 &&& x_293) ||| ((~~~x_294) &&& x_295))
    let bb' ← indexSet bb' 0 updates'.1
    let bb' ← indexSet bb' 2 updates'.2
    pure (bb', bbb')

/-- round!(bb[<expr>], bb[<expr>], bb[<expr>], bb[<expr>], bb[<expr>], <expr>[<expr>], <expr>, 0x5a827999,(bb[<expr>] & bb[<expr>]) |(! bb[<expr>] & bb[<expr>])) -/
def Engine.process_block_small.line1_26 (cfg : Cfg) (w : List (BitVec 32)) : Engine.process_block_small.State1 → Res Engine.process_block_small.State1 :=
  fun (bb', bbb') => do
    let x_298 ← index bb' 4
    let x_299 ← index bb' 0
    let x_300 ← index bb' 1
    let x_301 ← index bb' 2
    let x_302 ← index bb' 3
    let x_303 ← index w 9
    let x_304 ← index bb' 0
    let x_305 ← index bb' 1
    let x_306 ← index bb' 0
    let x_307 ← index bb' 2
    let updates' := small_hash.round cfg x_298 x_299 x_300 x_301 x_302 x_303 15#32 0x5a827999#32 ((x_304 &&& x_305) ||| ((~~~x_306) &&& x_307))
    let bb' ← indexSet bb' 4 updates'.1
    let bb' ← indexSet bb' 1 updates'.2
    pure (bb', bbb')

/-- round!(bb[<expr>], bb[<expr>], bb[<expr>], bb[<expr>], bb[<expr>], <expr>[<expr>], <expr>, 0x5a827999,(bb[<expr>] & bb[<expr>]) |(! bb[<expr>] & bb[<expr>])) -/
def Engine.process_block_small.line1_27 (cfg : Cfg) (w : List (BitVec 32)) : Engine.process_block_small.State1 → Res Engine.process_block_small.State1 :=
  fun (bb', bbb') => do
    let x_310 ← index bb' 3
    let x_311 ← index bb' 4
    let x_312 ← index bb' 0
    let x_313 ← index bb' 1
    let x_314 ← index bb' 2
    let x_315 ← index w 5
    let x_316 ← index bb' 4
    let x_317 ← index bb' 0
    let x_318 ← index bb' 4
    let x_319 ← index bb' 1
    let updates' := small_hash.round cfg x_310 x_311 x_312 x_313 x_314 x_315 9#32 0x5a827999#32 ((x_316 &&& x_317) ||| ((~~~x_318) &&& x_319))
    let bb' ← indexSet bb' 3 updates'.1
    let bb' ← indexSet bb' 0 updates'.2
    pure (bb', bbb')

/-- round!(bb[<expr>], bb[<expr>], bb[<expr>], bb[<expr>], bb[<expr>], <expr>[<expr>], <expr>, 0x5a827999,(bb[<expr>] & bb[<expr>]) |(! bb[<expr>] & bb[<expr>])) -/
def Engine.process_block_small.line1_28 (cfg : Cfg) (w : List (BitVec 32)) : Engine.process_block_small.State1 → Res Engine.process_block_small.State1 :=
  fun (bb', bbb') => do
    let x_322 ← index bb' 2
    let x_323 ← index bb' 3
    let x_324 ← index bb' 4
    let x_325 ← index bb' 0
    let x_326 ← index bb' 1
    let x_327 ← index w 2
    let x_328 ← index bb' 3
    let x_329 ← index bb' 4
    let x_330 ← index bb' 3
    let x_331 ← index bb' 0
    let updates' := small_hash.round cfg x_322 x_323 x_324 x_325 x_326 x_327 11#32 0x5a827999#32 ((x_328 &&& x_329) ||| ((~~~x_330) &&& x_331))
    let bb' ← indexSet bb' 2 updates'.1
    let bb' ← indexSet bb' 4 updates'.2
    pure (bb', bbb')

/-- round!(bb[<expr>], bb[<expr>], bb[<expr>], bb[<expr>], bb[<expr>], <expr>[<expr>], <expr>, 0x5a827999,(bb[<expr>] & bb[<expr>]) |(! bb[<expr>] & bb[<expr>])) -/
def Engine.process_block_small.line1_29 (cfg : Cfg) (w : List (BitVec 32)) : Engine.process_block_small.State1 → Res Engine.process_block_small.State1 :=
  fun (bb', bbb') => do
    let x_334 ← index bb' 1
    let x_335 ← index bb' 2
    let x_336 ← index bb' 3
    let x_337 ← index bb' 4
    let x_338 ← index bb' 0
    let x_339 ← index w 14
    let x_340 ← index bb' 2
    let x_341 ← index bb' 3
    let x_342 ← index bb' 2
    let x_343 ← index bb' 4
    let updates' := small_hash.round cfg x_334 x_335 x_336 x_337 x_338 x_339 7#32 0x5a827999#32 ((x_340 &&& x_341) ||| ((~~~x_342) &&& x_343))
    let bb' ← indexSet bb' 1 updates'.1
    let bb' ← indexSet bb' 3 updates'.2
    pure (bb', bbb')

/-- round!(bb[<expr>], bb[<expr>], bb[<expr>], bb[<expr>], bb[<expr>], <expr>[<expr>], <expr>, 0x5a827999,(bb[<expr>] & bb[<expr>]) |(! bb[<expr>] & bb[<expr>])) -/
def Engine.process_block_small.line1_30 (cfg : Cfg) (w : List (BitVec 32)) : Engine.process_block_small.State1 → Res Engine.process_block_small.State1 :=
  fun (bb', bbb') => do
    let x_346 ← index bb' 0
    let x_347 ← index bb' 1
    let x_348 ← index bb' 2
    let x_349 ← index bb' 3
    let x_350 ← index bb' 4
    let x_351 ← index w 11
    let x_352 ← index bb' 1
    let x_353 ← index bb' 2
    let x_354 ← index bb' 1
    let x_355 ← index bb' 3
    let updates' := small_hash.round cfg x_346 x_347 x_348 x_349 x_350 x_351 13#32 0x5a827999#32 ((x_352 &&& x_353) ||| ((~~~x_354) &&& x_355))
    let bb' ← indexSet bb' 0 updates'.1
    let bb' ← indexSet bb' 2 updates'.2
    pure (bb', bbb')

/-- round!(bb[<expr>], bb[<expr>], bb[<expr>], bb[<expr>], bb[<expr>], <expr>[<expr>], <expr>, 0x5a827999,(bb[<expr>] & bb[<expr>]) |(! bb[<expr>] & bb[<expr>])) -/
def Engine.process_block_small.line1_31 (cfg : Cfg) (w : List (BitVec 32)) : Engine.process_block_small.State1 → Res Engine.process_block_small.State1 :=
  fun (bb', bbb') => do
    let x_358 ← index bb' 4
    let x_359 ← index bb' 0
    let x_360 ← index bb' 1
    let x_361 ← index bb' 2
    let x_362 ← index bb' 3
    let x_363 ← index w 8
    let x_364 ← index bb' 0
    let x_365 ← index bb' 1
    let x_366 ← index bb' 0
    let x_367 ← index bb' 2
    let updates' := small_hash.round cfg x_358 x_359 x_360 x_361 x_362 x_363 12#32 0x5a827999#32 ((x_364 &&& x_365) ||| ((~~~x_366) &&& x_367))
    let bb' ← indexSet bb' 4 updates'.1
    let bb' ← indexSet bb' 1 updates'.2
    pure (bb', bbb')

/-- round!(bb[<expr>], bb[<expr>], bb[<expr>], bb[<expr>], bb[<expr>], <expr>[<expr>], <expr>, 0x6ed9eba1,(bb[<expr>] | ! bb[<expr>]) ^ bb[<expr>]) -/
def Engine.process_block_small.line1_32 (cfg : Cfg) (w : List (BitVec 32)) : Engine.process_block_small.State1 → Res Engine.process_block_small.State1 :=
  fun (bb', bbb') => do
    let x_370 ← index bb' 3
    let x_371 ← index bb' 4
    let x_372 ← index bb' 0
    let x_373 ← index bb' 1
    let x_374 ← index bb' 2
    let x_375 ← index w 3
    let x_376 ← index bb' 4
    let x_377 ← index bb' 0
    let x_378 ← index bb' 1
    let updates' := small_hash.round cfg x_370 x_371 x_372 x_373 x_374 x_375 11#32 0x6ed9eba1#32 ((x_376 ||| (~~~x_377)) ^^^ x_378)
    let bb' ← indexSet bb' 3 updates'.1
    let bb' ← indexSet bb' 0 updates'.2
    pure (bb', bbb')

/-- round!(bb[<expr>], bb[<expr>], bb[<expr>], bb[<expr>], bb[<expr>], <expr>[<expr>], <expr>, 0x6ed9eba1,(bb[<expr>] | ! bb[<expr>]) ^ bb[<expr>]) -/
def Engine.process_block_small.line1_33 (cfg : Cfg) (w : List (BitVec 32)) : Engine.process_block_small.State1 → Res Engine.process_block_small.State1 :=
  fun (bb', bbb') => do
    let x_381 ← index bb' 2
    let x_382 ← index bb' 3
    let x_383 ← index bb' 4
    let x_384 ← index bb' 0
    let x_385 ← index bb' 1
    let x_386 ← index w 10
    let x_387 ← index bb' 3
    let x_388 ← index bb' 4
    let x_389 ← index bb' 0
    let updates' := small_hash.round cfg x_381 x_382 x_383 x_384 x_385 x_386 13#32 0x6ed9eba1#32 ((x_387 ||| (~~~x_388)) ^^^ x_389)
    let bb' ← indexSet bb' 2 updates'.1
    let bb' ← indexSet bb' 4 updates'.2
    pure (bb', bbb')

/-- round!(bb[<expr>], bb[<expr>], bb[<expr>], bb[<expr>], bb[<expr>], <expr>[<expr>], <expr>, 0x6ed9eba1,(bb[<expr>] | ! bb[<expr>]) ^ bb[<expr>]) -/
def Engine.process_block_small.line1_34 (cfg : Cfg) (w : List (BitVec 32)) : Engine.process_block_small.State1 → Res Engine.process_block_small.State1 :=
  fun (bb', bbb') => do
    let x_392 ← index bb' 1
    let x_393 ← index bb' 2
    let x_394 ← index bb' 3
    let x_395 ← index bb' 4
    let x_396 ← index bb' 0
    let x_397 ← index w 14
    let x_398 ← index bb' 2
    let x_399 ← index bb' 3
    let x_400 ← index bb' 4
    let updates' := small_hash.round cfg x_392 x_393 x_394 x_395 x_396 x_397 6#32 0x6ed9eba1#32 ((x_398 ||| (~~~x_399)) ^^^ x_400)
    let bb' ← indexSet bb' 1 updates'.1
    let bb' ← indexSet bb' 3 updates'.2
    pure (bb', bbb')

/-- round!(bb[<expr>], bb[<expr>], bb[<expr>], bb[<expr>], bb[<expr>], <expr>[<expr>], <expr>, 0x6ed9eba1,(bb[<expr>] | ! bb[<expr>]) ^ bb[<expr>]) -/
def Engine.process_block_small.line1_35 (cfg : Cfg) (w : List (BitVec 32)) : Engine.process_block_small.State1 → Res Engine.process_block_small.State1 :=
  fun (bb', bbb') => do
    let x_403 ← index bb' 0
    let x_404 ← index bb' 1
    let x_405 ← index bb' 2
    let x_406 ← index bb' 3
    let x_407 ← index bb' 4
    let x_408 ← index w 4
    let x_409 ← index bb' 1
    let x_410 ← index bb' 2
    let x_411 ← index bb' 3
    let updates' := small_hash.round cfg x_403 x_404 x_405 x_406 x_407 x_408 7#32 0x6ed9eba1#32 ((x_409 ||| (~~~x_410)) ^^^ x_411)
    let bb' ← indexSet bb' 0 updates'.1
    let bb' ← indexSet bb' 2 updates'.2
    pure (bb', bbb')

/-- round!(bb[<expr>], bb[<expr>], bb[<expr>], bb[<expr>], bb[<expr>], <expr>[<expr>], <expr>, 0x6ed9eba1,(bb[<expr>] | ! bb[<expr>]) ^ bb[<expr>]) -/
def Engine.process_block_small.line1_36 (cfg : Cfg) (w : List (BitVec 32)) : Engine.process_block_small.State1 → Res Engine.process_block_small.State1 :=
  fun (bb', bbb') => do
    let x_414 ← index bb' 4
    let x_415 ← index bb' 0
    let x_416 ← index bb' 1
    let x_417 ← index bb' 2
    let x_418 ← index bb' 3
    let x_419 ← index w 9
    let x_420 ← index bb' 0
    let x_421 ← index bb' 1
    let x_422 ← index bb' 2
    let updates' := small_hash.round cfg x_414 x_415 x_416 x_417 x_418 x_419 14#32 0x6ed9eba1#32 ((x_420 ||| (~~~x_421)) ^^^ x_422)
    let bb' ← indexSet bb' 4 updates'.1
    let bb' ← indexSet bb' 1 updates'.2
    pure (bb', bbb')

/-- round!(bb[<expr>], bb[<expr>], bb[<expr>], bb[<expr>], bb[<expr>], <expr>[<expr>], <expr>, 0x6ed9eba1,(bb[<expr>] | ! bb[<expr>]) ^ bb[<expr>]) -/
def Engine.process_block_small.line1_37 (cfg : Cfg) (w : List (BitVec 32)) : Engine.process_block_small.State1 → Res Engine.process_block_small.State1 :=
  fun (bb', bbb') => do
    let x_425 ← index bb' 3
    let x_426 ← index bb' 4
    let x_427 ← index bb' 0
    let x_428 ← index bb' 1
    let x_429 ← index bb' 2
    let x_430 ← index w 15
    let x_431 ← index bb' 4
    let x_432 ← index bb' 0
    let x_433 ← index bb' 1
    let updates' := small_hash.round cfg x_425 x_426 x_427 x_428 x_429 x_430 9#32 0x6ed9eba1#32 ((x_431 ||| (~~~x_432)) ^^^ x_433)
    let bb' ← indexSet bb' 3 updates'.1
    let bb' ← indexSet bb' 0 updates'.2
    pure (bb', bbb')

/-- round!(bb[<expr>], bb[<expr>], bb[<expr>], bb[<expr>], bb[<expr>], <expr>[<expr>], <expr>, 0x6ed9eba1,(bb[<expr>] | ! bb[<expr>]) ^ bb[<expr>]) -/
def Engine.process_block_small.line1_38 (cfg : Cfg) (w : List (BitVec 32)) : Engine.process_block_small.State1 → Res Engine.process_block_small.State1 :=
  fun (bb', bbb') => do
    let x_436 ← index bb' 2
    let x_437 ← index bb' 3
    let x_438 ← index bb' 4
    let x_439 ← index bb' 0
    let x_440 ← index bb' 1
    let x_441 ← index w 8
    let x_442 ← index bb' 3
    let x_443 ← index bb' 4
    let x_444 ← index bb' 0
    let updates' := small_hash.round cfg x_436 x_437 x_438 x_439 x_440 x_441 13#32 0x6ed9eba1#32 ((x_442 ||| (~~~x_443)) ^^^ x_444)
    let bb' ← indexSet bb' 2 updates'.1
    let bb' ← indexSet bb' 4 updates'.2
    pure (bb', bbb')

/-- round!(bb[<expr>], bb[<expr>], bb[<expr>], bb[<expr>], bb[<expr>], <expr>[<expr>], <expr>, 0x6ed9eba1,(bb[<expr>] | ! bb[<expr>]) ^ bb[<expr>]) -/
def Engine.process_block_small.line1_39 (cfg : Cfg) (w : List (BitVec 32)) : Engine.process_block_small.State1 → Res Engine.process_block_small.State1 :=
  fun (bb', bbb') => do
    let x_447 ← index bb' 1
    let x_448 ← index bb' 2
    let x_449 ← index bb' 3
    let x_450 ← index bb' 4
    let x_451 ← index bb' 0
    let x_452 ← index w 1
    let x_453 ← index bb' 2
    let x_454 ← index bb' 3
    let x_455 ← index bb' 4
    let updates' := small_hash.round cfg x_447 x_448 x_449 x_450 x_451 x_452 15#32 0x6ed9eba1#32 ((x_453 ||| (~~~x_454)) ^^^ x_455)
    let bb' ← indexSet bb' 1 updates'.1
    let bb' ← indexSet bb' 3 updates'.2
    pure (bb', bbb')

/-- round!(bb[<expr>], bb[<expr>], bb[<expr>], bb[<expr>], bb[<expr>], <expr>[<expr>], <expr>, 0x6ed9eba1,(bb[<expr>] | ! bb[<expr>]) ^ bb[<expr>]) -/
def Engine.process_block_small.line1_40 (cfg : Cfg) (w : List (BitVec 32)) : Engine.process_block_small.State1 → Res Engine.process_block_small.State1 :=
  fun (bb', bbb') => do
    let x_458 ← index bb' 0
    let x_459 ← index bb' 1
    let x_460 ← index bb' 2
    let x_461 ← index bb' 3
    let x_462 ← index bb' 4
    let x_463 ← index w 2
    let x_464 ← index bb' 1
    let x_465 ← index bb' 2
    let x_466 ← index bb' 3
    let updates' := small_hash.round cfg x_458 x_459 x_460 x_461 x_462 x_463 14#32 0x6ed9eba1#32 ((x_464 ||| (~~~x_465)) ^^^ x_466)
    let bb' ← indexSet bb' 0 updates'.1
    let bb' ← indexSet bb' 2 updates'.2
    pure (bb', bbb')

/-- round!(bb[<expr>], bb[<expr>], bb[<expr>], bb[<expr>], bb[<expr>], <expr>[<expr>], <expr>, 0x6ed9eba1,(bb[<expr>] | ! bb[<expr>]) ^ bb[<expr>]) -/
def Engine.process_block_small.line1_41 (cfg : Cfg) (w : List (BitVec 32)) : Engine.process_block_small.State1 → Res Engine.process_block_small.State1 :=
  fun (bb', bbb') => do
    let x_469 ← index bb' 4
    let x_470 ← index bb' 0
    let x_471 ← index bb' 1
    let x_472 ← index bb' 2
    let x_473 ← index bb' 3
    let x_474 ← index w 7
    let x_475 ← index bb' 0
    let x_476 ← index bb' 1
    let x_477 ← index bb' 2
    let updates' := small_hash.round cfg x_469 x_470 x_471 x_472 x_473 x_474 8#32 0x6ed9eba1#32 ((x_475 ||| (~~~x_476)) ^^^ x_477)
    let bb' ← indexSet bb' 4 updates'.1
    let bb' ← indexSet bb' 1 updates'.2
    pure (bb', bbb')

/-- round!(bb[<expr>], bb[<expr>], bb[<expr>], bb[<expr>], bb[<expr>], <expr>[<expr>], <expr>, 0x6ed9eba1,(bb[<expr>] | ! bb[<expr>]) ^ bb[<expr>]) -/
def Engine.process_block_small.line1_42 (cfg : Cfg) (w : List (BitVec 32)) : Engine.process_block_small.State1 → Res Engine.process_block_small.State1 :=
  fun (bb', bbb') => do
    let x_480 ← index bb' 3
    let x_481 ← index bb' 4
    let x_482 ← index bb' 0
    let x_483 ← index bb' 1
    let x_484 ← index bb' 2
    let x_485 ← index w 0
    let x_486 ← index bb' 4
    let x_487 ← index bb' 0
    let x_488 ← index bb' 1
    let updates' := small_hash.round cfg x_480 x_481 x_482 x_483 x_484 x_485 13#32 0x6ed9eba1#32 ((x_486 ||| (~~~x_487)) ^^^ x_488)
    let bb' ← indexSet bb' 3 updates'.1
    let bb' ← indexSet bb' 0 updates'.2
    pure (bb', bbb')

/-- round!(bb[<expr>], bb[<expr>], bb[<expr>], bb[<expr>], bb[<expr>], <expr>[<expr>], <expr>, 0x6ed9eba1,(bb[<expr>] | ! bb[<expr>]) ^ bb[<expr>]) -/
def Engine.process_block_small.line1_43 (cfg : Cfg) (w : List (BitVec 32)) : Engine.process_block_small.State1 → Res Engine.process_block_small.State1 :=
  fun (bb', bbb') => do
    let x_491 ← index bb' 2
    let x_492 ← index bb' 3
    let x_493 ← index bb' 4
    let x_494 ← index bb' 0
    let x_495 ← index bb' 1
    let x_496 ← index w 6
    let x_497 ← index bb' 3
    let x_498 ← index bb' 4
    let x_499 ← index bb' 0
    let updates' := small_hash.round cfg x_491 x_492 x_493 x_494 x_495 x_496 6#32 0x6ed9eba1#32 ((x_497 ||| (~~~x_498)) ^^^ x_499)
    let bb' ← indexSet bb' 2 updates'.1
    let bb' ← indexSet bb' 4 updates'.2
    pure (bb', bbb')

/-- round!(bb[<expr>], bb[<expr>], bb[<expr>], bb[<expr>], bb[<expr>], <expr>[<expr>], <expr>, 0x6ed9eba1,(bb[<expr>] | ! bb[<expr>]) ^ bb[<expr>]) -/
def Engine.process_block_small.line1_44 (cfg : Cfg) (w : List (BitVec 32)) : Engine.process_block_small.State1 → Res Engine.process_block_small.State1 :=
  fun (bb', bbb') => do
    let x_502 ← index bb' 1
    let x_503 ← index bb' 2
    let x_504 ← index bb' 3
    let x_505 ← index bb' 4
    let x_506 ← index bb' 0
    let x_507 ← index w 13
    let x_508 ← index bb' 2
    let x_509 ← index bb' 3
    let x_510 ← index bb' 4
    let updates' := small_hash.round cfg x_502 x_503 x_504 x_505 x_506 x_507 5#32 0x6ed9eba1#32 ((x_508 ||| (~~~x_509)) ^^^ x_510)
    let bb' ← indexSet bb' 1 updates'.1
    let bb' ← indexSet bb' 3 updates'.2
    pure (bb', bbb')

/-- round!(bb[<expr>], bb[<expr>], bb[<expr>], bb[<expr>], bb[<expr>], <expr>[<expr>], <expr>, 0x6ed9eba1,(bb[<expr>] | ! bb[<expr>]) ^ bb[<expr>]) -/
def Engine.process_block_small.line1_45 (cfg : Cfg) (w : List (BitVec 32)) : Engine.process_block_small.State1 → Res Engine.process_block_small.State1 :=
  fun (bb', bbb') => do
    let x_513 ← index bb' 0
    let x_514 ← index bb' 1
    let x_515 ← index bb' 2
    let x_516 ← index bb' 3
    let x_517 ← index bb' 4
    let x_518 ← index w 11
    let x_519 ← index bb' 1
    let x_520 ← index bb' 2
    let x_521 ← index bb' 3
    let updates' := small_hash.round cfg x_513 x_514 x_515 x_516 x_517 x_518 12#32 0x6ed9eba1#32 ((x_519 ||| (~~~x_520)) ^^^ x_521)
    let bb' ← indexSet bb' 0 updates'.1
    let bb' ← indexSet bb' 2 updates'.2
    pure (bb', bbb')

/-- round!(bb[<expr>], bb[<expr>], bb[<expr>], bb[<expr>], bb[<expr>], <expr>[<expr>], <expr>, 0x6ed9eba1,(bb[<expr>] | ! bb[<expr>]) ^ bb[<expr>]) -/
def Engine.process_block_small.line1_46 (cfg : Cfg) (w : List (BitVec 32)) : Engine.process_block_small.State1 → Res Engine.process_block_small.State1 :=
  fun (bb', bbb') => do
    let x_524 ← index bb' 4
    let x_525 ← index bb' 0
    let x_526 ← index bb' 1
    let x_527 ← index bb' 2
    let x_528 ← index bb' 3
    let x_529 ← index w 5
    let x_530 ← index bb' 0
    let x_531 ← index bb' 1
    let x_532 ← index bb' 2
    let updates' := small_hash.round cfg x_524 x_525 x_526 x_527 x_528 x_529 7#32 0x6ed9eba1#32 ((x_530 ||| (~~~x_531)) ^^^ x_532)
    let bb' ← indexSet bb' 4 updates'.1
    let bb' ← indexSet bb' 1 updates'.2
    pure (bb', bbb')

/-- round!(bb[<expr>], bb[<expr>], bb[<expr>], bb[<expr>], bb[<expr>], <expr>[<expr>], <expr>, 0x6ed9eba1,(bb[<expr>] | ! bb[<expr>]) ^ bb[<expr>]) -/
def Engine.process_block_small.line1_47 (cfg : Cfg) (w : List (BitVec 32)) : Engine.process_block_small.State1 → Res Engine.process_block_small.State1 :=
  fun (bb', bbb') => do
    let x_535 ← index bb' 3
    let x_536 ← index bb' 4
    let x_537 ← index bb' 0
    let x_538 ← index bb' 1
    let x_539 ← index bb' 2
    let x_540 ← index w 12
    let x_541 ← index bb' 4
    let x_542 ← index bb' 0
    let x_543 ← index bb' 1
    let updates' := small_hash.round cfg x_535 x_536 x_537 x_538 x_539 x_540 5#32 0x6ed9eba1#32 ((x_541 ||| (~~~x_542)) ^^^ x_543)
    let bb' ← indexSet bb' 3 updates'.1
    let bb' ← indexSet bb' 0 updates'.2
    pure (bb', bbb')

/-- round!(bb[<expr>], bb[<expr>], bb[<expr>], bb[<expr>], bb[<expr>], <expr>[<expr>], <expr>, 0x8f1bbcdc,(bb[<expr>] & bb[<expr>]) |(bb[<expr>] & ! bb[<expr>])) -/
def Engine.process_block_small.line1_48 (cfg : Cfg) (w : List (BitVec 32)) : Engine.process_block_small.State1 → Res Engine.process_block_small.State1 :=
  fun (bb', bbb') => do
    let x_546 ← index bb' 2
    let x_547 ← index bb' 3
    let x_548 ← index bb' 4
    let x_549 ← index bb' 0
    let x_550 ← index bb' 1
    let x_551 ← index w 1
    let x_552 ← index bb' 3
    let x_553 ← index bb' 0
    let x_554 ← index bb' 4
    let x_555 ← index bb' 0
    let updates' := small_hash.round cfg x_546 x_547 x_548 x_549 x_550 x_551 11#32 0x8f1bbcdc#32 ((x_552 &&& x_553) ||| (x_554 &&& (~~~x_555)))
    let bb' ← indexSet bb' 2 updates'.1
    let bb' ← indexSet bb' 4 updates'.2
    pure (bb', bbb')

/-- round!(bb[<expr>], bb[<expr>], bb[<expr>], bb[<expr>], bb[<expr>], <expr>[<expr>], <expr>, 0x8f1bbcdc,(bb[<expr>] & bb[<expr>]) |(bb[<expr>] & ! bb[<expr>])) -/
def Engine.process_block_small.line1_49 (cfg : Cfg) (w : List (BitVec 32)) : Engine.process_block_small.State1 → Res Engine.process_block_small.State1 :=
  fun (bb', bbb') => do
    let x_558 ← index bb' 1
    let x_559 ← index bb' 2
    let x_560 ← index bb' 3
    let x_561 ← index bb' 4
    let x_562 ← index bb' 0
    let x_563 ← index w 9
    let x_564 ← index bb' 2
    let x_565 ← index bb' 4
    let x_566 ← index bb' 3
    let x_567 ← index bb' 4
    let updates' := small_hash.round cfg x_558 x_559 x_560 x_561 x_562 x_563 12#32 0x8f1bbcdc#32 ((x_564 &&& x_565) ||| (x_566 &&& (~~~x_567)))
    let bb' ← indexSet bb' 1 updates'.1
    let bb' ← indexSet bb' 3 updates'.2
    pure (bb', bbb')

/-- round!(bb[<expr>], bb[<expr>], bb[<expr>], bb[<expr>], bb[<expr>], <expr>[<expr>], <expr>, 0x8f1bbcdc,(bb[<expr>] & bb[<expr>]) |(bb[<expr>] & ! bb[<expr>])) -/
def Engine.process_block_small.line1_50 (cfg : Cfg) (w : List (BitVec 32)) : Engine.process_block_small.State1 → Res Engine.process_block_small.State1 :=
  fun (bb', bbb') => do
    let x_570 ← index bb' 0
    let x_571 ← index bb' 1
    let x_572 ← index bb' 2
    let x_573 ← index bb' 3
    let x_574 ← index bb' 4
    let x_575 ← index w 11
    let x_576 ← index bb' 1
    let x_577 ← index bb' 3
    let x_578 ← index bb' 2
    let x_579 ← index bb' 3
    let updates' := small_hash.round cfg x_570 x_571 x_572 x_573 x_574 x_575 14#32 0x8f1bbcdc#32 ((x_576 &&& x_577) ||| (x_578 &&& (~~~x_579)))
    let bb' ← indexSet bb' 0 updates'.1
    let bb' ← indexSet bb' 2 updates'.2
    pure (bb', bbb')

/-- round!(bb[<expr>], bb[<expr>], bb[<expr>], bb[<expr>], bb[<expr>], <expr>[<expr>], <expr>, 0x8f1bbcdc,(bb[<expr>] & bb[<expr>]) |(bb[<expr>] & ! bb[<expr>])) -/
def Engine.process_block_small.line1_51 (cfg : Cfg) (w : List (BitVec 32)) : Engine.process_block_small.State1 → Res Engine.process_block_small.State1 :=
  fun (bb', bbb') => do
    let x_582 ← index bb' 4
    let x_583 ← index bb' 0
    let x_584 ← index bb' 1
    let x_585 ← index bb' 2
    let x_586 ← index bb' 3
    let x_587 ← index w 10
    let x_588 ← index bb' 0
    let x_589 ← index bb' 2
    let x_590 ← index bb' 1
    let x_591 ← index bb' 2
    let updates' := small_hash.round cfg x_582 x_583 x_584 x_585 x_586 x_587 15#32 0x8f1bbcdc#32 ((x_588 &&& x_589) ||| (x_590 &&& (~~~x_591)))
    let bb' ← indexSet bb' 4 updates'.1
    let bb' ← indexSet bb' 1 updates'.2
    pure (bb', bbb')

/-- round!(bb[<expr>], bb[<expr>], bb[<expr>], bb[<expr>], bb[<expr>], <expr>[<expr>], <expr>, 0x8f1bbcdc,(bb[<expr>] & bb[<expr>]) |(bb[<expr>] & ! bb[<expr>])) -/
def Engine.process_block_small.line1_52 (cfg : Cfg) (w : List (BitVec 32)) : Engine.process_block_small.State1 → Res Engine.process_block_small.State1 :=
  fun (bb', bbb') => do
    let x_594 ← index bb' 3
    let x_595 ← index bb' 4
    let x_596 ← index bb' 0
    let x_597 ← index bb' 1
    let x_598 ← index bb' 2
    let x_599 ← index w 0
    let x_600 ← index bb' 4
    let x_601 ← index bb' 1
    let x_602 ← index bb' 0
    let x_603 ← index bb' 1
    let updates' := small_hash.round cfg x_594 x_595 x_596 x_597 x_598 x_599 14#32 0x8f1bbcdc#32 ((x_600 &&& x_601) ||| (x_602 &&& (~~~x_603)))
    let bb' ← indexSet bb' 3 updates'.1
    let bb' ← indexSet bb' 0 updates'.2
    pure (bb', bbb')

/-- round!(bb[<expr>], bb[<expr>], bb[<expr>], bb[<expr>], bb[<expr>], <expr>[<expr>], <expr>, 0x8f1bbcdc,(bb[<expr>] & bb[<expr>]) |(bb[<expr>] & ! bb[<expr>])) -/
def Engine.process_block_small.line1_53 (cfg : Cfg) (w : List (BitVec 32)) : Engine.process_block_small.State1 → Res Engine.process_block_small.State1 :=
  fun (bb', bbb') => do
    let x_606 ← index bb' 2
    let x_607 ← index bb' 3
    let x_608 ← index bb' 4
    let x_609 ← index bb' 0
    let x_610 ← index bb' 1
    let x_611 ← index w 8
    let x_612 ← index bb' 3
    let x_613 ← index bb' 0
    let x_614 ← index bb' 4
    let x_615 ← index bb' 0
    let updates' := small_hash.round cfg x_606 x_607 x_608 x_609 x_610 x_611 15#32 0x8f1bbcdc#32 ((x_612 &&& x_613) ||| (x_614 &&& (~~~x_615)))
    let bb' ← indexSet bb' 2 updates'.1
    let bb' ← indexSet bb' 4 updates'.2
    pure (bb', bbb')

/-- round!(bb[<expr>], bb[<expr>], bb[<expr>], bb[<expr>], bb[<expr>], <expr>[<expr>], <expr>, 0x8f1bbcdc,(bb[<expr>] & bb[<expr>]) |(bb[<expr>] & ! bb[<expr>])) -/
def Engine.process_block_small.line1_54 (cfg : Cfg) (w : List (BitVec 32)) : Engine.process_block_small.State1 → Res Engine.process_block_small.State1 :=
  fun (bb', bbb') => do
    let x_618 ← index bb' 1
    let x_619 ← index bb' 2
    let x_620 ← index bb' 3
    let x_621 ← index bb' 4
    let x_622 ← index bb' 0
    let x_623 ← index w 12
    let x_624 ← index bb' 2
    let x_625 ← index bb' 4
    let x_626 ← index bb' 3
    let x_627 ← index bb' 4
    let updates' := small_hash.round cfg x_618 x_619 x_620 x_621 x_622 x_623 9#32 0x8f1bbcdc#32 ((x_624 &&& x_625) ||| (x_626 &&& (~~~x_627)))
    let bb' ← indexSet bb' 1 updates'.1
    let bb' ← indexSet bb' 3 updates'.2
    pure (bb', bbb')

/-- round!(bb[<expr>], bb[<expr>], bb[<expr>], bb[<expr>], bb[<expr>], <expr>[<expr>], <expr>, 0x8f1bbcdc,(bb[<expr>] & bb[<expr>]) |(bb[<expr>] & ! bb[<expr>])) -/
def Engine.process_block_small.line1_55 (cfg : Cfg) (w : List (BitVec 32)) : Engine.process_block_small.State1 → Res Engine.process_block_small.State1 :=
  fun (bb', bbb') => do
    let x_630 ← index bb' 0
    let x_631 ← index bb' 1
    let x_632 ← index bb' 2
    let x_633 ← index bb' 3
    let x_634 ← index bb' 4
    let x_635 ← index w 4
    let x_636 ← index bb' 1
    let x_637 ← index bb' 3
    let x_638 ← index bb' 2
    let x_639 ← index bb' 3
    let updates' := small_hash.round cfg x_630 x_631 x_632 x_633 x_634 x_635 8#32 0x8f1bbcdc#32 ((x_636 &&& x_637) ||| (x_638 &&& (~~~x_639)))
    let bb' ← indexSet bb' 0 updates'.1
    let bb' ← indexSet bb' 2 updates'.2
    pure (bb', bbb')

/-- round!(bb[<expr>], bb[<expr>], bb[<expr>], bb[<expr>], bb[<expr>], <expr>[<expr>], <expr>, 0x8f1bbcdc,(bb[<expr>] & bb[<expr>]) |(bb[<expr>] & ! bb[<expr>])) -/
def Engine.process_block_small.line1_56 (cfg : Cfg) (w : List (BitVec 32)) : Engine.process_block_small.State1 → Res Engine.process_block_small.State1 :=
  fun (bb', bbb') => do
    let x_642 ← index bb' 4
    let x_643 ← index bb' 0
    let x_644 ← index bb' 1
    let x_645 ← index bb' 2
    let x_646 ← index bb' 3
    let x_647 ← index w 13
    let x_648 ← index bb' 0
    let x_649 ← index bb' 2
    let x_650 ← index bb' 1
    let x_651 ← index bb' 2
    let updates' := small_hash.round cfg x_642 x_643 x_644 x_645 x_646 x_647 9#32 0x8f1bbcdc#32 ((x_648 &&& x_649) ||| (x_650 &&& (~~~x_651)))
    let bb' ← indexSet bb' 4 updates'.1
    let bb' ← indexSet bb' 1 updates'.2
    pure (bb', bbb')

/-- round!(bb[<expr>], bb[<expr>], bb[<expr>], bb[<expr>], bb[<expr>], <expr>[<expr>], <expr>, 0x8f1bbcdc,(bb[<expr>] & bb[<expr>]) |(bb[<expr>] & ! bb[<expr>])) -/
def Engine.process_block_small.line1_57 (cfg : Cfg) (w : List (BitVec 32)) : Engine.process_block_small.State1 → Res Engine.process_block_small.State1 :=
  fun (bb', bbb') => do
    let x_654 ← index bb' 3
    let x_655 ← index bb' 4
    let x_656 ← index bb' 0
    let x_657 ← index bb' 1
    let x_658 ← index bb' 2
    let x_659 ← index w 3
    let x_660 ← index bb' 4
    let x_661 ← index bb' 1
    let x_662 ← index bb' 0
    let x_663 ← index bb' 1
    let updates' := small_hash.round cfg x_654 x_655 x_656 x_657 x_658 x_659 14#32 0x8f1bbcdc#32 ((x_660 &&& x_661) ||| (x_662 &&& (~~~x_663)))
    let bb' ← indexSet bb' 3 updates'.1
    let bb' ← indexSet bb' 0 updates'.2
    pure (bb', bbb')

/-- round!(bb[<expr>], bb[<expr>], bb[<expr>], bb[<expr>], bb[<expr>], <expr>[<expr>], <expr>, 0x8f1bbcdc,(bb[<expr>] & bb[<expr>]) |(bb[<expr>] & ! bb[<expr>])) -/
def Engine.process_block_small.line1_58 (cfg : Cfg) (w : List (BitVec 32)) : Engine.process_block_small.State1 → Res Engine.process_block_small.State1 :=
  fun (bb', bbb') => do
    let x_666 ← index bb' 2
    let x_667 ← index bb' 3
    let x_668 ← index bb' 4
    let x_669 ← index bb' 0
    let x_670 ← index bb' 1
    let x_671 ← index w 7
    let x_672 ← index bb' 3
    let x_673 ← index bb' 0
    let x_674 ← index bb' 4
    let x_675 ← index bb' 0
    let updates' := small_hash.round cfg x_666 x_667 x_668 x_669 x_670 x_671 5#32 0x8f1bbcdc#32 ((x_672 &&& x_673) ||| (x_674 &&& (~~~x_675)))
    let bb' ← indexSet bb' 2 updates'.1
    let bb' ← indexSet bb' 4 updates'.2
    pure (bb', bbb')

/-- round!(bb[<expr>], bb[<expr>], bb[<expr>], bb[<expr>], bb[<expr>], <expr>[<expr>], <expr>, 0x8f1bbcdc,(bb[<expr>] & bb[<expr>]) |(bb[<expr>] & ! bb[<expr>])) -/
def Engine.process_block_small.line1_59 (cfg : Cfg) (w : List (BitVec 32)) : Engine.process_block_small.State1 → Res Engine.process_block_small.State1 :=
  fun (bb', bbb') => do
    let x_678 ← index bb' 1
    let x_679 ← index bb' 2
    let x_680 ← index bb' 3
    let x_681 ← index bb' 4
    let x_682 ← index bb' 0
    let x_683 ← index w 15
    let x_684 ← index bb' 2
    let x_685 ← index bb' 4
    let x_686 ← index bb' 3
    let x_687 ← index bb' 4
    let updates' := small_hash.round cfg x_678 x_679 x_680 x_681 x_682 x_683 6#32 0x8f1bbcdc#32 ((x_684 &&& x_685) ||| (x_686 &&& (~~~x_687)))
    let bb' ← indexSet bb' 1 updates'.1
    let bb' ← indexSet bb' 3 updates'.2
    pure (bb', bbb')

/-- round!(bb[<expr>], bb[<expr>], bb[<expr>], bb[<expr>], bb[<expr>], <expr>[<expr>], <expr>, 0x8f1bbcdc,(bb[<expr>] & bb[<expr>]) |(bb[<expr>] & ! bb[<expr>])) -/
def Engine.process_block_small.line1_60 (cfg : Cfg) (w : List (BitVec 32)) : Engine.process_block_small.State1 → Res Engine.process_block_small.State1 :=
  fun (bb', bbb') => do
    let x_690 ← index bb' 0
    let x_691 ← index bb' 1
    let x_692 ← index bb' 2
    let x_693 ← index bb' 3
    let x_694 ← index bb' 4
    let x_695 ← index w 14
    let x_696 ← index bb' 1
    let x_697 ← index bb' 3
    let x_698 ← index bb' 2
    let x_699 ← index bb' 3
    let updates' := small_hash.round cfg x_690 x_691 x_692 x_693 x_694 x_695 8#32 0x8f1bbcdc#32 ((x_696 &&& x_697) ||| (x_698 &&& (~~~x_699)))
    let bb' ← indexSet bb' 0 updates'.1
    let bb' ← indexSet bb' 2 updates'.2
    pure (bb', bbb')

/-- round!(bb[<expr>], bb[<expr>], bb[<expr>], bb[<expr>], bb[<expr>], <expr>[<expr>], <expr>, 0x8f1bbcdc,(bb[<expr>] & bb[<expr>]) |(bb[<expr>] & ! bb[<expr>])) -/
def Engine.process_block_small.line1_61 (cfg : Cfg) (w : List (BitVec 32)) : Engine.process_block_small.State1 → Res Engine.process_block_small.State1 :=
  fun (bb', bbb') => do
    let x_702 ← index bb' 4
    let x_703 ← index bb' 0
    let x_704 ← index bb' 1
    let x_705 ← index bb' 2
    let x_706 ← index bb' 3
    let x_707 ← index w 5
    let x_708 ← index bb' 0
    let x_709 ← index bb' 2
    let x_710 ← index bb' 1
    let x_711 ← index bb' 2
    let updates' := small_hash.round cfg x_702 x_703 x_704 x_705 x_706 x_707 6#32 0x8f1bbcdc#32 ((x_708 &&& x_709) ||| (x_710 &&& (~~~x_711)))
    let bb' ← indexSet bb' 4 updates'.1
    let bb' ← indexSet bb' 1 updates'.2
    pure (bb', bbb')

/-- round!(bb[<expr>], bb[<expr>], bb[<expr>], bb[<expr>], bb[<expr>], <expr>[<expr>], <expr>, 0x8f1bbcdc,(bb[<expr>] & bb[<expr>]) |(bb[<expr>] & ! bb[<expr>])) -/
def Engine.process_block_small.line1_62 (cfg : Cfg) (w : List (BitVec 32)) : Engine.process_block_small.State1 → Res Engine.process_block_small.State1 :=
  fun (bb', bbb') => do
    let x_714 ← index bb' 3
    let x_715 ← index bb' 4
    let x_716 ← index bb' 0
    let x_717 ← index bb' 1
    let x_718 ← index bb' 2
    let x_719 ← index w 6
    let x_720 ← index bb' 4
    let x_721 ← index bb' 1
    let x_722 ← index bb' 0
    let x_723 ← index bb' 1
    let updates' := small_hash.round cfg x_714 x_715 x_716 x_717 x_718 x_719 5#32 0x8f1bbcdc#32 ((x_720 &&& x_721) ||| (x_722 &&& (~~~x_723)))
    let bb' ← indexSet bb' 3 updates'.1
    let bb' ← indexSet bb' 0 updates'.2
    pure (bb', bbb')

/-- round!(bb[<expr>], bb[<expr>], bb[<expr>], bb[<expr>], bb[<expr>], <expr>[<expr>], <expr>, 0x8f1bbcdc,(bb[<expr>] & bb[<expr>]) |(bb[<expr>] & ! bb[<expr>])) -/
def Engine.process_block_small.line1_63 (cfg : Cfg) (w : List (BitVec 32)) : Engine.process_block_small.State1 → Res Engine.process_block_small.State1 :=
  fun (bb', bbb') => do
    let x_726 ← index bb' 2
    let x_727 ← index bb' 3
    let x_728 ← index bb' 4
    let x_729 ← index bb' 0
    let x_730 ← index bb' 1
    let x_731 ← index w 2
    let x_732 ← index bb' 3
    let x_733 ← index bb' 0
    let x_734 ← index bb' 4
    let x_735 ← index bb' 0
    let updates' := small_hash.round cfg x_726 x_727 x_728 x_729 x_730 x_731 12#32 0x8f1bbcdc#32 ((x_732 &&& x_733) ||| (x_734 &&& (~~~x_735)))
    let bb' ← indexSet bb' 2 updates'.1
    let bb' ← indexSet bb' 4 updates'.2
    pure (bb', bbb')

/-- round!(bb[<expr>], bb[<expr>], bb[<expr>], bb[<expr>], bb[<expr>], <expr>[<expr>], <expr>, 0xa953fd4e, bb[<expr>] ^(bb[<expr>] | ! bb[<expr>])) -/
def Engine.process_block_small.line1_64 (cfg : Cfg) (w : List (BitVec 32)) : Engine.process_block_small.State1 → Res Engine.process_block_small.State1 :=
  fun (bb', bbb') => do
    let x_738 ← index bb' 1
    let x_739 ← index bb' 2
    let x_740 ← index bb' 3
    let x_741 ← index bb' 4
    let x_742 ← index bb' 0
    let x_743 ← index w 4
    let x_744 ← index bb' 2
    let x_745 ← index bb' 3
    let x_746 ← index bb' 4
    let updates' := small_hash.round cfg x_738 x_739 x_740 x_741 x_742 x_743 9#32 0xa953fd4e#32 (x_744 ^^^ (x_745 ||| (~~~x_746)))
    let bb' ← indexSet bb' 1 updates'.1
    let bb' ← indexSet bb' 3 updates'.2
    pure (bb', bbb')

/-- round!(bb[<expr>], bb[<expr>], bb[<expr>], bb[<expr>], bb[<expr>], <expr>[<expr>], <expr>, 0xa953fd4e, bb[<expr>] ^(bb[<expr>] | ! bb[<expr>])) -/
def Engine.process_block_small.line1_65 (cfg : Cfg) (w : List (BitVec 32)) : Engine.process_block_small.State1 → Res Engine.process_block_small.State1 :=
  fun (bb', bbb') => do
    let x_749 ← index bb' 0
    let x_750 ← index bb' 1
    let x_751 ← index bb' 2
    let x_752 ← index bb' 3
    let x_753 ← index bb' 4
    let x_754 ← index w 0
    let x_755 ← index bb' 1
    let x_756 ← index bb' 2
    let x_757 ← index bb' 3
    let updates' := small_hash.round cfg x_749 x_750 x_751 x_752 x_753 x_754 15#32 0xa953fd4e#32 (x_755 ^^^ (x_756 ||| (~~~x_757)))
    let bb' ← indexSet bb' 0 updates'.1
    let bb' ← indexSet bb' 2 updates'.2
    pure (bb', bbb')

/-- round!(bb[<expr>], bb[<expr>], bb[<expr>], bb[<expr>], bb[<expr>], <expr>[<expr>], <expr>, 0xa953fd4e, bb[<expr>] ^(bb[<expr>] | ! bb[<expr>])) -/
def Engine.process_block_small.line1_66 (cfg : Cfg) (w : List (BitVec 32)) : Engine.process_block_small.State1 → Res Engine.process_block_small.State1 :=
  fun (bb', bbb') => do
    let x_760 ← index bb' 4
    let x_761 ← index bb' 0
    let x_762 ← index bb' 1
    let x_763 ← index bb' 2
    let x_764 ← index bb' 3
    let x_765 ← index w 5
    let x_766 ← index bb' 0
    let x_767 ← index bb' 1
    let x_768 ← index bb' 2
    let updates' := small_hash.round cfg x_760 x_761 x_762 x_763 x_764 x_765 5#32 0xa953fd4e#32 (x_766 ^^^ (x_767 ||| (~~~x_768)))
    let bb' ← indexSet bb' 4 updates'.1
    let bb' ← indexSet bb' 1 updates'.2
    pure (bb', bbb')

/-- round!(bb[<expr>], bb[<expr>], bb[<expr>], bb[<expr>], bb[<expr>], <expr>[<expr>], <expr>, 0xa953fd4e, bb[<expr>] ^(bb[<expr>] | ! bb[<expr>])) -/
def Engine.process_block_small.line1_67 (cfg : Cfg) (w : List (BitVec 32)) : Engine.process_block_small.State1 → Res Engine.process_block_small.State1 :=
  fun (bb', bbb') => do
    let x_771 ← index bb' 3
    let x_772 ← index bb' 4
    let x_773 ← index bb' 0
    let x_774 ← index bb' 1
    let x_775 ← index bb' 2
    let x_776 ← index w 9
    let x_777 ← index bb' 4
    let x_778 ← index bb' 0
    let x_779 ← index bb' 1
    let updates' := small_hash.round cfg x_771 x_772 x_773 x_774 x_775 x_776 11#32 0xa953fd4e#32 (x_777 ^^^ (x_778 ||| (~~~x_779)))
    let bb' ← indexSet bb' 3 updates'.1
    let bb' ← indexSet bb' 0 updates'.2
    pure (bb', bbb')

/-- round!(bb[<expr>], bb[<expr>], bb[<expr>], bb[<expr>], bb[<expr>], <expr>[<expr>], <expr>, 0xa953fd4e, bb[<expr>] ^(bb[<expr>] | ! bb[<expr>])) -/
def Engine.process_block_small.line1_68 (cfg : Cfg) (w : List (BitVec 32)) : Engine.process_block_small.State1 → Res Engine.process_block_small.State1 :=
  fun (bb', bbb') => do
    let x_782 ← index bb' 2
    let x_783 ← index bb' 3
    let x_784 ← index bb' 4
    let x_785 ← index bb' 0
    let x_786 ← index bb' 1
    let x_787 ← index w 7
    let x_788 ← index bb' 3
    let x_789 ← index bb' 4
    let x_790 ← index bb' 0
    let updates' := small_hash.round cfg x_782 x_783 x_784 x_785 x_786 x_787 6#32 0xa953fd4e#32 (x_788 ^^^ (x_789 ||| (~~~x_790)))
    let bb' ← indexSet bb' 2 updates'.1
    let bb' ← indexSet bb' 4 updates'.2
    pure (bb', bbb')

/-- round!(bb[<expr>], bb[<expr>], bb[<expr>], bb[<expr>], bb[<expr>], <expr>[<expr>], <expr>, 0xa953fd4e, bb[<expr>] ^(bb[<expr>] | ! bb[<expr>])) -/
def Engine.process_block_small.line1_69 (cfg : Cfg) (w : List (BitVec 32)) : Engine.process_block_small.State1 → Res Engine.process_block_small.State1 :=
  fun (bb', bbb') => do
    let x_793 ← index bb' 1
    let x_794 ← index bb' 2
    let x_795 ← index bb' 3
    let x_796 ← index bb' 4
    let x_797 ← index bb' 0
    let x_798 ← index w 12
    let x_799 ← index bb' 2
    let x_800 ← index bb' 3
    let x_801 ← index bb' 4
    let updates' := small_hash.round cfg x_793 x_794 x_795 x_796 x_797 x_798 8#32 0xa953fd4e#32 (x_799 ^^^ (x_800 ||| (~~~x_801)))
    let bb' ← indexSet bb' 1 updates'.1
    let bb' ← indexSet bb' 3 updates'.2
    pure (bb', bbb')

/-- round!(bb[<expr>], bb[<expr>], bb[<expr>], bb[<expr>], bb[<expr>], <expr>[<expr>], <expr>, 0xa953fd4e, bb[<expr>] ^(bb[<expr>] | ! bb[<expr>])) -/
def Engine.process_block_small.line1_70 (cfg : Cfg) (w : List (BitVec 32)) : Engine.process_block_small.State1 → Res Engine.process_block_small.State1 :=
  fun (bb', bbb') => do
    let x_804 ← index bb' 0
    let x_805 ← index bb' 1
    let x_806 ← index bb' 2
    let x_807 ← index bb' 3
    let x_808 ← index bb' 4
    let x_809 ← index w 2
    let x_810 ← index bb' 1
    let x_811 ← index bb' 2
    let x_812 ← index bb' 3
    let updates' := small_hash.round cfg x_804 x_805 x_806 x_807 x_808 x_809 13#32 0xa953fd4e#32 (x_810 ^^^ (x_811 ||| (~~~x_812)))
    let bb' ← indexSet bb' 0 updates'.1
    let bb' ← indexSet bb' 2 updates'.2
    pure (bb', bbb')

/-- round!(bb[<expr>], bb[<expr>], bb[<expr>], bb[<expr>], bb[<expr>], <expr>[<expr>], <expr>, 0xa953fd4e, bb[<expr>] ^(bb[<expr>] | ! bb[<expr>])) -/
def Engine.process_block_small.line1_71 (cfg : Cfg) (w : List (BitVec 32)) : Engine.process_block_small.State1 → Res Engine.process_block_small.State1 :=
  fun (bb', bbb') => do
    let x_815 ← index bb' 4
    let x_816 ← index bb' 0
    let x_817 ← index bb' 1
    let x_818 ← index bb' 2
    let x_819 ← index bb' 3
    let x_820 ← index w 10
    let x_821 ← index bb' 0
    let x_822 ← index bb' 1
    let x_823 ← index bb' 2
    let updates' := small_hash.round cfg x_815 x_816 x_817 x_818 x_819 x_820 12#32 0xa953fd4e#32 (x_821 ^^^ (x_822 ||| (~~~x_823)))
    let bb' ← indexSet bb' 4 updates'.1
    let bb' ← indexSet bb' 1 updates'.2
    pure (bb', bbb')

/-- round!(bb[<expr>], bb[<expr>], bb[<expr>], bb[<expr>], bb[<expr>], <expr>[<expr>], <expr>, 0xa953fd4e, bb[<expr>] ^(bb[<expr>] | ! bb[<expr>])) -/
def Engine.process_block_small.line1_72 (cfg : Cfg) (w : List (BitVec 32)) : Engine.process_block_small.State1 → Res Engine.process_block_small.State1 :=
  fun (bb', bbb') => do
    let x_826 ← index bb' 3
    let x_827 ← index bb' 4
    let x_828 ← index bb' 0
    let x_829 ← index bb' 1
    let x_830 ← index bb' 2
    let x_831 ← index w 14
    let x_832 ← index bb' 4
    let x_833 ← index bb' 0
    let x_834 ← index bb' 1
    let updates' := small_hash.round cfg x_826 x_827 x_828 x_829 x_830 x_831 5#32 0xa953fd4e#32 (x_832 ^^^ (x_833 ||| (~~~x_834)))
    let bb' ← indexSet bb' 3 updates'.1
    let bb' ← indexSet bb' 0 updates'.2
    pure (bb', bbb')

/-- round!(bb[<expr>], bb[<expr>], bb[<expr>], bb[<expr>], bb[<expr>], <expr>[<expr>], <expr>, 0xa953fd4e, bb[<expr>] ^(bb[<expr>] | ! bb[<expr>])) -/
def Engine.process_block_small.line1_73 (cfg : Cfg) (w : List (BitVec 32)) : Engine.process_block_small.State1 → Res Engine.process_block_small.State1 :=
  fun (bb', bbb') => do
    let x_837 ← index bb' 2
    let x_838 ← index bb' 3
    let x_839 ← index bb' 4
    let x_840 ← index bb' 0
    let x_841 ← index bb' 1
    let x_842 ← index w 1
    let x_843 ← index bb' 3
    let x_844 ← index bb' 4
    let x_845 ← index bb' 0
    let updates' := small_hash.round cfg x_837 x_838 x_839 x_840 x_841 x_842 12#32 0xa953fd4e#32 (x_843 ^^^ (x_844 ||| (~~~x_845)))
    let bb' ← indexSet bb' 2 updates'.1
    let bb' ← indexSet bb' 4 updates'.2
    pure (bb', bbb')

/-- round!(bb[<expr>], bb[<expr>], bb[<expr>], bb[<expr>], bb[<expr>], <expr>[<expr>], <expr>, 0xa953fd4e, bb[<expr>] ^(bb[<expr>] | ! bb[<expr>])) -/
def Engine.process_block_small.line1_74 (cfg : Cfg) (w : List (BitVec 32)) : Engine.process_block_small.State1 → Res Engine.process_block_small.State1 :=
  fun (bb', bbb') => do
    let x_848 ← index bb' 1
    let x_849 ← index bb' 2
    let x_850 ← index bb' 3
    let x_851 ← index bb' 4
    let x_852 ← index bb' 0
    let x_853 ← index w 3
    let x_854 ← index bb' 2
    let x_855 ← index bb' 3
    let x_856 ← index bb' 4
    let updates' := small_hash.round cfg x_848 x_849 x_850 x_851 x_852 x_853 13#32 0xa953fd4e#32 (x_854 ^^^ (x_855 ||| (~~~x_856)))
    let bb' ← indexSet bb' 1 updates'.1
    let bb' ← indexSet bb' 3 updates'.2
    pure (bb', bbb')

/-- round!(bb[<expr>], bb[<expr>], bb[<expr>], bb[<expr>], bb[<expr>], <expr>[<expr>], <expr>, 0xa953fd4e, bb[<expr>] ^(bb[<expr>] | ! bb[<expr>])) -/
def Engine.process_block_small.line1_75 (cfg : Cfg) (w : List (BitVec 32)) : Engine.process_block_small.State1 → Res Engine.process_block_small.State1 :=
  fun (bb', bbb') => do
    let x_859 ← index bb' 0
    let x_860 ← index bb' 1
    let x_861 ← index bb' 2
    let x_862 ← index bb' 3
    let x_863 ← index bb' 4
    let x_864 ← index w 8
    let x_865 ← index bb' 1
    let x_866 ← index bb' 2
    let x_867 ← index bb' 3
    let updates' := small_hash.round cfg x_859 x_860 x_861 x_862 x_863 x_864 14#32 0xa953fd4e#32 (x_865 ^^^ (x_866 ||| (~~~x_867)))
    let bb' ← indexSet bb' 0 updates'.1
    let bb' ← indexSet bb' 2 updates'.2
    pure (bb', bbb')

/-- round!(bb[<expr>], bb[<expr>], bb[<expr>], bb[<expr>], bb[<expr>], <expr>[<expr>], <expr>, 0xa953fd4e, bb[<expr>] ^(bb[<expr>] | ! bb[<expr>])) -/
def Engine.process_block_small.line1_76 (cfg : Cfg) (w : List (BitVec 32)) : Engine.process_block_small.State1 → Res Engine.process_block_small.State1 :=
  fun (bb', bbb') => do
    let x_870 ← index bb' 4
    let x_871 ← index bb' 0
    let x_872 ← index bb' 1
    let x_873 ← index bb' 2
    let x_874 ← index bb' 3
    let x_875 ← index w 11
    let x_876 ← index bb' 0
    let x_877 ← index bb' 1
    let x_878 ← index bb' 2
    let updates' := small_hash.round cfg x_870 x_871 x_872 x_873 x_874 x_875 11#32 0xa953fd4e#32 (x_876 ^^^ (x_877 ||| (~~~x_878)))
    let bb' ← indexSet bb' 4 updates'.1
    let bb' ← indexSet bb' 1 updates'.2
    pure (bb', bbb')

/-- round!(bb[<expr>], bb[<expr>], bb[<expr>], bb[<expr>], bb[<expr>], <expr>[<expr>], <expr>, 0xa953fd4e, bb[<expr>] ^(bb[<expr>] | ! bb[<expr>])) -/
def Engine.process_block_small.line1_77 (cfg : Cfg) (w : List (BitVec 32)) : Engine.process_block_small.State1 → Res Engine.process_block_small.State1 :=
  fun (bb', bbb') => do
    let x_881 ← index bb' 3
    let x_882 ← index bb' 4
    let x_883 ← index bb' 0
    let x_884 ← index bb' 1
    let x_885 ← index bb' 2
    let x_886 ← index w 6
    let x_887 ← index bb' 4
    let x_888 ← index bb' 0
    let x_889 ← index bb' 1
    let updates' := small_hash.round cfg x_881 x_882 x_883 x_884 x_885 x_886 8#32 0xa953fd4e#32 (x_887 ^^^ (x_888 ||| (~~~x_889)))
    let bb' ← indexSet bb' 3 updates'.1
    let bb' ← indexSet bb' 0 updates'.2
    pure (bb', bbb')

/-- round!(bb[<expr>], bb[<expr>], bb[<expr>], bb[<expr>], bb[<expr>], <expr>[<expr>], <expr>, 0xa953fd4e, bb[<expr>] ^(bb[<expr>] | ! bb[<expr>])) -/
def Engine.process_block_small.line1_78 (cfg : Cfg) (w : List (BitVec 32)) : Engine.process_block_small.State1 → Res Engine.process_block_small.State1 :=
  fun (bb', bbb') => do
    let x_892 ← index bb' 2
    let x_893 ← index bb' 3
    let x_894 ← index bb' 4
    let x_895 ← index bb' 0
    let x_896 ← index bb' 1
    let x_897 ← index w 15
    let x_898 ← index bb' 3
    let x_899 ← index bb' 4
    let x_900 ← index bb' 0
    let updates' := small_hash.round cfg x_892 x_893 x_894 x_895 x_896 x_897 5#32 0xa953fd4e#32 (x_898 ^^^ (x_899 ||| (~~~x_900)))
    let bb' ← indexSet bb' 2 updates'.1
    let bb' ← indexSet bb' 4 updates'.2
    pure (bb', bbb')

/-- round!(bb[<expr>], bb[<expr>], bb[<expr>], bb[<expr>], bb[<expr>], <expr>[<expr>], <expr>, 0xa953fd4e, bb[<expr>] ^(bb[<expr>] | ! bb[<expr>])) -/
def Engine.process_block_small.line1_79 (cfg : Cfg) (w : List (BitVec 32)) : Engine.process_block_small.State1 → Res Engine.process_block_small.State1 :=
  fun (bb', bbb') => do
    let x_903 ← index bb' 1
    let x_904 ← index bb' 2
    let x_905 ← index bb' 3
    let x_906 ← index bb' 4
    let x_907 ← index bb' 0
    let x_908 ← index w 13
    let x_909 ← index bb' 2
    let x_910 ← index bb' 3
    let x_911 ← index bb' 4
    let updates' := small_hash.round cfg x_903 x_904 x_905 x_906 x_907 x_908 6#32 0xa953fd4e#32 (x_909 ^^^ (x_910 ||| (~~~x_911)))
    let bb' ← indexSet bb' 1 updates'.1
    let bb' ← indexSet bb' 3 updates'.2
    pure (bb', bbb')

/-- round!(bbb[<expr>], bbb[<expr>], bbb[<expr>], bbb[<expr>], bbb[<expr>], <expr>[<expr>], <expr>, 0x50a28be6, bbb[<expr>] ^(bbb[<expr>] | ! bbb[<expr>])) -/
def Engine.process_block_small.line1_80 (cfg : Cfg) (w : List (BitVec 32)) : Engine.process_block_small.State1 → Res Engine.process_block_small.State1 :=
  fun (bb', bbb') => do
    let x_914 ← index bbb' 0
    let x_915 ← index bbb' 1
    let x_916 ← index bbb' 2
    let x_917 ← index bbb' 3
    let x_918 ← index bbb' 4
    let x_919 ← index w 5
    let x_920 ← index bbb' 1
    let x_921 ← index bbb' 2
    let x_922 ← index bbb' 3
    let updates' := small_hash.round cfg x_914 x_915 x_916 x_917 x_918 x_919 8#32 0x50a28be6#32 (x_920 ^^^ (x_921 ||| (~~~x_922)))
    let bbb' ← indexSet bbb' 0 updates'.1
    let bbb' ← indexSet bbb' 2 updates'.2
    pure (bb', bbb')

/-- round!(bbb[<expr>], bbb[<expr>], bbb[<expr>], bbb[<expr>], bbb[<expr>], <expr>[<expr>], <expr>, 0x50a28be6, bbb[<expr>] ^(bbb[<expr>] | ! bbb[<expr>])) -/
def Engine.process_block_small.line1_81 (cfg : Cfg) (w : List (BitVec 32)) : Engine.process_block_small.State1 → Res Engine.process_block_small.State1 :=
  fun (bb', bbb') => do
    let x_925 ← index bbb' 4
    let x_926 ← index bbb' 0
    let x_927 ← index bbb' 1
    let x_928 ← index bbb' 2
    let x_929 ← index bbb' 3
    let x_930 ← index w 14
    let x_931 ← index bbb' 0
    let x_932 ← index bbb' 1
    let x_933 ← index bbb' 2
    let updates' := small_hash.round cfg x_925 x_926 x_927 x_928 x_929 x_930 9#32 0x50a28be6#32 (x_931 ^^^ (x_932 ||| (~~~x_933)))
    let bbb' ← indexSet bbb' 4 updates'.1
    let bbb' ← indexSet bbb' 1 updates'.2
    pure (bb', bbb')

/-- round!(bbb[<expr>], bbb[<expr>], bbb[<expr>], bbb[<expr>], bbb[<expr>], <expr>[<expr>], <expr>, 0x50a28be6, bbb[<expr>] ^(bbb[<expr>] | ! bbb[<expr>])) -/
def Engine.process_block_small.line1_82 (cfg : Cfg) (w : List (BitVec 32)) : Engine.process_block_small.State1 → Res Engine.process_block_small.State1 :=
  fun (bb', bbb') => do
    let x_936 ← index bbb' 3
    let x_937 ← index bbb' 4
    let x_938 ← index bbb' 0
    let x_939 ← index bbb' 1
    let x_940 ← index bbb' 2
    let x_941 ← index w 7
    let x_942 ← index bbb' 4
    let x_943 ← index bbb' 0
    let x_944 ← index bbb' 1
    let updates' := small_hash.round cfg x_936 x_937 x_938 x_939 x_940 x_941 9#32 0x50a28be6#32 (x_942 ^^^ (x_943 ||| (~~~x_944)))
    let bbb' ← indexSet bbb' 3 updates'.1
    let bbb' ← indexSet bbb' 0 updates'.2
    pure (bb', bbb')

/-- round!(bbb[<expr>], bbb[<expr>], bbb[<expr>], bbb[<expr>], bbb[<expr>], <expr>[<expr>], <expr>, 0x50a28be6, bbb[<expr>] ^(bbb[<expr>] | ! bbb[<expr>])) -/
def Engine.process_block_small.line1_83 (cfg : Cfg) (w : List (BitVec 32)) : Engine.process_block_small.State1 → Res Engine.process_block_small.State1 :=
  fun (bb', bbb') => do
    let x_947 ← index bbb' 2
    let x_948 ← index bbb' 3
    let x_949 ← index bbb' 4
    let x_950 ← index bbb' 0
    let x_951 ← index bbb' 1
    let x_952 ← index w 0
    let x_953 ← index bbb' 3
    let x_954 ← index bbb' 4
    let x_955 ← index bbb' 0
    let updates' := small_hash.round cfg x_947 x_948 x_949 x_950 x_951 x_952 11#32 0x50a28be6#32 (x_953 ^^^ (x_954 ||| (~~~x_955)))
    let bbb' ← indexSet bbb' 2 updates'.1
    let bbb' ← indexSet bbb' 4 updates'.2
    pure (bb', bbb')

/-- round!(bbb[<expr>], bbb[<expr>], bbb[<expr>], bbb[<expr>], bbb[<expr>], <expr>[<expr>], <expr>, 0x50a28be6, bbb[<expr>] ^(bbb[<expr>] | ! bbb[<expr>])) -/
def Engine.process_block_small.line1_84 (cfg : Cfg) (w : List (BitVec 32)) : Engine.process_block_small.State1 → Res Engine.process_block_small.State1 :=
  fun (bb', bbb') => do
    let x_958 ← index bbb' 1
    let x_959 ← index bbb' 2
    let x_960 ← index bbb' 3
    let x_961 ← index bbb' 4
    let x_962 ← index bbb' 0
    let x_963 ← index w 9
    let x_964 ← index bbb' 2
    let x_965 ← index bbb' 3
    let x_966 ← index bbb' 4
    let updates' := small_hash.round cfg x_958 x_959 x_960 x_961 x_962 x_963 13#32 0x50a28be6#32 (x_964 ^^^ (x_965 ||| (~~~x_966)))
    let bbb' ← indexSet bbb' 1 updates'.1
    let bbb' ← indexSet bbb' 3 updates'.2
    pure (bb', bbb')

/-- round!(bbb[<expr>], bbb[<expr>], bbb[<expr>], bbb[<expr>], bbb[<expr>], <expr>[<expr>], <expr>, 0x50a28be6, bbb[<expr>] ^(bbb[<expr>] | ! bbb[<expr>])) -/
def Engine.process_block_small.line1_85 (cfg : Cfg) (w : List (BitVec 32)) : Engine.process_block_small.State1 → Res Engine.process_block_small.State1 :=
  fun (bb', bbb') => do
    let x_969 ← index bbb' 0
    let x_970 ← index bbb' 1
    let x_971 ← index bbb' 2
    let x_972 ← index bbb' 3
    let x_973 ← index bbb' 4
    let x_974 ← index w 2
    let x_975 ← index bbb' 1
    let x_976 ← index bbb' 2
    let x_977 ← index bbb' 3
    let updates' := small_hash.round cfg x_969 x_970 x_971 x_972 x_973 x_974 15#32 0x50a28be6#32 (x_975 ^^^ (x_976 ||| (~~~x_977)))
    let bbb' ← indexSet bbb' 0 updates'.1
    let bbb' ← indexSet bbb' 2 updates'.2
    pure (bb', bbb')

/-- round!(bbb[<expr>], bbb[<expr>], bbb[<expr>], bbb[<expr>], bbb[<expr>], <expr>[<expr>], <expr>, 0x50a28be6, bbb[<expr>] ^(bbb[<expr>] | ! bbb[<expr>])) -/
def Engine.process_block_small.line1_86 (cfg : Cfg) (w : List (BitVec 32)) : Engine.process_block_small.State1 → Res Engine.process_block_small.State1 :=
  fun (bb', bbb') => do
    let x_980 ← index bbb' 4
    let x_981 ← index bbb' 0
    let x_982 ← index bbb' 1
    let x_983 ← index bbb' 2
    let x_984 ← index bbb' 3
    let x_985 ← index w 11
    let x_986 ← index bbb' 0
    let x_987 ← index bbb' 1
    let x_988 ← index bbb' 2
    let updates' := small_hash.round cfg x_980 x_981 x_982 x_983 x_984 x_985 15#32 0x50a28be6#32 (x_986 ^^^ (x_987 ||| (~~~x_988)))
    let bbb' ← indexSet bbb' 4 updates'.1
    let bbb' ← indexSet bbb' 1 updates'.2
    pure (bb', bbb')

/-- round!(bbb[<expr>], bbb[<expr>], bbb[<expr>], bbb[<expr>], bbb[<expr>], <expr>[<expr>], <expr>, 0x50a28be6, bbb[<expr>] ^(bbb[<expr>] | ! bbb[<expr>])) -/
def Engine.process_block_small.line1_87 (cfg : Cfg) (w : List (BitVec 32)) : Engine.process_block_small.State1 → Res Engine.process_block_small.State1 :=
  fun (bb', bbb') => do
    let x_991 ← index bbb' 3
    let x_992 ← index bbb' 4
    let x_993 ← index bbb' 0
    let x_994 ← index bbb' 1
    let x_995 ← index bbb' 2
    let x_996 ← index w 4
    let x_997 ← index bbb' 4
    let x_998 ← index bbb' 0
    let x_999 ← index bbb' 1
    let updates' := small_hash.round cfg x_991 x_992 x_993 x_994 x_995 x_996 5#32 0x50a28be6#32 (x_997 ^^^ (x_998 ||| (~~~x_999)))
    let bbb' ← indexSet bbb' 3 updates'.1
    let bbb' ← indexSet bbb' 0 updates'.2
    pure (bb', bbb')

/-- round!(bbb[<expr>], bbb[<expr>], bbb[<expr>], bbb[<expr>], bbb[<expr>], <expr>[<expr>], <expr>, 0x50a28be6, bbb[<expr>] ^(bbb[<expr>] | ! bbb[<expr>])) -/
def Engine.process_block_small.line1_88 (cfg : Cfg) (w : List (BitVec 32)) : Engine.process_block_small.State1 → Res Engine.process_block_small.State1 :=
  fun (bb', bbb') => do
    let x_1002 ← index bbb' 2
    let x_1003 ← index bbb' 3
    let x_1004 ← index bbb' 4
    let x_1005 ← index bbb' 0
    let x_1006 ← index bbb' 1
    let x_1007 ← index w 13
    let x_1008 ← index bbb' 3
    let x_1009 ← index bbb' 4
    let x_1010 ← index bbb' 0
    let updates' := small_hash.round cfg x_1002 x_1003 x_1004 x_1005 x_1006 x_1007 7#32 0x50a28be6#32 (x_1008 ^^^ (x_1009 ||| (~~~x_1010)))
    let bbb' ← indexSet bbb' 2 updates'.1
    let bbb' ← indexSet bbb' 4 updates'.2
    pure (bb', bbb')

/-- round!(bbb[<expr>], bbb[<expr>], bbb[<expr>], bbb[<expr>], bbb[<expr>], <expr>[<expr>], <expr>, 0x50a28be6, bbb[<expr>] ^(bbb[<expr>] | ! bbb[<expr>])) -/
def Engine.process_block_small.line1_89 (cfg : Cfg) (w : List (BitVec 32)) : Engine.process_block_small.State1 → Res Engine.process_block_small.State1 :=
  fun (bb', bbb') => do
    let x_1013 ← index bbb' 1
    let x_1014 ← index bbb' 2
    let x_1015 ← index bbb' 3
    let x_1016 ← index bbb' 4
    let x_1017 ← index bbb' 0
    let x_1018 ← index w 6
    let x_1019 ← index bbb' 2
    let x_1020 ← index bbb' 3
    let x_1021 ← index bbb' 4
    let updates' := small_hash.round cfg x_1013 x_1014 x_1015 x_1016 x_1017 x_1018 7#32 0x50a28be6#32 (x_1019 ^^^ (x_1020 ||| (~~~x_1021)))
    let bbb' ← indexSet bbb' 1 updates'.1
    let bbb' ← indexSet bbb' 3 updates'.2
    pure (bb', bbb')

/-- round!(bbb[<expr>], bbb[<expr>], bbb[<expr>], bbb[<expr>], bbb[<expr>], <expr>[<expr>], <expr>, 0x50a28be6, bbb[<expr>] ^(bbb[<expr>] | ! bbb[<expr>])) -/
def Engine.process_block_small.line1_90 (cfg : Cfg) (w : List (BitVec 32)) : Engine.process_block_small.State1 → Res Engine.process_block_small.State1 :=
  fun (bb', bbb') => do
    let x_1024 ← index bbb' 0
    let x_1025 ← index bbb' 1
    let x_1026 ← index bbb' 2
    let x_1027 ← index bbb' 3
    let x_1028 ← index bbb' 4
    let x_1029 ← index w 15
    let x_1030 ← index bbb' 1
    let x_1031 ← index bbb' 2
    let x_1032 ← index bbb' 3
    let updates' := small_hash.round cfg x_1024 x_1025 x_1026 x_1027 x_1028 x_1029 8#32 0x50a28be6#32 (x_1030 ^^^ (x_1031 ||| (~~~x_1032)))
    let bbb' ← indexSet bbb' 0 updates'.1
    let bbb' ← indexSet bbb' 2 updates'.2
    pure (bb', bbb')

/-- round!(bbb[<expr>], bbb[<expr>], bbb[<expr>], bbb[<expr>], bbb[<expr>], <expr>[<expr>], <expr>, 0x50a28be6, bbb[<expr>] ^(bbb[<expr>] | ! bbb[<expr>])) -/
def Engine.process_block_small.line1_91 (cfg : Cfg) (w : List (BitVec 32)) : Engine.process_block_small.State1 → Res Engine.process_block_small.State1 :=
  fun (bb', bbb') => do
    let x_1035 ← index bbb' 4
    let x_1036 ← index bbb' 0
    let x_1037 ← index bbb' 1
    let x_1038 ← index bbb' 2
    let x_1039 ← index bbb' 3
    let x_1040 ← index w 8
    let x_1041 ← index bbb' 0
    let x_1042 ← index bbb' 1
    let x_1043 ← index bbb' 2
    let updates' := small_hash.round cfg x_1035 x_1036 x_1037 x_1038 x_1039 x_1040 11#32 0x50a28be6#32 (x_1041 ^^^ (x_1042 ||| (~~~x_1043)))
    let bbb' ← indexSet bbb' 4 updates'.1
    let bbb' ← indexSet bbb' 1 updates'.2
    pure (bb', bbb')

/-- round!(bbb[<expr>], bbb[<expr>], bbb[<expr>], bbb[<expr>], bbb[<expr>], <expr>[<expr>], <expr>, 0x50a28be6, bbb[<expr>] ^(bbb[<expr>] | ! bbb[<expr>])) -/
def Engine.process_block_small.line1_92 (cfg : Cfg) (w : List (BitVec 32)) : Engine.process_block_small.State1 → Res Engine.process_block_small.State1 :=
  fun (bb', bbb') => do
    let x_1046 ← index bbb' 3
    let x_1047 ← index bbb' 4
    let x_1048 ← index bbb' 0
    let x_1049 ← index bbb' 1
    let x_1050 ← index bbb' 2
    let x_1051 ← index w 1
    let x_1052 ← index bbb' 4
    let x_1053 ← index bbb' 0
    let x_1054 ← index bbb' 1
    let updates' := small_hash.round cfg x_1046 x_1047 x_1048 x_1049 x_1050 x_1051 14#32 0x50a28be6#32 (x_1052 ^^^ (x_1053 ||| (~~~x_1054)))
    let bbb' ← indexSet bbb' 3 updates'.1
    let bbb' ← indexSet bbb' 0 updates'.2
    pure (bb', bbb')

/-- round!(bbb[<expr>], bbb[<expr>], bbb[<expr>], bbb[<expr>], bbb[<expr>], <expr>[<expr>], <expr>, 0x50a28be6, bbb[<expr>] ^(bbb[<expr>] | ! bbb[<expr>])) -/
def Engine.process_block_small.line1_93 (cfg : Cfg) (w : List (BitVec 32)) : Engine.process_block_small.State1 → Res Engine.process_block_small.State1 :=
  fun (bb', bbb') => do
    let x_1057 ← index bbb' 2
    let x_1058 ← index bbb' 3
    let x_1059 ← index bbb' 4
    let x_1060 ← index bbb' 0
    let x_1061 ← index bbb' 1
    let x_1062 ← index w 10
    let x_1063 ← index bbb' 3
    let x_1064 ← index bbb' 4
    let x_1065 ← index bbb' 0
    let updates' := small_hash.round cfg x_1057 x_1058 x_1059 x_1060 x_1061 x_1062 14#32 0x50a28be6#32 (x_1063 ^^^ (x_1064 ||| (~~~x_1065)))
    let bbb' ← indexSet bbb' 2 updates'.1
    let bbb' ← indexSet bbb' 4 updates'.2
    pure (bb', bbb')

/-- round!(bbb[<expr>], bbb[<expr>], bbb[<expr>], bbb[<expr>], bbb[<expr>], <expr>[<expr>], <expr>, 0x50a28be6, bbb[<expr>] ^(bbb[<expr>] | ! bbb[<expr>])) -/
def Engine.process_block_small.line1_94 (cfg : Cfg) (w : List (BitVec 32)) : Engine.process_block_small.State1 → Res Engine.process_block_small.State1 :=
  fun (bb', bbb') => do
    let x_1068 ← index bbb' 1
    let x_1069 ← index bbb' 2
    let x_1070 ← index bbb' 3
    let x_1071 ← index bbb' 4
    let x_1072 ← index bbb' 0
    let x_1073 ← index w 3
    let x_1074 ← index bbb' 2
    let x_1075 ← index bbb' 3
    let x_1076 ← index bbb' 4
    let updates' := small_hash.round cfg x_1068 x_1069 x_1070 x_1071 x_1072 x_1073 12#32 0x50a28be6#32 (x_1074 ^^^ (x_1075 ||| (~~~x_1076)))
    let bbb' ← indexSet bbb' 1 updates'.1
    let bbb' ← indexSet bbb' 3 updates'.2
    pure (bb', bbb')

/-- round!(bbb[<expr>], bbb[<expr>], bbb[<expr>], bbb[<expr>], bbb[<expr>], <expr>[<expr>], <expr>, 0x50a28be6, bbb[<expr>] ^(bbb[<expr>] | ! bbb[<expr>])) -/
def Engine.process_block_small.line1_95 (cfg : Cfg) (w : List (BitVec 32)) : Engine.process_block_small.State1 → Res Engine.process_block_small.State1 :=
  fun (bb', bbb') => do
    let x_1079 ← index bbb' 0
    let x_1080 ← index bbb' 1
    let x_1081 ← index bbb' 2
    let x_1082 ← index bbb' 3
    let x_1083 ← index bbb' 4
    let x_1084 ← index w 12
    let x_1085 ← index bbb' 1
    let x_1086 ← index bbb' 2
    let x_1087 ← index bbb' 3
    let updates' := small_hash.round cfg x_1079 x_1080 x_1081 x_1082 x_1083 x_1084 6#32 0x50a28be6#32 (x_1085 ^^^ (x_1086 ||| (~~~x_1087)))
    let bbb' ← indexSet bbb' 0 updates'.1
    let bbb' ← indexSet bbb' 2 updates'.2
    pure (bb', bbb')

/-- round!(bbb[<expr>], bbb[<expr>], bbb[<expr>], bbb[<expr>], bbb[<expr>], <expr>[<expr>], <expr>, 0x5c4dd124,(bbb[<expr>] & bbb[<expr>]) |(bbb[<expr>] & ! bbb[<expr>])) -/
def Engine.process_block_small.line1_96 (cfg : Cfg) (w : List (BitVec 32)) : Engine.process_block_small.State1 → Res Engine.process_block_small.State1 :=
  fun (bb', bbb') => do
    let x_1090 ← index bbb' 4
    let x_1091 ← index bbb' 0
    let x_1092 ← index bbb' 1
    let x_1093 ← index bbb' 2
    let x_1094 ← index bbb' 3
    let x_1095 ← index w 6
    let x_1096 ← index bbb' 0
    let x_1097 ← index bbb' 2
    let x_1098 ← index bbb' 1
    let x_1099 ← index bbb' 2
    let updates' := small_hash.round cfg x_1090 x_1091 x_1092 x_1093 x_1094 x_1095 9#32 0x5c4dd124#32 ((x_1096 &&& x_1097) ||| (x_1098 &&& (~~~x_1099)))
    let bbb' ← indexSet bbb' 4 updates'.1
    let bbb' ← indexSet bbb' 1 updates'.2
    pure (bb', bbb')

/-- round!(bbb[<expr>], bbb[<expr>], bbb[<expr>], bbb[<expr>], bbb[<expr>], <expr>[<expr>], <expr>, 0x5c4dd124,(bbb[<expr>] & bbb[<expr>]) |(bbb[<expr>] & ! bbb[<expr>])) -/
def Engine.process_block_small.line1_97 (cfg : Cfg) (w : List (BitVec 32)) : Engine.process_block_small.State1 → Res Engine.process_block_small.State1 :=
  fun (bb', bbb') => do
    let x_1102 ← index bbb' 3
    let x_1103 ← index bbb' 4
    let x_1104 ← index bbb' 0
    let x_1105 ← index bbb' 1
    let x_1106 ← index bbb' 2
    let x_1107 ← index w 11
    let x_1108 ← index bbb' 4
    let x_1109 ← index bbb' 1
    let x_1110 ← index bbb' 0
    let x_1111 ← index bbb' 1
    let updates' := small_hash.round cfg x_1102 x_1103 x_1104 x_1105 x_1106 x_1107 13#32 0x5c4dd124#32 ((x_1108 &&& x_1109) ||| (x_1110 &&& (~~~x_1111)))
    let bbb' ← indexSet bbb' 3 updates'.1
    let bbb' ← indexSet bbb' 0 updates'.2
    pure (bb', bbb')

/-- round!(bbb[<expr>], bbb[<expr>], bbb[<expr>], bbb[<expr>], bbb[<expr>], <expr>[<expr>], <expr>, 0x5c4dd124,(bbb[<expr>] & bbb[<expr>]) |(bbb[<expr>] & ! bbb[<expr>])) -/
def Engine.process_block_small.line1_98 (cfg : Cfg) (w : List (BitVec 32)) : Engine.process_block_small.State1 → Res Engine.process_block_small.State1 :=
  fun (bb', bbb') => do
    let x_1114 ← index bbb' 2
    let x_1115 ← index bbb' 3
    let x_1116 ← index bbb' 4
    let x_1117 ← index bbb' 0
    let x_1118 ← index bbb' 1
    let x_1119 ← index w 3
    let x_1120 ← index bbb' 3
    let x_1121 ← index bbb' 0
    let x_1122 ← index bbb' 4
    let x_1123 ← index bbb' 0
    let updates' := small_hash.round cfg x_1114 x_1115 x_1116 x_1117 x_1118 x_1119 15#32 0x5c4dd124#32 ((x_1120 &&& x_1121) ||| (x_1122 &&& (~~~x_1123)))
    let bbb' ← indexSet bbb' 2 updates'.1
    let bbb' ← indexSet bbb' 4 updates'.2
    pure (bb', bbb')

/-- round!(bbb[<expr>], bbb[<expr>], bbb[<expr>], bbb[<expr>], bbb[<expr>], <expr>[<expr>], <expr>, 0x5c4dd124,(bbb[<expr>] & bbb[<expr>]) |(bbb[<expr>] & ! bbb[<expr>])) -/
def Engine.process_block_small.line1_99 (cfg : Cfg) (w : List (BitVec 32)) : Engine.process_block_small.State1 → Res Engine.process_block_small.State1 :=
  fun (bb', bbb') => do
    let x_1126 ← index bbb' 1
    let x_1127 ← index bbb' 2
    let x_1128 ← index bbb' 3
    let x_1129 ← index bbb' 4
    let x_1130 ← index bbb' 0
    let x_1131 ← index w 7
    let x_1132 ← index bbb' 2
    let x_1133 ← index bbb' 4
    let x_1134 ← index bbb' 3
    let x_1135 ← index bbb' 4
    let updates' := small_hash.round cfg x_1126 x_1127 x_1128 x_1129 x_1130 x_1131 7#32 0x5c4dd124#32 ((x_1132 &&& x_1133) ||| (x_1134 &&& (~~~x_1135)))
    let bbb' ← indexSet bbb' 1 updates'.1
    let bbb' ← indexSet bbb' 3 updates'.2
    pure (bb', bbb')

/-- round!(bbb[<expr>], bbb[<expr>], bbb[<expr>], bbb[<expr>], bbb[<expr>], <expr>[<expr>], <expr>, 0x5c4dd124,(bbb[<expr>] & bbb[<expr>]) |(bbb[<expr>] & ! bbb[<expr>])) -/
def Engine.process_block_small.line1_100 (cfg : Cfg) (w : List (BitVec 32)) : Engine.process_block_small.State1 → Res Engine.process_block_small.State1 :=
  fun (bb', bbb') => do
    let x_1138 ← index bbb' 0
    let x_1139 ← index bbb' 1
    let x_1140 ← index bbb' 2
    let x_1141 ← index bbb' 3
    let x_1142 ← index bbb' 4
    let x_1143 ← index w 0
    let x_1144 ← index bbb' 1
    let x_1145 ← index bbb' 3
    let x_1146 ← index bbb' 2
    let x_1147 ← index bbb' 3
    let updates' := small_hash.round cfg x_1138 x_1139 x_1140 x_1141 x_1142 x_1143 12#32 0x5c4dd124#32 ((x_1144 &&& x_1145) ||| (x_1146 &&& (~~~x_1147)))
    let bbb' ← indexSet bbb' 0 updates'.1
    let bbb' ← indexSet bbb' 2 updates'.2
    pure (bb', bbb')

/-- round!(bbb[<expr>], bbb[<expr>], bbb[<expr>], bbb[<expr>], bbb[<expr>], <expr>[<expr>], <expr>, 0x5c4dd124,(bbb[<expr>] & bbb[<expr>]) |(bbb[<expr>] & ! bbb[<expr>])) -/
def Engine.process_block_small.line1_101 (cfg : Cfg) (w : List (BitVec 32)) : Engine.process_block_small.State1 → Res Engine.process_block_small.State1 :=
  fun (bb', bbb') => do
    let x_1150 ← index bbb' 4
    let x_1151 ← index bbb' 0
    let x_1152 ← index bbb' 1
    let x_1153 ← index bbb' 2
    let x_1154 ← index bbb' 3
    let x_1155 ← index w 13
    let x_1156 ← index bbb' 0
    let x_1157 ← index bbb' 2
    let x_1158 ← index bbb' 1
    let x_1159 ← index bbb' 2
    let updates' := small_hash.round cfg x_1150 x_1151 x_1152 x_1153 x_1154 x_1155 8#32 0x5c4dd124#32 ((x_1156 &&& x_1157) ||| (x_1158 &&& (~~~x_1159)))
    let bbb' ← indexSet bbb' 4 updates'.1
    let bbb' ← indexSet bbb' 1 updates'.2
    pure (bb', bbb')

/-- round!(bbb[<expr>], bbb[<expr>], bbb[<expr>], bbb[<expr>], bbb[<expr>], <expr>[<expr>], <expr>, 0x5c4dd124,(bbb[<expr>] & bbb[<expr>]) |(bbb[<expr>] & ! bbb[<expr>])) -/
def Engine.process_block_small.line1_102 (cfg : Cfg) (w : List (BitVec 32)) : Engine.process_block_small.State1 → Res Engine.process_block_small.State1 :=
  fun (bb', bbb') => do
    let x_1162 ← index bbb' 3
    let x_1163 ← index bbb' 4
    let x_1164 ← index bbb' 0
    let x_1165 ← index bbb' 1
    let x_1166 ← index bbb' 2
    let x_1167 ← index w 5
    let x_1168 ← index bbb' 4
    let x_1169 ← index bbb' 1
    let x_1170 ← index bbb' 0
    let x_1171 ← index bbb' 1
    let updates' := small_hash.round cfg x_1162 x_1163 x_1164 x_1165 x_1166 x_1167 9#32 0x5c4dd124#32 ((x_1168 &&& x_1169) ||| (x_1170 &&& (~~~x_1171)))
    let bbb' ← indexSet bbb' 3 updates'.1
    let bbb' ← indexSet bbb' 0 updates'.2
    pure (bb', bbb')

/-- round!(bbb[<expr>], bbb[<expr>], bbb[<expr>], bbb[<expr>], bbb[<expr>], <expr>[<expr>], <expr>, 0x5c4dd124,(bbb[<expr>] & bbb[<expr>]) |(bbb[<expr>] & ! bbb[<expr>])) -/
def Engine.process_block_small.line1_103 (cfg : Cfg) (w : List (BitVec 32)) : Engine.process_block_small.State1 → Res Engine.process_block_small.State1 :=
  fun (bb', bbb') => do
    let x_1174 ← index bbb' 2
    let x_1175 ← index bbb' 3
    let x_1176 ← index bbb' 4
    let x_1177 ← index bbb' 0
    let x_1178 ← index bbb' 1
    let x_1179 ← index w 10
    let x_1180 ← index bbb' 3
    let x_1181 ← index bbb' 0
    let x_1182 ← index bbb' 4
    let x_1183 ← index bbb' 0
    let updates' := small_hash.round cfg x_1174 x_1175 x_1176 x_1177 x_1178 x_1179 11#32 0x5c4dd124#32 ((x_1180 &&& x_1181) ||| (x_1182 &&& (~~~x_1183)))
    let bbb' ← indexSet bbb' 2 updates'.1
    let bbb' ← indexSet bbb' 4 updates'.2
    pure (bb', bbb')

/-- round!(bbb[<expr>], bbb[<expr>], bbb[<expr>], bbb[<expr>], bbb[<expr>], <expr>[<expr>], <expr>, 0x5c4dd124,(bbb[<expr>] & bbb[<expr>]) |(bbb[<expr>] & ! bbb[<expr>])) -/
def Engine.process_block_small.line1_104 (cfg : Cfg) (w : List (BitVec 32)) : Engine.process_block_small.State1 → Res Engine.process_block_small.State1 :=
  fun (bb', bbb') => do
    let x_1186 ← index bbb' 1
    let x_1187 ← index bbb' 2
    let x_1188 ← index bbb' 3
    let x_1189 ← index bbb' 4
    let x_1190 ← index bbb' 0
    let x_1191 ← index w 14
    let x_1192 ← index bbb' 2
    let x_1193 ← index bbb' 4
    let x_1194 ← index bbb' 3
    let x_1195 ← index bbb' 4
    let updates' := small_hash.round cfg x_1186 x_1187 x_1188 x_1189 x_1190 x_1191 7#32 0x5c4dd124#32 ((x_1192 &&& x_1193) ||| (x_1194 &&& (~~~x_1195)))
    let bbb' ← indexSet bbb' 1 updates'.1
    let bbb' ← indexSet bbb' 3 updates'.2
    pure (bb', bbb')

/-- round!(bbb[<expr>], bbb[<expr>], bbb[<expr>], bbb[<expr>], bbb[<expr>], <expr>[<expr>], <expr>, 0x5c4dd124,(bbb[<expr>] & bbb[<expr>]) |(bbb[<expr>] & ! bbb[<expr>])) -/
def Engine.process_block_small.line1_105 (cfg : Cfg) (w : List (BitVec 32)) : Engine.process_block_small.State1 → Res Engine.process_block_small.State1 :=
  fun (bb', bbb') => do
    let x_1198 ← index bbb' 0
    let x_1199 ← index bbb' 1
    let x_1200 ← index bbb' 2
    let x_1201 ← index bbb' 3
    let x_1202 ← index bbb' 4
    let x_1203 ← index w 15
    let x_1204 ← index bbb' 1
    let x_1205 ← index bbb' 3
    let x_1206 ← index bbb' 2
    let x_1207 ← index bbb' 3
    let updates' := small_hash.round cfg x_1198 x_1199 x_1200 x_1201 x_1202 x_1203 7#32 0x5c4dd124#32 ((x_1204 &&& x_1205) ||| (x_1206 &&& (~~~x_1207)))
    let bbb' ← indexSet bbb' 0 updates'.1
    let bbb' ← indexSet bbb' 2 updates'.2
    pure (bb', bbb')

/-- round!(bbb[<expr>], bbb[<expr>], bbb[<expr>], bbb[<expr>], bbb[<expr>], <expr>[<expr>], <expr>, 0x5c4dd124,(bbb[<expr>] & bbb[<expr>]) |(bbb[<expr>] & ! bbb[<expr>])) -/
def Engine.process_block_small.line1_106 (cfg : Cfg) (w : List (BitVec 32)) : Engine.process_block_small.State1 → Res Engine.process_block_small.State1 :=
  fun (bb', bbb') => do
    let x_1210 ← index bbb' 4
    let x_1211 ← index bbb' 0
    let x_1212 ← index bbb' 1
    let x_1213 ← index bbb' 2
    let x_1214 ← index bbb' 3
    let x_1215 ← index w 8
    let x_1216 ← index bbb' 0
    let x_1217 ← index bbb' 2
    let x_1218 ← index bbb' 1
    let x_1219 ← index bbb' 2
    let updates' := small_hash.round cfg x_1210 x_1211 x_1212 x_1213 x_1214 x_1215 12#32 0x5c4dd124#32 ((x_1216 &&& x_1217) ||| (x_1218 &&& (~~~x_1219)))
    let bbb' ← indexSet bbb' 4 updates'.1
    let bbb' ← indexSet bbb' 1 updates'.2
    pure (bb', bbb')

/-- round!(bbb[<expr>], bbb[<expr>], bbb[<expr>], bbb[<expr>], bbb[<expr>], <expr>[<expr>], <expr>, 0x5c4dd124,(bbb[<expr>] & bbb[<expr>]) |(bbb[<expr>] & ! bbb[<expr>])) -/
def Engine.process_block_small.line1_107 (cfg : Cfg) (w : List (BitVec 32)) : Engine.process_block_small.State1 → Res Engine.process_block_small.State1 :=
  fun (bb', bbb') => do
    let x_1222 ← index bbb' 3
    let x_1223 ← index bbb' 4
    let x_1224 ← index bbb' 0
    let x_1225 ← index bbb' 1
    let x_1226 ← index bbb' 2
    let x_1227 ← index w 12
    let x_1228 ← index bbb' 4
    let x_1229 ← index bbb' 1
    let x_1230 ← index bbb' 0
    let x_1231 ← index bbb' 1
    let updates' := small_hash.round cfg x_1222 x_1223 x_1224 x_1225 x_1226 x_1227 7#32 0x5c4dd124#32 ((x_1228 &&& x_1229) ||| (x_1230 &&& (~~~x_1231)))
    let bbb' ← indexSet bbb' 3 updates'.1
    let bbb' ← indexSet bbb' 0 updates'.2
    pure (bb', bbb')

/-- round!(bbb[<expr>], bbb[<expr>], bbb[<expr>], bbb[<expr>], bbb[<expr>], <expr>[<expr>], <expr>, 0x5c4dd124,(bbb[<expr>] & bbb[<expr>]) |(bbb[<expr>] & ! bbb[<expr>])) -/
def Engine.process_block_small.line1_108 (cfg : Cfg) (w : List (BitVec 32)) : Engine.process_block_small.State1 → Res Engine.process_block_small.State1 :=
  fun (bb', bbb') => do
    let x_1234 ← index bbb' 2
    let x_1235 ← index bbb' 3
    let x_1236 ← index bbb' 4
    let x_1237 ← index bbb' 0
    let x_1238 ← index bbb' 1
    let x_1239 ← index w 4
    let x_1240 ← index bbb' 3
    let x_1241 ← index bbb' 0
    let x_1242 ← index bbb' 4
    let x_1243 ← index bbb' 0
    let updates' := small_hash.round cfg x_1234 x_1235 x_1236 x_1237 x_1238 x_1239 6#32 0x5c4dd124#32 ((x_1240 &&& x_1241) ||| (x_1242 &&& (~~~x_1243)))
    let bbb' ← indexSet bbb' 2 updates'.1
    let bbb' ← indexSet bbb' 4 updates'.2
    pure (bb', bbb')

/-- round!(bbb[<expr>], bbb[<expr>], bbb[<expr>], bbb[<expr>], bbb[<expr>], <expr>[<expr>], <expr>, 0x5c4dd124,(bbb[<expr>] & bbb[<expr>]) |(bbb[<expr>] & ! bbb[<expr>])) -/
def Engine.process_block_small.line1_109 (cfg : Cfg) (w : List (BitVec 32)) : Engine.process_block_small.State1 → Res Engine.process_block_small.State1 :=
  fun (bb', bbb') => do
    let x_1246 ← index bbb' 1
    let x_1247 ← index bbb' 2
    let x_1248 ← index bbb' 3
    let x_1249 ← index bbb' 4
    let x_1250 ← index bbb' 0
    let x_1251 ← index w 9
    let x_1252 ← index bbb' 2
    let x_1253 ← index bbb' 4
    let x_1254 ← index bbb' 3
    let x_1255 ← index bbb' 4
    let updates' := small_hash.round cfg x_1246 x_1247 x_1248 x_1249 x_1250 x_1251 15#32 0x5c4dd124#32 ((x_1252 &&& x_1253) ||| (x_1254 &&& (~~~x_1255)))
    let bbb' ← indexSet bbb' 1 updates'.1
    let bbb' ← indexSet bbb' 3 updates'.2
    pure (bb', bbb')

/-- round!(bbb[<expr>], bbb[<expr>], bbb[<expr>], bbb[<expr>], bbb[<expr>], <expr>[<expr>], <expr>, 0x5c4dd124,(bbb[<expr>] & bbb[<expr>]) |(bbb[<expr>] & ! bbb[<expr>])) -/
def Engine.process_block_small.line1_110 (cfg : Cfg) (w : List (BitVec 32)) : Engine.process_block_small.State1 → Res Engine.process_block_small.State1 :=
  fun (bb', bbb') => do
    let x_1258 ← index bbb' 0
    let x_1259 ← index bbb' 1
    let x_1260 ← index bbb' 2
    let x_1261 ← index bbb' 3
    let x_1262 ← index bbb' 4
    let x_1263 ← index w 1
    let x_1264 ← index bbb' 1
    let x_1265 ← index bbb' 3
    let x_1266 ← index bbb' 2
    let x_1267 ← index bbb' 3
    let updates' := small_hash.round cfg x_1258 x_1259 x_1260 x_1261 x_1262 x_1263 13#32 0x5c4dd124#32 ((x_1264 &&& x_1265) ||| (x_1266 &&& (~~~x_1267)))
    let bbb' ← indexSet bbb' 0 updates'.1
    let bbb' ← indexSet bbb' 2 updates'.2
    pure (bb', bbb')

/-- round!(bbb[<expr>], bbb[<expr>], bbb[<expr>], bbb[<expr>], bbb[<expr>], <expr>[<expr>], <expr>, 0x5c4dd124,(bbb[<expr>] & bbb[<expr>]) |(bbb[<expr>] & ! bbb[<expr>])) -/
def Engine.process_block_small.line1_111 (cfg : Cfg) (w : List (BitVec 32)) : Engine.process_block_small.State1 → Res Engine.process_block_small.State1 :=
  fun (bb', bbb') => do
    let x_1270 ← index bbb' 4
    let x_1271 ← index bbb' 0
    let x_1272 ← index bbb' 1
    let x_1273 ← index bbb' 2
    let x_1274 ← index bbb' 3
    let x_1275 ← index w 2
    let x_1276 ← index bbb' 0
    let x_1277 ← index bbb' 2
    let x_1278 ← index bbb' 1
    let x_1279 ← index bbb' 2
    let updates' := small_hash.round cfg x_1270 x_1271 x_1272 x_1273 x_1274 x_1275 11#32 0x5c4dd124#32 ((x_1276 &&& x_1277) ||| (x_1278 &&& (~~~x_1279)))
    let bbb' ← indexSet bbb' 4 updates'.1
    let bbb' ← indexSet bbb' 1 updates'.2
    pure (bb', bbb')

/-- round!(bbb[<expr>], bbb[<expr>], bbb[<expr>], bbb[<expr>], bbb[<expr>], <expr>[<expr>], <expr>, 0x6d703ef3,(bbb[<expr>] | ! bbb[<expr>]) ^ bbb[<expr>]) -/
def Engine.process_block_small.line1_112 (cfg : Cfg) (w : List (BitVec 32)) : Engine.process_block_small.State1 → Res Engine.process_block_small.State1 :=
  fun (bb', bbb') => do
    let x_1282 ← index bbb' 3
    let x_1283 ← index bbb' 4
    let x_1284 ← index bbb' 0
    let x_1285 ← index bbb' 1
    let x_1286 ← index bbb' 2
    let x_1287 ← index w 15
    let x_1288 ← index bbb' 4
    let x_1289 ← index bbb' 0
    let x_1290 ← index bbb' 1
    let updates' := small_hash.round cfg x_1282 x_1283 x_1284 x_1285 x_1286 x_1287 9#32 0x6d703ef3#32 ((x_1288 ||| (~~~x_1289)) ^^^ x_1290)
    let bbb' ← indexSet bbb' 3 updates'.1
    let bbb' ← indexSet bbb' 0 updates'.2
    pure (bb', bbb')

/-- round!(bbb[<expr>], bbb[<expr>], bbb[<expr>], bbb[<expr>], bbb[<expr>], <expr>[<expr>], <expr>, 0x6d703ef3,(bbb[<expr>] | ! bbb[<expr>]) ^ bbb[<expr>]) -/
def Engine.process_block_small.line1_113 (cfg : Cfg) (w : List (BitVec 32)) : Engine.process_block_small.State1 → Res Engine.process_block_small.State1 :=
  fun (bb', bbb') => do
    let x_1293 ← index bbb' 2
    let x_1294 ← index bbb' 3
    let x_1295 ← index bbb' 4
    let x_1296 ← index bbb' 0
    let x_1297 ← index bbb' 1
    let x_1298 ← index w 5
    let x_1299 ← index bbb' 3
    let x_1300 ← index bbb' 4
    let x_1301 ← index bbb' 0
    let updates' := small_hash.round cfg x_1293 x_1294 x_1295 x_1296 x_1297 x_1298 7#32 0x6d703ef3#32 ((x_1299 ||| (~~~x_1300)) ^^^ x_1301)
    let bbb' ← indexSet bbb' 2 updates'.1
    let bbb' ← indexSet bbb' 4 updates'.2
    pure (bb', bbb')

/-- round!(bbb[<expr>], bbb[<expr>], bbb[<expr>], bbb[<expr>], bbb[<expr>], <expr>[<expr>], <expr>, 0x6d703ef3,(bbb[<expr>] | ! bbb[<expr>]) ^ bbb[<expr>]) -/
def Engine.process_block_small.line1_114 (cfg : Cfg) (w : List (BitVec 32)) : Engine.process_block_small.State1 → Res Engine.process_block_small.State1 :=
  fun (bb', bbb') => do
    let x_1304 ← index bbb' 1
    let x_1305 ← index bbb' 2
    let x_1306 ← index bbb' 3
    let x_1307 ← index bbb' 4
    let x_1308 ← index bbb' 0
    let x_1309 ← index w 1
    let x_1310 ← index bbb' 2
    let x_1311 ← index bbb' 3
    let x_1312 ← index bbb' 4
    let updates' := small_hash.round cfg x_1304 x_1305 x_1306 x_1307 x_1308 x_1309 15#32 0x6d703ef3#32 ((x_1310 ||| (~~~x_1311)) ^^^ x_1312)
    let bbb' ← indexSet bbb' 1 updates'.1
    let bbb' ← indexSet bbb' 3 updates'.2
    pure (bb', bbb')

/-- round!(bbb[<expr>], bbb[<expr>], bbb[<expr>], bbb[<expr>], bbb[<expr>], <expr>[<expr>], <expr>, 0x6d703ef3,(bbb[<expr>] | ! bbb[<expr>]) ^ bbb[<expr>]) -/
def Engine.process_block_small.line1_115 (cfg : Cfg) (w : List (BitVec 32)) : Engine.process_block_small.State1 → Res Engine.process_block_small.State1 :=
  fun (bb', bbb') => do
    let x_1315 ← index bbb' 0
    let x_1316 ← index bbb' 1
    let x_1317 ← index bbb' 2
    let x_1318 ← index bbb' 3
    let x_1319 ← index bbb' 4
    let x_1320 ← index w 3
    let x_1321 ← index bbb' 1
    let x_1322 ← index bbb' 2
    let x_1323 ← index bbb' 3
    let updates' := small_hash.round cfg x_1315 x_1316 x_1317 x_1318 x_1319 x_1320 11#32 0x6d703ef3#32 ((x_1321 ||| (~~~x_1322)) ^^^ x_1323)
    let bbb' ← indexSet bbb' 0 updates'.1
    let bbb' ← indexSet bbb' 2 updates'.2
    pure (bb', bbb')

/-- round!(bbb[<expr>], bbb[<expr>], bbb[<expr>], bbb[<expr>], bbb[<expr>], <expr>[<expr>], <expr>, 0x6d703ef3,(bbb[<expr>] | ! bbb[<expr>]) ^ bbb[<expr>]) -/
def Engine.process_block_small.line1_116 (cfg : Cfg) (w : List (BitVec 32)) : Engine.process_block_small.State1 → Res Engine.process_block_small.State1 :=
  fun (bb', bbb') => do
    let x_1326 ← index bbb' 4
    let x_1327 ← index bbb' 0
    let x_1328 ← index bbb' 1
    let x_1329 ← index bbb' 2
    let x_1330 ← index bbb' 3
    let x_1331 ← index w 7
    let x_1332 ← index bbb' 0
    let x_1333 ← index bbb' 1
    let x_1334 ← index bbb' 2
    let updates' := small_hash.round cfg x_1326 x_1327 x_1328 x_1329 x_1330 x_1331 8#32 0x6d703ef3#32 ((x_1332 ||| (~~~x_1333)) ^^^ x_1334)
    let bbb' ← indexSet bbb' 4 updates'.1
    let bbb' ← indexSet bbb' 1 updates'.2
    pure (bb', bbb')

/-- round!(bbb[<expr>], bbb[<expr>], bbb[<expr>], bbb[<expr>], bbb[<expr>], <expr>[<expr>], <expr>, 0x6d703ef3,(bbb[<expr>] | ! bbb[<expr>]) ^ bbb[<expr>]) -/
def Engine.process_block_small.line1_117 (cfg : Cfg) (w : List (BitVec 32)) : Engine.process_block_small.State1 → Res Engine.process_block_small.State1 :=
  fun (bb', bbb') => do
    let x_1337 ← index bbb' 3
    let x_1338 ← index bbb' 4
    let x_1339 ← index bbb' 0
    let x_1340 ← index bbb' 1
    let x_1341 ← index bbb' 2
    let x_1342 ← index w 14
    let x_1343 ← index bbb' 4
    let x_1344 ← index bbb' 0
    let x_1345 ← index bbb' 1
    let updates' := small_hash.round cfg x_1337 x_1338 x_1339 x_1340 x_1341 x_1342 6#32 0x6d703ef3#32 ((x_1343 ||| (~~~x_1344)) ^^^ x_1345)
    let bbb' ← indexSet bbb' 3 updates'.1
    let bbb' ← indexSet bbb' 0 updates'.2
    pure (bb', bbb')

/-- round!(bbb[<expr>], bbb[<expr>], bbb[<expr>], bbb[<expr>], bbb[<expr>], <expr>[<expr>], <expr>, 0x6d703ef3,(bbb[<expr>] | ! bbb[<expr>]) ^ bbb[<expr>]) -/
def Engine.process_block_small.line1_118 (cfg : Cfg) (w : List (BitVec 32)) : Engine.process_block_small.State1 → Res Engine.process_block_small.State1 :=
  fun (bb', bbb') => do
    let x_1348 ← index bbb' 2
    let x_1349 ← index bbb' 3
    let x_1350 ← index bbb' 4
    let x_1351 ← index bbb' 0
    let x_1352 ← index bbb' 1
    let x_1353 ← index w 6
    let x_1354 ← index bbb' 3
    let x_1355 ← index bbb' 4
    let x_1356 ← index bbb' 0
    let updates' := small_hash.round cfg x_1348 x_1349 x_1350 x_1351 x_1352 x_1353 6#32 0x6d703ef3#32 ((x_1354 ||| (~~~x_1355)) ^^^ x_1356)
    let bbb' ← indexSet bbb' 2 updates'.1
    let bbb' ← indexSet bbb' 4 updates'.2
    pure (bb', bbb')

/-- round!(bbb[<expr>], bbb[<expr>], bbb[<expr>], bbb[<expr>], bbb[<expr>], <expr>[<expr>], <expr>, 0x6d703ef3,(bbb[<expr>] | ! bbb[<expr>]) ^ bbb[<expr>]) -/
def Engine.process_block_small.line1_119 (cfg : Cfg) (w : List (BitVec 32)) : Engine.process_block_small.State1 → Res Engine.process_block_small.State1 :=
  fun (bb', bbb') => do
    let x_1359 ← index bbb' 1
    let x_1360 ← index bbb' 2
    let x_1361 ← index bbb' 3
    let x_1362 ← index bbb' 4
    let x_1363 ← index bbb' 0
    let x_1364 ← index w 9
    let x_1365 ← index bbb' 2
    let x_1366 ← index bbb' 3
    let x_1367 ← index bbb' 4
    let updates' := small_hash.round cfg x_1359 x_1360 x_1361 x_1362 x_1363 x_1364 14#32 0x6d703ef3#32 ((x_1365 ||| (~~~x_1366)) ^^^ x_1367)
    let bbb' ← indexSet bbb' 1 updates'.1
    let bbb' ← indexSet bbb' 3 updates'.2
    pure (bb', bbb')

/-- round!(bbb[<expr>], bbb[<expr>], bbb[<expr>], bbb[<expr>], bbb[<expr>], <expr>[<expr>], <expr>, 0x6d703ef3,(bbb[<expr>] | ! bbb[<expr>]) ^ bbb[<expr>]) -/
def Engine.process_block_small.line1_120 (cfg : Cfg) (w : List (BitVec 32)) : Engine.process_block_small.State1 → Res Engine.process_block_small.State1 :=
  fun (bb', bbb') => do
    let x_1370 ← index bbb' 0
    let x_1371 ← index bbb' 1
    let x_1372 ← index bbb' 2
    let x_1373 ← index bbb' 3
    let x_1374 ← index bbb' 4
    let x_1375 ← index w 11
    let x_1376 ← index bbb' 1
    let x_1377 ← index bbb' 2
    let x_1378 ← index bbb' 3
    let updates' := small_hash.round cfg x_1370 x_1371 x_1372 x_1373 x_1374 x_1375 12#32 0x6d703ef3#32 ((x_1376 ||| (~~~x_1377)) ^^^ x_1378)
    let bbb' ← indexSet bbb' 0 updates'.1
    let bbb' ← indexSet bbb' 2 updates'.2
    pure (bb', bbb')

/-- round!(bbb[<expr>], bbb[<expr>], bbb[<expr>], bbb[<expr>], bbb[<expr>], <expr>[<expr>], <expr>, 0x6d703ef3,(bbb[<expr>] | ! bbb[<expr>]) ^ bbb[<expr>]) -/
def Engine.process_block_small.line1_121 (cfg : Cfg) (w : List (BitVec 32)) : Engine.process_block_small.State1 → Res Engine.process_block_small.State1 :=
  fun (bb', bbb') => do
    let x_1381 ← index bbb' 4
    let x_1382 ← index bbb' 0
    let x_1383 ← index bbb' 1
    let x_1384 ← index bbb' 2
    let x_1385 ← index bbb' 3
    let x_1386 ← index w 8
    let x_1387 ← index bbb' 0
    let x_1388 ← index bbb' 1
    let x_1389 ← index bbb' 2
    let updates' := small_hash.round cfg x_1381 x_1382 x_1383 x_1384 x_1385 x_1386 13#32 0x6d703ef3#32 ((x_1387 ||| (~~~x_1388)) ^^^ x_1389)
    let bbb' ← indexSet bbb' 4 updates'.1
    let bbb' ← indexSet bbb' 1 updates'.2
    pure (bb', bbb')

/-- round!(bbb[<expr>], bbb[<expr>], bbb[<expr>], bbb[<expr>], bbb[<expr>], <expr>[<expr>], <expr>, 0x6d703ef3,(bbb[<expr>] | ! bbb[<expr>]) ^ bbb[<expr>]) -/
def Engine.process_block_small.line1_122 (cfg : Cfg) (w : List (BitVec 32)) : Engine.process_block_small.State1 → Res Engine.process_block_small.State1 :=
  fun (bb', bbb') => do
    let x_1392 ← index bbb' 3
    let x_1393 ← index bbb' 4
    let x_1394 ← index bbb' 0
    let x_1395 ← index bbb' 1
    let x_1396 ← index bbb' 2
    let x_1397 ← index w 12
    let x_1398 ← index bbb' 4
    let x_1399 ← index bbb' 0
    let x_1400 ← index bbb' 1
    let updates' := small_hash.round cfg x_1392 x_1393 x_1394 x_1395 x_1396 x_1397 5#32 0x6d703ef3#32 ((x_1398 ||| (~~~x_1399)) ^^^ x_1400)
    let bbb' ← indexSet bbb' 3 updates'.1
    let bbb' ← indexSet bbb' 0 updates'.2
    pure (bb', bbb')

/-- round!(bbb[<expr>], bbb[<expr>], bbb[<expr>], bbb[<expr>], bbb[<expr>], <expr>[<expr>], <expr>, 0x6d703ef3,(bbb[<expr>] | ! bbb[<expr>]) ^ bbb[<expr>]) -/
def Engine.process_block_small.line1_123 (cfg : Cfg) (w : List (BitVec 32)) : Engine.process_block_small.State1 → Res Engine.process_block_small.State1 :=
  fun (bb', bbb') => do
    let x_1403 ← index bbb' 2
    let x_1404 ← index bbb' 3
    let x_1405 ← index bbb' 4
    let x_1406 ← index bbb' 0
    let x_1407 ← index bbb' 1
    let x_1408 ← index w 2
    let x_1409 ← index bbb' 3
    let x_1410 ← index bbb' 4
    let x_1411 ← index bbb' 0
    let updates' := small_hash.round cfg x_1403 x_1404 x_1405 x_1406 x_1407 x_1408 14#32 0x6d703ef3#32 ((x_1409 ||| (~~~x_1410)) ^^^ x_1411)
    let bbb' ← indexSet bbb' 2 updates'.1
    let bbb' ← indexSet bbb' 4 updates'.2
    pure (bb', bbb')

/-- round!(bbb[<expr>], bbb[<expr>], bbb[<expr>], bbb[<expr>], bbb[<expr>], <expr>[<expr>], <expr>, 0x6d703ef3,(bbb[<expr>] | ! bbb[<expr>]) ^ bbb[<expr>]) -/
def Engine.process_block_small.line1_124 (cfg : Cfg) (w : List (BitVec 32)) : Engine.process_block_small.State1 → Res Engine.process_block_small.State1 :=
  fun (bb', bbb') => do
    let x_1414 ← index bbb' 1
    let x_1415 ← index bbb' 2
    let x_1416 ← index bbb' 3
    let x_1417 ← index bbb' 4
    let x_1418 ← index bbb' 0
    let x_1419 ← index w 10
    let x_1420 ← index bbb' 2
    let x_1421 ← index bbb' 3
    let x_1422 ← index bbb' 4
    let updates' := small_hash.round cfg x_1414 x_1415 x_1416 x_1417 x_1418 x_1419 13#32 0x6d703ef3#32 ((x_1420 ||| (~~~x_1421)) ^^^ x_1422)
    let bbb' ← indexSet bbb' 1 updates'.1
    let bbb' ← indexSet bbb' 3 updates'.2
    pure (bb', bbb')

/-- round!(bbb[<expr>], bbb[<expr>], bbb[<expr>], bbb[<expr>], bbb[<expr>], <expr>[<expr>], <expr>, 0x6d703ef3,(bbb[<expr>] | ! bbb[<expr>]) ^ bbb[<expr>]) -/
def Engine.process_block_small.line1_125 (cfg : Cfg) (w : List (BitVec 32)) : Engine.process_block_small.State1 → Res Engine.process_block_small.State1 :=
  fun (bb', bbb') => do
    let x_1425 ← index bbb' 0
    let x_1426 ← index bbb' 1
    let x_1427 ← index bbb' 2
    let x_1428 ← index bbb' 3
    let x_1429 ← index bbb' 4
    let x_1430 ← index w 0
    let x_1431 ← index bbb' 1
    let x_1432 ← index bbb' 2
    let x_1433 ← index bbb' 3
    let updates' := small_hash.round cfg x_1425 x_1426 x_1427 x_1428 x_1429 x_1430 13#32 0x6d703ef3#32 ((x_1431 ||| (~~~x_1432)) ^^^ x_1433)
    let bbb' ← indexSet bbb' 0 updates'.1
    let bbb' ← indexSet bbb' 2 updates'.2
    pure (bb', bbb')

/-- round!(bbb[<expr>], bbb[<expr>], bbb[<expr>], bbb[<expr>], bbb[<expr>], <expr>[<expr>], <expr>, 0x6d703ef3,(bbb[<expr>] | ! bbb[<expr>]) ^ bbb[<expr>]) -/
def Engine.process_block_small.line1_126 (cfg : Cfg) (w : List (BitVec 32)) : Engine.process_block_small.State1 → Res Engine.process_block_small.State1 :=
  fun (bb', bbb') => do
    let x_1436 ← index bbb' 4
    let x_1437 ← index bbb' 0
    let x_1438 ← index bbb' 1
    let x_1439 ← index bbb' 2
    let x_1440 ← index bbb' 3
    let x_1441 ← index w 4
    let x_1442 ← index bbb' 0
    let x_1443 ← index bbb' 1
    let x_1444 ← index bbb' 2
    let updates' := small_hash.round cfg x_1436 x_1437 x_1438 x_1439 x_1440 x_1441 7#32 0x6d703ef3#32 ((x_1442 ||| (~~~x_1443)) ^^^ x_1444)
    let bbb' ← indexSet bbb' 4 updates'.1
    let bbb' ← indexSet bbb' 1 updates'.2
    pure (bb', bbb')

/-- round!(bbb[<expr>], bbb[<expr>], bbb[<expr>], bbb[<expr>], bbb[<expr>], <expr>[<expr>], <expr>, 0x6d703ef3,(bbb[<expr>] | ! bbb[<expr>]) ^ bbb[<expr>]) -/
def Engine.process_block_small.line1_127 (cfg : Cfg) (w : List (BitVec 32)) : Engine.process_block_small.State1 → Res Engine.process_block_small.State1 :=
  fun (bb', bbb') => do
    let x_1447 ← index bbb' 3
    let x_1448 ← index bbb' 4
    let x_1449 ← index bbb' 0
    let x_1450 ← index bbb' 1
    let x_1451 ← index bbb' 2
    let x_1452 ← index w 13
    let x_1453 ← index bbb' 4
    let x_1454 ← index bbb' 0
    let x_1455 ← index bbb' 1
    let updates' := small_hash.round cfg x_1447 x_1448 x_1449 x_1450 x_1451 x_1452 5#32 0x6d703ef3#32 ((x_1453 ||| (~~~x_1454)) ^^^ x_1455)
    let bbb' ← indexSet bbb' 3 updates'.1
    let bbb' ← indexSet bbb' 0 updates'.2
    pure (bb', bbb')

/-- round!(bbb[<expr>], bbb[<expr>], bbb[<expr>], bbb[<expr>], bbb[<expr>], <expr>[<expr>], <expr>, 0x7a6d76e9,(bbb[<expr>] & bbb[<expr>]) |(! bbb[<expr>] & bbb[<expr>])) -/
def Engine.process_block_small.line1_128 (cfg : Cfg) (w : List (BitVec 32)) : Engine.process_block_small.State1 → Res Engine.process_block_small.State1 :=
  fun (bb', bbb') => do
    let x_1458 ← index bbb' 2
    let x_1459 ← index bbb' 3
    let x_1460 ← index bbb' 4
    let x_1461 ← index bbb' 0
    let x_1462 ← index bbb' 1
    let x_1463 ← index w 8
    let x_1464 ← index bbb' 3
    let x_1465 ← index bbb' 4
    let x_1466 ← index bbb' 3
    let x_1467 ← index bbb' 0
    let updates' := small_hash.round cfg x_1458 x_1459 x_1460 x_1461 x_1462 x_1463 15#32 0x7a6d76e9#32 ((x_1464 &&& x_1465) ||| ((~~~x_1466) &&& x_1467))
    let bbb' ← indexSet bbb' 2 updates'.1
    let bbb' ← indexSet bbb' 4 updates'.2
    pure (bb', bbb')

/-- round!(bbb[<expr>], bbb[<expr>], bbb[<expr>], bbb[<expr>], bbb[<expr>], <expr>[<expr>], <expr>, 0x7a6d76e9,(bbb[<expr>] & bbb[<expr>]) |(! bbb[<expr>] & bbb[<expr>])) -/
def Engine.process_block_small.line1_129 (cfg : Cfg) (w : List (BitVec 32)) : Engine.process_block_small.State1 → Res Engine.process_block_small.State1 :=
  fun (bb', bbb') => do
    let x_1470 ← index bbb' 1
    let x_1471 ← index bbb' 2
    let x_1472 ← index bbb' 3
    let x_1473 ← index bbb' 4
    let x_1474 ← index bbb' 0
    let x_1475 ← index w 6
    let x_1476 ← index bbb' 2
    let x_1477 ← index bbb' 3
    let x_1478 ← index bbb' 2
    let x_1479 ← index bbb' 4
    let updates' := small_hash.round cfg x_1470 x_1471 x_1472 x_1473 x_1474 x_1475 5#32 0x7a6d76e9#32 ((x_1476 &&& x_1477) ||| ((~~~x_1478) &&& x_1479))
    let bbb' ← indexSet bbb' 1 updates'.1
    let bbb' ← indexSet bbb' 3 updates'.2
    pure (bb', bbb')

/-- round!(bbb[<expr>], bbb[<expr>], bbb[<expr>], bbb[<expr>], bbb[<expr>], <expr>[<expr>], <expr>, 0x7a6d76e9,(bbb[<expr>] & bbb[<expr>]) |(! bbb[<expr>] & bbb[<expr>])) -/
def Engine.process_block_small.line1_130 (cfg : Cfg) (w : List (BitVec 32)) : Engine.process_block_small.State1 → Res Engine.process_block_small.State1 :=
  fun (bb', bbb') => do
    let x_1482 ← index bbb' 0
    let x_1483 ← index bbb' 1
    let x_1484 ← index bbb' 2
    let x_1485 ← index bbb' 3
    let x_1486 ← index bbb' 4
    let x_1487 ← index w 4
    let x_1488 ← index bbb' 1
    let x_1489 ← index bbb' 2
    let x_1490 ← index bbb' 1
    let x_1491 ← index bbb' 3
    let updates' := small_hash.round cfg x_1482 x_1483 x_1484 x_1485 x_1486 x_1487 8#32 0x7a6d76e9#32 ((x_1488 &&& x_1489) ||| ((~~~x_1490) &&& x_1491))
    let bbb' ← indexSet bbb' 0 updates'.1
    let bbb' ← indexSet bbb' 2 updates'.2
    pure (bb', bbb')

/-- round!(bbb[<expr>], bbb[<expr>], bbb[<expr>], bbb[<expr>], bbb[<expr>], <expr>[<expr>], <expr>, 0x7a6d76e9,(bbb[<expr>] & bbb[<expr>]) |(! bbb[<expr>] & bbb[<expr>])) -/
def Engine.process_block_small.line1_131 (cfg : Cfg) (w : List (BitVec 32)) : Engine.process_block_small.State1 → Res Engine.process_block_small.State1 :=
  fun (bb', bbb') => do
    let x_1494 ← index bbb' 4
    let x_1495 ← index bbb' 0
    let x_1496 ← index bbb' 1
    let x_1497 ← index bbb' 2
    let x_1498 ← index bbb' 3
    let x_1499 ← index w 1
    let x_1500 ← index bbb' 0
    let x_1501 ← index bbb' 1
    let x_1502 ← index bbb' 0
    let x_1503 ← index bbb' 2
    let updates' := small_hash.round cfg x_1494 x_1495 x_1496 x_1497 x_1498 x_1499 11#32 0x7a6d76e9#32 ((x_1500 &&& x_1501) ||| ((~~~x_1502) &&& x_1503))
    let bbb' ← indexSet bbb' 4 updates'.1
    let bbb' ← indexSet bbb' 1 updates'.2
    pure (bb', bbb')

/-- round!(bbb[<expr>], bbb[<expr>], bbb[<expr>], bbb[<expr>], bbb[<expr>], <expr>[<expr>], <expr>, 0x7a6d76e9,(bbb[<expr>] & bbb[<expr>]) |(! bbb[<expr>] & bbb[<expr>])) -/
def Engine.process_block_small.line1_132 (cfg : Cfg) (w : List (BitVec 32)) : Engine.process_block_small.State1 → Res Engine.process_block_small.State1 :=
  fun (bb', bbb') => do
    let x_1506 ← index bbb' 3
    let x_1507 ← index bbb' 4
    let x_1508 ← index bbb' 0
    let x_1509 ← index bbb' 1
    let x_1510 ← index bbb' 2
    let x_1511 ← index w 3
    let x_1512 ← index bbb' 4
    let x_1513 ← index bbb' 0
    let x_1514 ← index bbb' 4
    let x_1515 ← index bbb' 1
    let updates' := small_hash.round cfg x_1506 x_1507 x_1508 x_1509 x_1510 x_1511 14#32 0x7a6d76e9#32 ((x_1512 &&& x_1513) ||| ((~~~x_1514) &&& x_1515))
    let bbb' ← indexSet bbb' 3 updates'.1
    let bbb' ← indexSet bbb' 0 updates'.2
    pure (bb', bbb')

/-- round!(bbb[<expr>], bbb[<expr>], bbb[<expr>], bbb[<expr>], bbb[<expr>], <expr>[<expr>], <expr>, 0x7a6d76e9,(bbb[<expr>] & bbb[<expr>]) |(! bbb[<expr>] & bbb[<expr>])) -/
def Engine.process_block_small.line1_133 (cfg : Cfg) (w : List (BitVec 32)) : Engine.process_block_small.State1 → Res Engine.process_block_small.State1 :=
  fun (bb', bbb') => do
    let x_1518 ← index bbb' 2
    let x_1519 ← index bbb' 3
    let x_1520 ← index bbb' 4
    let x_1521 ← index bbb' 0
    let x_1522 ← index bbb' 1
    let x_1523 ← index w 11
    let x_1524 ← index bbb' 3
    let x_1525 ← index bbb' 4
    let x_1526 ← index bbb' 3
    let x_1527 ← index bbb' 0
    let updates' := small_hash.round cfg x_1518 x_1519 x_1520 x_1521 x_1522 x_1523 14#32 0x7a6d76e9#32 ((x_1524 &&& x_1525) ||| ((~~~x_1526) &&& x_1527))
    let bbb' ← indexSet bbb' 2 updates'.1
    let bbb' ← indexSet bbb' 4 updates'.2
    pure (bb', bbb')

/-- round!(bbb[<expr>], bbb[<expr>], bbb[<expr>], bbb[<expr>], bbb[<expr>], <expr>[<expr>], <expr>, 0x7a6d76e9,(bbb[<expr>] & bbb[<expr>]) |(! bbb[<expr>] & bbb[<expr>])) -/
def Engine.process_block_small.line1_134 (cfg : Cfg) (w : List (BitVec 32)) : Engine.process_block_small.State1 → Res Engine.process_block_small.State1 :=
  fun (bb', bbb') => do
    let x_1530 ← index bbb' 1
    let x_1531 ← index bbb' 2
    let x_1532 ← index bbb' 3
    let x_1533 ← index bbb' 4
    let x_1534 ← index bbb' 0
    let x_1535 ← index w 15
    let x_1536 ← index bbb' 2
    let x_1537 ← index bbb' 3
    let x_1538 ← index bbb' 2
    let x_1539 ← index bbb' 4
    let updates' := small_hash.round cfg x_1530 x_1531 x_1532 x_1533 x_1534 x_1535 6#32 0x7a6d76e9#32 ((x_1536 &&& x_1537) ||| ((~~~x_1538) &&& x_1539))
    let bbb' ← indexSet bbb' 1 updates'.1
    let bbb' ← indexSet bbb' 3 updates'.2
    pure (bb', bbb')

/-- round!(bbb[<expr>], bbb[<expr>], bbb[<expr>], bbb[<expr>], bbb[<expr>], <expr>[<expr>], <expr>, 0x7a6d76e9,(bbb[<expr>] & bbb[<expr>]) |(! bbb[<expr>] & bbb[<expr>])) -/
def Engine.process_block_small.line1_135 (cfg : Cfg) (w : List (BitVec 32)) : Engine.process_block_small.State1 → Res Engine.process_block_small.State1 :=
  fun (bb', bbb') => do
    let x_1542 ← index bbb' 0
    let x_1543 ← index bbb' 1
    let x_1544 ← index bbb' 2
    let x_1545 ← index bbb' 3
    let x_1546 ← index bbb' 4
    let x_1547 ← index w 0
    let x_1548 ← index bbb' 1
    let x_1549 ← index bbb' 2
    let x_1550 ← index bbb' 1
    let x_1551 ← index bbb' 3
    let updates' := small_hash.round cfg x_1542 x_1543 x_1544 x_1545 x_1546 x_1547 14#32 0x7a6d76e9#32 ((x_1548 &&& x_1549) ||| ((~~~x_1550) &&& x_1551))
    let bbb' ← indexSet bbb' 0 updates'.1
    let bbb' ← indexSet bbb' 2 updates'.2
    pure (bb', bbb')

/-- round!(bbb[<expr>], bbb[<expr>], bbb[<expr>], bbb[<expr>], bbb[<expr>], <expr>[<expr>], <expr>, 0x7a6d76e9,(bbb[<expr>] & bbb[<expr>]) |(! bbb[<expr>] & bbb[<expr>])) -/
def Engine.process_block_small.line1_136 (cfg : Cfg) (w : List (BitVec 32)) : Engine.process_block_small.State1 → Res Engine.process_block_small.State1 :=
  fun (bb', bbb') => do
    let x_1554 ← index bbb' 4
    let x_1555 ← index bbb' 0
    let x_1556 ← index bbb' 1
    let x_1557 ← index bbb' 2
    let x_1558 ← index bbb' 3
    let x_1559 ← index w 5
    let x_1560 ← index bbb' 0
    let x_1561 ← index bbb' 1
    let x_1562 ← index bbb' 0
    let x_1563 ← index bbb' 2
    let updates' := small_hash.round cfg x_1554 x_1555 x_1556 x_1557 x_1558 x_1559 6#32 0x7a6d76e9#32 ((x_1560 &&& x_1561) ||| ((~~~x_1562) &&& x_1563))
    let bbb' ← indexSet bbb' 4 updates'.1
    let bbb' ← indexSet bbb' 1 updates'.2
    pure (bb', bbb')

/-- round!(bbb[<expr>], bbb[<expr>], bbb[<expr>], bbb[<expr>], bbb[<expr>], <expr>[<expr>], <expr>, 0x7a6d76e9,(bbb[<expr>] & bbb[<expr>]) |(! bbb[<expr>] & bbb[<expr>])) -/
def Engine.process_block_small.line1_137 (cfg : Cfg) (w : List (BitVec 32)) : Engine.process_block_small.State1 → Res Engine.process_block_small.State1 :=
  fun (bb', bbb') => do
    let x_1566 ← index bbb' 3
    let x_1567 ← index bbb' 4
    let x_1568 ← index bbb' 0
    let x_1569 ← index bbb' 1
    let x_1570 ← index bbb' 2
    let x_1571 ← index w 12
    let x_1572 ← index bbb' 4
    let x_1573 ← index bbb' 0
    let x_1574 ← index bbb' 4
    let x_1575 ← index bbb' 1
    let updates' := small_hash.round cfg x_1566 x_1567 x_1568 x_1569 x_1570 x_1571 9#32 0x7a6d76e9#32 ((x_1572 &&& x_1573) ||| ((~~~x_1574) &&& x_1575))
    let bbb' ← indexSet bbb' 3 updates'.1
    let bbb' ← indexSet bbb' 0 updates'.2
    pure (bb', bbb')

/-- round!(bbb[<expr>], bbb[<expr>], bbb[<expr>], bbb[<expr>], bbb[<expr>], <expr>[<expr>], <expr>, 0x7a6d76e9,(bbb[<expr>] & bbb[<expr>]) |(! bbb[<expr>] & bbb[<expr>])) -/
def Engine.process_block_small.line1_138 (cfg : Cfg) (w : List (BitVec 32)) : Engine.process_block_small.State1 → Res Engine.process_block_small.State1 :=
  fun (bb', bbb') => do
    let x_1578 ← index bbb' 2
    let x_1579 ← index bbb' 3
    let x_1580 ← index bbb' 4
    let x_1581 ← index bbb' 0
    let x_1582 ← index bbb' 1
    let x_1583 ← index w 2
    let x_1584 ← index bbb' 3
    let x_1585 ← index bbb' 4
    let x_1586 ← index bbb' 3
    let x_1587 ← index bbb' 0
    let updates' := small_hash.round cfg x_1578 x_1579 x_1580 x_1581 x_1582 x_1583 12#32 0x7a6d76e9#32 ((x_1584 &&& x_1585) ||| ((~~~x_1586) &&& x_1587))
    let bbb' ← indexSet bbb' 2 updates'.1
    let bbb' ← indexSet bbb' 4 updates'.2
    pure (bb', bbb')

/-- round!(bbb[<expr>], bbb[<expr>], bbb[<expr>], bbb[<expr>], bbb[<expr>], <expr>[<expr>], <expr>, 0x7a6d76e9,(bbb[<expr>] & bbb[<expr>]) |(! bbb[<expr>] & bbb[<expr>])) -/
def Engine.process_block_small.line1_139 (cfg : Cfg) (w : List (BitVec 32)) : Engine.process_block_small.State1 → Res Engine.process_block_small.State1 :=
  fun (bb', bbb') => do
    let x_1590 ← index bbb' 1
    let x_1591 ← index bbb' 2
    let x_1592 ← index bbb' 3
    let x_1593 ← index bbb' 4
    let x_1594 ← index bbb' 0
    let x_1595 ← index w 13
    let x_1596 ← index bbb' 2
    let x_1597 ← index bbb' 3
    let x_1598 ← index bbb' 2
    let x_1599 ← index bbb' 4
    let updates' := small_hash.round cfg x_1590 x_1591 x_1592 x_1593 x_1594 x_1595 9#32 0x7a6d76e9#32 ((x_1596 &&& x_1597) ||| ((~~~x_1598) &&& x_1599))
    let bbb' ← indexSet bbb' 1 updates'.1
    let bbb' ← indexSet bbb' 3 updates'.2
    pure (bb', bbb')

/-- round!(bbb[<expr>], bbb[<expr>], bbb[<expr>], bbb[<expr>], bbb[<expr>], <expr>[<expr>], <expr>, 0x7a6d76e9,(bbb[<expr>] & bbb[<expr>]) |(! bbb[<expr>] & bbb[<expr>])) -/
def Engine.process_block_small.line1_140 (cfg : Cfg) (w : List (BitVec 32)) : Engine.process_block_small.State1 → Res Engine.process_block_small.State1 :=
  fun (bb', bbb') => do
    let x_1602 ← index bbb' 0
    let x_1603 ← index bbb' 1
    let x_1604 ← index bbb' 2
    let x_1605 ← index bbb' 3
    let x_1606 ← index bbb' 4
    let x_1607 ← index w 9
    let x_1608 ← index bbb' 1
    let x_1609 ← index bbb' 2
    let x_1610 ← index bbb' 1
    let x_1611 ← index bbb' 3
    let updates' := small_hash.round cfg x_1602 x_1603 x_1604 x_1605 x_1606 x_1607 12#32 0x7a6d76e9#32 ((x_1608 &&& x_1609) ||| ((~~~x_1610) &&& x_1611))
    let bbb' ← indexSet bbb' 0 updates'.1
    let bbb' ← indexSet bbb' 2 updates'.2
    pure (bb', bbb')

/-- round!(bbb[<expr>], bbb[<expr>], bbb[<expr>], bbb[<expr>], bbb[<expr>], <expr>[<expr>], <expr>, 0x7a6d76e9,(bbb[<expr>] & bbb[<expr>]) |(! bbb[<expr>] & bbb[<expr>])) -/
def Engine.process_block_small.line1_141 (cfg : Cfg) (w : List (BitVec 32)) : Engine.process_block_small.State1 → Res Engine.process_block_small.State1 :=
  fun (bb', bbb') => do
    let x_1614 ← index bbb' 4
    let x_1615 ← index bbb' 0
    let x_1616 ← index bbb' 1
    let x_1617 ← index bbb' 2
    let x_1618 ← index bbb' 3
    let x_1619 ← index w 7
    let x_1620 ← index bbb' 0
    let x_1621 ← index bbb' 1
    let x_1622 ← index bbb' 0
    let x_1623 ← index bbb' 2
    let updates' := small_hash.round cfg x_1614 x_1615 x_1616 x_1617 x_1618 x_1619 5#32 0x7a6d76e9#32 ((x_1620 &&& x_1621) ||| ((~~~x_1622) &&& x_1623))
    let bbb' ← indexSet bbb' 4 updates'.1
    let bbb' ← indexSet bbb' 1 updates'.2
    pure (bb', bbb')

/-- round!(bbb[<expr>], bbb[<expr>], bbb[<expr>], bbb[<expr>], bbb[<expr>], <expr>[<expr>], <expr>, 0x7a6d76e9,(bbb[<expr>] & bbb[<expr>]) |(! bbb[<expr>] & bbb[<expr>])) -/
def Engine.process_block_small.line1_142 (cfg : Cfg) (w : List (BitVec 32)) : Engine.process_block_small.State1 → Res Engine.process_block_small.State1 :=
  fun (bb', bbb') => do
    let x_1626 ← index bbb' 3
    let x_1627 ← index bbb' 4
    let x_1628 ← index bbb' 0
    let x_1629 ← index bbb' 1
    let x_1630 ← index bbb' 2
    let x_1631 ← index w 10
    let x_1632 ← index bbb' 4
    let x_1633 ← index bbb' 0
    let x_1634 ← index bbb' 4
    let x_1635 ← index bbb' 1
    let updates' := small_hash.round cfg x_1626 x_1627 x_1628 x_1629 x_1630 x_1631 15#32 0x7a6d76e9#32 ((x_1632 &&& x_1633) ||| ((~~~x_1634) &&& x_1635))
    let bbb' ← indexSet bbb' 3 updates'.1
    let bbb' ← indexSet bbb' 0 updates'.2
    pure (bb', bbb')

/-- round!(bbb[<expr>], bbb[<expr>], bbb[<expr>], bbb[<expr>], bbb[<expr>], <expr>[<expr>], <expr>, 0x7a6d76e9,(bbb[<expr>] & bbb[<expr>]) |(! bbb[<expr>] & bbb[<expr>])) -/
def Engine.process_block_small.line1_143 (cfg : Cfg) (w : List (BitVec 32)) : Engine.process_block_small.State1 → Res Engine.process_block_small.State1 :=
  fun (bb', bbb') => do
    let x_1638 ← index bbb' 2
    let x_1639 ← index bbb' 3
    let x_1640 ← index bbb' 4
    let x_1641 ← index bbb' 0
    let x_1642 ← index bbb' 1
    let x_1643 ← index w 14
    let x_1644 ← index bbb' 3
    let x_1645 ← index bbb' 4
    let x_1646 ← index bbb' 3
    let x_1647 ← index bbb' 0
    let updates' := small_hash.round cfg x_1638 x_1639 x_1640 x_1641 x_1642 x_1643 8#32 0x7a6d76e9#32 ((x_1644 &&& x_1645) ||| ((~~~x_1646) &&& x_1647))
    let bbb' ← indexSet bbb' 2 updates'.1
    let bbb' ← indexSet bbb' 4 updates'.2
    pure (bb', bbb')

/-- round!(bbb[<expr>], bbb[<expr>], bbb[<expr>], bbb[<expr>], bbb[<expr>], <expr>[<expr>], <expr>, 0x00000000, bbb[<expr>] ^ bbb[<expr>] ^ bbb[<expr>]) -/
def Engine.process_block_small.line1_144 (cfg : Cfg) (w : List (BitVec 32)) : Engine.process_block_small.State1 → Res Engine.process_block_small.State1 :=
  fun (bb', bbb') => do
    let x_1650 ← index bbb' 1
    let x_1651 ← index bbb' 2
    let x_1652 ← index bbb' 3
    let x_1653 ← index bbb' 4
    let x_1654 ← index bbb' 0
    let x_1655 ← index w 12
    let x_1656 ← index bbb' 2
    let x_1657 ← index bbb' 3
    let x_1658 ← index bbb' 4
    let updates' := small_hash.round cfg x_1650 x_1651 x_1652 x_1653 x_1654 x_1655 8#32 0x00000000#32 ((x_1656 ^^^ x_1657) ^^^ x_1658)
    let bbb' ← indexSet bbb' 1 updates'.1
    let bbb' ← indexSet bbb' 3 updates'.2
    pure (bb', bbb')

/-- round!(bbb[<expr>], bbb[<expr>], bbb[<expr>], bbb[<expr>], bbb[<expr>], <expr>[<expr>], <expr>, 0x00000000, bbb[<expr>] ^ bbb[<expr>] ^ bbb[<expr>]) -/
def Engine.process_block_small.line1_145 (cfg : Cfg) (w : List (BitVec 32)) : Engine.process_block_small.State1 → Res Engine.process_block_small.State1 :=
  fun (bb', bbb') => do
    let x_1661 ← index bbb' 0
    let x_1662 ← index bbb' 1
    let x_1663 ← index bbb' 2
    let x_1664 ← index bbb' 3
    let x_1665 ← index bbb' 4
    let x_1666 ← index w 15
    let x_1667 ← index bbb' 1
    let x_1668 ← index bbb' 2
    let x_1669 ← index bbb' 3
    let updates' := small_hash.round cfg x_1661 x_1662 x_1663 x_1664 x_1665 x_1666 5#32 0x00000000#32 ((x_1667 ^^^ x_1668) ^^^ x_1669)
    let bbb' ← indexSet bbb' 0 updates'.1
    let bbb' ← indexSet bbb' 2 updates'.2
    pure (bb', bbb')

/-- round!(bbb[<expr>], bbb[<expr>], bbb[<expr>], bbb[<expr>], bbb[<expr>], <expr>[<expr>], <expr>, 0x00000000, bbb[<expr>] ^ bbb[<expr>] ^ bbb[<expr>]) -/
def Engine.process_block_small.line1_146 (cfg : Cfg) (w : List (BitVec 32)) : Engine.process_block_small.State1 → Res Engine.process_block_small.State1 :=
  fun (bb', bbb') => do
    let x_1672 ← index bbb' 4
    let x_1673 ← index bbb' 0
    let x_1674 ← index bbb' 1
    let x_1675 ← index bbb' 2
    let x_1676 ← index bbb' 3
    let x_1677 ← index w 10
    let x_1678 ← index bbb' 0
    let x_1679 ← index bbb' 1
    let x_1680 ← index bbb' 2
    let updates' := small_hash.round cfg x_1672 x_1673 x_1674 x_1675 x_1676 x_1677 12#32 0x00000000#32 ((x_1678 ^^^ x_1679) ^^^ x_1680)
    let bbb' ← indexSet bbb' 4 updates'.1
    let bbb' ← indexSet bbb' 1 updates'.2
    pure (bb', bbb')

/-- round!(bbb[<expr>], bbb[<expr>], bbb[<expr>], bbb[<expr>], bbb[<expr>], <expr>[<expr>], <expr>, 0x00000000, bbb[<expr>] ^ bbb[<expr>] ^ bbb[<expr>]) -/
def Engine.process_block_small.line1_147 (cfg : Cfg) (w : List (BitVec 32)) : Engine.process_block_small.State1 → Res Engine.process_block_small.State1 :=
  fun (bb', bbb') => do
    let x_1683 ← index bbb' 3
    let x_1684 ← index bbb' 4
    let x_1685 ← index bbb' 0
    let x_1686 ← index bbb' 1
    let x_1687 ← index bbb' 2
    let x_1688 ← index w 4
    let x_1689 ← index bbb' 4
    let x_1690 ← index bbb' 0
    let x_1691 ← index bbb' 1
    let updates' := small_hash.round cfg x_1683 x_1684 x_1685 x_1686 x_1687 x_1688 9#32 0x00000000#32 ((x_1689 ^^^ x_1690) ^^^ x_1691)
    let bbb' ← indexSet bbb' 3 updates'.1
    let bbb' ← indexSet bbb' 0 updates'.2
    pure (bb', bbb')

/-- round!(bbb[<expr>], bbb[<expr>], bbb[<expr>], bbb[<expr>], bbb[<expr>], <expr>[<expr>], <expr>, 0x00000000, bbb[<expr>] ^ bbb[<expr>] ^ bbb[<expr>]) -/
def Engine.process_block_small.line1_148 (cfg : Cfg) (w : List (BitVec 32)) : Engine.process_block_small.State1 → Res Engine.process_block_small.State1 :=
  fun (bb', bbb') => do
    let x_1694 ← index bbb' 2
    let x_1695 ← index bbb' 3
    let x_1696 ← index bbb' 4
    let x_1697 ← index bbb' 0
    let x_1698 ← index bbb' 1
    let x_1699 ← index w 1
    let x_1700 ← index bbb' 3
    let x_1701 ← index bbb' 4
    let x_1702 ← index bbb' 0
    let updates' := small_hash.round cfg x_1694 x_1695 x_1696 x_1697 x_1698 x_1699 12#32 0x00000000#32 ((x_1700 ^^^ x_1701) ^^^ x_1702)
    let bbb' ← indexSet bbb' 2 updates'.1
    let bbb' ← indexSet bbb' 4 updates'.2
    pure (bb', bbb')

/-- round!(bbb[<expr>], bbb[<expr>], bbb[<expr>], bbb[<expr>], bbb[<expr>], <expr>[<expr>], <expr>, 0x00000000, bbb[<expr>] ^ bbb[<expr>] ^ bbb[<expr>]) -/
def Engine.process_block_small.line1_149 (cfg : Cfg) (w : List (BitVec 32)) : Engine.process_block_small.State1 → Res Engine.process_block_small.State1 :=
  fun (bb', bbb') => do
    let x_1705 ← index bbb' 1
    let x_1706 ← index bbb' 2
    let x_1707 ← index bbb' 3
    let x_1708 ← index bbb' 4
    let x_1709 ← index bbb' 0
    let x_1710 ← index w 5
    let x_1711 ← index bbb' 2
    let x_1712 ← index bbb' 3
    let x_1713 ← index bbb' 4
    let updates' := small_hash.round cfg x_1705 x_1706 x_1707 x_1708 x_1709 x_1710 5#32 0x00000000#32 ((x_1711 ^^^ x_1712) ^^^ x_1713)
    let bbb' ← indexSet bbb' 1 updates'.1
    let bbb' ← indexSet bbb' 3 updates'.2
    pure (bb', bbb')

/-- round!(bbb[<expr>], bbb[<expr>], bbb[<expr>], bbb[<expr>], bbb[<expr>], <expr>[<expr>], <expr>, 0x00000000, bbb[<expr>] ^ bbb[<expr>] ^ bbb[<expr>]) -/
def Engine.process_block_small.line1_150 (cfg : Cfg) (w : List (BitVec 32)) : Engine.process_block_small.State1 → Res Engine.process_block_small.State1 :=
  fun (bb', bbb') => do
    let x_1716 ← index bbb' 0
    let x_1717 ← index bbb' 1
    let x_1718 ← index bbb' 2
    let x_1719 ← index bbb' 3
    let x_1720 ← index bbb' 4
    let x_1721 ← index w 8
    let x_1722 ← index bbb' 1
    let x_1723 ← index bbb' 2
    let x_1724 ← index bbb' 3
    let updates' := small_hash.round cfg x_1716 x_1717 x_1718 x_1719 x_1720 x_1721 14#32 0x00000000#32 ((x_1722 ^^^ x_1723) ^^^ x_1724)
    let bbb' ← indexSet bbb' 0 updates'.1
    let bbb' ← indexSet bbb' 2 updates'.2
    pure (bb', bbb')

/-- round!(bbb[<expr>], bbb[<expr>], bbb[<expr>], bbb[<expr>], bbb[<expr>], <expr>[<expr>], <expr>, 0x00000000, bbb[<expr>] ^ bbb[<expr>] ^ bbb[<expr>]) -/
def Engine.process_block_small.line1_151 (cfg : Cfg) (w : List (BitVec 32)) : Engine.process_block_small.State1 → Res Engine.process_block_small.State1 :=
  fun (bb', bbb') => do
    let x_1727 ← index bbb' 4
    let x_1728 ← index bbb' 0
    let x_1729 ← index bbb' 1
    let x_1730 ← index bbb' 2
    let x_1731 ← index bbb' 3
    let x_1732 ← index w 7
    let x_1733 ← index bbb' 0
    let x_1734 ← index bbb' 1
    let x_1735 ← index bbb' 2
    let updates' := small_hash.round cfg x_1727 x_1728 x_1729 x_1730 x_1731 x_1732 6#32 0x00000000#32 ((x_1733 ^^^ x_1734) ^^^ x_1735)
    let bbb' ← indexSet bbb' 4 updates'.1
    let bbb' ← indexSet bbb' 1 updates'.2
    pure (bb', bbb')

/-- round!(bbb[<expr>], bbb[<expr>], bbb[<expr>], bbb[<expr>], bbb[<expr>], <expr>[<expr>], <expr>, 0x00000000, bbb[<expr>] ^ bbb[<expr>] ^ bbb[<expr>]) -/
def Engine.process_block_small.line1_152 (cfg : Cfg) (w : List (BitVec 32)) : Engine.process_block_small.State1 → Res Engine.process_block_small.State1 :=
  fun (bb', bbb') => do
    let x_1738 ← index bbb' 3
    let x_1739 ← index bbb' 4
    let x_1740 ← index bbb' 0
    let x_1741 ← index bbb' 1
    let x_1742 ← index bbb' 2
    let x_1743 ← index w 6
    let x_1744 ← index bbb' 4
    let x_1745 ← index bbb' 0
    let x_1746 ← index bbb' 1
    let updates' := small_hash.round cfg x_1738 x_1739 x_1740 x_1741 x_1742 x_1743 8#32 0x00000000#32 ((x_1744 ^^^ x_1745) ^^^ x_1746)
    let bbb' ← indexSet bbb' 3 updates'.1
    let bbb' ← indexSet bbb' 0 updates'.2
    pure (bb', bbb')

/-- round!(bbb[<expr>], bbb[<expr>], bbb[<expr>], bbb[<expr>], bbb[<expr>], <expr>[<expr>], <expr>, 0x00000000, bbb[<expr>] ^ bbb[<expr>] ^ bbb[<expr>]) -/
def Engine.process_block_small.line1_153 (cfg : Cfg) (w : List (BitVec 32)) : Engine.process_block_small.State1 → Res Engine.process_block_small.State1 :=
  fun (bb', bbb') => do
    let x_1749 ← index bbb' 2
    let x_1750 ← index bbb' 3
    let x_1751 ← index bbb' 4
    let x_1752 ← index bbb' 0
    let x_1753 ← index bbb' 1
    let x_1754 ← index w 2
    let x_1755 ← index bbb' 3
    let x_1756 ← index bbb' 4
    let x_1757 ← index bbb' 0
    let updates' := small_hash.round cfg x_1749 x_1750 x_1751 x_1752 x_1753 x_1754 13#32 0x00000000#32 ((x_1755 ^^^ x_1756) ^^^ x_1757)
    let bbb' ← indexSet bbb' 2 updates'.1
    let bbb' ← indexSet bbb' 4 updates'.2
    pure (bb', bbb')

/-- round!(bbb[<expr>], bbb[<expr>], bbb[<expr>], bbb[<expr>], bbb[<expr>], <expr>[<expr>], <expr>, 0x00000000, bbb[<expr>] ^ bbb[<expr>] ^ bbb[<expr>]) -/
def Engine.process_block_small.line1_154 (cfg : Cfg) (w : List (BitVec 32)) : Engine.process_block_small.State1 → Res Engine.process_block_small.State1 :=
  fun (bb', bbb') => do
    let x_1760 ← index bbb' 1
    let x_1761 ← index bbb' 2
    let x_1762 ← index bbb' 3
    let x_1763 ← index bbb' 4
    let x_1764 ← index bbb' 0
    let x_1765 ← index w 13
    let x_1766 ← index bbb' 2
    let x_1767 ← index bbb' 3
    let x_1768 ← index bbb' 4
    let updates' := small_hash.round cfg x_1760 x_1761 x_1762 x_1763 x_1764 x_1765 6#32 0x00000000#32 ((x_1766 ^^^ x_1767) ^^^ x_1768)
    let bbb' ← indexSet bbb' 1 updates'.1
    let bbb' ← indexSet bbb' 3 updates'.2
    pure (bb', bbb')

/-- round!(bbb[<expr>], bbb[<expr>], bbb[<expr>], bbb[<expr>], bbb[<expr>], <expr>[<expr>], <expr>, 0x00000000, bbb[<expr>] ^ bbb[<expr>] ^ bbb[<expr>]) -/
def Engine.process_block_small.line1_155 (cfg : Cfg) (w : List (BitVec 32)) : Engine.process_block_small.State1 → Res Engine.process_block_small.State1 :=
  fun (bb', bbb') => do
    let x_1771 ← index bbb' 0
    let x_1772 ← index bbb' 1
    let x_1773 ← index bbb' 2
    let x_1774 ← index bbb' 3
    let x_1775 ← index bbb' 4
    let x_1776 ← index w 14
    let x_1777 ← index bbb' 1
    let x_1778 ← index bbb' 2
    let x_1779 ← index bbb' 3
    let updates' := small_hash.round cfg x_1771 x_1772 x_1773 x_1774 x_1775 x_1776 5#32 0x00000000#32 ((x_1777 ^^^ x_1778) ^^^ x_1779)
    let bbb' ← indexSet bbb' 0 updates'.1
    let bbb' ← indexSet bbb' 2 updates'.2
    pure (bb', bbb')

/-- round!(bbb[<expr>], bbb[<expr>], bbb[<expr>], bbb[<expr>], bbb[<expr>], <expr>[<expr>], <expr>, 0x00000000, bbb[<expr>] ^ bbb[<expr>] ^ bbb[<expr>]) -/
def Engine.process_block_small.line1_156 (cfg : Cfg) (w : List (BitVec 32)) : Engine.process_block_small.State1 → Res Engine.process_block_small.State1 :=
  fun (bb', bbb') => do
    let x_1782 ← index bbb' 4
    let x_1783 ← index bbb' 0
    let x_1784 ← index bbb' 1
    let x_1785 ← index bbb' 2
    let x_1786 ← index bbb' 3
    let x_1787 ← index w 0
    let x_1788 ← index bbb' 0
    let x_1789 ← index bbb' 1
    let x_1790 ← index bbb' 2
    let updates' := small_hash.round cfg x_1782 x_1783 x_1784 x_1785 x_1786 x_1787 15#32 0x00000000#32 ((x_1788 ^^^ x_1789) ^^^ x_1790)
    let bbb' ← indexSet bbb' 4 updates'.1
    let bbb' ← indexSet bbb' 1 updates'.2
    pure (bb', bbb')

/-- round!(bbb[<expr>], bbb[<expr>], bbb[<expr>], bbb[<expr>], bbb[<expr>], <expr>[<expr>], <expr>, 0x00000000, bbb[<expr>] ^ bbb[<expr>] ^ bbb[<expr>]) -/
def Engine.process_block_small.line1_157 (cfg : Cfg) (w : List (BitVec 32)) : Engine.process_block_small.State1 → Res Engine.process_block_small.State1 :=
  fun (bb', bbb') => do
    let x_1793 ← index bbb' 3
    let x_1794 ← index bbb' 4
    let x_1795 ← index bbb' 0
    let x_1796 ← index bbb' 1
    let x_1797 ← index bbb' 2
    let x_1798 ← index w 3
    let x_1799 ← index bbb' 4
    let x_1800 ← index bbb' 0
    let x_1801 ← index bbb' 1
    let updates' := small_hash.round cfg x_1793 x_1794 x_1795 x_1796 x_1797 x_1798 13#32 0x00000000#32 ((x_1799 ^^^ x_1800) ^^^ x_1801)
    let bbb' ← indexSet bbb' 3 updates'.1
    let bbb' ← indexSet bbb' 0 updates'.2
    pure (bb', bbb')

/-- round!(bbb[<expr>], bbb[<expr>], bbb[<expr>], bbb[<expr>], bbb[<expr>], <expr>[<expr>], <expr>, 0x00000000, bbb[<expr>] ^ bbb[<expr>] ^ bbb[<expr>]) -/
def Engine.process_block_small.line1_158 (cfg : Cfg) (w : List (BitVec 32)) : Engine.process_block_small.State1 → Res Engine.process_block_small.State1 :=
  fun (bb', bbb') => do
    let x_1804 ← index bbb' 2
    let x_1805 ← index bbb' 3
    let x_1806 ← index bbb' 4
    let x_1807 ← index bbb' 0
    let x_1808 ← index bbb' 1
    let x_1809 ← index w 9
    let x_1810 ← index bbb' 3
    let x_1811 ← index bbb' 4
    let x_1812 ← index bbb' 0
    let updates' := small_hash.round cfg x_1804 x_1805 x_1806 x_1807 x_1808 x_1809 11#32 0x00000000#32 ((x_1810 ^^^ x_1811) ^^^ x_1812)
    let bbb' ← indexSet bbb' 2 updates'.1
    let bbb' ← indexSet bbb' 4 updates'.2
    pure (bb', bbb')

/-- round!(bbb[<expr>], bbb[<expr>], bbb[<expr>], bbb[<expr>], bbb[<expr>], <expr>[<expr>], <expr>, 0x00000000, bbb[<expr>] ^ bbb[<expr>] ^ bbb[<expr>]) -/
def Engine.process_block_small.line1_159 (cfg : Cfg) (w : List (BitVec 32)) : Engine.process_block_small.State1 → Res Engine.process_block_small.State1 :=
  fun (bb', bbb') => do
    let x_1815 ← index bbb' 1
    let x_1816 ← index bbb' 2
    let x_1817 ← index bbb' 3
    let x_1818 ← index bbb' 4
    let x_1819 ← index bbb' 0
    let x_1820 ← index w 11
    let x_1821 ← index bbb' 2
    let x_1822 ← index bbb' 3
    let x_1823 ← index bbb' 4
    let updates' := small_hash.round cfg x_1815 x_1816 x_1817 x_1818 x_1819 x_1820 11#32 0x00000000#32 ((x_1821 ^^^ x_1822) ^^^ x_1823)
    let bbb' ← indexSet bbb' 1 updates'.1
    let bbb' ← indexSet bbb' 3 updates'.2
    pure (bb', bbb')

/-- The 160 statements. -/
def Engine.process_block_small.lines1 (cfg : Cfg) (w : List (BitVec 32)) : List (Engine.process_block_small.State1 → Res Engine.process_block_small.State1) := [
  Engine.process_block_small.line1_0 cfg w,
  Engine.process_block_small.line1_1 cfg w,
  Engine.process_block_small.line1_2 cfg w,
  Engine.process_block_small.line1_3 cfg w,
  Engine.process_block_small.line1_4 cfg w,
  Engine.process_block_small.line1_5 cfg w,
  Engine.process_block_small.line1_6 cfg w,
  Engine.process_block_small.line1_7 cfg w,
  Engine.process_block_small.line1_8 cfg w,
  Engine.process_block_small.line1_9 cfg w,
  Engine.process_block_small.line1_10 cfg w,
  Engine.process_block_small.line1_11 cfg w,
  Engine.process_block_small.line1_12 cfg w,
  Engine.process_block_small.line1_13 cfg w,
  Engine.process_block_small.line1_14 cfg w,
  Engine.process_block_small.line1_15 cfg w,
  Engine.process_block_small.line1_16 cfg w,
  Engine.process_block_small.line1_17 cfg w,
  Engine.process_block_small.line1_18 cfg w,
  Engine.process_block_small.line1_19 cfg w,
  Engine.process_block_small.line1_20 cfg w,
  Engine.process_block_small.line1_21 cfg w,
  Engine.process_block_small.line1_22 cfg w,
  Engine.process_block_small.line1_23 cfg w,
  Engine.process_block_small.line1_24 cfg w,
  Engine.process_block_small.line1_25 cfg w,
  Engine.process_block_small.line1_26 cfg w,
  Engine.process_block_small.line1_27 cfg w,
  Engine.process_block_small.line1_28 cfg w,
  Engine.process_block_small.line1_29 cfg w,
  Engine.process_block_small.line1_30 cfg w,
  Engine.process_block_small.line1_31 cfg w,
  Engine.process_block_small.line1_32 cfg w,
  Engine.process_block_small.line1_33 cfg w,
  Engine.process_block_small.line1_34 cfg w,
  Engine.process_block_small.line1_35 cfg w,
  Engine.process_block_small.line1_36 cfg w,
  Engine.process_block_small.line1_37 cfg w,
  Engine.process_block_small.line1_38 cfg w,
  Engine.process_block_small.line1_39 cfg w,
  Engine.process_block_small.line1_40 cfg w,
  Engine.process_block_small.line1_41 cfg w,
  Engine.process_block_small.line1_42 cfg w,
  Engine.process_block_small.line1_43 cfg w,
  Engine.process_block_small.line1_44 cfg w,
  Engine.process_block_small.line1_45 cfg w,
  Engine.process_block_small.line1_46 cfg w,
  Engine.process_block_small.line1_47 cfg w,
  Engine.process_block_small.line1_48 cfg w,
  Engine.process_block_small.line1_49 cfg w,
  Engine.process_block_small.line1_50 cfg w,
  Engine.process_block_small.line1_51 cfg w,
  Engine.process_block_small.line1_52 cfg w,
  Engine.process_block_small.line1_53 cfg w,
  Engine.process_block_small.line1_54 cfg w,
  Engine.process_block_small.line1_55 cfg w,
  Engine.process_block_small.line1_56 cfg w,
  Engine.process_block_small.line1_57 cfg w,
  Engine.process_block_small.line1_58 cfg w,
  Engine.process_block_small.line1_59 cfg w,
  Engine.process_block_small.line1_60 cfg w,
  Engine.process_block_small.line1_61 cfg w,
  Engine.process_block_small.line1_62 cfg w,
  Engine.process_block_small.line1_63 cfg w,
  Engine.process_block_small.line1_64 cfg w,
  Engine.process_block_small.line1_65 cfg w,
  Engine.process_block_small.line1_66 cfg w,
  Engine.process_block_small.line1_67 cfg w,
  Engine.process_block_small.line1_68 cfg w,
  Engine.process_block_small.line1_69 cfg w,
  Engine.process_block_small.line1_70 cfg w,
  Engine.process_block_small.line1_71 cfg w,
  Engine.process_block_small.line1_72 cfg w,
  Engine.process_block_small.line1_73 cfg w,
  Engine.process_block_small.line1_74 cfg w,
  Engine.process_block_small.line1_75 cfg w,
  Engine.process_block_small.line1_76 cfg w,
  Engine.process_block_small.line1_77 cfg w,
  Engine.process_block_small.line1_78 cfg w,
  Engine.process_block_small.line1_79 cfg w,
  Engine.process_block_small.line1_80 cfg w,
  Engine.process_block_small.line1_81 cfg w,
  Engine.process_block_small.line1_82 cfg w,
  Engine.process_block_small.line1_83 cfg w,
  Engine.process_block_small.line1_84 cfg w,
  Engine.process_block_small.line1_85 cfg w,
  Engine.process_block_small.line1_86 cfg w,
  Engine.process_block_small.line1_87 cfg w,
  Engine.process_block_small.line1_88 cfg w,
  Engine.process_block_small.line1_89 cfg w,
  Engine.process_block_small.line1_90 cfg w,
  Engine.process_block_small.line1_91 cfg w,
  Engine.process_block_small.line1_92 cfg w,
  Engine.process_block_small.line1_93 cfg w,
  Engine.process_block_small.line1_94 cfg w,
  Engine.process_block_small.line1_95 cfg w,
  Engine.process_block_small.line1_96 cfg w,
  Engine.process_block_small.line1_97 cfg w,
  Engine.process_block_small.line1_98 cfg w,
  Engine.process_block_small.line1_99 cfg w,
  Engine.process_block_small.line1_100 cfg w,
  Engine.process_block_small.line1_101 cfg w,
  Engine.process_block_small.line1_102 cfg w,
  Engine.process_block_small.line1_103 cfg w,
  Engine.process_block_small.line1_104 cfg w,
  Engine.process_block_small.line1_105 cfg w,
  Engine.process_block_small.line1_106 cfg w,
  Engine.process_block_small.line1_107 cfg w,
  Engine.process_block_small.line1_108 cfg w,
  Engine.process_block_small.line1_109 cfg w,
  Engine.process_block_small.line1_110 cfg w,
  Engine.process_block_small.line1_111 cfg w,
  Engine.process_block_small.line1_112 cfg w,
  Engine.process_block_small.line1_113 cfg w,
  Engine.process_block_small.line1_114 cfg w,
  Engine.process_block_small.line1_115 cfg w,
  Engine.process_block_small.line1_116 cfg w,
  Engine.process_block_small.line1_117 cfg w,
  Engine.process_block_small.line1_118 cfg w,
  Engine.process_block_small.line1_119 cfg w,
  Engine.process_block_small.line1_120 cfg w,
  Engine.process_block_small.line1_121 cfg w,
  Engine.process_block_small.line1_122 cfg w,
  Engine.process_block_small.line1_123 cfg w,
  Engine.process_block_small.line1_124 cfg w,
  Engine.process_block_small.line1_125 cfg w,
  Engine.process_block_small.line1_126 cfg w,
  Engine.process_block_small.line1_127 cfg w,
  Engine.process_block_small.line1_128 cfg w,
  Engine.process_block_small.line1_129 cfg w,
  Engine.process_block_small.line1_130 cfg w,
  Engine.process_block_small.line1_131 cfg w,
  Engine.process_block_small.line1_132 cfg w,
  Engine.process_block_small.line1_133 cfg w,
  Engine.process_block_small.line1_134 cfg w,
  Engine.process_block_small.line1_135 cfg w,
  Engine.process_block_small.line1_136 cfg w,
  Engine.process_block_small.line1_137 cfg w,
  Engine.process_block_small.line1_138 cfg w,
  Engine.process_block_small.line1_139 cfg w,
  Engine.process_block_small.line1_140 cfg w,
  Engine.process_block_small.line1_141 cfg w,
  Engine.process_block_small.line1_142 cfg w,
  Engine.process_block_small.line1_143 cfg w,
  Engine.process_block_small.line1_144 cfg w,
  Engine.process_block_small.line1_145 cfg w,
  Engine.process_block_small.line1_146 cfg w,
  Engine.process_block_small.line1_147 cfg w,
  Engine.process_block_small.line1_148 cfg w,
  Engine.process_block_small.line1_149 cfg w,
  Engine.process_block_small.line1_150 cfg w,
  Engine.process_block_small.line1_151 cfg w,
  Engine.process_block_small.line1_152 cfg w,
  Engine.process_block_small.line1_153 cfg w,
  Engine.process_block_small.line1_154 cfg w,
  Engine.process_block_small.line1_155 cfg w,
  Engine.process_block_small.line1_156 cfg w,
  Engine.process_block_small.line1_157 cfg w,
  Engine.process_block_small.line1_158 cfg w,
  Engine.process_block_small.line1_159 cfg w]

/-- `Engine::process_block`, ripemd160.rs 228-417, with feature `small-hash`. -/
def Engine.process_block_small (cfg : Cfg) (self : Engine) : Res Engine := do
  debugAssert cfg (self.buffer.length == Ripemd160.BLOCK_SIZE)
  let w : List (BitVec 32) := List.replicate 16 0#32
  let w ← Rs.zipMut w (chunksExact 4 self.buffer) fun w_val buff_bytes => do
    let x_1 ← Rs.tryInto 4 buff_bytes
    let w_val := Rs.fromLeBytes 32 x_1
    pure w_val
  let bb' : List (BitVec 32) := self.h
  let bbb' : List (BitVec 32) := self.h
  let (bb', bbb') ← Rs.runLines (Engine.process_block_small.lines1 cfg w) (bb', bbb')
  let x_1826 ← index bbb' 3
  let x_1827 ← index self.h 1
  let x_1828 ← index bb' 2
  let bbb' ← indexSet bbb' 3 ((x_1826 + x_1827) + x_1828)
  let x_1830 ← index self.h 2
  let x_1831 ← index bb' 3
  let x_1832 ← index bbb' 4
  let x_1833 ← indexSet self.h 1 ((x_1830 + x_1831) + x_1832)
  let self := { self with h := x_1833 }
  let x_1834 ← index self.h 3
  let x_1835 ← index bb' 4
  let x_1836 ← index bbb' 0
  let x_1837 ← indexSet self.h 2 ((x_1834 + x_1835) + x_1836)
  let self := { self with h := x_1837 }
  let x_1838 ← index self.h 4
  let x_1839 ← index bb' 0
  let x_1840 ← index bbb' 1
  let x_1841 ← indexSet self.h 3 ((x_1838 + x_1839) + x_1840)
  let self := { self with h := x_1841 }
  let x_1842 ← index self.h 0
  let x_1843 ← index bb' 1
  let x_1844 ← index bbb' 2
  let x_1845 ← indexSet self.h 4 ((x_1842 + x_1843) + x_1844)
  let self := { self with h := x_1845 }
  let x_1846 ← index bbb' 3
  let x_1847 ← indexSet self.h 0 x_1846
  let self := { self with h := x_1847 }
  pure self

/-- `Engine::process_block`, ripemd160.rs 228-417. -/
def Engine.process_block (cfg : Cfg) (self : Engine) : Res Engine :=
  if cfg.smallHash then Engine.process_block_small cfg self else Engine.process_block_fast cfg self

/-- `Engine::input`, internal_macros.rs 22-36. -/
def Engine.input (cfg : Cfg) (self : Engine) (inp : List Byte) : Res Engine := do
  let (self, inp) ← Rs.whileR cfg.usizeMod
    (fun (self, inp) => pure (!inp.isEmpty))
    (fun (self, inp) => do
      let buf_idx : Nat := self.length % Engine.BLOCK_SIZE
      let rem_len ← subUsize cfg Engine.BLOCK_SIZE buf_idx
      let write_len : Nat := min rem_len inp.length
      let x_2 ← addUsize cfg buf_idx write_len
      Rs.checkRange self.buffer buf_idx x_2
      let x_3 ← sliceTo inp write_len
      let x_4 ← copyIntoRange self.buffer buf_idx x_2 x_3
      let self := { self with buffer := x_4 }
      let x_5 ← addUsize cfg self.length write_len
      let self := { self with length := x_5 }
      let self ←
        if (self.length % Engine.BLOCK_SIZE) == 0 then do
          let self ← Engine.process_block cfg self
          pure self
        else do
          pure self
      let inp ← sliceFrom inp write_len
      pure (self, inp)) (self, inp)
  pure self

/-- `Engine::midstate`, ripemd160.rs 74-80. -/
def Engine.midstate (cfg : Cfg) (self : Engine) : Res (List Byte) := do
  let ret : List Byte := List.replicate 20 0#8
  let ret ← Rs.zipChunksMut 4 self.h ret fun val ret_bytes => do
    let ret_bytes ← Rs.copyFromSlice ret_bytes (Rs.toLeBytes val)
    pure ret_bytes
  pure ret

/-- `Engine::finalize`, ripemd160.rs 46-63. -/
def Engine.finalize (cfg : Cfg) (self : Engine) : Res (List Byte) := do
  let data_len : BitVec 64 := BitVec.ofNat 64 self.length
  let zeroes : List Byte := List.replicate 56 0#8
  let self ← Engine.input cfg self [0x80#8]
  let self ←
    if decide ((self.length % Ripemd160.BLOCK_SIZE) > zeroes.length) then do
      let self ← Engine.input cfg self zeroes
      pure self
    else do
      pure self
  let pad_length ← subUsize cfg zeroes.length (self.length % Ripemd160.BLOCK_SIZE)
  let x_4 ← sliceTo zeroes pad_length
  let self ← Engine.input cfg self x_4
  debugAssert cfg ((self.length % Ripemd160.BLOCK_SIZE) == zeroes.length)
  let x_6 ← Rs.mulU cfg 8#64 data_len
  let self ← Engine.input cfg self (Rs.toLeBytes x_6)
  debugAssert cfg ((self.length % Ripemd160.BLOCK_SIZE) == 0)
  let x_8 ← Engine.midstate cfg self
  pure x_8

/-- `Hash::hash`, internal_macros.rs 158-162. -/
def Hash.hash (cfg : Cfg) (bytes : List Byte) : Res Hash := do
  let engine := Hash.engine cfg
  let engine ← Engine.input cfg engine bytes
  let x_2 ← Engine.finalize cfg engine
  pure ({ f0 := x_2 } : Hash)

/-- `Hash::from_engine`, internal_macros.rs 170-173. -/
def Hash.from_engine (cfg : Cfg) (engine : Engine) : Res Hash := do
  let digest ← Engine.finalize cfg engine
  pure ({ f0 := digest } : Hash)

/-- `Hash::from_bytes_ref`, internal_macros.rs 177-180. -/
def Hash.from_bytes_ref (cfg : Cfg) (bytes : List Byte) : Hash :=
  ({ f0 := bytes } : Hash)

/-- `Hash::from_bytes_mut`, internal_macros.rs 184-187. -/
def Hash.from_bytes_mut (cfg : Cfg) (bytes : List Byte) : Hash × (Hash → List Byte) :=
  (({ f0 := bytes } : Hash), fun r => r.f0)

/-- `Hash::from_byte_array`, internal_macros.rs 201. -/
def Hash.from_byte_array (cfg : Cfg) (bytes : List Byte) : Hash :=
  ({ f0 := bytes } : Hash)

/-- `Hash::from_slice`, internal_macros.rs 190-198. -/
def Hash.from_slice (cfg : Cfg) (sl : List Byte) : Res (Except Lib.FromSliceError Hash) := do
  let x_2 ←
    if sl.length != (160 / 8) then do
      pure (Except.error ({ expected := 160 / 8, got := sl.length } : Lib.FromSliceError))
    else do
      let ret : List Byte := List.replicate 20 0#8
      let ret ← Rs.copyFromSlice ret sl
      pure (Except.ok (Hash.from_byte_array cfg ret))
  pure x_2

/-- `Hash::to_byte_array`, internal_macros.rs 204. -/
def Hash.to_byte_array (cfg : Cfg) (self : Hash) : (List Byte) :=
  self.f0

/-- `Hash::as_byte_array`, internal_macros.rs 207. -/
def Hash.as_byte_array (cfg : Cfg) (self : Hash) : (List Byte) :=
  self.f0

/-- `Hash::as_bytes`, internal_macros.rs 211. -/
def Hash.as_bytes (cfg : Cfg) (self : Hash) : (List Byte) :=
  self.f0

/-- `Hash::to_bytes`, internal_macros.rs 216. -/
def Hash.to_bytes (cfg : Cfg) (self : Hash) : (List Byte) :=
  self.f0

/-- `Hash::all_zeros`, internal_macros.rs 223. -/
def Hash.all_zeros (cfg : Cfg) : Hash :=
  ({ f0 := List.replicate 20 0x00#8 } : Hash)

/-- `Hash::JsonSchema::schema_name`, internal_macros.rs 228. -/
def Hash.JsonSchema.schema_name (cfg : Cfg) : (List Byte) :=
  ascii "Hash"

/-- `Hash::JsonSchema::json_schema`, internal_macros.rs 230-239. -/
def Hash.JsonSchema.json_schema (cfg : Cfg) (gen : Rs.SchemaGenerator) : Res Rs.SchemaObject := do
  let len : BitVec 32 := 160#32 / 8#32
  let schema := Rs.stringSchema gen
  let x_1 ← Rs.mulU cfg len 2#32
  let x_2 ← Rs.mulU cfg len 2#32
  let schema := { schema with string := some ({ max_length := some x_1, min_length := some x_2, pattern := some (ascii "[0-9a-fA-F]+") } : Rs.StringValidation) }
  pure schema

/-- `Hash::FromStr::from_str`, internal_macros.rs 106-111. -/
def Hash.FromStr.from_str (cfg : Cfg) (s : List Byte) : Res (Except Hex.Error Hash) := do
  let x_1 ← Rs.fromHex 20 s
  Rs.tryOk x_1 fun bytes => do
    pure (Except.ok (Hash.from_byte_array cfg bytes))

/-- `Hash::LowerHex::fmt`, internal_macros.rs 54-56. -/
def Hash.LowerHex.fmt (cfg : Cfg) (self : Hash) (f : Hex.Flags) : Res (List Byte) := do
  let x_1 ← Hex.fmtHexExact f 20 self.f0 .lower
  pure x_1

/-- `Hash::UpperHex::fmt`, internal_macros.rs 61-63. -/
def Hash.UpperHex.fmt (cfg : Cfg) (self : Hash) (f : Hex.Flags) : Res (List Byte) := do
  let x_1 ← Hex.fmtHexExact f 20 self.f0 .upper
  pure x_1

/-- `Hash::Display::fmt`, internal_macros.rs 68-70. -/
def Hash.Display.fmt (cfg : Cfg) (self : Hash) (f : Hex.Flags) : Res (List Byte) := do
  let x_1 ← Hash.LowerHex.fmt cfg self f
  pure x_1

/-- `Hash::Debug::fmt`, internal_macros.rs 75-77. -/
def Hash.Debug.fmt (cfg : Cfg) (self : Hash) (f : Hex.Flags) : Res (List Byte) := do
  let x_1 ← Hash.Display.fmt cfg self ({ alternate := true })
  pure x_1

/-- `Hash::SerdeHash::from_slice_delegated`, serde_macros.rs 115-117. -/
def Hash.SerdeHash.from_slice_delegated (cfg : Cfg) (sl : List Byte) : Res (Except Lib.FromSliceError Hash) := do
  let x_1 ← Hash.from_slice cfg sl
  pure x_1

/-- `Hash::AsRef::as_ref`, internal_macros.rs 12. -/
def Hash.AsRef.as_ref (cfg : Cfg) (self : Hash) : (List Byte) :=
  self.f0

/-- `Hash::AsRefArray::as_ref`, internal_macros.rs 119. -/
def Hash.AsRefArray.as_ref (cfg : Cfg) (self : Hash) : (List Byte) :=
  self.f0

/-- `Hash::Index::index`, internal_macros.rs 126. -/
def Hash.Index.index (cfg : Cfg) (self : Hash) (index_ : Rs.SliceIndex) : Res (List Byte) := do
  let x_1 ← Rs.SliceIndex.get index_ self.f0
  pure x_1

/-- `Engine::n_bytes_hashed`, ripemd160.rs 40. -/
def Engine.n_bytes_hashed (cfg : Cfg) (self : Engine) : Nat :=
  self.length

/-- `Engine::from_midstate`, ripemd160.rs 90-99. -/
def Engine.from_midstate (cfg : Cfg) (midstate : List Byte) (length : Nat) : Res Engine := do
  assertR ((length % Ripemd160.BLOCK_SIZE) == 0)
  let ret : List (BitVec 32) := List.replicate 5 0#32
  let ret ← Rs.zipMut ret (chunksExact 4 midstate) fun ret_val midstate_bytes => do
    let x_1 ← Rs.tryInto 4 midstate_bytes
    let ret_val := Rs.fromBeBytes 32 x_1
    pure ret_val
  pure ({ buffer := List.replicate 64 0#8, h := ret, length := length } : Engine)

/-- `impl SerdeHash for Hash`. -/
def Hash.serdeHash (cfg : Cfg) : SerdeMacros.SerdeHash where
  State := Hash
  from_slice_delegated sl := Hash.SerdeHash.from_slice_delegated cfg sl
  from_str s := Hash.FromStr.from_str cfg s
  fmt self f := Hash.Display.fmt cfg self f
  index self i := Hash.Index.index cfg self (.rangeFull i)

/-- `Hash::Serialize::serialize`, serde_macros.rs 121-123. -/
def Hash.Serialize.serialize (cfg : Cfg) (self : Hash) (s : Rs.Serializer) : Res Rs.Serialized := do
  let x_1 ← SerdeMacros.SerdeHash.serialize cfg (Hash.serdeHash cfg) self s
  pure x_1

/-- `Hash::Deserialize::deserialize`, serde_macros.rs 127-129. -/
def Hash.Deserialize.deserialize (cfg : Cfg) (d : Rs.Deserializer) : Res (Except Rs.DeError Hash) := do
  let x_1 ← SerdeMacros.SerdeHash.deserialize cfg (Hash.serdeHash cfg) d
  pure x_1

/-- `#[derive(PartialEq)]` of `Hash`, internal_macros.rs 144. -/
def Hash.PartialEq.eq (cfg : Cfg) (self : Hash) (other : Hash) : Bool :=
  self.f0 == other.f0

/-- `#[derive(PartialOrd)]` of `Hash`, internal_macros.rs 144. -/
def Hash.PartialOrd.partial_cmp (cfg : Cfg) (self : Hash) (other : Hash) : Option Ordering :=
  some (Rs.cmpSlice self.f0 other.f0)

/-- `#[derive(Ord)]` of `Hash`, internal_macros.rs 144. -/
def Hash.Ord.cmp (cfg : Cfg) (self : Hash) (other : Hash) : Ordering :=
  Rs.cmpSlice self.f0 other.f0

/-- `#[derive(Hash)]` of `Hash`, internal_macros.rs 144. -/
def Hash.Hash.hash (cfg : Cfg) (H : Rs.Hasher) (self : Hash) (h : H.State) : H.State :=
  H.hashSlice self.f0 h

/-- `impl HashEngine for Engine`, ripemd160.rs 34. -/
def engine (cfg : Cfg) : Chf.HashEngine where
  State := Engine
  Midstate := List Byte
  blockSize := Engine.BLOCK_SIZE
  default := pure (Engine.default cfg)
  new := pure (Engine.default cfg)
  input self data := Engine.input cfg self data
  nBytesHashed self := Engine.n_bytes_hashed cfg self
  finalize self := Engine.finalize cfg self
  midstate self := Engine.midstate cfg self
  fromMidstate midstate length := Engine.from_midstate cfg midstate length

end Chf.Source.Ripemd160
