/- Generated from the translation of /repo/src by tools/rust2lean.py; do not edit. -/
import Verif.Seen.Prelude
import Verif.Source.Sha512

namespace Chf.Seen.Sha512
open Chf
set_option linter.unusedVariables false

/-- round!(a, b, c, d, e, f, g, h, 0x428a2f98d728ae22, w[0]) -/
def Engine.process_block_fast.line1_0 (cfg : Cfg) : Source.Sha512.Engine.process_block_fast.State1 → Tr Source.Sha512.Engine.process_block_fast.State1 :=
  fun (w, a, b, c, d, e, f, g, h) => do
    let x_10 ← Tr.index w 0
    let t1' : BitVec 64 := (((h + (Source.Sha512.Sigma1 cfg e)) + (Source.Sha512.Ch cfg e f g)) + 0x428a2f98d728ae22#64) + x_10
    let t2' : BitVec 64 := (Source.Sha512.Sigma0 cfg a) + (Source.Sha512.Maj cfg a b c)
    let d := d + t1'
    let h := t1' + t2'
    pure (w, a, b, c, d, e, f, g, h)

/-- round!(h, a, b, c, d, e, f, g, 0x7137449123ef65cd, w[1]) -/
def Engine.process_block_fast.line1_1 (cfg : Cfg) : Source.Sha512.Engine.process_block_fast.State1 → Tr Source.Sha512.Engine.process_block_fast.State1 :=
  fun (w, a, b, c, d, e, f, g, h) => do
    let x_11 ← Tr.index w 1
    let t1' : BitVec 64 := (((g + (Source.Sha512.Sigma1 cfg d)) + (Source.Sha512.Ch cfg d e f)) + 0x7137449123ef65cd#64) + x_11
    let t2' : BitVec 64 := (Source.Sha512.Sigma0 cfg h) + (Source.Sha512.Maj cfg h a b)
    let c := c + t1'
    let g := t1' + t2'
    pure (w, a, b, c, d, e, f, g, h)

/-- round!(g, h, a, b, c, d, e, f, 0xb5c0fbcfec4d3b2f, w[2]) -/
def Engine.process_block_fast.line1_2 (cfg : Cfg) : Source.Sha512.Engine.process_block_fast.State1 → Tr Source.Sha512.Engine.process_block_fast.State1 :=
  fun (w, a, b, c, d, e, f, g, h) => do
    let x_12 ← Tr.index w 2
    let t1' : BitVec 64 := (((f + (Source.Sha512.Sigma1 cfg c)) + (Source.Sha512.Ch cfg c d e)) + 0xb5c0fbcfec4d3b2f#64) + x_12
    let t2' : BitVec 64 := (Source.Sha512.Sigma0 cfg g) + (Source.Sha512.Maj cfg g h a)
    let b := b + t1'
    let f := t1' + t2'
    pure (w, a, b, c, d, e, f, g, h)

/-- round!(f, g, h, a, b, c, d, e, 0xe9b5dba58189dbbc, w[3]) -/
def Engine.process_block_fast.line1_3 (cfg : Cfg) : Source.Sha512.Engine.process_block_fast.State1 → Tr Source.Sha512.Engine.process_block_fast.State1 :=
  fun (w, a, b, c, d, e, f, g, h) => do
    let x_13 ← Tr.index w 3
    let t1' : BitVec 64 := (((e + (Source.Sha512.Sigma1 cfg b)) + (Source.Sha512.Ch cfg b c d)) + 0xe9b5dba58189dbbc#64) + x_13
    let t2' : BitVec 64 := (Source.Sha512.Sigma0 cfg f) + (Source.Sha512.Maj cfg f g h)
    let a := a + t1'
    let e := t1' + t2'
    pure (w, a, b, c, d, e, f, g, h)

/-- round!(e, f, g, h, a, b, c, d, 0x3956c25bf348b538, w[4]) -/
def Engine.process_block_fast.line1_4 (cfg : Cfg) : Source.Sha512.Engine.process_block_fast.State1 → Tr Source.Sha512.Engine.process_block_fast.State1 :=
  fun (w, a, b, c, d, e, f, g, h) => do
    let x_14 ← Tr.index w 4
    let t1' : BitVec 64 := (((d + (Source.Sha512.Sigma1 cfg a)) + (Source.Sha512.Ch cfg a b c)) + 0x3956c25bf348b538#64) + x_14
    let t2' : BitVec 64 := (Source.Sha512.Sigma0 cfg e) + (Source.Sha512.Maj cfg e f g)
    let h := h + t1'
    let d := t1' + t2'
    pure (w, a, b, c, d, e, f, g, h)

/-- round!(d, e, f, g, h, a, b, c, 0x59f111f1b605d019, w[5]) -/
def Engine.process_block_fast.line1_5 (cfg : Cfg) : Source.Sha512.Engine.process_block_fast.State1 → Tr Source.Sha512.Engine.process_block_fast.State1 :=
  fun (w, a, b, c, d, e, f, g, h) => do
    let x_15 ← Tr.index w 5
    let t1' : BitVec 64 := (((c + (Source.Sha512.Sigma1 cfg h)) + (Source.Sha512.Ch cfg h a b)) + 0x59f111f1b605d019#64) + x_15
    let t2' : BitVec 64 := (Source.Sha512.Sigma0 cfg d) + (Source.Sha512.Maj cfg d e f)
    let g := g + t1'
    let c := t1' + t2'
    pure (w, a, b, c, d, e, f, g, h)

/-- round!(c, d, e, f, g, h, a, b, 0x923f82a4af194f9b, w[6]) -/
def Engine.process_block_fast.line1_6 (cfg : Cfg) : Source.Sha512.Engine.process_block_fast.State1 → Tr Source.Sha512.Engine.process_block_fast.State1 :=
  fun (w, a, b, c, d, e, f, g, h) => do
    let x_16 ← Tr.index w 6
    let t1' : BitVec 64 := (((b + (Source.Sha512.Sigma1 cfg g)) + (Source.Sha512.Ch cfg g h a)) + 0x923f82a4af194f9b#64) + x_16
    let t2' : BitVec 64 := (Source.Sha512.Sigma0 cfg c) + (Source.Sha512.Maj cfg c d e)
    let f := f + t1'
    let b := t1' + t2'
    pure (w, a, b, c, d, e, f, g, h)

/-- round!(b, c, d, e, f, g, h, a, 0xab1c5ed5da6d8118, w[7]) -/
def Engine.process_block_fast.line1_7 (cfg : Cfg) : Source.Sha512.Engine.process_block_fast.State1 → Tr Source.Sha512.Engine.process_block_fast.State1 :=
  fun (w, a, b, c, d, e, f, g, h) => do
    let x_17 ← Tr.index w 7
    let t1' : BitVec 64 := (((a + (Source.Sha512.Sigma1 cfg f)) + (Source.Sha512.Ch cfg f g h)) + 0xab1c5ed5da6d8118#64) + x_17
    let t2' : BitVec 64 := (Source.Sha512.Sigma0 cfg b) + (Source.Sha512.Maj cfg b c d)
    let e := e + t1'
    let a := t1' + t2'
    pure (w, a, b, c, d, e, f, g, h)

/-- round!(a, b, c, d, e, f, g, h, 0xd807aa98a3030242, w[8]) -/
def Engine.process_block_fast.line1_8 (cfg : Cfg) : Source.Sha512.Engine.process_block_fast.State1 → Tr Source.Sha512.Engine.process_block_fast.State1 :=
  fun (w, a, b, c, d, e, f, g, h) => do
    let x_18 ← Tr.index w 8
    let t1' : BitVec 64 := (((h + (Source.Sha512.Sigma1 cfg e)) + (Source.Sha512.Ch cfg e f g)) + 0xd807aa98a3030242#64) + x_18
    let t2' : BitVec 64 := (Source.Sha512.Sigma0 cfg a) + (Source.Sha512.Maj cfg a b c)
    let d := d + t1'
    let h := t1' + t2'
    pure (w, a, b, c, d, e, f, g, h)

/-- round!(h, a, b, c, d, e, f, g, 0x12835b0145706fbe, w[9]) -/
def Engine.process_block_fast.line1_9 (cfg : Cfg) : Source.Sha512.Engine.process_block_fast.State1 → Tr Source.Sha512.Engine.process_block_fast.State1 :=
  fun (w, a, b, c, d, e, f, g, h) => do
    let x_19 ← Tr.index w 9
    let t1' : BitVec 64 := (((g + (Source.Sha512.Sigma1 cfg d)) + (Source.Sha512.Ch cfg d e f)) + 0x12835b0145706fbe#64) + x_19
    let t2' : BitVec 64 := (Source.Sha512.Sigma0 cfg h) + (Source.Sha512.Maj cfg h a b)
    let c := c + t1'
    let g := t1' + t2'
    pure (w, a, b, c, d, e, f, g, h)

/-- round!(g, h, a, b, c, d, e, f, 0x243185be4ee4b28c, w[10]) -/
def Engine.process_block_fast.line1_10 (cfg : Cfg) : Source.Sha512.Engine.process_block_fast.State1 → Tr Source.Sha512.Engine.process_block_fast.State1 :=
  fun (w, a, b, c, d, e, f, g, h) => do
    let x_20 ← Tr.index w 10
    let t1' : BitVec 64 := (((f + (Source.Sha512.Sigma1 cfg c)) + (Source.Sha512.Ch cfg c d e)) + 0x243185be4ee4b28c#64) + x_20
    let t2' : BitVec 64 := (Source.Sha512.Sigma0 cfg g) + (Source.Sha512.Maj cfg g h a)
    let b := b + t1'
    let f := t1' + t2'
    pure (w, a, b, c, d, e, f, g, h)

/-- round!(f, g, h, a, b, c, d, e, 0x550c7dc3d5ffb4e2, w[11]) -/
def Engine.process_block_fast.line1_11 (cfg : Cfg) : Source.Sha512.Engine.process_block_fast.State1 → Tr Source.Sha512.Engine.process_block_fast.State1 :=
  fun (w, a, b, c, d, e, f, g, h) => do
    let x_21 ← Tr.index w 11
    let t1' : BitVec 64 := (((e + (Source.Sha512.Sigma1 cfg b)) + (Source.Sha512.Ch cfg b c d)) + 0x550c7dc3d5ffb4e2#64) + x_21
    let t2' : BitVec 64 := (Source.Sha512.Sigma0 cfg f) + (Source.Sha512.Maj cfg f g h)
    let a := a + t1'
    let e := t1' + t2'
    pure (w, a, b, c, d, e, f, g, h)

/-- round!(e, f, g, h, a, b, c, d, 0x72be5d74f27b896f, w[12]) -/
def Engine.process_block_fast.line1_12 (cfg : Cfg) : Source.Sha512.Engine.process_block_fast.State1 → Tr Source.Sha512.Engine.process_block_fast.State1 :=
  fun (w, a, b, c, d, e, f, g, h) => do
    let x_22 ← Tr.index w 12
    let t1' : BitVec 64 := (((d + (Source.Sha512.Sigma1 cfg a)) + (Source.Sha512.Ch cfg a b c)) + 0x72be5d74f27b896f#64) + x_22
    let t2' : BitVec 64 := (Source.Sha512.Sigma0 cfg e) + (Source.Sha512.Maj cfg e f g)
    let h := h + t1'
    let d := t1' + t2'
    pure (w, a, b, c, d, e, f, g, h)

/-- round!(d, e, f, g, h, a, b, c, 0x80deb1fe3b1696b1, w[13]) -/
def Engine.process_block_fast.line1_13 (cfg : Cfg) : Source.Sha512.Engine.process_block_fast.State1 → Tr Source.Sha512.Engine.process_block_fast.State1 :=
  fun (w, a, b, c, d, e, f, g, h) => do
    let x_23 ← Tr.index w 13
    let t1' : BitVec 64 := (((c + (Source.Sha512.Sigma1 cfg h)) + (Source.Sha512.Ch cfg h a b)) + 0x80deb1fe3b1696b1#64) + x_23
    let t2' : BitVec 64 := (Source.Sha512.Sigma0 cfg d) + (Source.Sha512.Maj cfg d e f)
    let g := g + t1'
    let c := t1' + t2'
    pure (w, a, b, c, d, e, f, g, h)

/-- round!(c, d, e, f, g, h, a, b, 0x9bdc06a725c71235, w[14]) -/
def Engine.process_block_fast.line1_14 (cfg : Cfg) : Source.Sha512.Engine.process_block_fast.State1 → Tr Source.Sha512.Engine.process_block_fast.State1 :=
  fun (w, a, b, c, d, e, f, g, h) => do
    let x_24 ← Tr.index w 14
    let t1' : BitVec 64 := (((b + (Source.Sha512.Sigma1 cfg g)) + (Source.Sha512.Ch cfg g h a)) + 0x9bdc06a725c71235#64) + x_24
    let t2' : BitVec 64 := (Source.Sha512.Sigma0 cfg c) + (Source.Sha512.Maj cfg c d e)
    let f := f + t1'
    let b := t1' + t2'
    pure (w, a, b, c, d, e, f, g, h)

/-- round!(b, c, d, e, f, g, h, a, 0xc19bf174cf692694, w[15]) -/
def Engine.process_block_fast.line1_15 (cfg : Cfg) : Source.Sha512.Engine.process_block_fast.State1 → Tr Source.Sha512.Engine.process_block_fast.State1 :=
  fun (w, a, b, c, d, e, f, g, h) => do
    let x_25 ← Tr.index w 15
    let t1' : BitVec 64 := (((a + (Source.Sha512.Sigma1 cfg f)) + (Source.Sha512.Ch cfg f g h)) + 0xc19bf174cf692694#64) + x_25
    let t2' : BitVec 64 := (Source.Sha512.Sigma0 cfg b) + (Source.Sha512.Maj cfg b c d)
    let e := e + t1'
    let a := t1' + t2'
    pure (w, a, b, c, d, e, f, g, h)

/-- round!(a, b, c, d, e, f, g, h, 0xe49b69c19ef14ad2, w[0], w[14], w[9], w[1]) -/
def Engine.process_block_fast.line1_16 (cfg : Cfg) : Source.Sha512.Engine.process_block_fast.State1 → Tr Source.Sha512.Engine.process_block_fast.State1 :=
  fun (w, a, b, c, d, e, f, g, h) => do
    let x_26 ← Tr.index w 0
    let x_27 ← Tr.index w 14
    let x_28 ← Tr.index w 9
    let x_29 ← Tr.index w 1
    let w ← Tr.indexSet w 0 (((x_26 + (Source.Sha512.sigma1 cfg x_27)) + x_28) + (Source.Sha512.sigma0 cfg x_29))
    let x_31 ← Tr.index w 0
    let t1' : BitVec 64 := (((h + (Source.Sha512.Sigma1 cfg e)) + (Source.Sha512.Ch cfg e f g)) + 0xe49b69c19ef14ad2#64) + x_31
    let t2' : BitVec 64 := (Source.Sha512.Sigma0 cfg a) + (Source.Sha512.Maj cfg a b c)
    let d := d + t1'
    let h := t1' + t2'
    pure (w, a, b, c, d, e, f, g, h)

/-- round!(h, a, b, c, d, e, f, g, 0xefbe4786384f25e3, w[1], w[15], w[10], w[2]) -/
def Engine.process_block_fast.line1_17 (cfg : Cfg) : Source.Sha512.Engine.process_block_fast.State1 → Tr Source.Sha512.Engine.process_block_fast.State1 :=
  fun (w, a, b, c, d, e, f, g, h) => do
    let x_32 ← Tr.index w 1
    let x_33 ← Tr.index w 15
    let x_34 ← Tr.index w 10
    let x_35 ← Tr.index w 2
    let w ← Tr.indexSet w 1 (((x_32 + (Source.Sha512.sigma1 cfg x_33)) + x_34) + (Source.Sha512.sigma0 cfg x_35))
    let x_37 ← Tr.index w 1
    let t1' : BitVec 64 := (((g + (Source.Sha512.Sigma1 cfg d)) + (Source.Sha512.Ch cfg d e f)) + 0xefbe4786384f25e3#64) + x_37
    let t2' : BitVec 64 := (Source.Sha512.Sigma0 cfg h) + (Source.Sha512.Maj cfg h a b)
    let c := c + t1'
    let g := t1' + t2'
    pure (w, a, b, c, d, e, f, g, h)

/-- round!(g, h, a, b, c, d, e, f, 0x0fc19dc68b8cd5b5, w[2], w[0], w[11], w[3]) -/
def Engine.process_block_fast.line1_18 (cfg : Cfg) : Source.Sha512.Engine.process_block_fast.State1 → Tr Source.Sha512.Engine.process_block_fast.State1 :=
  fun (w, a, b, c, d, e, f, g, h) => do
    let x_38 ← Tr.index w 2
    let x_39 ← Tr.index w 0
    let x_40 ← Tr.index w 11
    let x_41 ← Tr.index w 3
    let w ← Tr.indexSet w 2 (((x_38 + (Source.Sha512.sigma1 cfg x_39)) + x_40) + (Source.Sha512.sigma0 cfg x_41))
    let x_43 ← Tr.index w 2
    let t1' : BitVec 64 := (((f + (Source.Sha512.Sigma1 cfg c)) + (Source.Sha512.Ch cfg c d e)) + 0x0fc19dc68b8cd5b5#64) + x_43
    let t2' : BitVec 64 := (Source.Sha512.Sigma0 cfg g) + (Source.Sha512.Maj cfg g h a)
    let b := b + t1'
    let f := t1' + t2'
    pure (w, a, b, c, d, e, f, g, h)

/-- round!(f, g, h, a, b, c, d, e, 0x240ca1cc77ac9c65, w[3], w[1], w[12], w[4]) -/
def Engine.process_block_fast.line1_19 (cfg : Cfg) : Source.Sha512.Engine.process_block_fast.State1 → Tr Source.Sha512.Engine.process_block_fast.State1 :=
  fun (w, a, b, c, d, e, f, g, h) => do
    let x_44 ← Tr.index w 3
    let x_45 ← Tr.index w 1
    let x_46 ← Tr.index w 12
    let x_47 ← Tr.index w 4
    let w ← Tr.indexSet w 3 (((x_44 + (Source.Sha512.sigma1 cfg x_45)) + x_46) + (Source.Sha512.sigma0 cfg x_47))
    let x_49 ← Tr.index w 3
    let t1' : BitVec 64 := (((e + (Source.Sha512.Sigma1 cfg b)) + (Source.Sha512.Ch cfg b c d)) + 0x240ca1cc77ac9c65#64) + x_49
    let t2' : BitVec 64 := (Source.Sha512.Sigma0 cfg f) + (Source.Sha512.Maj cfg f g h)
    let a := a + t1'
    let e := t1' + t2'
    pure (w, a, b, c, d, e, f, g, h)

/-- round!(e, f, g, h, a, b, c, d, 0x2de92c6f592b0275, w[4], w[2], w[13], w[5]) -/
def Engine.process_block_fast.line1_20 (cfg : Cfg) : Source.Sha512.Engine.process_block_fast.State1 → Tr Source.Sha512.Engine.process_block_fast.State1 :=
  fun (w, a, b, c, d, e, f, g, h) => do
    let x_50 ← Tr.index w 4
    let x_51 ← Tr.index w 2
    let x_52 ← Tr.index w 13
    let x_53 ← Tr.index w 5
    let w ← Tr.indexSet w 4 (((x_50 + (Source.Sha512.sigma1 cfg x_51)) + x_52) + (Source.Sha512.sigma0 cfg x_53))
    let x_55 ← Tr.index w 4
    let t1' : BitVec 64 := (((d + (Source.Sha512.Sigma1 cfg a)) + (Source.Sha512.Ch cfg a b c)) + 0x2de92c6f592b0275#64) + x_55
    let t2' : BitVec 64 := (Source.Sha512.Sigma0 cfg e) + (Source.Sha512.Maj cfg e f g)
    let h := h + t1'
    let d := t1' + t2'
    pure (w, a, b, c, d, e, f, g, h)

/-- round!(d, e, f, g, h, a, b, c, 0x4a7484aa6ea6e483, w[5], w[3], w[14], w[6]) -/
def Engine.process_block_fast.line1_21 (cfg : Cfg) : Source.Sha512.Engine.process_block_fast.State1 → Tr Source.Sha512.Engine.process_block_fast.State1 :=
  fun (w, a, b, c, d, e, f, g, h) => do
    let x_56 ← Tr.index w 5
    let x_57 ← Tr.index w 3
    let x_58 ← Tr.index w 14
    let x_59 ← Tr.index w 6
    let w ← Tr.indexSet w 5 (((x_56 + (Source.Sha512.sigma1 cfg x_57)) + x_58) + (Source.Sha512.sigma0 cfg x_59))
    let x_61 ← Tr.index w 5
    let t1' : BitVec 64 := (((c + (Source.Sha512.Sigma1 cfg h)) + (Source.Sha512.Ch cfg h a b)) + 0x4a7484aa6ea6e483#64) + x_61
    let t2' : BitVec 64 := (Source.Sha512.Sigma0 cfg d) + (Source.Sha512.Maj cfg d e f)
    let g := g + t1'
    let c := t1' + t2'
    pure (w, a, b, c, d, e, f, g, h)

/-- round!(c, d, e, f, g, h, a, b, 0x5cb0a9dcbd41fbd4, w[6], w[4], w[15], w[7]) -/
def Engine.process_block_fast.line1_22 (cfg : Cfg) : Source.Sha512.Engine.process_block_fast.State1 → Tr Source.Sha512.Engine.process_block_fast.State1 :=
  fun (w, a, b, c, d, e, f, g, h) => do
    let x_62 ← Tr.index w 6
    let x_63 ← Tr.index w 4
    let x_64 ← Tr.index w 15
    let x_65 ← Tr.index w 7
    let w ← Tr.indexSet w 6 (((x_62 + (Source.Sha512.sigma1 cfg x_63)) + x_64) + (Source.Sha512.sigma0 cfg x_65))
    let x_67 ← Tr.index w 6
    let t1' : BitVec 64 := (((b + (Source.Sha512.Sigma1 cfg g)) + (Source.Sha512.Ch cfg g h a)) + 0x5cb0a9dcbd41fbd4#64) + x_67
    let t2' : BitVec 64 := (Source.Sha512.Sigma0 cfg c) + (Source.Sha512.Maj cfg c d e)
    let f := f + t1'
    let b := t1' + t2'
    pure (w, a, b, c, d, e, f, g, h)

/-- round!(b, c, d, e, f, g, h, a, 0x76f988da831153b5, w[7], w[5], w[0], w[8]) -/
def Engine.process_block_fast.line1_23 (cfg : Cfg) : Source.Sha512.Engine.process_block_fast.State1 → Tr Source.Sha512.Engine.process_block_fast.State1 :=
  fun (w, a, b, c, d, e, f, g, h) => do
    let x_68 ← Tr.index w 7
    let x_69 ← Tr.index w 5
    let x_70 ← Tr.index w 0
    let x_71 ← Tr.index w 8
    let w ← Tr.indexSet w 7 (((x_68 + (Source.Sha512.sigma1 cfg x_69)) + x_70) + (Source.Sha512.sigma0 cfg x_71))
    let x_73 ← Tr.index w 7
    let t1' : BitVec 64 := (((a + (Source.Sha512.Sigma1 cfg f)) + (Source.Sha512.Ch cfg f g h)) + 0x76f988da831153b5#64) + x_73
    let t2' : BitVec 64 := (Source.Sha512.Sigma0 cfg b) + (Source.Sha512.Maj cfg b c d)
    let e := e + t1'
    let a := t1' + t2'
    pure (w, a, b, c, d, e, f, g, h)

/-- round!(a, b, c, d, e, f, g, h, 0x983e5152ee66dfab, w[8], w[6], w[1], w[9]) -/
def Engine.process_block_fast.line1_24 (cfg : Cfg) : Source.Sha512.Engine.process_block_fast.State1 → Tr Source.Sha512.Engine.process_block_fast.State1 :=
  fun (w, a, b, c, d, e, f, g, h) => do
    let x_74 ← Tr.index w 8
    let x_75 ← Tr.index w 6
    let x_76 ← Tr.index w 1
    let x_77 ← Tr.index w 9
    let w ← Tr.indexSet w 8 (((x_74 + (Source.Sha512.sigma1 cfg x_75)) + x_76) + (Source.Sha512.sigma0 cfg x_77))
    let x_79 ← Tr.index w 8
    let t1' : BitVec 64 := (((h + (Source.Sha512.Sigma1 cfg e)) + (Source.Sha512.Ch cfg e f g)) + 0x983e5152ee66dfab#64) + x_79
    let t2' : BitVec 64 := (Source.Sha512.Sigma0 cfg a) + (Source.Sha512.Maj cfg a b c)
    let d := d + t1'
    let h := t1' + t2'
    pure (w, a, b, c, d, e, f, g, h)

/-- round!(h, a, b, c, d, e, f, g, 0xa831c66d2db43210, w[9], w[7], w[2], w[10]) -/
def Engine.process_block_fast.line1_25 (cfg : Cfg) : Source.Sha512.Engine.process_block_fast.State1 → Tr Source.Sha512.Engine.process_block_fast.State1 :=
  fun (w, a, b, c, d, e, f, g, h) => do
    let x_80 ← Tr.index w 9
    let x_81 ← Tr.index w 7
    let x_82 ← Tr.index w 2
    let x_83 ← Tr.index w 10
    let w ← Tr.indexSet w 9 (((x_80 + (Source.Sha512.sigma1 cfg x_81)) + x_82) + (Source.Sha512.sigma0 cfg x_83))
    let x_85 ← Tr.index w 9
    let t1' : BitVec 64 := (((g + (Source.Sha512.Sigma1 cfg d)) + (Source.Sha512.Ch cfg d e f)) + 0xa831c66d2db43210#64) + x_85
    let t2' : BitVec 64 := (Source.Sha512.Sigma0 cfg h) + (Source.Sha512.Maj cfg h a b)
    let c := c + t1'
    let g := t1' + t2'
    pure (w, a, b, c, d, e, f, g, h)

/-- round!(g, h, a, b, c, d, e, f, 0xb00327c898fb213f, w[10], w[8], w[3], w[11]) -/
def Engine.process_block_fast.line1_26 (cfg : Cfg) : Source.Sha512.Engine.process_block_fast.State1 → Tr Source.Sha512.Engine.process_block_fast.State1 :=
  fun (w, a, b, c, d, e, f, g, h) => do
    let x_86 ← Tr.index w 10
    let x_87 ← Tr.index w 8
    let x_88 ← Tr.index w 3
    let x_89 ← Tr.index w 11
    let w ← Tr.indexSet w 10 (((x_86 + (Source.Sha512.sigma1 cfg x_87)) + x_88) + (Source.Sha512.sigma0 cfg x_89))
    let x_91 ← Tr.index w 10
    let t1' : BitVec 64 := (((f + (Source.Sha512.Sigma1 cfg c)) + (Source.Sha512.Ch cfg c d e)) + 0xb00327c898fb213f#64) + x_91
    let t2' : BitVec 64 := (Source.Sha512.Sigma0 cfg g) + (Source.Sha512.Maj cfg g h a)
    let b := b + t1'
    let f := t1' + t2'
    pure (w, a, b, c, d, e, f, g, h)

/-- round!(f, g, h, a, b, c, d, e, 0xbf597fc7beef0ee4, w[11], w[9], w[4], w[12]) -/
def Engine.process_block_fast.line1_27 (cfg : Cfg) : Source.Sha512.Engine.process_block_fast.State1 → Tr Source.Sha512.Engine.process_block_fast.State1 :=
  fun (w, a, b, c, d, e, f, g, h) => do
    let x_92 ← Tr.index w 11
    let x_93 ← Tr.index w 9
    let x_94 ← Tr.index w 4
    let x_95 ← Tr.index w 12
    let w ← Tr.indexSet w 11 (((x_92 + (Source.Sha512.sigma1 cfg x_93)) + x_94) + (Source.Sha512.sigma0 cfg x_95))
    let x_97 ← Tr.index w 11
    let t1' : BitVec 64 := (((e + (Source.Sha512.Sigma1 cfg b)) + (Source.Sha512.Ch cfg b c d)) + 0xbf597fc7beef0ee4#64) + x_97
    let t2' : BitVec 64 := (Source.Sha512.Sigma0 cfg f) + (Source.Sha512.Maj cfg f g h)
    let a := a + t1'
    let e := t1' + t2'
    pure (w, a, b, c, d, e, f, g, h)

/-- round!(e, f, g, h, a, b, c, d, 0xc6e00bf33da88fc2, w[12], w[10], w[5], w[13]) -/
def Engine.process_block_fast.line1_28 (cfg : Cfg) : Source.Sha512.Engine.process_block_fast.State1 → Tr Source.Sha512.Engine.process_block_fast.State1 :=
  fun (w, a, b, c, d, e, f, g, h) => do
    let x_98 ← Tr.index w 12
    let x_99 ← Tr.index w 10
    let x_100 ← Tr.index w 5
    let x_101 ← Tr.index w 13
    let w ← Tr.indexSet w 12 (((x_98 + (Source.Sha512.sigma1 cfg x_99)) + x_100) + (Source.Sha512.sigma0 cfg x_101))
    let x_103 ← Tr.index w 12
    let t1' : BitVec 64 := (((d + (Source.Sha512.Sigma1 cfg a)) + (Source.Sha512.Ch cfg a b c)) + 0xc6e00bf33da88fc2#64) + x_103
    let t2' : BitVec 64 := (Source.Sha512.Sigma0 cfg e) + (Source.Sha512.Maj cfg e f g)
    let h := h + t1'
    let d := t1' + t2'
    pure (w, a, b, c, d, e, f, g, h)

/-- round!(d, e, f, g, h, a, b, c, 0xd5a79147930aa725, w[13], w[11], w[6], w[14]) -/
def Engine.process_block_fast.line1_29 (cfg : Cfg) : Source.Sha512.Engine.process_block_fast.State1 → Tr Source.Sha512.Engine.process_block_fast.State1 :=
  fun (w, a, b, c, d, e, f, g, h) => do
    let x_104 ← Tr.index w 13
    let x_105 ← Tr.index w 11
    let x_106 ← Tr.index w 6
    let x_107 ← Tr.index w 14
    let w ← Tr.indexSet w 13 (((x_104 + (Source.Sha512.sigma1 cfg x_105)) + x_106) + (Source.Sha512.sigma0 cfg x_107))
    let x_109 ← Tr.index w 13
    let t1' : BitVec 64 := (((c + (Source.Sha512.Sigma1 cfg h)) + (Source.Sha512.Ch cfg h a b)) + 0xd5a79147930aa725#64) + x_109
    let t2' : BitVec 64 := (Source.Sha512.Sigma0 cfg d) + (Source.Sha512.Maj cfg d e f)
    let g := g + t1'
    let c := t1' + t2'
    pure (w, a, b, c, d, e, f, g, h)

/-- round!(c, d, e, f, g, h, a, b, 0x06ca6351e003826f, w[14], w[12], w[7], w[15]) -/
def Engine.process_block_fast.line1_30 (cfg : Cfg) : Source.Sha512.Engine.process_block_fast.State1 → Tr Source.Sha512.Engine.process_block_fast.State1 :=
  fun (w, a, b, c, d, e, f, g, h) => do
    let x_110 ← Tr.index w 14
    let x_111 ← Tr.index w 12
    let x_112 ← Tr.index w 7
    let x_113 ← Tr.index w 15
    let w ← Tr.indexSet w 14 (((x_110 + (Source.Sha512.sigma1 cfg x_111)) + x_112) + (Source.Sha512.sigma0 cfg x_113))
    let x_115 ← Tr.index w 14
    let t1' : BitVec 64 := (((b + (Source.Sha512.Sigma1 cfg g)) + (Source.Sha512.Ch cfg g h a)) + 0x06ca6351e003826f#64) + x_115
    let t2' : BitVec 64 := (Source.Sha512.Sigma0 cfg c) + (Source.Sha512.Maj cfg c d e)
    let f := f + t1'
    let b := t1' + t2'
    pure (w, a, b, c, d, e, f, g, h)

/-- round!(b, c, d, e, f, g, h, a, 0x142929670a0e6e70, w[15], w[13], w[8], w[0]) -/
def Engine.process_block_fast.line1_31 (cfg : Cfg) : Source.Sha512.Engine.process_block_fast.State1 → Tr Source.Sha512.Engine.process_block_fast.State1 :=
  fun (w, a, b, c, d, e, f, g, h) => do
    let x_116 ← Tr.index w 15
    let x_117 ← Tr.index w 13
    let x_118 ← Tr.index w 8
    let x_119 ← Tr.index w 0
    let w ← Tr.indexSet w 15 (((x_116 + (Source.Sha512.sigma1 cfg x_117)) + x_118) + (Source.Sha512.sigma0 cfg x_119))
    let x_121 ← Tr.index w 15
    let t1' : BitVec 64 := (((a + (Source.Sha512.Sigma1 cfg f)) + (Source.Sha512.Ch cfg f g h)) + 0x142929670a0e6e70#64) + x_121
    let t2' : BitVec 64 := (Source.Sha512.Sigma0 cfg b) + (Source.Sha512.Maj cfg b c d)
    let e := e + t1'
    let a := t1' + t2'
    pure (w, a, b, c, d, e, f, g, h)

/-- round!(a, b, c, d, e, f, g, h, 0x27b70a8546d22ffc, w[0], w[14], w[9], w[1]) -/
def Engine.process_block_fast.line1_32 (cfg : Cfg) : Source.Sha512.Engine.process_block_fast.State1 → Tr Source.Sha512.Engine.process_block_fast.State1 :=
  fun (w, a, b, c, d, e, f, g, h) => do
    let x_122 ← Tr.index w 0
    let x_123 ← Tr.index w 14
    let x_124 ← Tr.index w 9
    let x_125 ← Tr.index w 1
    let w ← Tr.indexSet w 0 (((x_122 + (Source.Sha512.sigma1 cfg x_123)) + x_124) + (Source.Sha512.sigma0 cfg x_125))
    let x_127 ← Tr.index w 0
    let t1' : BitVec 64 := (((h + (Source.Sha512.Sigma1 cfg e)) + (Source.Sha512.Ch cfg e f g)) + 0x27b70a8546d22ffc#64) + x_127
    let t2' : BitVec 64 := (Source.Sha512.Sigma0 cfg a) + (Source.Sha512.Maj cfg a b c)
    let d := d + t1'
    let h := t1' + t2'
    pure (w, a, b, c, d, e, f, g, h)

/-- round!(h, a, b, c, d, e, f, g, 0x2e1b21385c26c926, w[1], w[15], w[10], w[2]) -/
def Engine.process_block_fast.line1_33 (cfg : Cfg) : Source.Sha512.Engine.process_block_fast.State1 → Tr Source.Sha512.Engine.process_block_fast.State1 :=
  fun (w, a, b, c, d, e, f, g, h) => do
    let x_128 ← Tr.index w 1
    let x_129 ← Tr.index w 15
    let x_130 ← Tr.index w 10
    let x_131 ← Tr.index w 2
    let w ← Tr.indexSet w 1 (((x_128 + (Source.Sha512.sigma1 cfg x_129)) + x_130) + (Source.Sha512.sigma0 cfg x_131))
    let x_133 ← Tr.index w 1
    let t1' : BitVec 64 := (((g + (Source.Sha512.Sigma1 cfg d)) + (Source.Sha512.Ch cfg d e f)) + 0x2e1b21385c26c926#64) + x_133
    let t2' : BitVec 64 := (Source.Sha512.Sigma0 cfg h) + (Source.Sha512.Maj cfg h a b)
    let c := c + t1'
    let g := t1' + t2'
    pure (w, a, b, c, d, e, f, g, h)

/-- round!(g, h, a, b, c, d, e, f, 0x4d2c6dfc5ac42aed, w[2], w[0], w[11], w[3]) -/
def Engine.process_block_fast.line1_34 (cfg : Cfg) : Source.Sha512.Engine.process_block_fast.State1 → Tr Source.Sha512.Engine.process_block_fast.State1 :=
  fun (w, a, b, c, d, e, f, g, h) => do
    let x_134 ← Tr.index w 2
    let x_135 ← Tr.index w 0
    let x_136 ← Tr.index w 11
    let x_137 ← Tr.index w 3
    let w ← Tr.indexSet w 2 (((x_134 + (Source.Sha512.sigma1 cfg x_135)) + x_136) + (Source.Sha512.sigma0 cfg x_137))
    let x_139 ← Tr.index w 2
    let t1' : BitVec 64 := (((f + (Source.Sha512.Sigma1 cfg c)) + (Source.Sha512.Ch cfg c d e)) + 0x4d2c6dfc5ac42aed#64) + x_139
    let t2' : BitVec 64 := (Source.Sha512.Sigma0 cfg g) + (Source.Sha512.Maj cfg g h a)
    let b := b + t1'
    let f := t1' + t2'
    pure (w, a, b, c, d, e, f, g, h)

/-- round!(f, g, h, a, b, c, d, e, 0x53380d139d95b3df, w[3], w[1], w[12], w[4]) -/
def Engine.process_block_fast.line1_35 (cfg : Cfg) : Source.Sha512.Engine.process_block_fast.State1 → Tr Source.Sha512.Engine.process_block_fast.State1 :=
  fun (w, a, b, c, d, e, f, g, h) => do
    let x_140 ← Tr.index w 3
    let x_141 ← Tr.index w 1
    let x_142 ← Tr.index w 12
    let x_143 ← Tr.index w 4
    let w ← Tr.indexSet w 3 (((x_140 + (Source.Sha512.sigma1 cfg x_141)) + x_142) + (Source.Sha512.sigma0 cfg x_143))
    let x_145 ← Tr.index w 3
    let t1' : BitVec 64 := (((e + (Source.Sha512.Sigma1 cfg b)) + (Source.Sha512.Ch cfg b c d)) + 0x53380d139d95b3df#64) + x_145
    let t2' : BitVec 64 := (Source.Sha512.Sigma0 cfg f) + (Source.Sha512.Maj cfg f g h)
    let a := a + t1'
    let e := t1' + t2'
    pure (w, a, b, c, d, e, f, g, h)

/-- round!(e, f, g, h, a, b, c, d, 0x650a73548baf63de, w[4], w[2], w[13], w[5]) -/
def Engine.process_block_fast.line1_36 (cfg : Cfg) : Source.Sha512.Engine.process_block_fast.State1 → Tr Source.Sha512.Engine.process_block_fast.State1 :=
  fun (w, a, b, c, d, e, f, g, h) => do
    let x_146 ← Tr.index w 4
    let x_147 ← Tr.index w 2
    let x_148 ← Tr.index w 13
    let x_149 ← Tr.index w 5
    let w ← Tr.indexSet w 4 (((x_146 + (Source.Sha512.sigma1 cfg x_147)) + x_148) + (Source.Sha512.sigma0 cfg x_149))
    let x_151 ← Tr.index w 4
    let t1' : BitVec 64 := (((d + (Source.Sha512.Sigma1 cfg a)) + (Source.Sha512.Ch cfg a b c)) + 0x650a73548baf63de#64) + x_151
    let t2' : BitVec 64 := (Source.Sha512.Sigma0 cfg e) + (Source.Sha512.Maj cfg e f g)
    let h := h + t1'
    let d := t1' + t2'
    pure (w, a, b, c, d, e, f, g, h)

/-- round!(d, e, f, g, h, a, b, c, 0x766a0abb3c77b2a8, w[5], w[3], w[14], w[6]) -/
def Engine.process_block_fast.line1_37 (cfg : Cfg) : Source.Sha512.Engine.process_block_fast.State1 → Tr Source.Sha512.Engine.process_block_fast.State1 :=
  fun (w, a, b, c, d, e, f, g, h) => do
    let x_152 ← Tr.index w 5
    let x_153 ← Tr.index w 3
    let x_154 ← Tr.index w 14
    let x_155 ← Tr.index w 6
    let w ← Tr.indexSet w 5 (((x_152 + (Source.Sha512.sigma1 cfg x_153)) + x_154) + (Source.Sha512.sigma0 cfg x_155))
    let x_157 ← Tr.index w 5
    let t1' : BitVec 64 := (((c + (Source.Sha512.Sigma1 cfg h)) + (Source.Sha512.Ch cfg h a b)) + 0x766a0abb3c77b2a8#64) + x_157
    let t2' : BitVec 64 := (Source.Sha512.Sigma0 cfg d) + (Source.Sha512.Maj cfg d e f)
    let g := g + t1'
    let c := t1' + t2'
    pure (w, a, b, c, d, e, f, g, h)

/-- round!(c, d, e, f, g, h, a, b, 0x81c2c92e47edaee6, w[6], w[4], w[15], w[7]) -/
def Engine.process_block_fast.line1_38 (cfg : Cfg) : Source.Sha512.Engine.process_block_fast.State1 → Tr Source.Sha512.Engine.process_block_fast.State1 :=
  fun (w, a, b, c, d, e, f, g, h) => do
    let x_158 ← Tr.index w 6
    let x_159 ← Tr.index w 4
    let x_160 ← Tr.index w 15
    let x_161 ← Tr.index w 7
    let w ← Tr.indexSet w 6 (((x_158 + (Source.Sha512.sigma1 cfg x_159)) + x_160) + (Source.Sha512.sigma0 cfg x_161))
    let x_163 ← Tr.index w 6
    let t1' : BitVec 64 := (((b + (Source.Sha512.Sigma1 cfg g)) + (Source.Sha512.Ch cfg g h a)) + 0x81c2c92e47edaee6#64) + x_163
    let t2' : BitVec 64 := (Source.Sha512.Sigma0 cfg c) + (Source.Sha512.Maj cfg c d e)
    let f := f + t1'
    let b := t1' + t2'
    pure (w, a, b, c, d, e, f, g, h)

/-- round!(b, c, d, e, f, g, h, a, 0x92722c851482353b, w[7], w[5], w[0], w[8]) -/
def Engine.process_block_fast.line1_39 (cfg : Cfg) : Source.Sha512.Engine.process_block_fast.State1 → Tr Source.Sha512.Engine.process_block_fast.State1 :=
  fun (w, a, b, c, d, e, f, g, h) => do
    let x_164 ← Tr.index w 7
    let x_165 ← Tr.index w 5
    let x_166 ← Tr.index w 0
    let x_167 ← Tr.index w 8
    let w ← Tr.indexSet w 7 (((x_164 + (Source.Sha512.sigma1 cfg x_165)) + x_166) + (Source.Sha512.sigma0 cfg x_167))
    let x_169 ← Tr.index w 7
    let t1' : BitVec 64 := (((a + (Source.Sha512.Sigma1 cfg f)) + (Source.Sha512.Ch cfg f g h)) + 0x92722c851482353b#64) + x_169
    let t2' : BitVec 64 := (Source.Sha512.Sigma0 cfg b) + (Source.Sha512.Maj cfg b c d)
    let e := e + t1'
    let a := t1' + t2'
    pure (w, a, b, c, d, e, f, g, h)

/-- round!(a, b, c, d, e, f, g, h, 0xa2bfe8a14cf10364, w[8], w[6], w[1], w[9]) -/
def Engine.process_block_fast.line1_40 (cfg : Cfg) : Source.Sha512.Engine.process_block_fast.State1 → Tr Source.Sha512.Engine.process_block_fast.State1 :=
  fun (w, a, b, c, d, e, f, g, h) => do
    let x_170 ← Tr.index w 8
    let x_171 ← Tr.index w 6
    let x_172 ← Tr.index w 1
    let x_173 ← Tr.index w 9
    let w ← Tr.indexSet w 8 (((x_170 + (Source.Sha512.sigma1 cfg x_171)) + x_172) + (Source.Sha512.sigma0 cfg x_173))
    let x_175 ← Tr.index w 8
    let t1' : BitVec 64 := (((h + (Source.Sha512.Sigma1 cfg e)) + (Source.Sha512.Ch cfg e f g)) + 0xa2bfe8a14cf10364#64) + x_175
    let t2' : BitVec 64 := (Source.Sha512.Sigma0 cfg a) + (Source.Sha512.Maj cfg a b c)
    let d := d + t1'
    let h := t1' + t2'
    pure (w, a, b, c, d, e, f, g, h)

/-- round!(h, a, b, c, d, e, f, g, 0xa81a664bbc423001, w[9], w[7], w[2], w[10]) -/
def Engine.process_block_fast.line1_41 (cfg : Cfg) : Source.Sha512.Engine.process_block_fast.State1 → Tr Source.Sha512.Engine.process_block_fast.State1 :=
  fun (w, a, b, c, d, e, f, g, h) => do
    let x_176 ← Tr.index w 9
    let x_177 ← Tr.index w 7
    let x_178 ← Tr.index w 2
    let x_179 ← Tr.index w 10
    let w ← Tr.indexSet w 9 (((x_176 + (Source.Sha512.sigma1 cfg x_177)) + x_178) + (Source.Sha512.sigma0 cfg x_179))
    let x_181 ← Tr.index w 9
    let t1' : BitVec 64 := (((g + (Source.Sha512.Sigma1 cfg d)) + (Source.Sha512.Ch cfg d e f)) + 0xa81a664bbc423001#64) + x_181
    let t2' : BitVec 64 := (Source.Sha512.Sigma0 cfg h) + (Source.Sha512.Maj cfg h a b)
    let c := c + t1'
    let g := t1' + t2'
    pure (w, a, b, c, d, e, f, g, h)

/-- round!(g, h, a, b, c, d, e, f, 0xc24b8b70d0f89791, w[10], w[8], w[3], w[11]) -/
def Engine.process_block_fast.line1_42 (cfg : Cfg) : Source.Sha512.Engine.process_block_fast.State1 → Tr Source.Sha512.Engine.process_block_fast.State1 :=
  fun (w, a, b, c, d, e, f, g, h) => do
    let x_182 ← Tr.index w 10
    let x_183 ← Tr.index w 8
    let x_184 ← Tr.index w 3
    let x_185 ← Tr.index w 11
    let w ← Tr.indexSet w 10 (((x_182 + (Source.Sha512.sigma1 cfg x_183)) + x_184) + (Source.Sha512.sigma0 cfg x_185))
    let x_187 ← Tr.index w 10
    let t1' : BitVec 64 := (((f + (Source.Sha512.Sigma1 cfg c)) + (Source.Sha512.Ch cfg c d e)) + 0xc24b8b70d0f89791#64) + x_187
    let t2' : BitVec 64 := (Source.Sha512.Sigma0 cfg g) + (Source.Sha512.Maj cfg g h a)
    let b := b + t1'
    let f := t1' + t2'
    pure (w, a, b, c, d, e, f, g, h)

/-- round!(f, g, h, a, b, c, d, e, 0xc76c51a30654be30, w[11], w[9], w[4], w[12]) -/
def Engine.process_block_fast.line1_43 (cfg : Cfg) : Source.Sha512.Engine.process_block_fast.State1 → Tr Source.Sha512.Engine.process_block_fast.State1 :=
  fun (w, a, b, c, d, e, f, g, h) => do
    let x_188 ← Tr.index w 11
    let x_189 ← Tr.index w 9
    let x_190 ← Tr.index w 4
    let x_191 ← Tr.index w 12
    let w ← Tr.indexSet w 11 (((x_188 + (Source.Sha512.sigma1 cfg x_189)) + x_190) + (Source.Sha512.sigma0 cfg x_191))
    let x_193 ← Tr.index w 11
    let t1' : BitVec 64 := (((e + (Source.Sha512.Sigma1 cfg b)) + (Source.Sha512.Ch cfg b c d)) + 0xc76c51a30654be30#64) + x_193
    let t2' : BitVec 64 := (Source.Sha512.Sigma0 cfg f) + (Source.Sha512.Maj cfg f g h)
    let a := a + t1'
    let e := t1' + t2'
    pure (w, a, b, c, d, e, f, g, h)

/-- round!(e, f, g, h, a, b, c, d, 0xd192e819d6ef5218, w[12], w[10], w[5], w[13]) -/
def Engine.process_block_fast.line1_44 (cfg : Cfg) : Source.Sha512.Engine.process_block_fast.State1 → Tr Source.Sha512.Engine.process_block_fast.State1 :=
  fun (w, a, b, c, d, e, f, g, h) => do
    let x_194 ← Tr.index w 12
    let x_195 ← Tr.index w 10
    let x_196 ← Tr.index w 5
    let x_197 ← Tr.index w 13
    let w ← Tr.indexSet w 12 (((x_194 + (Source.Sha512.sigma1 cfg x_195)) + x_196) + (Source.Sha512.sigma0 cfg x_197))
    let x_199 ← Tr.index w 12
    let t1' : BitVec 64 := (((d + (Source.Sha512.Sigma1 cfg a)) + (Source.Sha512.Ch cfg a b c)) + 0xd192e819d6ef5218#64) + x_199
    let t2' : BitVec 64 := (Source.Sha512.Sigma0 cfg e) + (Source.Sha512.Maj cfg e f g)
    let h := h + t1'
    let d := t1' + t2'
    pure (w, a, b, c, d, e, f, g, h)

/-- round!(d, e, f, g, h, a, b, c, 0xd69906245565a910, w[13], w[11], w[6], w[14]) -/
def Engine.process_block_fast.line1_45 (cfg : Cfg) : Source.Sha512.Engine.process_block_fast.State1 → Tr Source.Sha512.Engine.process_block_fast.State1 :=
  fun (w, a, b, c, d, e, f, g, h) => do
    let x_200 ← Tr.index w 13
    let x_201 ← Tr.index w 11
    let x_202 ← Tr.index w 6
    let x_203 ← Tr.index w 14
    let w ← Tr.indexSet w 13 (((x_200 + (Source.Sha512.sigma1 cfg x_201)) + x_202) + (Source.Sha512.sigma0 cfg x_203))
    let x_205 ← Tr.index w 13
    let t1' : BitVec 64 := (((c + (Source.Sha512.Sigma1 cfg h)) + (Source.Sha512.Ch cfg h a b)) + 0xd69906245565a910#64) + x_205
    let t2' : BitVec 64 := (Source.Sha512.Sigma0 cfg d) + (Source.Sha512.Maj cfg d e f)
    let g := g + t1'
    let c := t1' + t2'
    pure (w, a, b, c, d, e, f, g, h)

/-- round!(c, d, e, f, g, h, a, b, 0xf40e35855771202a, w[14], w[12], w[7], w[15]) -/
def Engine.process_block_fast.line1_46 (cfg : Cfg) : Source.Sha512.Engine.process_block_fast.State1 → Tr Source.Sha512.Engine.process_block_fast.State1 :=
  fun (w, a, b, c, d, e, f, g, h) => do
    let x_206 ← Tr.index w 14
    let x_207 ← Tr.index w 12
    let x_208 ← Tr.index w 7
    let x_209 ← Tr.index w 15
    let w ← Tr.indexSet w 14 (((x_206 + (Source.Sha512.sigma1 cfg x_207)) + x_208) + (Source.Sha512.sigma0 cfg x_209))
    let x_211 ← Tr.index w 14
    let t1' : BitVec 64 := (((b + (Source.Sha512.Sigma1 cfg g)) + (Source.Sha512.Ch cfg g h a)) + 0xf40e35855771202a#64) + x_211
    let t2' : BitVec 64 := (Source.Sha512.Sigma0 cfg c) + (Source.Sha512.Maj cfg c d e)
    let f := f + t1'
    let b := t1' + t2'
    pure (w, a, b, c, d, e, f, g, h)

/-- round!(b, c, d, e, f, g, h, a, 0x106aa07032bbd1b8, w[15], w[13], w[8], w[0]) -/
def Engine.process_block_fast.line1_47 (cfg : Cfg) : Source.Sha512.Engine.process_block_fast.State1 → Tr Source.Sha512.Engine.process_block_fast.State1 :=
  fun (w, a, b, c, d, e, f, g, h) => do
    let x_212 ← Tr.index w 15
    let x_213 ← Tr.index w 13
    let x_214 ← Tr.index w 8
    let x_215 ← Tr.index w 0
    let w ← Tr.indexSet w 15 (((x_212 + (Source.Sha512.sigma1 cfg x_213)) + x_214) + (Source.Sha512.sigma0 cfg x_215))
    let x_217 ← Tr.index w 15
    let t1' : BitVec 64 := (((a + (Source.Sha512.Sigma1 cfg f)) + (Source.Sha512.Ch cfg f g h)) + 0x106aa07032bbd1b8#64) + x_217
    let t2' : BitVec 64 := (Source.Sha512.Sigma0 cfg b) + (Source.Sha512.Maj cfg b c d)
    let e := e + t1'
    let a := t1' + t2'
    pure (w, a, b, c, d, e, f, g, h)

/-- round!(a, b, c, d, e, f, g, h, 0x19a4c116b8d2d0c8, w[0], w[14], w[9], w[1]) -/
def Engine.process_block_fast.line1_48 (cfg : Cfg) : Source.Sha512.Engine.process_block_fast.State1 → Tr Source.Sha512.Engine.process_block_fast.State1 :=
  fun (w, a, b, c, d, e, f, g, h) => do
    let x_218 ← Tr.index w 0
    let x_219 ← Tr.index w 14
    let x_220 ← Tr.index w 9
    let x_221 ← Tr.index w 1
    let w ← Tr.indexSet w 0 (((x_218 + (Source.Sha512.sigma1 cfg x_219)) + x_220) + (Source.Sha512.sigma0 cfg x_221))
    let x_223 ← Tr.index w 0
    let t1' : BitVec 64 := (((h + (Source.Sha512.Sigma1 cfg e)) + (Source.Sha512.Ch cfg e f g)) + 0x19a4c116b8d2d0c8#64) + x_223
    let t2' : BitVec 64 := (Source.Sha512.Sigma0 cfg a) + (Source.Sha512.Maj cfg a b c)
    let d := d + t1'
    let h := t1' + t2'
    pure (w, a, b, c, d, e, f, g, h)

/-- round!(h, a, b, c, d, e, f, g, 0x1e376c085141ab53, w[1], w[15], w[10], w[2]) -/
def Engine.process_block_fast.line1_49 (cfg : Cfg) : Source.Sha512.Engine.process_block_fast.State1 → Tr Source.Sha512.Engine.process_block_fast.State1 :=
  fun (w, a, b, c, d, e, f, g, h) => do
    let x_224 ← Tr.index w 1
    let x_225 ← Tr.index w 15
    let x_226 ← Tr.index w 10
    let x_227 ← Tr.index w 2
    let w ← Tr.indexSet w 1 (((x_224 + (Source.Sha512.sigma1 cfg x_225)) + x_226) + (Source.Sha512.sigma0 cfg x_227))
    let x_229 ← Tr.index w 1
    let t1' : BitVec 64 := (((g + (Source.Sha512.Sigma1 cfg d)) + (Source.Sha512.Ch cfg d e f)) + 0x1e376c085141ab53#64) + x_229
    let t2' : BitVec 64 := (Source.Sha512.Sigma0 cfg h) + (Source.Sha512.Maj cfg h a b)
    let c := c + t1'
    let g := t1' + t2'
    pure (w, a, b, c, d, e, f, g, h)

/-- round!(g, h, a, b, c, d, e, f, 0x2748774cdf8eeb99, w[2], w[0], w[11], w[3]) -/
def Engine.process_block_fast.line1_50 (cfg : Cfg) : Source.Sha512.Engine.process_block_fast.State1 → Tr Source.Sha512.Engine.process_block_fast.State1 :=
  fun (w, a, b, c, d, e, f, g, h) => do
    let x_230 ← Tr.index w 2
    let x_231 ← Tr.index w 0
    let x_232 ← Tr.index w 11
    let x_233 ← Tr.index w 3
    let w ← Tr.indexSet w 2 (((x_230 + (Source.Sha512.sigma1 cfg x_231)) + x_232) + (Source.Sha512.sigma0 cfg x_233))
    let x_235 ← Tr.index w 2
    let t1' : BitVec 64 := (((f + (Source.Sha512.Sigma1 cfg c)) + (Source.Sha512.Ch cfg c d e)) + 0x2748774cdf8eeb99#64) + x_235
    let t2' : BitVec 64 := (Source.Sha512.Sigma0 cfg g) + (Source.Sha512.Maj cfg g h a)
    let b := b + t1'
    let f := t1' + t2'
    pure (w, a, b, c, d, e, f, g, h)

/-- round!(f, g, h, a, b, c, d, e, 0x34b0bcb5e19b48a8, w[3], w[1], w[12], w[4]) -/
def Engine.process_block_fast.line1_51 (cfg : Cfg) : Source.Sha512.Engine.process_block_fast.State1 → Tr Source.Sha512.Engine.process_block_fast.State1 :=
  fun (w, a, b, c, d, e, f, g, h) => do
    let x_236 ← Tr.index w 3
    let x_237 ← Tr.index w 1
    let x_238 ← Tr.index w 12
    let x_239 ← Tr.index w 4
    let w ← Tr.indexSet w 3 (((x_236 + (Source.Sha512.sigma1 cfg x_237)) + x_238) + (Source.Sha512.sigma0 cfg x_239))
    let x_241 ← Tr.index w 3
    let t1' : BitVec 64 := (((e + (Source.Sha512.Sigma1 cfg b)) + (Source.Sha512.Ch cfg b c d)) + 0x34b0bcb5e19b48a8#64) + x_241
    let t2' : BitVec 64 := (Source.Sha512.Sigma0 cfg f) + (Source.Sha512.Maj cfg f g h)
    let a := a + t1'
    let e := t1' + t2'
    pure (w, a, b, c, d, e, f, g, h)

/-- round!(e, f, g, h, a, b, c, d, 0x391c0cb3c5c95a63, w[4], w[2], w[13], w[5]) -/
def Engine.process_block_fast.line1_52 (cfg : Cfg) : Source.Sha512.Engine.process_block_fast.State1 → Tr Source.Sha512.Engine.process_block_fast.State1 :=
  fun (w, a, b, c, d, e, f, g, h) => do
    let x_242 ← Tr.index w 4
    let x_243 ← Tr.index w 2
    let x_244 ← Tr.index w 13
    let x_245 ← Tr.index w 5
    let w ← Tr.indexSet w 4 (((x_242 + (Source.Sha512.sigma1 cfg x_243)) + x_244) + (Source.Sha512.sigma0 cfg x_245))
    let x_247 ← Tr.index w 4
    let t1' : BitVec 64 := (((d + (Source.Sha512.Sigma1 cfg a)) + (Source.Sha512.Ch cfg a b c)) + 0x391c0cb3c5c95a63#64) + x_247
    let t2' : BitVec 64 := (Source.Sha512.Sigma0 cfg e) + (Source.Sha512.Maj cfg e f g)
    let h := h + t1'
    let d := t1' + t2'
    pure (w, a, b, c, d, e, f, g, h)

/-- round!(d, e, f, g, h, a, b, c, 0x4ed8aa4ae3418acb, w[5], w[3], w[14], w[6]) -/
def Engine.process_block_fast.line1_53 (cfg : Cfg) : Source.Sha512.Engine.process_block_fast.State1 → Tr Source.Sha512.Engine.process_block_fast.State1 :=
  fun (w, a, b, c, d, e, f, g, h) => do
    let x_248 ← Tr.index w 5
    let x_249 ← Tr.index w 3
    let x_250 ← Tr.index w 14
    let x_251 ← Tr.index w 6
    let w ← Tr.indexSet w 5 (((x_248 + (Source.Sha512.sigma1 cfg x_249)) + x_250) + (Source.Sha512.sigma0 cfg x_251))
    let x_253 ← Tr.index w 5
    let t1' : BitVec 64 := (((c + (Source.Sha512.Sigma1 cfg h)) + (Source.Sha512.Ch cfg h a b)) + 0x4ed8aa4ae3418acb#64) + x_253
    let t2' : BitVec 64 := (Source.Sha512.Sigma0 cfg d) + (Source.Sha512.Maj cfg d e f)
    let g := g + t1'
    let c := t1' + t2'
    pure (w, a, b, c, d, e, f, g, h)

/-- round!(c, d, e, f, g, h, a, b, 0x5b9cca4f7763e373, w[6], w[4], w[15], w[7]) -/
def Engine.process_block_fast.line1_54 (cfg : Cfg) : Source.Sha512.Engine.process_block_fast.State1 → Tr Source.Sha512.Engine.process_block_fast.State1 :=
  fun (w, a, b, c, d, e, f, g, h) => do
    let x_254 ← Tr.index w 6
    let x_255 ← Tr.index w 4
    let x_256 ← Tr.index w 15
    let x_257 ← Tr.index w 7
    let w ← Tr.indexSet w 6 (((x_254 + (Source.Sha512.sigma1 cfg x_255)) + x_256) + (Source.Sha512.sigma0 cfg x_257))
    let x_259 ← Tr.index w 6
    let t1' : BitVec 64 := (((b + (Source.Sha512.Sigma1 cfg g)) + (Source.Sha512.Ch cfg g h a)) + 0x5b9cca4f7763e373#64) + x_259
    let t2' : BitVec 64 := (Source.Sha512.Sigma0 cfg c) + (Source.Sha512.Maj cfg c d e)
    let f := f + t1'
    let b := t1' + t2'
    pure (w, a, b, c, d, e, f, g, h)

/-- round!(b, c, d, e, f, g, h, a, 0x682e6ff3d6b2b8a3, w[7], w[5], w[0], w[8]) -/
def Engine.process_block_fast.line1_55 (cfg : Cfg) : Source.Sha512.Engine.process_block_fast.State1 → Tr Source.Sha512.Engine.process_block_fast.State1 :=
  fun (w, a, b, c, d, e, f, g, h) => do
    let x_260 ← Tr.index w 7
    let x_261 ← Tr.index w 5
    let x_262 ← Tr.index w 0
    let x_263 ← Tr.index w 8
    let w ← Tr.indexSet w 7 (((x_260 + (Source.Sha512.sigma1 cfg x_261)) + x_262) + (Source.Sha512.sigma0 cfg x_263))
    let x_265 ← Tr.index w 7
    let t1' : BitVec 64 := (((a + (Source.Sha512.Sigma1 cfg f)) + (Source.Sha512.Ch cfg f g h)) + 0x682e6ff3d6b2b8a3#64) + x_265
    let t2' : BitVec 64 := (Source.Sha512.Sigma0 cfg b) + (Source.Sha512.Maj cfg b c d)
    let e := e + t1'
    let a := t1' + t2'
    pure (w, a, b, c, d, e, f, g, h)

/-- round!(a, b, c, d, e, f, g, h, 0x748f82ee5defb2fc, w[8], w[6], w[1], w[9]) -/
def Engine.process_block_fast.line1_56 (cfg : Cfg) : Source.Sha512.Engine.process_block_fast.State1 → Tr Source.Sha512.Engine.process_block_fast.State1 :=
  fun (w, a, b, c, d, e, f, g, h) => do
    let x_266 ← Tr.index w 8
    let x_267 ← Tr.index w 6
    let x_268 ← Tr.index w 1
    let x_269 ← Tr.index w 9
    let w ← Tr.indexSet w 8 (((x_266 + (Source.Sha512.sigma1 cfg x_267)) + x_268) + (Source.Sha512.sigma0 cfg x_269))
    let x_271 ← Tr.index w 8
    let t1' : BitVec 64 := (((h + (Source.Sha512.Sigma1 cfg e)) + (Source.Sha512.Ch cfg e f g)) + 0x748f82ee5defb2fc#64) + x_271
    let t2' : BitVec 64 := (Source.Sha512.Sigma0 cfg a) + (Source.Sha512.Maj cfg a b c)
    let d := d + t1'
    let h := t1' + t2'
    pure (w, a, b, c, d, e, f, g, h)

/-- round!(h, a, b, c, d, e, f, g, 0x78a5636f43172f60, w[9], w[7], w[2], w[10]) -/
def Engine.process_block_fast.line1_57 (cfg : Cfg) : Source.Sha512.Engine.process_block_fast.State1 → Tr Source.Sha512.Engine.process_block_fast.State1 :=
  fun (w, a, b, c, d, e, f, g, h) => do
    let x_272 ← Tr.index w 9
    let x_273 ← Tr.index w 7
    let x_274 ← Tr.index w 2
    let x_275 ← Tr.index w 10
    let w ← Tr.indexSet w 9 (((x_272 + (Source.Sha512.sigma1 cfg x_273)) + x_274) + (Source.Sha512.sigma0 cfg x_275))
    let x_277 ← Tr.index w 9
    let t1' : BitVec 64 := (((g + (Source.Sha512.Sigma1 cfg d)) + (Source.Sha512.Ch cfg d e f)) + 0x78a5636f43172f60#64) + x_277
    let t2' : BitVec 64 := (Source.Sha512.Sigma0 cfg h) + (Source.Sha512.Maj cfg h a b)
    let c := c + t1'
    let g := t1' + t2'
    pure (w, a, b, c, d, e, f, g, h)

/-- round!(g, h, a, b, c, d, e, f, 0x84c87814a1f0ab72, w[10], w[8], w[3], w[11]) -/
def Engine.process_block_fast.line1_58 (cfg : Cfg) : Source.Sha512.Engine.process_block_fast.State1 → Tr Source.Sha512.Engine.process_block_fast.State1 :=
  fun (w, a, b, c, d, e, f, g, h) => do
    let x_278 ← Tr.index w 10
    let x_279 ← Tr.index w 8
    let x_280 ← Tr.index w 3
    let x_281 ← Tr.index w 11
    let w ← Tr.indexSet w 10 (((x_278 + (Source.Sha512.sigma1 cfg x_279)) + x_280) + (Source.Sha512.sigma0 cfg x_281))
    let x_283 ← Tr.index w 10
    let t1' : BitVec 64 := (((f + (Source.Sha512.Sigma1 cfg c)) + (Source.Sha512.Ch cfg c d e)) + 0x84c87814a1f0ab72#64) + x_283
    let t2' : BitVec 64 := (Source.Sha512.Sigma0 cfg g) + (Source.Sha512.Maj cfg g h a)
    let b := b + t1'
    let f := t1' + t2'
    pure (w, a, b, c, d, e, f, g, h)

/-- round!(f, g, h, a, b, c, d, e, 0x8cc702081a6439ec, w[11], w[9], w[4], w[12]) -/
def Engine.process_block_fast.line1_59 (cfg : Cfg) : Source.Sha512.Engine.process_block_fast.State1 → Tr Source.Sha512.Engine.process_block_fast.State1 :=
  fun (w, a, b, c, d, e, f, g, h) => do
    let x_284 ← Tr.index w 11
    let x_285 ← Tr.index w 9
    let x_286 ← Tr.index w 4
    let x_287 ← Tr.index w 12
    let w ← Tr.indexSet w 11 (((x_284 + (Source.Sha512.sigma1 cfg x_285)) + x_286) + (Source.Sha512.sigma0 cfg x_287))
    let x_289 ← Tr.index w 11
    let t1' : BitVec 64 := (((e + (Source.Sha512.Sigma1 cfg b)) + (Source.Sha512.Ch cfg b c d)) + 0x8cc702081a6439ec#64) + x_289
    let t2' : BitVec 64 := (Source.Sha512.Sigma0 cfg f) + (Source.Sha512.Maj cfg f g h)
    let a := a + t1'
    let e := t1' + t2'
    pure (w, a, b, c, d, e, f, g, h)

/-- round!(e, f, g, h, a, b, c, d, 0x90befffa23631e28, w[12], w[10], w[5], w[13]) -/
def Engine.process_block_fast.line1_60 (cfg : Cfg) : Source.Sha512.Engine.process_block_fast.State1 → Tr Source.Sha512.Engine.process_block_fast.State1 :=
  fun (w, a, b, c, d, e, f, g, h) => do
    let x_290 ← Tr.index w 12
    let x_291 ← Tr.index w 10
    let x_292 ← Tr.index w 5
    let x_293 ← Tr.index w 13
    let w ← Tr.indexSet w 12 (((x_290 + (Source.Sha512.sigma1 cfg x_291)) + x_292) + (Source.Sha512.sigma0 cfg x_293))
    let x_295 ← Tr.index w 12
    let t1' : BitVec 64 := (((d + (Source.Sha512.Sigma1 cfg a)) + (Source.Sha512.Ch cfg a b c)) + 0x90befffa23631e28#64) + x_295
    let t2' : BitVec 64 := (Source.Sha512.Sigma0 cfg e) + (Source.Sha512.Maj cfg e f g)
    let h := h + t1'
    let d := t1' + t2'
    pure (w, a, b, c, d, e, f, g, h)

/-- round!(d, e, f, g, h, a, b, c, 0xa4506cebde82bde9, w[13], w[11], w[6], w[14]) -/
def Engine.process_block_fast.line1_61 (cfg : Cfg) : Source.Sha512.Engine.process_block_fast.State1 → Tr Source.Sha512.Engine.process_block_fast.State1 :=
  fun (w, a, b, c, d, e, f, g, h) => do
    let x_296 ← Tr.index w 13
    let x_297 ← Tr.index w 11
    let x_298 ← Tr.index w 6
    let x_299 ← Tr.index w 14
    let w ← Tr.indexSet w 13 (((x_296 + (Source.Sha512.sigma1 cfg x_297)) + x_298) + (Source.Sha512.sigma0 cfg x_299))
    let x_301 ← Tr.index w 13
    let t1' : BitVec 64 := (((c + (Source.Sha512.Sigma1 cfg h)) + (Source.Sha512.Ch cfg h a b)) + 0xa4506cebde82bde9#64) + x_301
    let t2' : BitVec 64 := (Source.Sha512.Sigma0 cfg d) + (Source.Sha512.Maj cfg d e f)
    let g := g + t1'
    let c := t1' + t2'
    pure (w, a, b, c, d, e, f, g, h)

/-- round!(c, d, e, f, g, h, a, b, 0xbef9a3f7b2c67915, w[14], w[12], w[7], w[15]) -/
def Engine.process_block_fast.line1_62 (cfg : Cfg) : Source.Sha512.Engine.process_block_fast.State1 → Tr Source.Sha512.Engine.process_block_fast.State1 :=
  fun (w, a, b, c, d, e, f, g, h) => do
    let x_302 ← Tr.index w 14
    let x_303 ← Tr.index w 12
    let x_304 ← Tr.index w 7
    let x_305 ← Tr.index w 15
    let w ← Tr.indexSet w 14 (((x_302 + (Source.Sha512.sigma1 cfg x_303)) + x_304) + (Source.Sha512.sigma0 cfg x_305))
    let x_307 ← Tr.index w 14
    let t1' : BitVec 64 := (((b + (Source.Sha512.Sigma1 cfg g)) + (Source.Sha512.Ch cfg g h a)) + 0xbef9a3f7b2c67915#64) + x_307
    let t2' : BitVec 64 := (Source.Sha512.Sigma0 cfg c) + (Source.Sha512.Maj cfg c d e)
    let f := f + t1'
    let b := t1' + t2'
    pure (w, a, b, c, d, e, f, g, h)

/-- round!(b, c, d, e, f, g, h, a, 0xc67178f2e372532b, w[15], w[13], w[8], w[0]) -/
def Engine.process_block_fast.line1_63 (cfg : Cfg) : Source.Sha512.Engine.process_block_fast.State1 → Tr Source.Sha512.Engine.process_block_fast.State1 :=
  fun (w, a, b, c, d, e, f, g, h) => do
    let x_308 ← Tr.index w 15
    let x_309 ← Tr.index w 13
    let x_310 ← Tr.index w 8
    let x_311 ← Tr.index w 0
    let w ← Tr.indexSet w 15 (((x_308 + (Source.Sha512.sigma1 cfg x_309)) + x_310) + (Source.Sha512.sigma0 cfg x_311))
    let x_313 ← Tr.index w 15
    let t1' : BitVec 64 := (((a + (Source.Sha512.Sigma1 cfg f)) + (Source.Sha512.Ch cfg f g h)) + 0xc67178f2e372532b#64) + x_313
    let t2' : BitVec 64 := (Source.Sha512.Sigma0 cfg b) + (Source.Sha512.Maj cfg b c d)
    let e := e + t1'
    let a := t1' + t2'
    pure (w, a, b, c, d, e, f, g, h)

/-- round!(a, b, c, d, e, f, g, h, 0xca273eceea26619c, w[0], w[14], w[9], w[1]) -/
def Engine.process_block_fast.line1_64 (cfg : Cfg) : Source.Sha512.Engine.process_block_fast.State1 → Tr Source.Sha512.Engine.process_block_fast.State1 :=
  fun (w, a, b, c, d, e, f, g, h) => do
    let x_314 ← Tr.index w 0
    let x_315 ← Tr.index w 14
    let x_316 ← Tr.index w 9
    let x_317 ← Tr.index w 1
    let w ← Tr.indexSet w 0 (((x_314 + (Source.Sha512.sigma1 cfg x_315)) + x_316) + (Source.Sha512.sigma0 cfg x_317))
    let x_319 ← Tr.index w 0
    let t1' : BitVec 64 := (((h + (Source.Sha512.Sigma1 cfg e)) + (Source.Sha512.Ch cfg e f g)) + 0xca273eceea26619c#64) + x_319
    let t2' : BitVec 64 := (Source.Sha512.Sigma0 cfg a) + (Source.Sha512.Maj cfg a b c)
    let d := d + t1'
    let h := t1' + t2'
    pure (w, a, b, c, d, e, f, g, h)

/-- round!(h, a, b, c, d, e, f, g, 0xd186b8c721c0c207, w[1], w[15], w[10], w[2]) -/
def Engine.process_block_fast.line1_65 (cfg : Cfg) : Source.Sha512.Engine.process_block_fast.State1 → Tr Source.Sha512.Engine.process_block_fast.State1 :=
  fun (w, a, b, c, d, e, f, g, h) => do
    let x_320 ← Tr.index w 1
    let x_321 ← Tr.index w 15
    let x_322 ← Tr.index w 10
    let x_323 ← Tr.index w 2
    let w ← Tr.indexSet w 1 (((x_320 + (Source.Sha512.sigma1 cfg x_321)) + x_322) + (Source.Sha512.sigma0 cfg x_323))
    let x_325 ← Tr.index w 1
    let t1' : BitVec 64 := (((g + (Source.Sha512.Sigma1 cfg d)) + (Source.Sha512.Ch cfg d e f)) + 0xd186b8c721c0c207#64) + x_325
    let t2' : BitVec 64 := (Source.Sha512.Sigma0 cfg h) + (Source.Sha512.Maj cfg h a b)
    let c := c + t1'
    let g := t1' + t2'
    pure (w, a, b, c, d, e, f, g, h)

/-- round!(g, h, a, b, c, d, e, f, 0xeada7dd6cde0eb1e, w[2], w[0], w[11], w[3]) -/
def Engine.process_block_fast.line1_66 (cfg : Cfg) : Source.Sha512.Engine.process_block_fast.State1 → Tr Source.Sha512.Engine.process_block_fast.State1 :=
  fun (w, a, b, c, d, e, f, g, h) => do
    let x_326 ← Tr.index w 2
    let x_327 ← Tr.index w 0
    let x_328 ← Tr.index w 11
    let x_329 ← Tr.index w 3
    let w ← Tr.indexSet w 2 (((x_326 + (Source.Sha512.sigma1 cfg x_327)) + x_328) + (Source.Sha512.sigma0 cfg x_329))
    let x_331 ← Tr.index w 2
    let t1' : BitVec 64 := (((f + (Source.Sha512.Sigma1 cfg c)) + (Source.Sha512.Ch cfg c d e)) + 0xeada7dd6cde0eb1e#64) + x_331
    let t2' : BitVec 64 := (Source.Sha512.Sigma0 cfg g) + (Source.Sha512.Maj cfg g h a)
    let b := b + t1'
    let f := t1' + t2'
    pure (w, a, b, c, d, e, f, g, h)

/-- round!(f, g, h, a, b, c, d, e, 0xf57d4f7fee6ed178, w[3], w[1], w[12], w[4]) -/
def Engine.process_block_fast.line1_67 (cfg : Cfg) : Source.Sha512.Engine.process_block_fast.State1 → Tr Source.Sha512.Engine.process_block_fast.State1 :=
  fun (w, a, b, c, d, e, f, g, h) => do
    let x_332 ← Tr.index w 3
    let x_333 ← Tr.index w 1
    let x_334 ← Tr.index w 12
    let x_335 ← Tr.index w 4
    let w ← Tr.indexSet w 3 (((x_332 + (Source.Sha512.sigma1 cfg x_333)) + x_334) + (Source.Sha512.sigma0 cfg x_335))
    let x_337 ← Tr.index w 3
    let t1' : BitVec 64 := (((e + (Source.Sha512.Sigma1 cfg b)) + (Source.Sha512.Ch cfg b c d)) + 0xf57d4f7fee6ed178#64) + x_337
    let t2' : BitVec 64 := (Source.Sha512.Sigma0 cfg f) + (Source.Sha512.Maj cfg f g h)
    let a := a + t1'
    let e := t1' + t2'
    pure (w, a, b, c, d, e, f, g, h)

/-- round!(e, f, g, h, a, b, c, d, 0x06f067aa72176fba, w[4], w[2], w[13], w[5]) -/
def Engine.process_block_fast.line1_68 (cfg : Cfg) : Source.Sha512.Engine.process_block_fast.State1 → Tr Source.Sha512.Engine.process_block_fast.State1 :=
  fun (w, a, b, c, d, e, f, g, h) => do
    let x_338 ← Tr.index w 4
    let x_339 ← Tr.index w 2
    let x_340 ← Tr.index w 13
    let x_341 ← Tr.index w 5
    let w ← Tr.indexSet w 4 (((x_338 + (Source.Sha512.sigma1 cfg x_339)) + x_340) + (Source.Sha512.sigma0 cfg x_341))
    let x_343 ← Tr.index w 4
    let t1' : BitVec 64 := (((d + (Source.Sha512.Sigma1 cfg a)) + (Source.Sha512.Ch cfg a b c)) + 0x06f067aa72176fba#64) + x_343
    let t2' : BitVec 64 := (Source.Sha512.Sigma0 cfg e) + (Source.Sha512.Maj cfg e f g)
    let h := h + t1'
    let d := t1' + t2'
    pure (w, a, b, c, d, e, f, g, h)

/-- round!(d, e, f, g, h, a, b, c, 0x0a637dc5a2c898a6, w[5], w[3], w[14], w[6]) -/
def Engine.process_block_fast.line1_69 (cfg : Cfg) : Source.Sha512.Engine.process_block_fast.State1 → Tr Source.Sha512.Engine.process_block_fast.State1 :=
  fun (w, a, b, c, d, e, f, g, h) => do
    let x_344 ← Tr.index w 5
    let x_345 ← Tr.index w 3
    let x_346 ← Tr.index w 14
    let x_347 ← Tr.index w 6
    let w ← Tr.indexSet w 5 (((x_344 + (Source.Sha512.sigma1 cfg x_345)) + x_346) + (Source.Sha512.sigma0 cfg x_347))
    let x_349 ← Tr.index w 5
    let t1' : BitVec 64 := (((c + (Source.Sha512.Sigma1 cfg h)) + (Source.Sha512.Ch cfg h a b)) + 0x0a637dc5a2c898a6#64) + x_349
    let t2' : BitVec 64 := (Source.Sha512.Sigma0 cfg d) + (Source.Sha512.Maj cfg d e f)
    let g := g + t1'
    let c := t1' + t2'
    pure (w, a, b, c, d, e, f, g, h)

/-- round!(c, d, e, f, g, h, a, b, 0x113f9804bef90dae, w[6], w[4], w[15], w[7]) -/
def Engine.process_block_fast.line1_70 (cfg : Cfg) : Source.Sha512.Engine.process_block_fast.State1 → Tr Source.Sha512.Engine.process_block_fast.State1 :=
  fun (w, a, b, c, d, e, f, g, h) => do
    let x_350 ← Tr.index w 6
    let x_351 ← Tr.index w 4
    let x_352 ← Tr.index w 15
    let x_353 ← Tr.index w 7
    let w ← Tr.indexSet w 6 (((x_350 + (Source.Sha512.sigma1 cfg x_351)) + x_352) + (Source.Sha512.sigma0 cfg x_353))
    let x_355 ← Tr.index w 6
    let t1' : BitVec 64 := (((b + (Source.Sha512.Sigma1 cfg g)) + (Source.Sha512.Ch cfg g h a)) + 0x113f9804bef90dae#64) + x_355
    let t2' : BitVec 64 := (Source.Sha512.Sigma0 cfg c) + (Source.Sha512.Maj cfg c d e)
    let f := f + t1'
    let b := t1' + t2'
    pure (w, a, b, c, d, e, f, g, h)

/-- round!(b, c, d, e, f, g, h, a, 0x1b710b35131c471b, w[7], w[5], w[0], w[8]) -/
def Engine.process_block_fast.line1_71 (cfg : Cfg) : Source.Sha512.Engine.process_block_fast.State1 → Tr Source.Sha512.Engine.process_block_fast.State1 :=
  fun (w, a, b, c, d, e, f, g, h) => do
    let x_356 ← Tr.index w 7
    let x_357 ← Tr.index w 5
    let x_358 ← Tr.index w 0
    let x_359 ← Tr.index w 8
    let w ← Tr.indexSet w 7 (((x_356 + (Source.Sha512.sigma1 cfg x_357)) + x_358) + (Source.Sha512.sigma0 cfg x_359))
    let x_361 ← Tr.index w 7
    let t1' : BitVec 64 := (((a + (Source.Sha512.Sigma1 cfg f)) + (Source.Sha512.Ch cfg f g h)) + 0x1b710b35131c471b#64) + x_361
    let t2' : BitVec 64 := (Source.Sha512.Sigma0 cfg b) + (Source.Sha512.Maj cfg b c d)
    let e := e + t1'
    let a := t1' + t2'
    pure (w, a, b, c, d, e, f, g, h)

/-- round!(a, b, c, d, e, f, g, h, 0x28db77f523047d84, w[8], w[6], w[1], w[9]) -/
def Engine.process_block_fast.line1_72 (cfg : Cfg) : Source.Sha512.Engine.process_block_fast.State1 → Tr Source.Sha512.Engine.process_block_fast.State1 :=
  fun (w, a, b, c, d, e, f, g, h) => do
    let x_362 ← Tr.index w 8
    let x_363 ← Tr.index w 6
    let x_364 ← Tr.index w 1
    let x_365 ← Tr.index w 9
    let w ← Tr.indexSet w 8 (((x_362 + (Source.Sha512.sigma1 cfg x_363)) + x_364) + (Source.Sha512.sigma0 cfg x_365))
    let x_367 ← Tr.index w 8
    let t1' : BitVec 64 := (((h + (Source.Sha512.Sigma1 cfg e)) + (Source.Sha512.Ch cfg e f g)) + 0x28db77f523047d84#64) + x_367
    let t2' : BitVec 64 := (Source.Sha512.Sigma0 cfg a) + (Source.Sha512.Maj cfg a b c)
    let d := d + t1'
    let h := t1' + t2'
    pure (w, a, b, c, d, e, f, g, h)

/-- round!(h, a, b, c, d, e, f, g, 0x32caab7b40c72493, w[9], w[7], w[2], w[10]) -/
def Engine.process_block_fast.line1_73 (cfg : Cfg) : Source.Sha512.Engine.process_block_fast.State1 → Tr Source.Sha512.Engine.process_block_fast.State1 :=
  fun (w, a, b, c, d, e, f, g, h) => do
    let x_368 ← Tr.index w 9
    let x_369 ← Tr.index w 7
    let x_370 ← Tr.index w 2
    let x_371 ← Tr.index w 10
    let w ← Tr.indexSet w 9 (((x_368 + (Source.Sha512.sigma1 cfg x_369)) + x_370) + (Source.Sha512.sigma0 cfg x_371))
    let x_373 ← Tr.index w 9
    let t1' : BitVec 64 := (((g + (Source.Sha512.Sigma1 cfg d)) + (Source.Sha512.Ch cfg d e f)) + 0x32caab7b40c72493#64) + x_373
    let t2' : BitVec 64 := (Source.Sha512.Sigma0 cfg h) + (Source.Sha512.Maj cfg h a b)
    let c := c + t1'
    let g := t1' + t2'
    pure (w, a, b, c, d, e, f, g, h)

/-- round!(g, h, a, b, c, d, e, f, 0x3c9ebe0a15c9bebc, w[10], w[8], w[3], w[11]) -/
def Engine.process_block_fast.line1_74 (cfg : Cfg) : Source.Sha512.Engine.process_block_fast.State1 → Tr Source.Sha512.Engine.process_block_fast.State1 :=
  fun (w, a, b, c, d, e, f, g, h) => do
    let x_374 ← Tr.index w 10
    let x_375 ← Tr.index w 8
    let x_376 ← Tr.index w 3
    let x_377 ← Tr.index w 11
    let w ← Tr.indexSet w 10 (((x_374 + (Source.Sha512.sigma1 cfg x_375)) + x_376) + (Source.Sha512.sigma0 cfg x_377))
    let x_379 ← Tr.index w 10
    let t1' : BitVec 64 := (((f + (Source.Sha512.Sigma1 cfg c)) + (Source.Sha512.Ch cfg c d e)) + 0x3c9ebe0a15c9bebc#64) + x_379
    let t2' : BitVec 64 := (Source.Sha512.Sigma0 cfg g) + (Source.Sha512.Maj cfg g h a)
    let b := b + t1'
    let f := t1' + t2'
    pure (w, a, b, c, d, e, f, g, h)

/-- round!(f, g, h, a, b, c, d, e, 0x431d67c49c100d4c, w[11], w[9], w[4], w[12]) -/
def Engine.process_block_fast.line1_75 (cfg : Cfg) : Source.Sha512.Engine.process_block_fast.State1 → Tr Source.Sha512.Engine.process_block_fast.State1 :=
  fun (w, a, b, c, d, e, f, g, h) => do
    let x_380 ← Tr.index w 11
    let x_381 ← Tr.index w 9
    let x_382 ← Tr.index w 4
    let x_383 ← Tr.index w 12
    let w ← Tr.indexSet w 11 (((x_380 + (Source.Sha512.sigma1 cfg x_381)) + x_382) + (Source.Sha512.sigma0 cfg x_383))
    let x_385 ← Tr.index w 11
    let t1' : BitVec 64 := (((e + (Source.Sha512.Sigma1 cfg b)) + (Source.Sha512.Ch cfg b c d)) + 0x431d67c49c100d4c#64) + x_385
    let t2' : BitVec 64 := (Source.Sha512.Sigma0 cfg f) + (Source.Sha512.Maj cfg f g h)
    let a := a + t1'
    let e := t1' + t2'
    pure (w, a, b, c, d, e, f, g, h)

/-- round!(e, f, g, h, a, b, c, d, 0x4cc5d4becb3e42b6, w[12], w[10], w[5], w[13]) -/
def Engine.process_block_fast.line1_76 (cfg : Cfg) : Source.Sha512.Engine.process_block_fast.State1 → Tr Source.Sha512.Engine.process_block_fast.State1 :=
  fun (w, a, b, c, d, e, f, g, h) => do
    let x_386 ← Tr.index w 12
    let x_387 ← Tr.index w 10
    let x_388 ← Tr.index w 5
    let x_389 ← Tr.index w 13
    let w ← Tr.indexSet w 12 (((x_386 + (Source.Sha512.sigma1 cfg x_387)) + x_388) + (Source.Sha512.sigma0 cfg x_389))
    let x_391 ← Tr.index w 12
    let t1' : BitVec 64 := (((d + (Source.Sha512.Sigma1 cfg a)) + (Source.Sha512.Ch cfg a b c)) + 0x4cc5d4becb3e42b6#64) + x_391
    let t2' : BitVec 64 := (Source.Sha512.Sigma0 cfg e) + (Source.Sha512.Maj cfg e f g)
    let h := h + t1'
    let d := t1' + t2'
    pure (w, a, b, c, d, e, f, g, h)

/-- round!(d, e, f, g, h, a, b, c, 0x597f299cfc657e2a, w[13], w[11], w[6], w[14]) -/
def Engine.process_block_fast.line1_77 (cfg : Cfg) : Source.Sha512.Engine.process_block_fast.State1 → Tr Source.Sha512.Engine.process_block_fast.State1 :=
  fun (w, a, b, c, d, e, f, g, h) => do
    let x_392 ← Tr.index w 13
    let x_393 ← Tr.index w 11
    let x_394 ← Tr.index w 6
    let x_395 ← Tr.index w 14
    let w ← Tr.indexSet w 13 (((x_392 + (Source.Sha512.sigma1 cfg x_393)) + x_394) + (Source.Sha512.sigma0 cfg x_395))
    let x_397 ← Tr.index w 13
    let t1' : BitVec 64 := (((c + (Source.Sha512.Sigma1 cfg h)) + (Source.Sha512.Ch cfg h a b)) + 0x597f299cfc657e2a#64) + x_397
    let t2' : BitVec 64 := (Source.Sha512.Sigma0 cfg d) + (Source.Sha512.Maj cfg d e f)
    let g := g + t1'
    let c := t1' + t2'
    pure (w, a, b, c, d, e, f, g, h)

/-- round!(c, d, e, f, g, h, a, b, 0x5fcb6fab3ad6faec, w[14], w[12], w[7], w[15]) -/
def Engine.process_block_fast.line1_78 (cfg : Cfg) : Source.Sha512.Engine.process_block_fast.State1 → Tr Source.Sha512.Engine.process_block_fast.State1 :=
  fun (w, a, b, c, d, e, f, g, h) => do
    let x_398 ← Tr.index w 14
    let x_399 ← Tr.index w 12
    let x_400 ← Tr.index w 7
    let x_401 ← Tr.index w 15
    let w ← Tr.indexSet w 14 (((x_398 + (Source.Sha512.sigma1 cfg x_399)) + x_400) + (Source.Sha512.sigma0 cfg x_401))
    let x_403 ← Tr.index w 14
    let t1' : BitVec 64 := (((b + (Source.Sha512.Sigma1 cfg g)) + (Source.Sha512.Ch cfg g h a)) + 0x5fcb6fab3ad6faec#64) + x_403
    let t2' : BitVec 64 := (Source.Sha512.Sigma0 cfg c) + (Source.Sha512.Maj cfg c d e)
    let f := f + t1'
    let b := t1' + t2'
    pure (w, a, b, c, d, e, f, g, h)

/-- round!(b, c, d, e, f, g, h, a, 0x6c44198c4a475817, w[15], w[13], w[8], w[0]) -/
def Engine.process_block_fast.line1_79 (cfg : Cfg) : Source.Sha512.Engine.process_block_fast.State1 → Tr Source.Sha512.Engine.process_block_fast.State1 :=
  fun (w, a, b, c, d, e, f, g, h) => do
    let x_404 ← Tr.index w 15
    let x_405 ← Tr.index w 13
    let x_406 ← Tr.index w 8
    let x_407 ← Tr.index w 0
    let w ← Tr.indexSet w 15 (((x_404 + (Source.Sha512.sigma1 cfg x_405)) + x_406) + (Source.Sha512.sigma0 cfg x_407))
    let x_409 ← Tr.index w 15
    let t1' : BitVec 64 := (((a + (Source.Sha512.Sigma1 cfg f)) + (Source.Sha512.Ch cfg f g h)) + 0x6c44198c4a475817#64) + x_409
    let t2' : BitVec 64 := (Source.Sha512.Sigma0 cfg b) + (Source.Sha512.Maj cfg b c d)
    let e := e + t1'
    let a := t1' + t2'
    pure (w, a, b, c, d, e, f, g, h)

/-- The 80 statements. -/
def Engine.process_block_fast.lines1 (cfg : Cfg) : List (Source.Sha512.Engine.process_block_fast.State1 → Tr Source.Sha512.Engine.process_block_fast.State1) := [
  Seen.Sha512.Engine.process_block_fast.line1_0 cfg,
  Seen.Sha512.Engine.process_block_fast.line1_1 cfg,
  Seen.Sha512.Engine.process_block_fast.line1_2 cfg,
  Seen.Sha512.Engine.process_block_fast.line1_3 cfg,
  Seen.Sha512.Engine.process_block_fast.line1_4 cfg,
  Seen.Sha512.Engine.process_block_fast.line1_5 cfg,
  Seen.Sha512.Engine.process_block_fast.line1_6 cfg,
  Seen.Sha512.Engine.process_block_fast.line1_7 cfg,
  Seen.Sha512.Engine.process_block_fast.line1_8 cfg,
  Seen.Sha512.Engine.process_block_fast.line1_9 cfg,
  Seen.Sha512.Engine.process_block_fast.line1_10 cfg,
  Seen.Sha512.Engine.process_block_fast.line1_11 cfg,
  Seen.Sha512.Engine.process_block_fast.line1_12 cfg,
  Seen.Sha512.Engine.process_block_fast.line1_13 cfg,
  Seen.Sha512.Engine.process_block_fast.line1_14 cfg,
  Seen.Sha512.Engine.process_block_fast.line1_15 cfg,
  Seen.Sha512.Engine.process_block_fast.line1_16 cfg,
  Seen.Sha512.Engine.process_block_fast.line1_17 cfg,
  Seen.Sha512.Engine.process_block_fast.line1_18 cfg,
  Seen.Sha512.Engine.process_block_fast.line1_19 cfg,
  Seen.Sha512.Engine.process_block_fast.line1_20 cfg,
  Seen.Sha512.Engine.process_block_fast.line1_21 cfg,
  Seen.Sha512.Engine.process_block_fast.line1_22 cfg,
  Seen.Sha512.Engine.process_block_fast.line1_23 cfg,
  Seen.Sha512.Engine.process_block_fast.line1_24 cfg,
  Seen.Sha512.Engine.process_block_fast.line1_25 cfg,
  Seen.Sha512.Engine.process_block_fast.line1_26 cfg,
  Seen.Sha512.Engine.process_block_fast.line1_27 cfg,
  Seen.Sha512.Engine.process_block_fast.line1_28 cfg,
  Seen.Sha512.Engine.process_block_fast.line1_29 cfg,
  Seen.Sha512.Engine.process_block_fast.line1_30 cfg,
  Seen.Sha512.Engine.process_block_fast.line1_31 cfg,
  Seen.Sha512.Engine.process_block_fast.line1_32 cfg,
  Seen.Sha512.Engine.process_block_fast.line1_33 cfg,
  Seen.Sha512.Engine.process_block_fast.line1_34 cfg,
  Seen.Sha512.Engine.process_block_fast.line1_35 cfg,
  Seen.Sha512.Engine.process_block_fast.line1_36 cfg,
  Seen.Sha512.Engine.process_block_fast.line1_37 cfg,
  Seen.Sha512.Engine.process_block_fast.line1_38 cfg,
  Seen.Sha512.Engine.process_block_fast.line1_39 cfg,
  Seen.Sha512.Engine.process_block_fast.line1_40 cfg,
  Seen.Sha512.Engine.process_block_fast.line1_41 cfg,
  Seen.Sha512.Engine.process_block_fast.line1_42 cfg,
  Seen.Sha512.Engine.process_block_fast.line1_43 cfg,
  Seen.Sha512.Engine.process_block_fast.line1_44 cfg,
  Seen.Sha512.Engine.process_block_fast.line1_45 cfg,
  Seen.Sha512.Engine.process_block_fast.line1_46 cfg,
  Seen.Sha512.Engine.process_block_fast.line1_47 cfg,
  Seen.Sha512.Engine.process_block_fast.line1_48 cfg,
  Seen.Sha512.Engine.process_block_fast.line1_49 cfg,
  Seen.Sha512.Engine.process_block_fast.line1_50 cfg,
  Seen.Sha512.Engine.process_block_fast.line1_51 cfg,
  Seen.Sha512.Engine.process_block_fast.line1_52 cfg,
  Seen.Sha512.Engine.process_block_fast.line1_53 cfg,
  Seen.Sha512.Engine.process_block_fast.line1_54 cfg,
  Seen.Sha512.Engine.process_block_fast.line1_55 cfg,
  Seen.Sha512.Engine.process_block_fast.line1_56 cfg,
  Seen.Sha512.Engine.process_block_fast.line1_57 cfg,
  Seen.Sha512.Engine.process_block_fast.line1_58 cfg,
  Seen.Sha512.Engine.process_block_fast.line1_59 cfg,
  Seen.Sha512.Engine.process_block_fast.line1_60 cfg,
  Seen.Sha512.Engine.process_block_fast.line1_61 cfg,
  Seen.Sha512.Engine.process_block_fast.line1_62 cfg,
  Seen.Sha512.Engine.process_block_fast.line1_63 cfg,
  Seen.Sha512.Engine.process_block_fast.line1_64 cfg,
  Seen.Sha512.Engine.process_block_fast.line1_65 cfg,
  Seen.Sha512.Engine.process_block_fast.line1_66 cfg,
  Seen.Sha512.Engine.process_block_fast.line1_67 cfg,
  Seen.Sha512.Engine.process_block_fast.line1_68 cfg,
  Seen.Sha512.Engine.process_block_fast.line1_69 cfg,
  Seen.Sha512.Engine.process_block_fast.line1_70 cfg,
  Seen.Sha512.Engine.process_block_fast.line1_71 cfg,
  Seen.Sha512.Engine.process_block_fast.line1_72 cfg,
  Seen.Sha512.Engine.process_block_fast.line1_73 cfg,
  Seen.Sha512.Engine.process_block_fast.line1_74 cfg,
  Seen.Sha512.Engine.process_block_fast.line1_75 cfg,
  Seen.Sha512.Engine.process_block_fast.line1_76 cfg,
  Seen.Sha512.Engine.process_block_fast.line1_77 cfg,
  Seen.Sha512.Engine.process_block_fast.line1_78 cfg,
  Seen.Sha512.Engine.process_block_fast.line1_79 cfg]

/-- `Engine::process_block`, sha512.rs 204-314, without feature `small-hash`. -/
def Engine.process_block_fast (cfg : Cfg) (self : Source.Sha512.Engine) : Tr Source.Sha512.Engine := do
  Tr.debugAssert cfg (self.buffer.length == Source.Sha512.BLOCK_SIZE)
  let w : List (BitVec 64) := List.replicate 16 0#64
  let w ← Tr.zipMut w (chunksExact 8 self.buffer) fun w_val buff_bytes => do
    let x_1 ← Tr.tryInto 8 buff_bytes
    let w_val := Rs.fromBeBytes 64 x_1
    pure w_val
  let a ← Tr.index self.h 0
  let b ← Tr.index self.h 1
  let c ← Tr.index self.h 2
  let d ← Tr.index self.h 3
  let e ← Tr.index self.h 4
  let f ← Tr.index self.h 5
  let g ← Tr.index self.h 6
  let h ← Tr.index self.h 7
  let (w, a, b, c, d, e, f, g, h) ← Tr.runLines (Seen.Sha512.Engine.process_block_fast.lines1 cfg) (w, a, b, c, d, e, f, g, h)
  let x_410 ← Tr.index self.h 0
  let x_411 ← Tr.indexSet self.h 0 (x_410 + a)
  let self := { self with h := x_411 }
  let x_412 ← Tr.index self.h 1
  let x_413 ← Tr.indexSet self.h 1 (x_412 + b)
  let self := { self with h := x_413 }
  let x_414 ← Tr.index self.h 2
  let x_415 ← Tr.indexSet self.h 2 (x_414 + c)
  let self := { self with h := x_415 }
  let x_416 ← Tr.index self.h 3
  let x_417 ← Tr.indexSet self.h 3 (x_416 + d)
  let self := { self with h := x_417 }
  let x_418 ← Tr.index self.h 4
  let x_419 ← Tr.indexSet self.h 4 (x_418 + e)
  let self := { self with h := x_419 }
  let x_420 ← Tr.index self.h 5
  let x_421 ← Tr.indexSet self.h 5 (x_420 + f)
  let self := { self with h := x_421 }
  let x_422 ← Tr.index self.h 6
  let x_423 ← Tr.indexSet self.h 6 (x_422 + g)
  let self := { self with h := x_423 }
  let x_424 ← Tr.index self.h 7
  let x_425 ← Tr.indexSet self.h 7 (x_424 + h)
  let self := { self with h := x_425 }
  pure self

/-- round!(a, b, c, d, e, f, g, h, 0x428a2f98d728ae22, w[0]) -/
def Engine.process_block_small.line1_0 (cfg : Cfg) : Source.Sha512.Engine.process_block_small.State1 → Tr Source.Sha512.Engine.process_block_small.State1 :=
  fun (w, a, b, c, d, e, f, g, h) => do
    let x_10 ← Tr.index w 0
    let (x_11, x_12) := Source.Sha512.small_hash.round cfg a b c d e f g h 0x428a2f98d728ae22#64 x_10
    let d := x_11
    let h := x_12
    pure (w, a, b, c, d, e, f, g, h)

/-- round!(h, a, b, c, d, e, f, g, 0x7137449123ef65cd, w[1]) -/
def Engine.process_block_small.line1_1 (cfg : Cfg) : Source.Sha512.Engine.process_block_small.State1 → Tr Source.Sha512.Engine.process_block_small.State1 :=
  fun (w, a, b, c, d, e, f, g, h) => do
    let x_13 ← Tr.index w 1
    let (x_14, x_15) := Source.Sha512.small_hash.round cfg h a b c d e f g 0x7137449123ef65cd#64 x_13
    let c := x_14
    let g := x_15
    pure (w, a, b, c, d, e, f, g, h)

/-- round!(g, h, a, b, c, d, e, f, 0xb5c0fbcfec4d3b2f, w[2]) -/
def Engine.process_block_small.line1_2 (cfg : Cfg) : Source.Sha512.Engine.process_block_small.State1 → Tr Source.Sha512.Engine.process_block_small.State1 :=
  fun (w, a, b, c, d, e, f, g, h) => do
    let x_16 ← Tr.index w 2
    let (x_17, x_18) := Source.Sha512.small_hash.round cfg g h a b c d e f 0xb5c0fbcfec4d3b2f#64 x_16
    let b := x_17
    let f := x_18
    pure (w, a, b, c, d, e, f, g, h)

/-- round!(f, g, h, a, b, c, d, e, 0xe9b5dba58189dbbc, w[3]) -/
def Engine.process_block_small.line1_3 (cfg : Cfg) : Source.Sha512.Engine.process_block_small.State1 → Tr Source.Sha512.Engine.process_block_small.State1 :=
  fun (w, a, b, c, d, e, f, g, h) => do
    let x_19 ← Tr.index w 3
    let (x_20, x_21) := Source.Sha512.small_hash.round cfg f g h a b c d e 0xe9b5dba58189dbbc#64 x_19
    let a := x_20
    let e := x_21
    pure (w, a, b, c, d, e, f, g, h)

/-- round!(e, f, g, h, a, b, c, d, 0x3956c25bf348b538, w[4]) -/
def Engine.process_block_small.line1_4 (cfg : Cfg) : Source.Sha512.Engine.process_block_small.State1 → Tr Source.Sha512.Engine.process_block_small.State1 :=
  fun (w, a, b, c, d, e, f, g, h) => do
    let x_22 ← Tr.index w 4
    let (x_23, x_24) := Source.Sha512.small_hash.round cfg e f g h a b c d 0x3956c25bf348b538#64 x_22
    let h := x_23
    let d := x_24
    pure (w, a, b, c, d, e, f, g, h)

/-- round!(d, e, f, g, h, a, b, c, 0x59f111f1b605d019, w[5]) -/
def Engine.process_block_small.line1_5 (cfg : Cfg) : Source.Sha512.Engine.process_block_small.State1 → Tr Source.Sha512.Engine.process_block_small.State1 :=
  fun (w, a, b, c, d, e, f, g, h) => do
    let x_25 ← Tr.index w 5
    let (x_26, x_27) := Source.Sha512.small_hash.round cfg d e f g h a b c 0x59f111f1b605d019#64 x_25
    let g := x_26
    let c := x_27
    pure (w, a, b, c, d, e, f, g, h)

/-- round!(c, d, e, f, g, h, a, b, 0x923f82a4af194f9b, w[6]) -/
def Engine.process_block_small.line1_6 (cfg : Cfg) : Source.Sha512.Engine.process_block_small.State1 → Tr Source.Sha512.Engine.process_block_small.State1 :=
  fun (w, a, b, c, d, e, f, g, h) => do
    let x_28 ← Tr.index w 6
    let (x_29, x_30) := Source.Sha512.small_hash.round cfg c d e f g h a b 0x923f82a4af194f9b#64 x_28
    let f := x_29
    let b := x_30
    pure (w, a, b, c, d, e, f, g, h)

/-- round!(b, c, d, e, f, g, h, a, 0xab1c5ed5da6d8118, w[7]) -/
def Engine.process_block_small.line1_7 (cfg : Cfg) : Source.Sha512.Engine.process_block_small.State1 → Tr Source.Sha512.Engine.process_block_small.State1 :=
  fun (w, a, b, c, d, e, f, g, h) => do
    let x_31 ← Tr.index w 7
    let (x_32, x_33) := Source.Sha512.small_hash.round cfg b c d e f g h a 0xab1c5ed5da6d8118#64 x_31
    let e := x_32
    let a := x_33
    pure (w, a, b, c, d, e, f, g, h)

/-- round!(a, b, c, d, e, f, g, h, 0xd807aa98a3030242, w[8]) -/
def Engine.process_block_small.line1_8 (cfg : Cfg) : Source.Sha512.Engine.process_block_small.State1 → Tr Source.Sha512.Engine.process_block_small.State1 :=
  fun (w, a, b, c, d, e, f, g, h) => do
    let x_34 ← Tr.index w 8
    let (x_35, x_36) := Source.Sha512.small_hash.round cfg a b c d e f g h 0xd807aa98a3030242#64 x_34
    let d := x_35
    let h := x_36
    pure (w, a, b, c, d, e, f, g, h)

/-- round!(h, a, b, c, d, e, f, g, 0x12835b0145706fbe, w[9]) -/
def Engine.process_block_small.line1_9 (cfg : Cfg) : Source.Sha512.Engine.process_block_small.State1 → Tr Source.Sha512.Engine.process_block_small.State1 :=
  fun (w, a, b, c, d, e, f, g, h) => do
    let x_37 ← Tr.index w 9
    let (x_38, x_39) := Source.Sha512.small_hash.round cfg h a b c d e f g 0x12835b0145706fbe#64 x_37
    let c := x_38
    let g := x_39
    pure (w, a, b, c, d, e, f, g, h)

/-- round!(g, h, a, b, c, d, e, f, 0x243185be4ee4b28c, w[10]) -/
def Engine.process_block_small.line1_10 (cfg : Cfg) : Source.Sha512.Engine.process_block_small.State1 → Tr Source.Sha512.Engine.process_block_small.State1 :=
  fun (w, a, b, c, d, e, f, g, h) => do
    let x_40 ← Tr.index w 10
    let (x_41, x_42) := Source.Sha512.small_hash.round cfg g h a b c d e f 0x243185be4ee4b28c#64 x_40
    let b := x_41
    let f := x_42
    pure (w, a, b, c, d, e, f, g, h)

/-- round!(f, g, h, a, b, c, d, e, 0x550c7dc3d5ffb4e2, w[11]) -/
def Engine.process_block_small.line1_11 (cfg : Cfg) : Source.Sha512.Engine.process_block_small.State1 → Tr Source.Sha512.Engine.process_block_small.State1 :=
  fun (w, a, b, c, d, e, f, g, h) => do
    let x_43 ← Tr.index w 11
    let (x_44, x_45) := Source.Sha512.small_hash.round cfg f g h a b c d e 0x550c7dc3d5ffb4e2#64 x_43
    let a := x_44
    let e := x_45
    pure (w, a, b, c, d, e, f, g, h)

/-- round!(e, f, g, h, a, b, c, d, 0x72be5d74f27b896f, w[12]) -/
def Engine.process_block_small.line1_12 (cfg : Cfg) : Source.Sha512.Engine.process_block_small.State1 → Tr Source.Sha512.Engine.process_block_small.State1 :=
  fun (w, a, b, c, d, e, f, g, h) => do
    let x_46 ← Tr.index w 12
    let (x_47, x_48) := Source.Sha512.small_hash.round cfg e f g h a b c d 0x72be5d74f27b896f#64 x_46
    let h := x_47
    let d := x_48
    pure (w, a, b, c, d, e, f, g, h)

/-- round!(d, e, f, g, h, a, b, c, 0x80deb1fe3b1696b1, w[13]) -/
def Engine.process_block_small.line1_13 (cfg : Cfg) : Source.Sha512.Engine.process_block_small.State1 → Tr Source.Sha512.Engine.process_block_small.State1 :=
  fun (w, a, b, c, d, e, f, g, h) => do
    let x_49 ← Tr.index w 13
    let (x_50, x_51) := Source.Sha512.small_hash.round cfg d e f g h a b c 0x80deb1fe3b1696b1#64 x_49
    let g := x_50
    let c := x_51
    pure (w, a, b, c, d, e, f, g, h)

/-- round!(c, d, e, f, g, h, a, b, 0x9bdc06a725c71235, w[14]) -/
def Engine.process_block_small.line1_14 (cfg : Cfg) : Source.Sha512.Engine.process_block_small.State1 → Tr Source.Sha512.Engine.process_block_small.State1 :=
  fun (w, a, b, c, d, e, f, g, h) => do
    let x_52 ← Tr.index w 14
    let (x_53, x_54) := Source.Sha512.small_hash.round cfg c d e f g h a b 0x9bdc06a725c71235#64 x_52
    let f := x_53
    let b := x_54
    pure (w, a, b, c, d, e, f, g, h)

/-- round!(b, c, d, e, f, g, h, a, 0xc19bf174cf692694, w[15]) -/
def Engine.process_block_small.line1_15 (cfg : Cfg) : Source.Sha512.Engine.process_block_small.State1 → Tr Source.Sha512.Engine.process_block_small.State1 :=
  fun (w, a, b, c, d, e, f, g, h) => do
    let x_55 ← Tr.index w 15
    let (x_56, x_57) := Source.Sha512.small_hash.round cfg b c d e f g h a 0xc19bf174cf692694#64 x_55
    let e := x_56
    let a := x_57
    pure (w, a, b, c, d, e, f, g, h)

/-- round!(a, b, c, d, e, f, g, h, 0xe49b69c19ef14ad2, w[0], w[14], w[9], w[1]) -/
def Engine.process_block_small.line1_16 (cfg : Cfg) : Source.Sha512.Engine.process_block_small.State1 → Tr Source.Sha512.Engine.process_block_small.State1 :=
  fun (w, a, b, c, d, e, f, g, h) => do
    let x_58 ← Tr.index w 0
    let x_59 ← Tr.index w 14
    let x_60 ← Tr.index w 9
    let x_61 ← Tr.index w 1
    let (x_62, x_63, x_64) := Source.Sha512.small_hash.later_round cfg a b c d e f g h 0xe49b69c19ef14ad2#64 x_58 x_59 x_60 x_61
    let d := x_63
    let h := x_64
    let w ← Tr.indexSet w 0 x_62
    pure (w, a, b, c, d, e, f, g, h)

/-- round!(h, a, b, c, d, e, f, g, 0xefbe4786384f25e3, w[1], w[15], w[10], w[2]) -/
def Engine.process_block_small.line1_17 (cfg : Cfg) : Source.Sha512.Engine.process_block_small.State1 → Tr Source.Sha512.Engine.process_block_small.State1 :=
  fun (w, a, b, c, d, e, f, g, h) => do
    let x_66 ← Tr.index w 1
    let x_67 ← Tr.index w 15
    let x_68 ← Tr.index w 10
    let x_69 ← Tr.index w 2
    let (x_70, x_71, x_72) := Source.Sha512.small_hash.later_round cfg h a b c d e f g 0xefbe4786384f25e3#64 x_66 x_67 x_68 x_69
    let c := x_71
    let g := x_72
    let w ← Tr.indexSet w 1 x_70
    pure (w, a, b, c, d, e, f, g, h)

/-- round!(g, h, a, b, c, d, e, f, 0x0fc19dc68b8cd5b5, w[2], w[0], w[11], w[3]) -/
def Engine.process_block_small.line1_18 (cfg : Cfg) : Source.Sha512.Engine.process_block_small.State1 → Tr Source.Sha512.Engine.process_block_small.State1 :=
  fun (w, a, b, c, d, e, f, g, h) => do
    let x_74 ← Tr.index w 2
    let x_75 ← Tr.index w 0
    let x_76 ← Tr.index w 11
    let x_77 ← Tr.index w 3
    let (x_78, x_79, x_80) := Source.Sha512.small_hash.later_round cfg g h a b c d e f 0x0fc19dc68b8cd5b5#64 x_74 x_75 x_76 x_77
    let b := x_79
    let f := x_80
    let w ← Tr.indexSet w 2 x_78
    pure (w, a, b, c, d, e, f, g, h)

/-- round!(f, g, h, a, b, c, d, e, 0x240ca1cc77ac9c65, w[3], w[1], w[12], w[4]) -/
def Engine.process_block_small.line1_19 (cfg : Cfg) : Source.Sha512.Engine.process_block_small.State1 → Tr Source.Sha512.Engine.process_block_small.State1 :=
  fun (w, a, b, c, d, e, f, g, h) => do
    let x_82 ← Tr.index w 3
    let x_83 ← Tr.index w 1
    let x_84 ← Tr.index w 12
    let x_85 ← Tr.index w 4
    let (x_86, x_87, x_88) := Source.Sha512.small_hash.later_round cfg f g h a b c d e 0x240ca1cc77ac9c65#64 x_82 x_83 x_84 x_85
    let a := x_87
    let e := x_88
    let w ← Tr.indexSet w 3 x_86
    pure (w, a, b, c, d, e, f, g, h)

/-- round!(e, f, g, h, a, b, c, d, 0x2de92c6f592b0275, w[4], w[2], w[13], w[5]) -/
def Engine.process_block_small.line1_20 (cfg : Cfg) : Source.Sha512.Engine.process_block_small.State1 → Tr Source.Sha512.Engine.process_block_small.State1 :=
  fun (w, a, b, c, d, e, f, g, h) => do
    let x_90 ← Tr.index w 4
    let x_91 ← Tr.index w 2
    let x_92 ← Tr.index w 13
    let x_93 ← Tr.index w 5
    let (x_94, x_95, x_96) := Source.Sha512.small_hash.later_round cfg e f g h a b c d 0x2de92c6f592b0275#64 x_90 x_91 x_92 x_93
    let h := x_95
    let d := x_96
    let w ← Tr.indexSet w 4 x_94
    pure (w, a, b, c, d, e, f, g, h)

/-- round!(d, e, f, g, h, a, b, c, 0x4a7484aa6ea6e483, w[5], w[3], w[14], w[6]) -/
def Engine.process_block_small.line1_21 (cfg : Cfg) : Source.Sha512.Engine.process_block_small.State1 → Tr Source.Sha512.Engine.process_block_small.State1 :=
  fun (w, a, b, c, d, e, f, g, h) => do
    let x_98 ← Tr.index w 5
    let x_99 ← Tr.index w 3
    let x_100 ← Tr.index w 14
    let x_101 ← Tr.index w 6
    let (x_102, x_103, x_104) := Source.Sha512.small_hash.later_round cfg d e f g h a b c 0x4a7484aa6ea6e483#64 x_98 x_99 x_100 x_101
    let g := x_103
    let c := x_104
    let w ← Tr.indexSet w 5 x_102
    pure (w, a, b, c, d, e, f, g, h)

/-- round!(c, d, e, f, g, h, a, b, 0x5cb0a9dcbd41fbd4, w[6], w[4], w[15], w[7]) -/
def Engine.process_block_small.line1_22 (cfg : Cfg) : Source.Sha512.Engine.process_block_small.State1 → Tr Source.Sha512.Engine.process_block_small.State1 :=
  fun (w, a, b, c, d, e, f, g, h) => do
    let x_106 ← Tr.index w 6
    let x_107 ← Tr.index w 4
    let x_108 ← Tr.index w 15
    let x_109 ← Tr.index w 7
    let (x_110, x_111, x_112) := Source.Sha512.small_hash.later_round cfg c d e f g h a b 0x5cb0a9dcbd41fbd4#64 x_106 x_107 x_108 x_109
    let f := x_111
    let b := x_112
    let w ← Tr.indexSet w 6 x_110
    pure (w, a, b, c, d, e, f, g, h)

/-- round!(b, c, d, e, f, g, h, a, 0x76f988da831153b5, w[7], w[5], w[0], w[8]) -/
def Engine.process_block_small.line1_23 (cfg : Cfg) : Source.Sha512.Engine.process_block_small.State1 → Tr Source.Sha512.Engine.process_block_small.State1 :=
  fun (w, a, b, c, d, e, f, g, h) => do
    let x_114 ← Tr.index w 7
    let x_115 ← Tr.index w 5
    let x_116 ← Tr.index w 0
    let x_117 ← Tr.index w 8
    let (x_118, x_119, x_120) := Source.Sha512.small_hash.later_round cfg b c d e f g h a 0x76f988da831153b5#64 x_114 x_115 x_116 x_117
    let e := x_119
    let a := x_120
    let w ← Tr.indexSet w 7 x_118
    pure (w, a, b, c, d, e, f, g, h)

/-- round!(a, b, c, d, e, f, g, h, 0x983e5152ee66dfab, w[8], w[6], w[1], w[9]) -/
def Engine.process_block_small.line1_24 (cfg : Cfg) : Source.Sha512.Engine.process_block_small.State1 → Tr Source.Sha512.Engine.process_block_small.State1 :=
  fun (w, a, b, c, d, e, f, g, h) => do
    let x_122 ← Tr.index w 8
    let x_123 ← Tr.index w 6
    let x_124 ← Tr.index w 1
    let x_125 ← Tr.index w 9
    let (x_126, x_127, x_128) := Source.Sha512.small_hash.later_round cfg a b c d e f g h 0x983e5152ee66dfab#64 x_122 x_123 x_124 x_125
    let d := x_127
    let h := x_128
    let w ← Tr.indexSet w 8 x_126
    pure (w, a, b, c, d, e, f, g, h)

/-- round!(h, a, b, c, d, e, f, g, 0xa831c66d2db43210, w[9], w[7], w[2], w[10]) -/
def Engine.process_block_small.line1_25 (cfg : Cfg) : Source.Sha512.Engine.process_block_small.State1 → Tr Source.Sha512.Engine.process_block_small.State1 :=
  fun (w, a, b, c, d, e, f, g, h) => do
    let x_130 ← Tr.index w 9
    let x_131 ← Tr.index w 7
    let x_132 ← Tr.index w 2
    let x_133 ← Tr.index w 10
    let (x_134, x_135, x_136) := Source.Sha512.small_hash.later_round cfg h a b c d e f g 0xa831c66d2db43210#64 x_130 x_131 x_132 x_133
    let c := x_135
    let g := x_136
    let w ← Tr.indexSet w 9 x_134
    pure (w, a, b, c, d, e, f, g, h)

/-- round!(g, h, a, b, c, d, e, f, 0xb00327c898fb213f, w[10], w[8], w[3], w[11]) -/
def Engine.process_block_small.line1_26 (cfg : Cfg) : Source.Sha512.Engine.process_block_small.State1 → Tr Source.Sha512.Engine.process_block_small.State1 :=
  fun (w, a, b, c, d, e, f, g, h) => do
    let x_138 ← Tr.index w 10
    let x_139 ← Tr.index w 8
    let x_140 ← Tr.index w 3
    let x_141 ← Tr.index w 11
    let (x_142, x_143, x_144) := Source.Sha512.small_hash.later_round cfg g h a b c d e f 0xb00327c898fb213f#64 x_138 x_139 x_140 x_141
    let b := x_143
    let f := x_144
    let w ← Tr.indexSet w 10 x_142
    pure (w, a, b, c, d, e, f, g, h)

/-- round!(f, g, h, a, b, c, d, e, 0xbf597fc7beef0ee4, w[11], w[9], w[4], w[12]) -/
def Engine.process_block_small.line1_27 (cfg : Cfg) : Source.Sha512.Engine.process_block_small.State1 → Tr Source.Sha512.Engine.process_block_small.State1 :=
  fun (w, a, b, c, d, e, f, g, h) => do
    let x_146 ← Tr.index w 11
    let x_147 ← Tr.index w 9
    let x_148 ← Tr.index w 4
    let x_149 ← Tr.index w 12
    let (x_150, x_151, x_152) := Source.Sha512.small_hash.later_round cfg f g h a b c d e 0xbf597fc7beef0ee4#64 x_146 x_147 x_148 x_149
    let a := x_151
    let e := x_152
    let w ← Tr.indexSet w 11 x_150
    pure (w, a, b, c, d, e, f, g, h)

/-- round!(e, f, g, h, a, b, c, d, 0xc6e00bf33da88fc2, w[12], w[10], w[5], w[13]) -/
def Engine.process_block_small.line1_28 (cfg : Cfg) : Source.Sha512.Engine.process_block_small.State1 → Tr Source.Sha512.Engine.process_block_small.State1 :=
  fun (w, a, b, c, d, e, f, g, h) => do
    let x_154 ← Tr.index w 12
    let x_155 ← Tr.index w 10
    let x_156 ← Tr.index w 5
    let x_157 ← Tr.index w 13
    let (x_158, x_159, x_160) := Source.Sha512.small_hash.later_round cfg e f g h a b c d 0xc6e00bf33da88fc2#64 x_154 x_155 x_156 x_157
    let h := x_159
    let d := x_160
    let w ← Tr.indexSet w 12 x_158
    pure (w, a, b, c, d, e, f, g, h)

/-- round!(d, e, f, g, h, a, b, c, 0xd5a79147930aa725, w[13], w[11], w[6], w[14]) -/
def Engine.process_block_small.line1_29 (cfg : Cfg) : Source.Sha512.Engine.process_block_small.State1 → Tr Source.Sha512.Engine.process_block_small.State1 :=
  fun (w, a, b, c, d, e, f, g, h) => do
    let x_162 ← Tr.index w 13
    let x_163 ← Tr.index w 11
    let x_164 ← Tr.index w 6
    let x_165 ← Tr.index w 14
    let (x_166, x_167, x_168) := Source.Sha512.small_hash.later_round cfg d e f g h a b c 0xd5a79147930aa725#64 x_162 x_163 x_164 x_165
    let g := x_167
    let c := x_168
    let w ← Tr.indexSet w 13 x_166
    pure (w, a, b, c, d, e, f, g, h)

/-- round!(c, d, e, f, g, h, a, b, 0x06ca6351e003826f, w[14], w[12], w[7], w[15]) -/
def Engine.process_block_small.line1_30 (cfg : Cfg) : Source.Sha512.Engine.process_block_small.State1 → Tr Source.Sha512.Engine.process_block_small.State1 :=
  fun (w, a, b, c, d, e, f, g, h) => do
    let x_170 ← Tr.index w 14
    let x_171 ← Tr.index w 12
    let x_172 ← Tr.index w 7
    let x_173 ← Tr.index w 15
    let (x_174, x_175, x_176) := Source.Sha512.small_hash.later_round cfg c d e f g h a b 0x06ca6351e003826f#64 x_170 x_171 x_172 x_173
    let f := x_175
    let b := x_176
    let w ← Tr.indexSet w 14 x_174
    pure (w, a, b, c, d, e, f, g, h)

/-- round!(b, c, d, e, f, g, h, a, 0x142929670a0e6e70, w[15], w[13], w[8], w[0]) -/
def Engine.process_block_small.line1_31 (cfg : Cfg) : Source.Sha512.Engine.process_block_small.State1 → Tr Source.Sha512.Engine.process_block_small.State1 :=
  fun (w, a, b, c, d, e, f, g, h) => do
    let x_178 ← Tr.index w 15
    let x_179 ← Tr.index w 13
    let x_180 ← Tr.index w 8
    let x_181 ← Tr.index w 0
    let (x_182, x_183, x_184) := Source.Sha512.small_hash.later_round cfg b c d e f g h a 0x142929670a0e6e70#64 x_178 x_179 x_180 x_181
    let e := x_183
    let a := x_184
    let w ← Tr.indexSet w 15 x_182
    pure (w, a, b, c, d, e, f, g, h)

/-- round!(a, b, c, d, e, f, g, h, 0x27b70a8546d22ffc, w[0], w[14], w[9], w[1]) -/
def Engine.process_block_small.line1_32 (cfg : Cfg) : Source.Sha512.Engine.process_block_small.State1 → Tr Source.Sha512.Engine.process_block_small.State1 :=
  fun (w, a, b, c, d, e, f, g, h) => do
    let x_186 ← Tr.index w 0
    let x_187 ← Tr.index w 14
    let x_188 ← Tr.index w 9
    let x_189 ← Tr.index w 1
    let (x_190, x_191, x_192) := Source.Sha512.small_hash.later_round cfg a b c d e f g h 0x27b70a8546d22ffc#64 x_186 x_187 x_188 x_189
    let d := x_191
    let h := x_192
    let w ← Tr.indexSet w 0 x_190
    pure (w, a, b, c, d, e, f, g, h)

/-- round!(h, a, b, c, d, e, f, g, 0x2e1b21385c26c926, w[1], w[15], w[10], w[2]) -/
def Engine.process_block_small.line1_33 (cfg : Cfg) : Source.Sha512.Engine.process_block_small.State1 → Tr Source.Sha512.Engine.process_block_small.State1 :=
  fun (w, a, b, c, d, e, f, g, h) => do
    let x_194 ← Tr.index w 1
    let x_195 ← Tr.index w 15
    let x_196 ← Tr.index w 10
    let x_197 ← Tr.index w 2
    let (x_198, x_199, x_200) := Source.Sha512.small_hash.later_round cfg h a b c d e f g 0x2e1b21385c26c926#64 x_194 x_195 x_196 x_197
    let c := x_199
    let g := x_200
    let w ← Tr.indexSet w 1 x_198
    pure (w, a, b, c, d, e, f, g, h)

/-- round!(g, h, a, b, c, d, e, f, 0x4d2c6dfc5ac42aed, w[2], w[0], w[11], w[3]) -/
def Engine.process_block_small.line1_34 (cfg : Cfg) : Source.Sha512.Engine.process_block_small.State1 → Tr Source.Sha512.Engine.process_block_small.State1 :=
  fun (w, a, b, c, d, e, f, g, h) => do
    let x_202 ← Tr.index w 2
    let x_203 ← Tr.index w 0
    let x_204 ← Tr.index w 11
    let x_205 ← Tr.index w 3
    let (x_206, x_207, x_208) := Source.Sha512.small_hash.later_round cfg g h a b c d e f 0x4d2c6dfc5ac42aed#64 x_202 x_203 x_204 x_205
    let b := x_207
    let f := x_208
    let w ← Tr.indexSet w 2 x_206
    pure (w, a, b, c, d, e, f, g, h)

/-- round!(f, g, h, a, b, c, d, e, 0x53380d139d95b3df, w[3], w[1], w[12], w[4]) -/
def Engine.process_block_small.line1_35 (cfg : Cfg) : Source.Sha512.Engine.process_block_small.State1 → Tr Source.Sha512.Engine.process_block_small.State1 :=
  fun (w, a, b, c, d, e, f, g, h) => do
    let x_210 ← Tr.index w 3
    let x_211 ← Tr.index w 1
    let x_212 ← Tr.index w 12
    let x_213 ← Tr.index w 4
    let (x_214, x_215, x_216) := Source.Sha512.small_hash.later_round cfg f g h a b c d e 0x53380d139d95b3df#64 x_210 x_211 x_212 x_213
    let a := x_215
    let e := x_216
    let w ← Tr.indexSet w 3 x_214
    pure (w, a, b, c, d, e, f, g, h)

/-- round!(e, f, g, h, a, b, c, d, 0x650a73548baf63de, w[4], w[2], w[13], w[5]) -/
def Engine.process_block_small.line1_36 (cfg : Cfg) : Source.Sha512.Engine.process_block_small.State1 → Tr Source.Sha512.Engine.process_block_small.State1 :=
  fun (w, a, b, c, d, e, f, g, h) => do
    let x_218 ← Tr.index w 4
    let x_219 ← Tr.index w 2
    let x_220 ← Tr.index w 13
    let x_221 ← Tr.index w 5
    let (x_222, x_223, x_224) := Source.Sha512.small_hash.later_round cfg e f g h a b c d 0x650a73548baf63de#64 x_218 x_219 x_220 x_221
    let h := x_223
    let d := x_224
    let w ← Tr.indexSet w 4 x_222
    pure (w, a, b, c, d, e, f, g, h)

/-- round!(d, e, f, g, h, a, b, c, 0x766a0abb3c77b2a8, w[5], w[3], w[14], w[6]) -/
def Engine.process_block_small.line1_37 (cfg : Cfg) : Source.Sha512.Engine.process_block_small.State1 → Tr Source.Sha512.Engine.process_block_small.State1 :=
  fun (w, a, b, c, d, e, f, g, h) => do
    let x_226 ← Tr.index w 5
    let x_227 ← Tr.index w 3
    let x_228 ← Tr.index w 14
    let x_229 ← Tr.index w 6
    let (x_230, x_231, x_232) := Source.Sha512.small_hash.later_round cfg d e f g h a b c 0x766a0abb3c77b2a8#64 x_226 x_227 x_228 x_229
    let g := x_231
    let c := x_232
    let w ← Tr.indexSet w 5 x_230
    pure (w, a, b, c, d, e, f, g, h)

/-- round!(c, d, e, f, g, h, a, b, 0x81c2c92e47edaee6, w[6], w[4], w[15], w[7]) -/
def Engine.process_block_small.line1_38 (cfg : Cfg) : Source.Sha512.Engine.process_block_small.State1 → Tr Source.Sha512.Engine.process_block_small.State1 :=
  fun (w, a, b, c, d, e, f, g, h) => do
    let x_234 ← Tr.index w 6
    let x_235 ← Tr.index w 4
    let x_236 ← Tr.index w 15
    let x_237 ← Tr.index w 7
    let (x_238, x_239, x_240) := Source.Sha512.small_hash.later_round cfg c d e f g h a b 0x81c2c92e47edaee6#64 x_234 x_235 x_236 x_237
    let f := x_239
    let b := x_240
    let w ← Tr.indexSet w 6 x_238
    pure (w, a, b, c, d, e, f, g, h)

/-- round!(b, c, d, e, f, g, h, a, 0x92722c851482353b, w[7], w[5], w[0], w[8]) -/
def Engine.process_block_small.line1_39 (cfg : Cfg) : Source.Sha512.Engine.process_block_small.State1 → Tr Source.Sha512.Engine.process_block_small.State1 :=
  fun (w, a, b, c, d, e, f, g, h) => do
    let x_242 ← Tr.index w 7
    let x_243 ← Tr.index w 5
    let x_244 ← Tr.index w 0
    let x_245 ← Tr.index w 8
    let (x_246, x_247, x_248) := Source.Sha512.small_hash.later_round cfg b c d e f g h a 0x92722c851482353b#64 x_242 x_243 x_244 x_245
    let e := x_247
    let a := x_248
    let w ← Tr.indexSet w 7 x_246
    pure (w, a, b, c, d, e, f, g, h)

/-- round!(a, b, c, d, e, f, g, h, 0xa2bfe8a14cf10364, w[8], w[6], w[1], w[9]) -/
def Engine.process_block_small.line1_40 (cfg : Cfg) : Source.Sha512.Engine.process_block_small.State1 → Tr Source.Sha512.Engine.process_block_small.State1 :=
  fun (w, a, b, c, d, e, f, g, h) => do
    let x_250 ← Tr.index w 8
    let x_251 ← Tr.index w 6
    let x_252 ← Tr.index w 1
    let x_253 ← Tr.index w 9
    let (x_254, x_255, x_256) := Source.Sha512.small_hash.later_round cfg a b c d e f g h 0xa2bfe8a14cf10364#64 x_250 x_251 x_252 x_253
    let d := x_255
    let h := x_256
    let w ← Tr.indexSet w 8 x_254
    pure (w, a, b, c, d, e, f, g, h)

/-- round!(h, a, b, c, d, e, f, g, 0xa81a664bbc423001, w[9], w[7], w[2], w[10]) -/
def Engine.process_block_small.line1_41 (cfg : Cfg) : Source.Sha512.Engine.process_block_small.State1 → Tr Source.Sha512.Engine.process_block_small.State1 :=
  fun (w, a, b, c, d, e, f, g, h) => do
    let x_258 ← Tr.index w 9
    let x_259 ← Tr.index w 7
    let x_260 ← Tr.index w 2
    let x_261 ← Tr.index w 10
    let (x_262, x_263, x_264) := Source.Sha512.small_hash.later_round cfg h a b c d e f g 0xa81a664bbc423001#64 x_258 x_259 x_260 x_261
    let c := x_263
    let g := x_264
    let w ← Tr.indexSet w 9 x_262
    pure (w, a, b, c, d, e, f, g, h)

/-- round!(g, h, a, b, c, d, e, f, 0xc24b8b70d0f89791, w[10], w[8], w[3], w[11]) -/
def Engine.process_block_small.line1_42 (cfg : Cfg) : Source.Sha512.Engine.process_block_small.State1 → Tr Source.Sha512.Engine.process_block_small.State1 :=
  fun (w, a, b, c, d, e, f, g, h) => do
    let x_266 ← Tr.index w 10
    let x_267 ← Tr.index w 8
    let x_268 ← Tr.index w 3
    let x_269 ← Tr.index w 11
    let (x_270, x_271, x_272) := Source.Sha512.small_hash.later_round cfg g h a b c d e f 0xc24b8b70d0f89791#64 x_266 x_267 x_268 x_269
    let b := x_271
    let f := x_272
    let w ← Tr.indexSet w 10 x_270
    pure (w, a, b, c, d, e, f, g, h)

/-- round!(f, g, h, a, b, c, d, e, 0xc76c51a30654be30, w[11], w[9], w[4], w[12]) -/
def Engine.process_block_small.line1_43 (cfg : Cfg) : Source.Sha512.Engine.process_block_small.State1 → Tr Source.Sha512.Engine.process_block_small.State1 :=
  fun (w, a, b, c, d, e, f, g, h) => do
    let x_274 ← Tr.index w 11
    let x_275 ← Tr.index w 9
    let x_276 ← Tr.index w 4
    let x_277 ← Tr.index w 12
    let (x_278, x_279, x_280) := Source.Sha512.small_hash.later_round cfg f g h a b c d e 0xc76c51a30654be30#64 x_274 x_275 x_276 x_277
    let a := x_279
    let e := x_280
    let w ← Tr.indexSet w 11 x_278
    pure (w, a, b, c, d, e, f, g, h)

/-- round!(e, f, g, h, a, b, c, d, 0xd192e819d6ef5218, w[12], w[10], w[5], w[13]) -/
def Engine.process_block_small.line1_44 (cfg : Cfg) : Source.Sha512.Engine.process_block_small.State1 → Tr Source.Sha512.Engine.process_block_small.State1 :=
  fun (w, a, b, c, d, e, f, g, h) => do
    let x_282 ← Tr.index w 12
    let x_283 ← Tr.index w 10
    let x_284 ← Tr.index w 5
    let x_285 ← Tr.index w 13
    let (x_286, x_287, x_288) := Source.Sha512.small_hash.later_round cfg e f g h a b c d 0xd192e819d6ef5218#64 x_282 x_283 x_284 x_285
    let h := x_287
    let d := x_288
    let w ← Tr.indexSet w 12 x_286
    pure (w, a, b, c, d, e, f, g, h)

/-- round!(d, e, f, g, h, a, b, c, 0xd69906245565a910, w[13], w[11], w[6], w[14]) -/
def Engine.process_block_small.line1_45 (cfg : Cfg) : Source.Sha512.Engine.process_block_small.State1 → Tr Source.Sha512.Engine.process_block_small.State1 :=
  fun (w, a, b, c, d, e, f, g, h) => do
    let x_290 ← Tr.index w 13
    let x_291 ← Tr.index w 11
    let x_292 ← Tr.index w 6
    let x_293 ← Tr.index w 14
    let (x_294, x_295, x_296) := Source.Sha512.small_hash.later_round cfg d e f g h a b c 0xd69906245565a910#64 x_290 x_291 x_292 x_293
    let g := x_295
    let c := x_296
    let w ← Tr.indexSet w 13 x_294
    pure (w, a, b, c, d, e, f, g, h)

/-- round!(c, d, e, f, g, h, a, b, 0xf40e35855771202a, w[14], w[12], w[7], w[15]) -/
def Engine.process_block_small.line1_46 (cfg : Cfg) : Source.Sha512.Engine.process_block_small.State1 → Tr Source.Sha512.Engine.process_block_small.State1 :=
  fun (w, a, b, c, d, e, f, g, h) => do
    let x_298 ← Tr.index w 14
    let x_299 ← Tr.index w 12
    let x_300 ← Tr.index w 7
    let x_301 ← Tr.index w 15
    let (x_302, x_303, x_304) := Source.Sha512.small_hash.later_round cfg c d e f g h a b 0xf40e35855771202a#64 x_298 x_299 x_300 x_301
    let f := x_303
    let b := x_304
    let w ← Tr.indexSet w 14 x_302
    pure (w, a, b, c, d, e, f, g, h)

/-- round!(b, c, d, e, f, g, h, a, 0x106aa07032bbd1b8, w[15], w[13], w[8], w[0]) -/
def Engine.process_block_small.line1_47 (cfg : Cfg) : Source.Sha512.Engine.process_block_small.State1 → Tr Source.Sha512.Engine.process_block_small.State1 :=
  fun (w, a, b, c, d, e, f, g, h) => do
    let x_306 ← Tr.index w 15
    let x_307 ← Tr.index w 13
    let x_308 ← Tr.index w 8
    let x_309 ← Tr.index w 0
    let (x_310, x_311, x_312) := Source.Sha512.small_hash.later_round cfg b c d e f g h a 0x106aa07032bbd1b8#64 x_306 x_307 x_308 x_309
    let e := x_311
    let a := x_312
    let w ← Tr.indexSet w 15 x_310
    pure (w, a, b, c, d, e, f, g, h)

/-- round!(a, b, c, d, e, f, g, h, 0x19a4c116b8d2d0c8, w[0], w[14], w[9], w[1]) -/
def Engine.process_block_small.line1_48 (cfg : Cfg) : Source.Sha512.Engine.process_block_small.State1 → Tr Source.Sha512.Engine.process_block_small.State1 :=
  fun (w, a, b, c, d, e, f, g, h) => do
    let x_314 ← Tr.index w 0
    let x_315 ← Tr.index w 14
    let x_316 ← Tr.index w 9
    let x_317 ← Tr.index w 1
    let (x_318, x_319, x_320) := Source.Sha512.small_hash.later_round cfg a b c d e f g h 0x19a4c116b8d2d0c8#64 x_314 x_315 x_316 x_317
    let d := x_319
    let h := x_320
    let w ← Tr.indexSet w 0 x_318
    pure (w, a, b, c, d, e, f, g, h)

/-- round!(h, a, b, c, d, e, f, g, 0x1e376c085141ab53, w[1], w[15], w[10], w[2]) -/
def Engine.process_block_small.line1_49 (cfg : Cfg) : Source.Sha512.Engine.process_block_small.State1 → Tr Source.Sha512.Engine.process_block_small.State1 :=
  fun (w, a, b, c, d, e, f, g, h) => do
    let x_322 ← Tr.index w 1
    let x_323 ← Tr.index w 15
    let x_324 ← Tr.index w 10
    let x_325 ← Tr.index w 2
    let (x_326, x_327, x_328) := Source.Sha512.small_hash.later_round cfg h a b c d e f g 0x1e376c085141ab53#64 x_322 x_323 x_324 x_325
    let c := x_327
    let g := x_328
    let w ← Tr.indexSet w 1 x_326
    pure (w, a, b, c, d, e, f, g, h)

/-- round!(g, h, a, b, c, d, e, f, 0x2748774cdf8eeb99, w[2], w[0], w[11], w[3]) -/
def Engine.process_block_small.line1_50 (cfg : Cfg) : Source.Sha512.Engine.process_block_small.State1 → Tr Source.Sha512.Engine.process_block_small.State1 :=
  fun (w, a, b, c, d, e, f, g, h) => do
    let x_330 ← Tr.index w 2
    let x_331 ← Tr.index w 0
    let x_332 ← Tr.index w 11
    let x_333 ← Tr.index w 3
    let (x_334, x_335, x_336) := Source.Sha512.small_hash.later_round cfg g h a b c d e f 0x2748774cdf8eeb99#64 x_330 x_331 x_332 x_333
    let b := x_335
    let f := x_336
    let w ← Tr.indexSet w 2 x_334
    pure (w, a, b, c, d, e, f, g, h)

/-- round!(f, g, h, a, b, c, d, e, 0x34b0bcb5e19b48a8, w[3], w[1], w[12], w[4]) -/
def Engine.process_block_small.line1_51 (cfg : Cfg) : Source.Sha512.Engine.process_block_small.State1 → Tr Source.Sha512.Engine.process_block_small.State1 :=
  fun (w, a, b, c, d, e, f, g, h) => do
    let x_338 ← Tr.index w 3
    let x_339 ← Tr.index w 1
    let x_340 ← Tr.index w 12
    let x_341 ← Tr.index w 4
    let (x_342, x_343, x_344) := Source.Sha512.small_hash.later_round cfg f g h a b c d e 0x34b0bcb5e19b48a8#64 x_338 x_339 x_340 x_341
    let a := x_343
    let e := x_344
    let w ← Tr.indexSet w 3 x_342
    pure (w, a, b, c, d, e, f, g, h)

/-- round!(e, f, g, h, a, b, c, d, 0x391c0cb3c5c95a63, w[4], w[2], w[13], w[5]) -/
def Engine.process_block_small.line1_52 (cfg : Cfg) : Source.Sha512.Engine.process_block_small.State1 → Tr Source.Sha512.Engine.process_block_small.State1 :=
  fun (w, a, b, c, d, e, f, g, h) => do
    let x_346 ← Tr.index w 4
    let x_347 ← Tr.index w 2
    let x_348 ← Tr.index w 13
    let x_349 ← Tr.index w 5
    let (x_350, x_351, x_352) := Source.Sha512.small_hash.later_round cfg e f g h a b c d 0x391c0cb3c5c95a63#64 x_346 x_347 x_348 x_349
    let h := x_351
    let d := x_352
    let w ← Tr.indexSet w 4 x_350
    pure (w, a, b, c, d, e, f, g, h)

/-- round!(d, e, f, g, h, a, b, c, 0x4ed8aa4ae3418acb, w[5], w[3], w[14], w[6]) -/
def Engine.process_block_small.line1_53 (cfg : Cfg) : Source.Sha512.Engine.process_block_small.State1 → Tr Source.Sha512.Engine.process_block_small.State1 :=
  fun (w, a, b, c, d, e, f, g, h) => do
    let x_354 ← Tr.index w 5
    let x_355 ← Tr.index w 3
    let x_356 ← Tr.index w 14
    let x_357 ← Tr.index w 6
    let (x_358, x_359, x_360) := Source.Sha512.small_hash.later_round cfg d e f g h a b c 0x4ed8aa4ae3418acb#64 x_354 x_355 x_356 x_357
    let g := x_359
    let c := x_360
    let w ← Tr.indexSet w 5 x_358
    pure (w, a, b, c, d, e, f, g, h)

/-- round!(c, d, e, f, g, h, a, b, 0x5b9cca4f7763e373, w[6], w[4], w[15], w[7]) -/
def Engine.process_block_small.line1_54 (cfg : Cfg) : Source.Sha512.Engine.process_block_small.State1 → Tr Source.Sha512.Engine.process_block_small.State1 :=
  fun (w, a, b, c, d, e, f, g, h) => do
    let x_362 ← Tr.index w 6
    let x_363 ← Tr.index w 4
    let x_364 ← Tr.index w 15
    let x_365 ← Tr.index w 7
    let (x_366, x_367, x_368) := Source.Sha512.small_hash.later_round cfg c d e f g h a b 0x5b9cca4f7763e373#64 x_362 x_363 x_364 x_365
    let f := x_367
    let b := x_368
    let w ← Tr.indexSet w 6 x_366
    pure (w, a, b, c, d, e, f, g, h)

/-- round!(b, c, d, e, f, g, h, a, 0x682e6ff3d6b2b8a3, w[7], w[5], w[0], w[8]) -/
def Engine.process_block_small.line1_55 (cfg : Cfg) : Source.Sha512.Engine.process_block_small.State1 → Tr Source.Sha512.Engine.process_block_small.State1 :=
  fun (w, a, b, c, d, e, f, g, h) => do
    let x_370 ← Tr.index w 7
    let x_371 ← Tr.index w 5
    let x_372 ← Tr.index w 0
    let x_373 ← Tr.index w 8
    let (x_374, x_375, x_376) := Source.Sha512.small_hash.later_round cfg b c d e f g h a 0x682e6ff3d6b2b8a3#64 x_370 x_371 x_372 x_373
    let e := x_375
    let a := x_376
    let w ← Tr.indexSet w 7 x_374
    pure (w, a, b, c, d, e, f, g, h)

/-- round!(a, b, c, d, e, f, g, h, 0x748f82ee5defb2fc, w[8], w[6], w[1], w[9]) -/
def Engine.process_block_small.line1_56 (cfg : Cfg) : Source.Sha512.Engine.process_block_small.State1 → Tr Source.Sha512.Engine.process_block_small.State1 :=
  fun (w, a, b, c, d, e, f, g, h) => do
    let x_378 ← Tr.index w 8
    let x_379 ← Tr.index w 6
    let x_380 ← Tr.index w 1
    let x_381 ← Tr.index w 9
    let (x_382, x_383, x_384) := Source.Sha512.small_hash.later_round cfg a b c d e f g h 0x748f82ee5defb2fc#64 x_378 x_379 x_380 x_381
    let d := x_383
    let h := x_384
    let w ← Tr.indexSet w 8 x_382
    pure (w, a, b, c, d, e, f, g, h)

/-- round!(h, a, b, c, d, e, f, g, 0x78a5636f43172f60, w[9], w[7], w[2], w[10]) -/
def Engine.process_block_small.line1_57 (cfg : Cfg) : Source.Sha512.Engine.process_block_small.State1 → Tr Source.Sha512.Engine.process_block_small.State1 :=
  fun (w, a, b, c, d, e, f, g, h) => do
    let x_386 ← Tr.index w 9
    let x_387 ← Tr.index w 7
    let x_388 ← Tr.index w 2
    let x_389 ← Tr.index w 10
    let (x_390, x_391, x_392) := Source.Sha512.small_hash.later_round cfg h a b c d e f g 0x78a5636f43172f60#64 x_386 x_387 x_388 x_389
    let c := x_391
    let g := x_392
    let w ← Tr.indexSet w 9 x_390
    pure (w, a, b, c, d, e, f, g, h)

/-- round!(g, h, a, b, c, d, e, f, 0x84c87814a1f0ab72, w[10], w[8], w[3], w[11]) -/
def Engine.process_block_small.line1_58 (cfg : Cfg) : Source.Sha512.Engine.process_block_small.State1 → Tr Source.Sha512.Engine.process_block_small.State1 :=
  fun (w, a, b, c, d, e, f, g, h) => do
    let x_394 ← Tr.index w 10
    let x_395 ← Tr.index w 8
    let x_396 ← Tr.index w 3
    let x_397 ← Tr.index w 11
    let (x_398, x_399, x_400) := Source.Sha512.small_hash.later_round cfg g h a b c d e f 0x84c87814a1f0ab72#64 x_394 x_395 x_396 x_397
    let b := x_399
    let f := x_400
    let w ← Tr.indexSet w 10 x_398
    pure (w, a, b, c, d, e, f, g, h)

/-- round!(f, g, h, a, b, c, d, e, 0x8cc702081a6439ec, w[11], w[9], w[4], w[12]) -/
def Engine.process_block_small.line1_59 (cfg : Cfg) : Source.Sha512.Engine.process_block_small.State1 → Tr Source.Sha512.Engine.process_block_small.State1 :=
  fun (w, a, b, c, d, e, f, g, h) => do
    let x_402 ← Tr.index w 11
    let x_403 ← Tr.index w 9
    let x_404 ← Tr.index w 4
    let x_405 ← Tr.index w 12
    let (x_406, x_407, x_408) := Source.Sha512.small_hash.later_round cfg f g h a b c d e 0x8cc702081a6439ec#64 x_402 x_403 x_404 x_405
    let a := x_407
    let e := x_408
    let w ← Tr.indexSet w 11 x_406
    pure (w, a, b, c, d, e, f, g, h)

/-- round!(e, f, g, h, a, b, c, d, 0x90befffa23631e28, w[12], w[10], w[5], w[13]) -/
def Engine.process_block_small.line1_60 (cfg : Cfg) : Source.Sha512.Engine.process_block_small.State1 → Tr Source.Sha512.Engine.process_block_small.State1 :=
  fun (w, a, b, c, d, e, f, g, h) => do
    let x_410 ← Tr.index w 12
    let x_411 ← Tr.index w 10
    let x_412 ← Tr.index w 5
    let x_413 ← Tr.index w 13
    let (x_414, x_415, x_416) := Source.Sha512.small_hash.later_round cfg e f g h a b c d 0x90befffa23631e28#64 x_410 x_411 x_412 x_413
    let h := x_415
    let d := x_416
    let w ← Tr.indexSet w 12 x_414
    pure (w, a, b, c, d, e, f, g, h)

/-- round!(d, e, f, g, h, a, b, c, 0xa4506cebde82bde9, w[13], w[11], w[6], w[14]) -/
def Engine.process_block_small.line1_61 (cfg : Cfg) : Source.Sha512.Engine.process_block_small.State1 → Tr Source.Sha512.Engine.process_block_small.State1 :=
  fun (w, a, b, c, d, e, f, g, h) => do
    let x_418 ← Tr.index w 13
    let x_419 ← Tr.index w 11
    let x_420 ← Tr.index w 6
    let x_421 ← Tr.index w 14
    let (x_422, x_423, x_424) := Source.Sha512.small_hash.later_round cfg d e f g h a b c 0xa4506cebde82bde9#64 x_418 x_419 x_420 x_421
    let g := x_423
    let c := x_424
    let w ← Tr.indexSet w 13 x_422
    pure (w, a, b, c, d, e, f, g, h)

/-- round!(c, d, e, f, g, h, a, b, 0xbef9a3f7b2c67915, w[14], w[12], w[7], w[15]) -/
def Engine.process_block_small.line1_62 (cfg : Cfg) : Source.Sha512.Engine.process_block_small.State1 → Tr Source.Sha512.Engine.process_block_small.State1 :=
  fun (w, a, b, c, d, e, f, g, h) => do
    let x_426 ← Tr.index w 14
    let x_427 ← Tr.index w 12
    let x_428 ← Tr.index w 7
    let x_429 ← Tr.index w 15
    let (x_430, x_431, x_432) := Source.Sha512.small_hash.later_round cfg c d e f g h a b 0xbef9a3f7b2c67915#64 x_426 x_427 x_428 x_429
    let f := x_431
    let b := x_432
    let w ← Tr.indexSet w 14 x_430
    pure (w, a, b, c, d, e, f, g, h)

/-- round!(b, c, d, e, f, g, h, a, 0xc67178f2e372532b, w[15], w[13], w[8], w[0]) -/
def Engine.process_block_small.line1_63 (cfg : Cfg) : Source.Sha512.Engine.process_block_small.State1 → Tr Source.Sha512.Engine.process_block_small.State1 :=
  fun (w, a, b, c, d, e, f, g, h) => do
    let x_434 ← Tr.index w 15
    let x_435 ← Tr.index w 13
    let x_436 ← Tr.index w 8
    let x_437 ← Tr.index w 0
    let (x_438, x_439, x_440) := Source.Sha512.small_hash.later_round cfg b c d e f g h a 0xc67178f2e372532b#64 x_434 x_435 x_436 x_437
    let e := x_439
    let a := x_440
    let w ← Tr.indexSet w 15 x_438
    pure (w, a, b, c, d, e, f, g, h)

/-- round!(a, b, c, d, e, f, g, h, 0xca273eceea26619c, w[0], w[14], w[9], w[1]) -/
def Engine.process_block_small.line1_64 (cfg : Cfg) : Source.Sha512.Engine.process_block_small.State1 → Tr Source.Sha512.Engine.process_block_small.State1 :=
  fun (w, a, b, c, d, e, f, g, h) => do
    let x_442 ← Tr.index w 0
    let x_443 ← Tr.index w 14
    let x_444 ← Tr.index w 9
    let x_445 ← Tr.index w 1
    let (x_446, x_447, x_448) := Source.Sha512.small_hash.later_round cfg a b c d e f g h 0xca273eceea26619c#64 x_442 x_443 x_444 x_445
    let d := x_447
    let h := x_448
    let w ← Tr.indexSet w 0 x_446
    pure (w, a, b, c, d, e, f, g, h)

/-- round!(h, a, b, c, d, e, f, g, 0xd186b8c721c0c207, w[1], w[15], w[10], w[2]) -/
def Engine.process_block_small.line1_65 (cfg : Cfg) : Source.Sha512.Engine.process_block_small.State1 → Tr Source.Sha512.Engine.process_block_small.State1 :=
  fun (w, a, b, c, d, e, f, g, h) => do
    let x_450 ← Tr.index w 1
    let x_451 ← Tr.index w 15
    let x_452 ← Tr.index w 10
    let x_453 ← Tr.index w 2
    let (x_454, x_455, x_456) := Source.Sha512.small_hash.later_round cfg h a b c d e f g 0xd186b8c721c0c207#64 x_450 x_451 x_452 x_453
    let c := x_455
    let g := x_456
    let w ← Tr.indexSet w 1 x_454
    pure (w, a, b, c, d, e, f, g, h)

/-- round!(g, h, a, b, c, d, e, f, 0xeada7dd6cde0eb1e, w[2], w[0], w[11], w[3]) -/
def Engine.process_block_small.line1_66 (cfg : Cfg) : Source.Sha512.Engine.process_block_small.State1 → Tr Source.Sha512.Engine.process_block_small.State1 :=
  fun (w, a, b, c, d, e, f, g, h) => do
    let x_458 ← Tr.index w 2
    let x_459 ← Tr.index w 0
    let x_460 ← Tr.index w 11
    let x_461 ← Tr.index w 3
    let (x_462, x_463, x_464) := Source.Sha512.small_hash.later_round cfg g h a b c d e f 0xeada7dd6cde0eb1e#64 x_458 x_459 x_460 x_461
    let b := x_463
    let f := x_464
    let w ← Tr.indexSet w 2 x_462
    pure (w, a, b, c, d, e, f, g, h)

/-- round!(f, g, h, a, b, c, d, e, 0xf57d4f7fee6ed178, w[3], w[1], w[12], w[4]) -/
def Engine.process_block_small.line1_67 (cfg : Cfg) : Source.Sha512.Engine.process_block_small.State1 → Tr Source.Sha512.Engine.process_block_small.State1 :=
  fun (w, a, b, c, d, e, f, g, h) => do
    let x_466 ← Tr.index w 3
    let x_467 ← Tr.index w 1
    let x_468 ← Tr.index w 12
    let x_469 ← Tr.index w 4
    let (x_470, x_471, x_472) := Source.Sha512.small_hash.later_round cfg f g h a b c d e 0xf57d4f7fee6ed178#64 x_466 x_467 x_468 x_469
    let a := x_471
    let e := x_472
    let w ← Tr.indexSet w 3 x_470
    pure (w, a, b, c, d, e, f, g, h)

/-- round!(e, f, g, h, a, b, c, d, 0x06f067aa72176fba, w[4], w[2], w[13], w[5]) -/
def Engine.process_block_small.line1_68 (cfg : Cfg) : Source.Sha512.Engine.process_block_small.State1 → Tr Source.Sha512.Engine.process_block_small.State1 :=
  fun (w, a, b, c, d, e, f, g, h) => do
    let x_474 ← Tr.index w 4
    let x_475 ← Tr.index w 2
    let x_476 ← Tr.index w 13
    let x_477 ← Tr.index w 5
    let (x_478, x_479, x_480) := Source.Sha512.small_hash.later_round cfg e f g h a b c d 0x06f067aa72176fba#64 x_474 x_475 x_476 x_477
    let h := x_479
    let d := x_480
    let w ← Tr.indexSet w 4 x_478
    pure (w, a, b, c, d, e, f, g, h)

/-- round!(d, e, f, g, h, a, b, c, 0x0a637dc5a2c898a6, w[5], w[3], w[14], w[6]) -/
def Engine.process_block_small.line1_69 (cfg : Cfg) : Source.Sha512.Engine.process_block_small.State1 → Tr Source.Sha512.Engine.process_block_small.State1 :=
  fun (w, a, b, c, d, e, f, g, h) => do
    let x_482 ← Tr.index w 5
    let x_483 ← Tr.index w 3
    let x_484 ← Tr.index w 14
    let x_485 ← Tr.index w 6
    let (x_486, x_487, x_488) := Source.Sha512.small_hash.later_round cfg d e f g h a b c 0x0a637dc5a2c898a6#64 x_482 x_483 x_484 x_485
    let g := x_487
    let c := x_488
    let w ← Tr.indexSet w 5 x_486
    pure (w, a, b, c, d, e, f, g, h)

/-- round!(c, d, e, f, g, h, a, b, 0x113f9804bef90dae, w[6], w[4], w[15], w[7]) -/
def Engine.process_block_small.line1_70 (cfg : Cfg) : Source.Sha512.Engine.process_block_small.State1 → Tr Source.Sha512.Engine.process_block_small.State1 :=
  fun (w, a, b, c, d, e, f, g, h) => do
    let x_490 ← Tr.index w 6
    let x_491 ← Tr.index w 4
    let x_492 ← Tr.index w 15
    let x_493 ← Tr.index w 7
    let (x_494, x_495, x_496) := Source.Sha512.small_hash.later_round cfg c d e f g h a b 0x113f9804bef90dae#64 x_490 x_491 x_492 x_493
    let f := x_495
    let b := x_496
    let w ← Tr.indexSet w 6 x_494
    pure (w, a, b, c, d, e, f, g, h)

/-- round!(b, c, d, e, f, g, h, a, 0x1b710b35131c471b, w[7], w[5], w[0], w[8]) -/
def Engine.process_block_small.line1_71 (cfg : Cfg) : Source.Sha512.Engine.process_block_small.State1 → Tr Source.Sha512.Engine.process_block_small.State1 :=
  fun (w, a, b, c, d, e, f, g, h) => do
    let x_498 ← Tr.index w 7
    let x_499 ← Tr.index w 5
    let x_500 ← Tr.index w 0
    let x_501 ← Tr.index w 8
    let (x_502, x_503, x_504) := Source.Sha512.small_hash.later_round cfg b c d e f g h a 0x1b710b35131c471b#64 x_498 x_499 x_500 x_501
    let e := x_503
    let a := x_504
    let w ← Tr.indexSet w 7 x_502
    pure (w, a, b, c, d, e, f, g, h)

/-- round!(a, b, c, d, e, f, g, h, 0x28db77f523047d84, w[8], w[6], w[1], w[9]) -/
def Engine.process_block_small.line1_72 (cfg : Cfg) : Source.Sha512.Engine.process_block_small.State1 → Tr Source.Sha512.Engine.process_block_small.State1 :=
  fun (w, a, b, c, d, e, f, g, h) => do
    let x_506 ← Tr.index w 8
    let x_507 ← Tr.index w 6
    let x_508 ← Tr.index w 1
    let x_509 ← Tr.index w 9
    let (x_510, x_511, x_512) := Source.Sha512.small_hash.later_round cfg a b c d e f g h 0x28db77f523047d84#64 x_506 x_507 x_508 x_509
    let d := x_511
    let h := x_512
    let w ← Tr.indexSet w 8 x_510
    pure (w, a, b, c, d, e, f, g, h)

/-- round!(h, a, b, c, d, e, f, g, 0x32caab7b40c72493, w[9], w[7], w[2], w[10]) -/
def Engine.process_block_small.line1_73 (cfg : Cfg) : Source.Sha512.Engine.process_block_small.State1 → Tr Source.Sha512.Engine.process_block_small.State1 :=
  fun (w, a, b, c, d, e, f, g, h) => do
    let x_514 ← Tr.index w 9
    let x_515 ← Tr.index w 7
    let x_516 ← Tr.index w 2
    let x_517 ← Tr.index w 10
    let (x_518, x_519, x_520) := Source.Sha512.small_hash.later_round cfg h a b c d e f g 0x32caab7b40c72493#64 x_514 x_515 x_516 x_517
    let c := x_519
    let g := x_520
    let w ← Tr.indexSet w 9 x_518
    pure (w, a, b, c, d, e, f, g, h)

/-- round!(g, h, a, b, c, d, e, f, 0x3c9ebe0a15c9bebc, w[10], w[8], w[3], w[11]) -/
def Engine.process_block_small.line1_74 (cfg : Cfg) : Source.Sha512.Engine.process_block_small.State1 → Tr Source.Sha512.Engine.process_block_small.State1 :=
  fun (w, a, b, c, d, e, f, g, h) => do
    let x_522 ← Tr.index w 10
    let x_523 ← Tr.index w 8
    let x_524 ← Tr.index w 3
    let x_525 ← Tr.index w 11
    let (x_526, x_527, x_528) := Source.Sha512.small_hash.later_round cfg g h a b c d e f 0x3c9ebe0a15c9bebc#64 x_522 x_523 x_524 x_525
    let b := x_527
    let f := x_528
    let w ← Tr.indexSet w 10 x_526
    pure (w, a, b, c, d, e, f, g, h)

/-- round!(f, g, h, a, b, c, d, e, 0x431d67c49c100d4c, w[11], w[9], w[4], w[12]) -/
def Engine.process_block_small.line1_75 (cfg : Cfg) : Source.Sha512.Engine.process_block_small.State1 → Tr Source.Sha512.Engine.process_block_small.State1 :=
  fun (w, a, b, c, d, e, f, g, h) => do
    let x_530 ← Tr.index w 11
    let x_531 ← Tr.index w 9
    let x_532 ← Tr.index w 4
    let x_533 ← Tr.index w 12
    let (x_534, x_535, x_536) := Source.Sha512.small_hash.later_round cfg f g h a b c d e 0x431d67c49c100d4c#64 x_530 x_531 x_532 x_533
    let a := x_535
    let e := x_536
    let w ← Tr.indexSet w 11 x_534
    pure (w, a, b, c, d, e, f, g, h)

/-- round!(e, f, g, h, a, b, c, d, 0x4cc5d4becb3e42b6, w[12], w[10], w[5], w[13]) -/
def Engine.process_block_small.line1_76 (cfg : Cfg) : Source.Sha512.Engine.process_block_small.State1 → Tr Source.Sha512.Engine.process_block_small.State1 :=
  fun (w, a, b, c, d, e, f, g, h) => do
    let x_538 ← Tr.index w 12
    let x_539 ← Tr.index w 10
    let x_540 ← Tr.index w 5
    let x_541 ← Tr.index w 13
    let (x_542, x_543, x_544) := Source.Sha512.small_hash.later_round cfg e f g h a b c d 0x4cc5d4becb3e42b6#64 x_538 x_539 x_540 x_541
    let h := x_543
    let d := x_544
    let w ← Tr.indexSet w 12 x_542
    pure (w, a, b, c, d, e, f, g, h)

/-- round!(d, e, f, g, h, a, b, c, 0x597f299cfc657e2a, w[13], w[11], w[6], w[14]) -/
def Engine.process_block_small.line1_77 (cfg : Cfg) : Source.Sha512.Engine.process_block_small.State1 → Tr Source.Sha512.Engine.process_block_small.State1 :=
  fun (w, a, b, c, d, e, f, g, h) => do
    let x_546 ← Tr.index w 13
    let x_547 ← Tr.index w 11
    let x_548 ← Tr.index w 6
    let x_549 ← Tr.index w 14
    let (x_550, x_551, x_552) := Source.Sha512.small_hash.later_round cfg d e f g h a b c 0x597f299cfc657e2a#64 x_546 x_547 x_548 x_549
    let g := x_551
    let c := x_552
    let w ← Tr.indexSet w 13 x_550
    pure (w, a, b, c, d, e, f, g, h)

/-- round!(c, d, e, f, g, h, a, b, 0x5fcb6fab3ad6faec, w[14], w[12], w[7], w[15]) -/
def Engine.process_block_small.line1_78 (cfg : Cfg) : Source.Sha512.Engine.process_block_small.State1 → Tr Source.Sha512.Engine.process_block_small.State1 :=
  fun (w, a, b, c, d, e, f, g, h) => do
    let x_554 ← Tr.index w 14
    let x_555 ← Tr.index w 12
    let x_556 ← Tr.index w 7
    let x_557 ← Tr.index w 15
    let (x_558, x_559, x_560) := Source.Sha512.small_hash.later_round cfg c d e f g h a b 0x5fcb6fab3ad6faec#64 x_554 x_555 x_556 x_557
    let f := x_559
    let b := x_560
    let w ← Tr.indexSet w 14 x_558
    pure (w, a, b, c, d, e, f, g, h)

/-- round!(b, c, d, e, f, g, h, a, 0x6c44198c4a475817, w[15], w[13], w[8], w[0]) -/
def Engine.process_block_small.line1_79 (cfg : Cfg) : Source.Sha512.Engine.process_block_small.State1 → Tr Source.Sha512.Engine.process_block_small.State1 :=
  fun (w, a, b, c, d, e, f, g, h) => do
    let x_562 ← Tr.index w 15
    let x_563 ← Tr.index w 13
    let x_564 ← Tr.index w 8
    let x_565 ← Tr.index w 0
    let (x_566, x_567, x_568) := Source.Sha512.small_hash.later_round cfg b c d e f g h a 0x6c44198c4a475817#64 x_562 x_563 x_564 x_565
    let e := x_567
    let a := x_568
    let w ← Tr.indexSet w 15 x_566
    pure (w, a, b, c, d, e, f, g, h)

/-- The 80 statements. -/
def Engine.process_block_small.lines1 (cfg : Cfg) : List (Source.Sha512.Engine.process_block_small.State1 → Tr Source.Sha512.Engine.process_block_small.State1) := [
  Seen.Sha512.Engine.process_block_small.line1_0 cfg,
  Seen.Sha512.Engine.process_block_small.line1_1 cfg,
  Seen.Sha512.Engine.process_block_small.line1_2 cfg,
  Seen.Sha512.Engine.process_block_small.line1_3 cfg,
  Seen.Sha512.Engine.process_block_small.line1_4 cfg,
  Seen.Sha512.Engine.process_block_small.line1_5 cfg,
  Seen.Sha512.Engine.process_block_small.line1_6 cfg,
  Seen.Sha512.Engine.process_block_small.line1_7 cfg,
  Seen.Sha512.Engine.process_block_small.line1_8 cfg,
  Seen.Sha512.Engine.process_block_small.line1_9 cfg,
  Seen.Sha512.Engine.process_block_small.line1_10 cfg,
  Seen.Sha512.Engine.process_block_small.line1_11 cfg,
  Seen.Sha512.Engine.process_block_small.line1_12 cfg,
  Seen.Sha512.Engine.process_block_small.line1_13 cfg,
  Seen.Sha512.Engine.process_block_small.line1_14 cfg,
  Seen.Sha512.Engine.process_block_small.line1_15 cfg,
  Seen.Sha512.Engine.process_block_small.line1_16 cfg,
  Seen.Sha512.Engine.process_block_small.line1_17 cfg,
  Seen.Sha512.Engine.process_block_small.line1_18 cfg,
  Seen.Sha512.Engine.process_block_small.line1_19 cfg,
  Seen.Sha512.Engine.process_block_small.line1_20 cfg,
  Seen.Sha512.Engine.process_block_small.line1_21 cfg,
  Seen.Sha512.Engine.process_block_small.line1_22 cfg,
  Seen.Sha512.Engine.process_block_small.line1_23 cfg,
  Seen.Sha512.Engine.process_block_small.line1_24 cfg,
  Seen.Sha512.Engine.process_block_small.line1_25 cfg,
  Seen.Sha512.Engine.process_block_small.line1_26 cfg,
  Seen.Sha512.Engine.process_block_small.line1_27 cfg,
  Seen.Sha512.Engine.process_block_small.line1_28 cfg,
  Seen.Sha512.Engine.process_block_small.line1_29 cfg,
  Seen.Sha512.Engine.process_block_small.line1_30 cfg,
  Seen.Sha512.Engine.process_block_small.line1_31 cfg,
  Seen.Sha512.Engine.process_block_small.line1_32 cfg,
  Seen.Sha512.Engine.process_block_small.line1_33 cfg,
  Seen.Sha512.Engine.process_block_small.line1_34 cfg,
  Seen.Sha512.Engine.process_block_small.line1_35 cfg,
  Seen.Sha512.Engine.process_block_small.line1_36 cfg,
  Seen.Sha512.Engine.process_block_small.line1_37 cfg,
  Seen.Sha512.Engine.process_block_small.line1_38 cfg,
  Seen.Sha512.Engine.process_block_small.line1_39 cfg,
  Seen.Sha512.Engine.process_block_small.line1_40 cfg,
  Seen.Sha512.Engine.process_block_small.line1_41 cfg,
  Seen.Sha512.Engine.process_block_small.line1_42 cfg,
  Seen.Sha512.Engine.process_block_small.line1_43 cfg,
  Seen.Sha512.Engine.process_block_small.line1_44 cfg,
  Seen.Sha512.Engine.process_block_small.line1_45 cfg,
  Seen.Sha512.Engine.process_block_small.line1_46 cfg,
  Seen.Sha512.Engine.process_block_small.line1_47 cfg,
  Seen.Sha512.Engine.process_block_small.line1_48 cfg,
  Seen.Sha512.Engine.process_block_small.line1_49 cfg,
  Seen.Sha512.Engine.process_block_small.line1_50 cfg,
  Seen.Sha512.Engine.process_block_small.line1_51 cfg,
  Seen.Sha512.Engine.process_block_small.line1_52 cfg,
  Seen.Sha512.Engine.process_block_small.line1_53 cfg,
  Seen.Sha512.Engine.process_block_small.line1_54 cfg,
  Seen.Sha512.Engine.process_block_small.line1_55 cfg,
  Seen.Sha512.Engine.process_block_small.line1_56 cfg,
  Seen.Sha512.Engine.process_block_small.line1_57 cfg,
  Seen.Sha512.Engine.process_block_small.line1_58 cfg,
  Seen.Sha512.Engine.process_block_small.line1_59 cfg,
  Seen.Sha512.Engine.process_block_small.line1_60 cfg,
  Seen.Sha512.Engine.process_block_small.line1_61 cfg,
  Seen.Sha512.Engine.process_block_small.line1_62 cfg,
  Seen.Sha512.Engine.process_block_small.line1_63 cfg,
  Seen.Sha512.Engine.process_block_small.line1_64 cfg,
  Seen.Sha512.Engine.process_block_small.line1_65 cfg,
  Seen.Sha512.Engine.process_block_small.line1_66 cfg,
  Seen.Sha512.Engine.process_block_small.line1_67 cfg,
  Seen.Sha512.Engine.process_block_small.line1_68 cfg,
  Seen.Sha512.Engine.process_block_small.line1_69 cfg,
  Seen.Sha512.Engine.process_block_small.line1_70 cfg,
  Seen.Sha512.Engine.process_block_small.line1_71 cfg,
  Seen.Sha512.Engine.process_block_small.line1_72 cfg,
  Seen.Sha512.Engine.process_block_small.line1_73 cfg,
  Seen.Sha512.Engine.process_block_small.line1_74 cfg,
  Seen.Sha512.Engine.process_block_small.line1_75 cfg,
  Seen.Sha512.Engine.process_block_small.line1_76 cfg,
  Seen.Sha512.Engine.process_block_small.line1_77 cfg,
  Seen.Sha512.Engine.process_block_small.line1_78 cfg,
  Seen.Sha512.Engine.process_block_small.line1_79 cfg]

/-- `Engine::process_block`, sha512.rs 204-314, with feature `small-hash`. -/
def Engine.process_block_small (cfg : Cfg) (self : Source.Sha512.Engine) : Tr Source.Sha512.Engine := do
  Tr.debugAssert cfg (self.buffer.length == Source.Sha512.BLOCK_SIZE)
  let w : List (BitVec 64) := List.replicate 16 0#64
  let w ← Tr.zipMut w (chunksExact 8 self.buffer) fun w_val buff_bytes => do
    let x_1 ← Tr.tryInto 8 buff_bytes
    let w_val := Rs.fromBeBytes 64 x_1
    pure w_val
  let a ← Tr.index self.h 0
  let b ← Tr.index self.h 1
  let c ← Tr.index self.h 2
  let d ← Tr.index self.h 3
  let e ← Tr.index self.h 4
  let f ← Tr.index self.h 5
  let g ← Tr.index self.h 6
  let h ← Tr.index self.h 7
  let (w, a, b, c, d, e, f, g, h) ← Tr.runLines (Seen.Sha512.Engine.process_block_small.lines1 cfg) (w, a, b, c, d, e, f, g, h)
  let x_570 ← Tr.index self.h 0
  let x_571 ← Tr.indexSet self.h 0 (x_570 + a)
  let self := { self with h := x_571 }
  let x_572 ← Tr.index self.h 1
  let x_573 ← Tr.indexSet self.h 1 (x_572 + b)
  let self := { self with h := x_573 }
  let x_574 ← Tr.index self.h 2
  let x_575 ← Tr.indexSet self.h 2 (x_574 + c)
  let self := { self with h := x_575 }
  let x_576 ← Tr.index self.h 3
  let x_577 ← Tr.indexSet self.h 3 (x_576 + d)
  let self := { self with h := x_577 }
  let x_578 ← Tr.index self.h 4
  let x_579 ← Tr.indexSet self.h 4 (x_578 + e)
  let self := { self with h := x_579 }
  let x_580 ← Tr.index self.h 5
  let x_581 ← Tr.indexSet self.h 5 (x_580 + f)
  let self := { self with h := x_581 }
  let x_582 ← Tr.index self.h 6
  let x_583 ← Tr.indexSet self.h 6 (x_582 + g)
  let self := { self with h := x_583 }
  let x_584 ← Tr.index self.h 7
  let x_585 ← Tr.indexSet self.h 7 (x_584 + h)
  let self := { self with h := x_585 }
  pure self

/-- `Engine::process_block`, sha512.rs 204-314. -/
def Engine.process_block (cfg : Cfg) (self : Source.Sha512.Engine) : Tr Source.Sha512.Engine :=
  if cfg.smallHash then Seen.Sha512.Engine.process_block_small cfg self else Seen.Sha512.Engine.process_block_fast cfg self

/-- `Engine::input`, internal_macros.rs 22-36. -/
def Engine.input (cfg : Cfg) (self : Source.Sha512.Engine) (inp : List Byte) : Tr Source.Sha512.Engine := do
  let (self, inp) ← Tr.whileR cfg.usizeMod
    (fun (self, inp) => pure (!inp.isEmpty))
    (fun (self, inp) => do
      let buf_idx : Nat := self.length % Source.Sha512.Engine.BLOCK_SIZE
      let rem_len ← Tr.subUsize cfg Source.Sha512.Engine.BLOCK_SIZE buf_idx
      let write_len : Nat := min rem_len inp.length
      let x_2 ← Tr.addUsize cfg buf_idx write_len
      Tr.checkRange self.buffer buf_idx x_2
      let x_3 ← Tr.sliceTo inp write_len
      let x_4 ← Tr.copyIntoRange self.buffer buf_idx x_2 x_3
      let self := { self with buffer := x_4 }
      let x_5 ← Tr.addUsize cfg self.length write_len
      let self := { self with length := x_5 }
      let self ←
        Tr.test ((self.length % Source.Sha512.Engine.BLOCK_SIZE) == 0) >>= fun b_1 => if b_1 then do
          let self ← Seen.Sha512.Engine.process_block cfg self
          pure self
        else do
          pure self
      let inp ← Tr.sliceFrom inp write_len
      pure (self, inp)) (self, inp)
  pure self

/-- `Engine::midstate`, sha512.rs 107-113. -/
def Engine.midstate (cfg : Cfg) (self : Source.Sha512.Engine) : Tr (List Byte) := do
  let ret : List Byte := List.replicate 64 0#8
  let ret ← Tr.zipChunksMut 8 self.h ret fun val ret_bytes => do
    let ret_bytes ← Tr.copyFromSlice ret_bytes (Rs.toBeBytes val)
    pure ret_bytes
  pure ret

/-- `Engine::finalize`, sha512.rs 78-96. -/
def Engine.finalize (cfg : Cfg) (self : Source.Sha512.Engine) : Tr (List Byte) := do
  let data_len : BitVec 64 := BitVec.ofNat 64 self.length
  let zeroes : List Byte := List.replicate 112 0#8
  let self ← Seen.Sha512.Engine.input cfg self [0x80#8]
  let self ←
    Tr.test (decide ((self.length % Source.Sha512.BLOCK_SIZE) > zeroes.length)) >>= fun b_1 => if b_1 then do
      let self ← Seen.Sha512.Engine.input cfg self zeroes
      pure self
    else do
      pure self
  let pad_length ← Tr.subUsize cfg zeroes.length (self.length % Source.Sha512.BLOCK_SIZE)
  let x_4 ← Tr.sliceTo zeroes pad_length
  let self ← Seen.Sha512.Engine.input cfg self x_4
  Tr.debugAssert cfg ((self.length % Source.Sha512.BLOCK_SIZE) == zeroes.length)
  let self ← Seen.Sha512.Engine.input cfg self (List.replicate 8 0#8)
  let x_7 ← Tr.mulU cfg 8#64 data_len
  let self ← Seen.Sha512.Engine.input cfg self (Rs.toBeBytes x_7)
  Tr.debugAssert cfg ((self.length % Source.Sha512.BLOCK_SIZE) == 0)
  let x_9 ← Seen.Sha512.Engine.midstate cfg self
  pure x_9

/-- `Hash::hash`, internal_macros.rs 158-162. -/
def Hash.hash (cfg : Cfg) (bytes : List Byte) : Tr Source.Sha512.Hash := do
  let engine := Source.Sha512.Hash.engine cfg
  let engine ← Seen.Sha512.Engine.input cfg engine bytes
  let x_2 ← Seen.Sha512.Engine.finalize cfg engine
  pure ({ f0 := x_2 } : Source.Sha512.Hash)

/-- `Engine::from_midstate`, sha512.rs 123-132. -/
def Engine.from_midstate (cfg : Cfg) (midstate : List Byte) (length : Nat) : Tr Source.Sha512.Engine := do
  Tr.assertR ((length % Source.Sha512.BLOCK_SIZE) == 0)
  let ret : List (BitVec 64) := List.replicate 8 0#64
  let ret ← Tr.zipMut ret (chunksExact 4 midstate) fun ret_val midstate_bytes => do
    let x_1 ← Tr.tryInto 8 midstate_bytes
    let ret_val := Rs.fromBeBytes 64 x_1
    pure ret_val
  pure ({ buffer := List.replicate 128 0#8, h := ret, length := length } : Source.Sha512.Engine)

/-- `impl HashEngine for Engine`, sha512.rs 66. -/
def engine (cfg : Cfg) : Tr.HashEngine (Source.Sha512.engine cfg) where
  default := pure (Source.Sha512.Engine.default cfg)
  new := pure (Source.Sha512.Engine.default cfg)
  input self data := Seen.Sha512.Engine.input cfg self data
  finalize self := Seen.Sha512.Engine.finalize cfg self
  midstate self := Seen.Sha512.Engine.midstate cfg self
  fromMidstate midstate length := Seen.Sha512.Engine.from_midstate cfg midstate length

end Chf.Seen.Sha512
