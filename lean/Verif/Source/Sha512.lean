/- Generated from /repo/src/sha512.rs by tools/rust2lean.py; do not edit. -/
import Verif.Source.Lib
import Verif.Source.SerdeMacros

namespace Chf.Source.Sha512
open Chf
set_option linter.unusedVariables false

/-- `struct Hash`. -/
structure Hash where
  f0 : List Byte

/-- `struct Engine`. -/
structure Engine where
  h : List (BitVec 64)
  length : Nat
  buffer : List Byte

/-- `const Hash::LEN`. -/
def Hash.LEN : Nat := 64

/-- `const Hash::N`. -/
def Hash.N : Nat := 64

/-- `const BLOCK_SIZE`. -/
def BLOCK_SIZE : Nat := 128

/-- `const Engine::BLOCK_SIZE`. -/
def Engine.BLOCK_SIZE : Nat := 128

/-- `Engine::default`, sha512.rs 26-35. -/
def Engine.default (cfg : Cfg) : Engine :=
  ({ h := [0x6a09e667f3bcc908#64, 0xbb67ae8584caa73b#64, 0x3c6ef372fe94f82b#64, 0xa54ff53a5f1d36f1#64, 0x510e527fade682d1#64, 0x9b05688c2b3e6c1f#64, 0x1f83d9abfb41bd6b#64, 0x5be0cd19137e2179#64], length := 0, buffer := List.replicate 128 0#8 } : Engine)

/-- `Hash::engine`, internal_macros.rs 165. -/
def Hash.engine (cfg : Cfg) : Engine :=
  Engine.default cfg

/-- `Sigma1`, sha512.rs 142. -/
def Sigma1 (cfg : Cfg) (x : BitVec 64) : (BitVec 64) :=
  ((x.rotateLeft 50) ^^^ (x.rotateLeft 46)) ^^^ (x.rotateLeft 23)

/-- `Ch`, sha512.rs 136. -/
def Ch (cfg : Cfg) (x : BitVec 64) (y : BitVec 64) (z : BitVec 64) : (BitVec 64) :=
  z ^^^ (x &&& (y ^^^ z))

/-- `Sigma0`, sha512.rs 140. -/
def Sigma0 (cfg : Cfg) (x : BitVec 64) : (BitVec 64) :=
  ((x.rotateLeft 36) ^^^ (x.rotateLeft 30)) ^^^ (x.rotateLeft 25)

/-- `Maj`, sha512.rs 138. -/
def Maj (cfg : Cfg) (x : BitVec 64) (y : BitVec 64) (z : BitVec 64) : (BitVec 64) :=
  (x &&& y) ||| (z &&& (x ||| y))

/-- `small_hash::round`, sha512.rs 152-160. -/
def small_hash.round (cfg : Cfg) (a : BitVec 64) (b : BitVec 64) (c : BitVec 64) (d : BitVec 64) (e : BitVec 64) (f : BitVec 64) (g : BitVec 64) (h : BitVec 64) (k : BitVec 64) (w : BitVec 64) : (BitVec 64) × (BitVec 64) :=
  let t1 : BitVec 64 := (((h + (Sigma1 cfg e)) + (Ch cfg e f g)) + k) + w
  let t2 : BitVec 64 := (Sigma0 cfg a) + (Maj cfg a b c)
  let d := d + t1
  let h := t1 + t2
  (d, h)

/-- `sigma1`, sha512.rs 144. -/
def sigma1 (cfg : Cfg) (x : BitVec 64) : (BitVec 64) :=
  ((x.rotateLeft 45) ^^^ (x.rotateLeft 3)) ^^^ (x >>> 6)

/-- `sigma0`, sha512.rs 143. -/
def sigma0 (cfg : Cfg) (x : BitVec 64) : (BitVec 64) :=
  ((x.rotateLeft 63) ^^^ (x.rotateLeft 56)) ^^^ (x >>> 7)

/-- `small_hash::later_round`, sha512.rs 162-169. -/
def small_hash.later_round (cfg : Cfg) (a : BitVec 64) (b : BitVec 64) (c : BitVec 64) (d : BitVec 64) (e : BitVec 64) (f : BitVec 64) (g : BitVec 64) (h : BitVec 64) (k : BitVec 64) (w : BitVec 64) (w1 : BitVec 64) (w2 : BitVec 64) (w3 : BitVec 64) : (BitVec 64) × (BitVec 64) × (BitVec 64) :=
  let w_1 : BitVec 64 := ((w + (sigma1 cfg w1)) + w2) + (sigma0 cfg w3)
  let (x_1, x_2) := small_hash.round cfg a b c d e f g h k w_1
  let d := x_1
  let h := x_2
  (w_1, d, h)

/-- The variables w, a, b, c, d, e, f, g, h of `process_block`. -/
abbrev Engine.process_block_fast.State1 := (List (BitVec 64)) × (BitVec 64) × (BitVec 64) × (BitVec 64) × (BitVec 64) × (BitVec 64) × (BitVec 64) × (BitVec 64) × (BitVec 64)

/-- round!(a, b, c, d, e, f, g, h, 0x428a2f98d728ae22, w[0]) -/
def Engine.process_block_fast.line1_0 (cfg : Cfg) : Engine.process_block_fast.State1 → Res Engine.process_block_fast.State1 :=
  fun (w, a, b, c, d, e, f, g, h) => do
    let x_10 ← index w 0
    let t1' : BitVec 64 := (((h + (Sigma1 cfg e)) + (Ch cfg e f g)) + 0x428a2f98d728ae22#64) + x_10
    let t2' : BitVec 64 := (Sigma0 cfg a) + (Maj cfg a b c)
    let d := d + t1'
    let h := t1' + t2'
    pure (w, a, b, c, d, e, f, g, h)

/-- round!(h, a, b, c, d, e, f, g, 0x7137449123ef65cd, w[1]) -/
def Engine.process_block_fast.line1_1 (cfg : Cfg) : Engine.process_block_fast.State1 → Res Engine.process_block_fast.State1 :=
  fun (w, a, b, c, d, e, f, g, h) => do
    let x_11 ← index w 1
    let t1' : BitVec 64 := (((g + (Sigma1 cfg d)) + (Ch cfg d e f)) + 0x7137449123ef65cd#64) + x_11
    let t2' : BitVec 64 := (Sigma0 cfg h) + (Maj cfg h a b)
    let c := c + t1'
    let g := t1' + t2'
    pure (w, a, b, c, d, e, f, g, h)

/-- round!(g, h, a, b, c, d, e, f, 0xb5c0fbcfec4d3b2f, w[2]) -/
def Engine.process_block_fast.line1_2 (cfg : Cfg) : Engine.process_block_fast.State1 → Res Engine.process_block_fast.State1 :=
  fun (w, a, b, c, d, e, f, g, h) => do
    let x_12 ← index w 2
    let t1' : BitVec 64 := (((f + (Sigma1 cfg c)) + (Ch cfg c d e)) + 0xb5c0fbcfec4d3b2f#64) + x_12
    let t2' : BitVec 64 := (Sigma0 cfg g) + (Maj cfg g h a)
    let b := b + t1'
    let f := t1' + t2'
    pure (w, a, b, c, d, e, f, g, h)

/-- round!(f, g, h, a, b, c, d, e, 0xe9b5dba58189dbbc, w[3]) -/
def Engine.process_block_fast.line1_3 (cfg : Cfg) : Engine.process_block_fast.State1 → Res Engine.process_block_fast.State1 :=
  fun (w, a, b, c, d, e, f, g, h) => do
    let x_13 ← index w 3
    let t1' : BitVec 64 := (((e + (Sigma1 cfg b)) + (Ch cfg b c d)) + 0xe9b5dba58189dbbc#64) + x_13
    let t2' : BitVec 64 := (Sigma0 cfg f) + (Maj cfg f g h)
    let a := a + t1'
    let e := t1' + t2'
    pure (w, a, b, c, d, e, f, g, h)

/-- round!(e, f, g, h, a, b, c, d, 0x3956c25bf348b538, w[4]) -/
def Engine.process_block_fast.line1_4 (cfg : Cfg) : Engine.process_block_fast.State1 → Res Engine.process_block_fast.State1 :=
  fun (w, a, b, c, d, e, f, g, h) => do
    let x_14 ← index w 4
    let t1' : BitVec 64 := (((d + (Sigma1 cfg a)) + (Ch cfg a b c)) + 0x3956c25bf348b538#64) + x_14
    let t2' : BitVec 64 := (Sigma0 cfg e) + (Maj cfg e f g)
    let h := h + t1'
    let d := t1' + t2'
    pure (w, a, b, c, d, e, f, g, h)

/-- round!(d, e, f, g, h, a, b, c, 0x59f111f1b605d019, w[5]) -/
def Engine.process_block_fast.line1_5 (cfg : Cfg) : Engine.process_block_fast.State1 → Res Engine.process_block_fast.State1 :=
  fun (w, a, b, c, d, e, f, g, h) => do
    let x_15 ← index w 5
    let t1' : BitVec 64 := (((c + (Sigma1 cfg h)) + (Ch cfg h a b)) + 0x59f111f1b605d019#64) + x_15
    let t2' : BitVec 64 := (Sigma0 cfg d) + (Maj cfg d e f)
    let g := g + t1'
    let c := t1' + t2'
    pure (w, a, b, c, d, e, f, g, h)

/-- round!(c, d, e, f, g, h, a, b, 0x923f82a4af194f9b, w[6]) -/
def Engine.process_block_fast.line1_6 (cfg : Cfg) : Engine.process_block_fast.State1 → Res Engine.process_block_fast.State1 :=
  fun (w, a, b, c, d, e, f, g, h) => do
    let x_16 ← index w 6
    let t1' : BitVec 64 := (((b + (Sigma1 cfg g)) + (Ch cfg g h a)) + 0x923f82a4af194f9b#64) + x_16
    let t2' : BitVec 64 := (Sigma0 cfg c) + (Maj cfg c d e)
    let f := f + t1'
    let b := t1' + t2'
    pure (w, a, b, c, d, e, f, g, h)

/-- round!(b, c, d, e, f, g, h, a, 0xab1c5ed5da6d8118, w[7]) -/
def Engine.process_block_fast.line1_7 (cfg : Cfg) : Engine.process_block_fast.State1 → Res Engine.process_block_fast.State1 :=
  fun (w, a, b, c, d, e, f, g, h) => do
    let x_17 ← index w 7
    let t1' : BitVec 64 := (((a + (Sigma1 cfg f)) + (Ch cfg f g h)) + 0xab1c5ed5da6d8118#64) + x_17
    let t2' : BitVec 64 := (Sigma0 cfg b) + (Maj cfg b c d)
    let e := e + t1'
    let a := t1' + t2'
    pure (w, a, b, c, d, e, f, g, h)

/-- round!(a, b, c, d, e, f, g, h, 0xd807aa98a3030242, w[8]) -/
def Engine.process_block_fast.line1_8 (cfg : Cfg) : Engine.process_block_fast.State1 → Res Engine.process_block_fast.State1 :=
  fun (w, a, b, c, d, e, f, g, h) => do
    let x_18 ← index w 8
    let t1' : BitVec 64 := (((h + (Sigma1 cfg e)) + (Ch cfg e f g)) + 0xd807aa98a3030242#64) + x_18
    let t2' : BitVec 64 := (Sigma0 cfg a) + (Maj cfg a b c)
    let d := d + t1'
    let h := t1' + t2'
    pure (w, a, b, c, d, e, f, g, h)

/-- round!(h, a, b, c, d, e, f, g, 0x12835b0145706fbe, w[9]) -/
def Engine.process_block_fast.line1_9 (cfg : Cfg) : Engine.process_block_fast.State1 → Res Engine.process_block_fast.State1 :=
  fun (w, a, b, c, d, e, f, g, h) => do
    let x_19 ← index w 9
    let t1' : BitVec 64 := (((g + (Sigma1 cfg d)) + (Ch cfg d e f)) + 0x12835b0145706fbe#64) + x_19
    let t2' : BitVec 64 := (Sigma0 cfg h) + (Maj cfg h a b)
    let c := c + t1'
    let g := t1' + t2'
    pure (w, a, b, c, d, e, f, g, h)

/-- round!(g, h, a, b, c, d, e, f, 0x243185be4ee4b28c, w[10]) -/
def Engine.process_block_fast.line1_10 (cfg : Cfg) : Engine.process_block_fast.State1 → Res Engine.process_block_fast.State1 :=
  fun (w, a, b, c, d, e, f, g, h) => do
    let x_20 ← index w 10
    let t1' : BitVec 64 := (((f + (Sigma1 cfg c)) + (Ch cfg c d e)) + 0x243185be4ee4b28c#64) + x_20
    let t2' : BitVec 64 := (Sigma0 cfg g) + (Maj cfg g h a)
    let b := b + t1'
    let f := t1' + t2'
    pure (w, a, b, c, d, e, f, g, h)

/-- round!(f, g, h, a, b, c, d, e, 0x550c7dc3d5ffb4e2, w[11]) -/
def Engine.process_block_fast.line1_11 (cfg : Cfg) : Engine.process_block_fast.State1 → Res Engine.process_block_fast.State1 :=
  fun (w, a, b, c, d, e, f, g, h) => do
    let x_21 ← index w 11
    let t1' : BitVec 64 := (((e + (Sigma1 cfg b)) + (Ch cfg b c d)) + 0x550c7dc3d5ffb4e2#64) + x_21
    let t2' : BitVec 64 := (Sigma0 cfg f) + (Maj cfg f g h)
    let a := a + t1'
    let e := t1' + t2'
    pure (w, a, b, c, d, e, f, g, h)

/-- round!(e, f, g, h, a, b, c, d, 0x72be5d74f27b896f, w[12]) -/
def Engine.process_block_fast.line1_12 (cfg : Cfg) : Engine.process_block_fast.State1 → Res Engine.process_block_fast.State1 :=
  fun (w, a, b, c, d, e, f, g, h) => do
    let x_22 ← index w 12
    let t1' : BitVec 64 := (((d + (Sigma1 cfg a)) + (Ch cfg a b c)) + 0x72be5d74f27b896f#64) + x_22
    let t2' : BitVec 64 := (Sigma0 cfg e) + (Maj cfg e f g)
    let h := h + t1'
    let d := t1' + t2'
    pure (w, a, b, c, d, e, f, g, h)

/-- round!(d, e, f, g, h, a, b, c, 0x80deb1fe3b1696b1, w[13]) -/
def Engine.process_block_fast.line1_13 (cfg : Cfg) : Engine.process_block_fast.State1 → Res Engine.process_block_fast.State1 :=
  fun (w, a, b, c, d, e, f, g, h) => do
    let x_23 ← index w 13
    let t1' : BitVec 64 := (((c + (Sigma1 cfg h)) + (Ch cfg h a b)) + 0x80deb1fe3b1696b1#64) + x_23
    let t2' : BitVec 64 := (Sigma0 cfg d) + (Maj cfg d e f)
    let g := g + t1'
    let c := t1' + t2'
    pure (w, a, b, c, d, e, f, g, h)

/-- round!(c, d, e, f, g, h, a, b, 0x9bdc06a725c71235, w[14]) -/
def Engine.process_block_fast.line1_14 (cfg : Cfg) : Engine.process_block_fast.State1 → Res Engine.process_block_fast.State1 :=
  fun (w, a, b, c, d, e, f, g, h) => do
    let x_24 ← index w 14
    let t1' : BitVec 64 := (((b + (Sigma1 cfg g)) + (Ch cfg g h a)) + 0x9bdc06a725c71235#64) + x_24
    let t2' : BitVec 64 := (Sigma0 cfg c) + (Maj cfg c d e)
    let f := f + t1'
    let b := t1' + t2'
    pure (w, a, b, c, d, e, f, g, h)

/-- round!(b, c, d, e, f, g, h, a, 0xc19bf174cf692694, w[15]) -/
def Engine.process_block_fast.line1_15 (cfg : Cfg) : Engine.process_block_fast.State1 → Res Engine.process_block_fast.State1 :=
  fun (w, a, b, c, d, e, f, g, h) => do
    let x_25 ← index w 15
    let t1' : BitVec 64 := (((a + (Sigma1 cfg f)) + (Ch cfg f g h)) + 0xc19bf174cf692694#64) + x_25
    let t2' : BitVec 64 := (Sigma0 cfg b) + (Maj cfg b c d)
    let e := e + t1'
    let a := t1' + t2'
    pure (w, a, b, c, d, e, f, g, h)

/-- round!(a, b, c, d, e, f, g, h, 0xe49b69c19ef14ad2, w[0], w[14], w[9], w[1]) -/
def Engine.process_block_fast.line1_16 (cfg : Cfg) : Engine.process_block_fast.State1 → Res Engine.process_block_fast.State1 :=
  fun (w, a, b, c, d, e, f, g, h) => do
    let x_26 ← index w 0
    let x_27 ← index w 14
    let x_28 ← index w 9
    let x_29 ← index w 1
    let w ← indexSet w 0 (((x_26 + (sigma1 cfg x_27)) + x_28) + (sigma0 cfg x_29))
    let x_31 ← index w 0
    let t1' : BitVec 64 := (((h + (Sigma1 cfg e)) + (Ch cfg e f g)) + 0xe49b69c19ef14ad2#64) + x_31
    let t2' : BitVec 64 := (Sigma0 cfg a) + (Maj cfg a b c)
    let d := d + t1'
    let h := t1' + t2'
    pure (w, a, b, c, d, e, f, g, h)

/-- round!(h, a, b, c, d, e, f, g, 0xefbe4786384f25e3, w[1], w[15], w[10], w[2]) -/
def Engine.process_block_fast.line1_17 (cfg : Cfg) : Engine.process_block_fast.State1 → Res Engine.process_block_fast.State1 :=
  fun (w, a, b, c, d, e, f, g, h) => do
    let x_32 ← index w 1
    let x_33 ← index w 15
    let x_34 ← index w 10
    let x_35 ← index w 2
    let w ← indexSet w 1 (((x_32 + (sigma1 cfg x_33)) + x_34) + (sigma0 cfg x_35))
    let x_37 ← index w 1
    let t1' : BitVec 64 := (((g + (Sigma1 cfg d)) + (Ch cfg d e f)) + 0xefbe4786384f25e3#64) + x_37
    let t2' : BitVec 64 := (Sigma0 cfg h) + (Maj cfg h a b)
    let c := c + t1'
    let g := t1' + t2'
    pure (w, a, b, c, d, e, f, g, h)

/-- round!(g, h, a, b, c, d, e, f, 0x0fc19dc68b8cd5b5, w[2], w[0], w[11], w[3]) -/
def Engine.process_block_fast.line1_18 (cfg : Cfg) : Engine.process_block_fast.State1 → Res Engine.process_block_fast.State1 :=
  fun (w, a, b, c, d, e, f, g, h) => do
    let x_38 ← index w 2
    let x_39 ← index w 0
    let x_40 ← index w 11
    let x_41 ← index w 3
    let w ← indexSet w 2 (((x_38 + (sigma1 cfg x_39)) + x_40) + (sigma0 cfg x_41))
    let x_43 ← index w 2
    let t1' : BitVec 64 := (((f + (Sigma1 cfg c)) + (Ch cfg c d e)) + 0x0fc19dc68b8cd5b5#64) + x_43
    let t2' : BitVec 64 := (Sigma0 cfg g) + (Maj cfg g h a)
    let b := b + t1'
    let f := t1' + t2'
    pure (w, a, b, c, d, e, f, g, h)

/-- round!(f, g, h, a, b, c, d, e, 0x240ca1cc77ac9c65, w[3], w[1], w[12], w[4]) -/
def Engine.process_block_fast.line1_19 (cfg : Cfg) : Engine.process_block_fast.State1 → Res Engine.process_block_fast.State1 :=
  fun (w, a, b, c, d, e, f, g, h) => do
    let x_44 ← index w 3
    let x_45 ← index w 1
    let x_46 ← index w 12
    let x_47 ← index w 4
    let w ← indexSet w 3 (((x_44 + (sigma1 cfg x_45)) + x_46) + (sigma0 cfg x_47))
    let x_49 ← index w 3
    let t1' : BitVec 64 := (((e + (Sigma1 cfg b)) + (Ch cfg b c d)) + 0x240ca1cc77ac9c65#64) + x_49
    let t2' : BitVec 64 := (Sigma0 cfg f) + (Maj cfg f g h)
    let a := a + t1'
    let e := t1' + t2'
    pure (w, a, b, c, d, e, f, g, h)

/-- round!(e, f, g, h, a, b, c, d, 0x2de92c6f592b0275, w[4], w[2], w[13], w[5]) -/
def Engine.process_block_fast.line1_20 (cfg : Cfg) : Engine.process_block_fast.State1 → Res Engine.process_block_fast.State1 :=
  fun (w, a, b, c, d, e, f, g, h) => do
    let x_50 ← index w 4
    let x_51 ← index w 2
    let x_52 ← index w 13
    let x_53 ← index w 5
    let w ← indexSet w 4 (((x_50 + (sigma1 cfg x_51)) + x_52) + (sigma0 cfg x_53))
    let x_55 ← index w 4
    let t1' : BitVec 64 := (((d + (Sigma1 cfg a)) + (Ch cfg a b c)) + 0x2de92c6f592b0275#64) + x_55
    let t2' : BitVec 64 := (Sigma0 cfg e) + (Maj cfg e f g)
    let h := h + t1'
    let d := t1' + t2'
    pure (w, a, b, c, d, e, f, g, h)

/-- round!(d, e, f, g, h, a, b, c, 0x4a7484aa6ea6e483, w[5], w[3], w[14], w[6]) -/
def Engine.process_block_fast.line1_21 (cfg : Cfg) : Engine.process_block_fast.State1 → Res Engine.process_block_fast.State1 :=
  fun (w, a, b, c, d, e, f, g, h) => do
    let x_56 ← index w 5
    let x_57 ← index w 3
    let x_58 ← index w 14
    let x_59 ← index w 6
    let w ← indexSet w 5 (((x_56 + (sigma1 cfg x_57)) + x_58) + (sigma0 cfg x_59))
    let x_61 ← index w 5
    let t1' : BitVec 64 := (((c + (Sigma1 cfg h)) + (Ch cfg h a b)) + 0x4a7484aa6ea6e483#64) + x_61
    let t2' : BitVec 64 := (Sigma0 cfg d) + (Maj cfg d e f)
    let g := g + t1'
    let c := t1' + t2'
    pure (w, a, b, c, d, e, f, g, h)

/-- round!(c, d, e, f, g, h, a, b, 0x5cb0a9dcbd41fbd4, w[6], w[4], w[15], w[7]) -/
def Engine.process_block_fast.line1_22 (cfg : Cfg) : Engine.process_block_fast.State1 → Res Engine.process_block_fast.State1 :=
  fun (w, a, b, c, d, e, f, g, h) => do
    let x_62 ← index w 6
    let x_63 ← index w 4
    let x_64 ← index w 15
    let x_65 ← index w 7
    let w ← indexSet w 6 (((x_62 + (sigma1 cfg x_63)) + x_64) + (sigma0 cfg x_65))
    let x_67 ← index w 6
    let t1' : BitVec 64 := (((b + (Sigma1 cfg g)) + (Ch cfg g h a)) + 0x5cb0a9dcbd41fbd4#64) + x_67
    let t2' : BitVec 64 := (Sigma0 cfg c) + (Maj cfg c d e)
    let f := f + t1'
    let b := t1' + t2'
    pure (w, a, b, c, d, e, f, g, h)

/-- round!(b, c, d, e, f, g, h, a, 0x76f988da831153b5, w[7], w[5], w[0], w[8]) -/
def Engine.process_block_fast.line1_23 (cfg : Cfg) : Engine.process_block_fast.State1 → Res Engine.process_block_fast.State1 :=
  fun (w, a, b, c, d, e, f, g, h) => do
    let x_68 ← index w 7
    let x_69 ← index w 5
    let x_70 ← index w 0
    let x_71 ← index w 8
    let w ← indexSet w 7 (((x_68 + (sigma1 cfg x_69)) + x_70) + (sigma0 cfg x_71))
    let x_73 ← index w 7
    let t1' : BitVec 64 := (((a + (Sigma1 cfg f)) + (Ch cfg f g h)) + 0x76f988da831153b5#64) + x_73
    let t2' : BitVec 64 := (Sigma0 cfg b) + (Maj cfg b c d)
    let e := e + t1'
    let a := t1' + t2'
    pure (w, a, b, c, d, e, f, g, h)

/-- round!(a, b, c, d, e, f, g, h, 0x983e5152ee66dfab, w[8], w[6], w[1], w[9]) -/
def Engine.process_block_fast.line1_24 (cfg : Cfg) : Engine.process_block_fast.State1 → Res Engine.process_block_fast.State1 :=
  fun (w, a, b, c, d, e, f, g, h) => do
    let x_74 ← index w 8
    let x_75 ← index w 6
    let x_76 ← index w 1
    let x_77 ← index w 9
    let w ← indexSet w 8 (((x_74 + (sigma1 cfg x_75)) + x_76) + (sigma0 cfg x_77))
    let x_79 ← index w 8
    let t1' : BitVec 64 := (((h + (Sigma1 cfg e)) + (Ch cfg e f g)) + 0x983e5152ee66dfab#64) + x_79
    let t2' : BitVec 64 := (Sigma0 cfg a) + (Maj cfg a b c)
    let d := d + t1'
    let h := t1' + t2'
    pure (w, a, b, c, d, e, f, g, h)

/-- round!(h, a, b, c, d, e, f, g, 0xa831c66d2db43210, w[9], w[7], w[2], w[10]) -/
def Engine.process_block_fast.line1_25 (cfg : Cfg) : Engine.process_block_fast.State1 → Res Engine.process_block_fast.State1 :=
  fun (w, a, b, c, d, e, f, g, h) => do
    let x_80 ← index w 9
    let x_81 ← index w 7
    let x_82 ← index w 2
    let x_83 ← index w 10
    let w ← indexSet w 9 (((x_80 + (sigma1 cfg x_81)) + x_82) + (sigma0 cfg x_83))
    let x_85 ← index w 9
    let t1' : BitVec 64 := (((g + (Sigma1 cfg d)) + (Ch cfg d e f)) + 0xa831c66d2db43210#64) + x_85
    let t2' : BitVec 64 := (Sigma0 cfg h) + (Maj cfg h a b)
    let c := c + t1'
    let g := t1' + t2'
    pure (w, a, b, c, d, e, f, g, h)

/-- round!(g, h, a, b, c, d, e, f, 0xb00327c898fb213f, w[10], w[8], w[3], w[11]) -/
def Engine.process_block_fast.line1_26 (cfg : Cfg) : Engine.process_block_fast.State1 → Res Engine.process_block_fast.State1 :=
  fun (w, a, b, c, d, e, f, g, h) => do
    let x_86 ← index w 10
    let x_87 ← index w 8
    let x_88 ← index w 3
    let x_89 ← index w 11
    let w ← indexSet w 10 (((x_86 + (sigma1 cfg x_87)) + x_88) + (sigma0 cfg x_89))
    let x_91 ← index w 10
    let t1' : BitVec 64 := (((f + (Sigma1 cfg c)) + (Ch cfg c d e)) + 0xb00327c898fb213f#64) + x_91
    let t2' : BitVec 64 := (Sigma0 cfg g) + (Maj cfg g h a)
    let b := b + t1'
    let f := t1' + t2'
    pure (w, a, b, c, d, e, f, g, h)

/-- round!(f, g, h, a, b, c, d, e, 0xbf597fc7beef0ee4, w[11], w[9], w[4], w[12]) -/
def Engine.process_block_fast.line1_27 (cfg : Cfg) : Engine.process_block_fast.State1 → Res Engine.process_block_fast.State1 :=
  fun (w, a, b, c, d, e, f, g, h) => do
    let x_92 ← index w 11
    let x_93 ← index w 9
    let x_94 ← index w 4
    let x_95 ← index w 12
    let w ← indexSet w 11 (((x_92 + (sigma1 cfg x_93)) + x_94) + (sigma0 cfg x_95))
    let x_97 ← index w 11
    let t1' : BitVec 64 := (((e + (Sigma1 cfg b)) + (Ch cfg b c d)) + 0xbf597fc7beef0ee4#64) + x_97
    let t2' : BitVec 64 := (Sigma0 cfg f) + (Maj cfg f g h)
    let a := a + t1'
    let e := t1' + t2'
    pure (w, a, b, c, d, e, f, g, h)

/-- round!(e, f, g, h, a, b, c, d, 0xc6e00bf33da88fc2, w[12], w[10], w[5], w[13]) -/
def Engine.process_block_fast.line1_28 (cfg : Cfg) : Engine.process_block_fast.State1 → Res Engine.process_block_fast.State1 :=
  fun (w, a, b, c, d, e, f, g, h) => do
    let x_98 ← index w 12
    let x_99 ← index w 10
    let x_100 ← index w 5
    let x_101 ← index w 13
    let w ← indexSet w 12 (((x_98 + (sigma1 cfg x_99)) + x_100) + (sigma0 cfg x_101))
    let x_103 ← index w 12
    let t1' : BitVec 64 := (((d + (Sigma1 cfg a)) + (Ch cfg a b c)) + 0xc6e00bf33da88fc2#64) + x_103
    let t2' : BitVec 64 := (Sigma0 cfg e) + (Maj cfg e f g)
    let h := h + t1'
    let d := t1' + t2'
    pure (w, a, b, c, d, e, f, g, h)

/-- round!(d, e, f, g, h, a, b, c, 0xd5a79147930aa725, w[13], w[11], w[6], w[14]) -/
def Engine.process_block_fast.line1_29 (cfg : Cfg) : Engine.process_block_fast.State1 → Res Engine.process_block_fast.State1 :=
  fun (w, a, b, c, d, e, f, g, h) => do
    let x_104 ← index w 13
    let x_105 ← index w 11
    let x_106 ← index w 6
    let x_107 ← index w 14
    let w ← indexSet w 13 (((x_104 + (sigma1 cfg x_105)) + x_106) + (sigma0 cfg x_107))
    let x_109 ← index w 13
    let t1' : BitVec 64 := (((c + (Sigma1 cfg h)) + (Ch cfg h a b)) + 0xd5a79147930aa725#64) + x_109
    let t2' : BitVec 64 := (Sigma0 cfg d) + (Maj cfg d e f)
    let g := g + t1'
    let c := t1' + t2'
    pure (w, a, b, c, d, e, f, g, h)

/-- round!(c, d, e, f, g, h, a, b, 0x06ca6351e003826f, w[14], w[12], w[7], w[15]) -/
def Engine.process_block_fast.line1_30 (cfg : Cfg) : Engine.process_block_fast.State1 → Res Engine.process_block_fast.State1 :=
  fun (w, a, b, c, d, e, f, g, h) => do
    let x_110 ← index w 14
    let x_111 ← index w 12
    let x_112 ← index w 7
    let x_113 ← index w 15
    let w ← indexSet w 14 (((x_110 + (sigma1 cfg x_111)) + x_112) + (sigma0 cfg x_113))
    let x_115 ← index w 14
    let t1' : BitVec 64 := (((b + (Sigma1 cfg g)) + (Ch cfg g h a)) + 0x06ca6351e003826f#64) + x_115
    let t2' : BitVec 64 := (Sigma0 cfg c) + (Maj cfg c d e)
    let f := f + t1'
    let b := t1' + t2'
    pure (w, a, b, c, d, e, f, g, h)

/-- round!(b, c, d, e, f, g, h, a, 0x142929670a0e6e70, w[15], w[13], w[8], w[0]) -/
def Engine.process_block_fast.line1_31 (cfg : Cfg) : Engine.process_block_fast.State1 → Res Engine.process_block_fast.State1 :=
  fun (w, a, b, c, d, e, f, g, h) => do
    let x_116 ← index w 15
    let x_117 ← index w 13
    let x_118 ← index w 8
    let x_119 ← index w 0
    let w ← indexSet w 15 (((x_116 + (sigma1 cfg x_117)) + x_118) + (sigma0 cfg x_119))
    let x_121 ← index w 15
    let t1' : BitVec 64 := (((a + (Sigma1 cfg f)) + (Ch cfg f g h)) + 0x142929670a0e6e70#64) + x_121
    let t2' : BitVec 64 := (Sigma0 cfg b) + (Maj cfg b c d)
    let e := e + t1'
    let a := t1' + t2'
    pure (w, a, b, c, d, e, f, g, h)

/-- round!(a, b, c, d, e, f, g, h, 0x27b70a8546d22ffc, w[0], w[14], w[9], w[1]) -/
def Engine.process_block_fast.line1_32 (cfg : Cfg) : Engine.process_block_fast.State1 → Res Engine.process_block_fast.State1 :=
  fun (w, a, b, c, d, e, f, g, h) => do
    let x_122 ← index w 0
    let x_123 ← index w 14
    let x_124 ← index w 9
    let x_125 ← index w 1
    let w ← indexSet w 0 (((x_122 + (sigma1 cfg x_123)) + x_124) + (sigma0 cfg x_125))
    let x_127 ← index w 0
    let t1' : BitVec 64 := (((h + (Sigma1 cfg e)) + (Ch cfg e f g)) + 0x27b70a8546d22ffc#64) + x_127
    let t2' : BitVec 64 := (Sigma0 cfg a) + (Maj cfg a b c)
    let d := d + t1'
    let h := t1' + t2'
    pure (w, a, b, c, d, e, f, g, h)

/-- round!(h, a, b, c, d, e, f, g, 0x2e1b21385c26c926, w[1], w[15], w[10], w[2]) -/
def Engine.process_block_fast.line1_33 (cfg : Cfg) : Engine.process_block_fast.State1 → Res Engine.process_block_fast.State1 :=
  fun (w, a, b, c, d, e, f, g, h) => do
    let x_128 ← index w 1
    let x_129 ← index w 15
    let x_130 ← index w 10
    let x_131 ← index w 2
    let w ← indexSet w 1 (((x_128 + (sigma1 cfg x_129)) + x_130) + (sigma0 cfg x_131))
    let x_133 ← index w 1
    let t1' : BitVec 64 := (((g + (Sigma1 cfg d)) + (Ch cfg d e f)) + 0x2e1b21385c26c926#64) + x_133
    let t2' : BitVec 64 := (Sigma0 cfg h) + (Maj cfg h a b)
    let c := c + t1'
    let g := t1' + t2'
    pure (w, a, b, c, d, e, f, g, h)

/-- round!(g, h, a, b, c, d, e, f, 0x4d2c6dfc5ac42aed, w[2], w[0], w[11], w[3]) -/
def Engine.process_block_fast.line1_34 (cfg : Cfg) : Engine.process_block_fast.State1 → Res Engine.process_block_fast.State1 :=
  fun (w, a, b, c, d, e, f, g, h) => do
    let x_134 ← index w 2
    let x_135 ← index w 0
    let x_136 ← index w 11
    let x_137 ← index w 3
    let w ← indexSet w 2 (((x_134 + (sigma1 cfg x_135)) + x_136) + (sigma0 cfg x_137))
    let x_139 ← index w 2
    let t1' : BitVec 64 := (((f + (Sigma1 cfg c)) + (Ch cfg c d e)) + 0x4d2c6dfc5ac42aed#64) + x_139
    let t2' : BitVec 64 := (Sigma0 cfg g) + (Maj cfg g h a)
    let b := b + t1'
    let f := t1' + t2'
    pure (w, a, b, c, d, e, f, g, h)

/-- round!(f, g, h, a, b, c, d, e, 0x53380d139d95b3df, w[3], w[1], w[12], w[4]) -/
def Engine.process_block_fast.line1_35 (cfg : Cfg) : Engine.process_block_fast.State1 → Res Engine.process_block_fast.State1 :=
  fun (w, a, b, c, d, e, f, g, h) => do
    let x_140 ← index w 3
    let x_141 ← index w 1
    let x_142 ← index w 12
    let x_143 ← index w 4
    let w ← indexSet w 3 (((x_140 + (sigma1 cfg x_141)) + x_142) + (sigma0 cfg x_143))
    let x_145 ← index w 3
    let t1' : BitVec 64 := (((e + (Sigma1 cfg b)) + (Ch cfg b c d)) + 0x53380d139d95b3df#64) + x_145
    let t2' : BitVec 64 := (Sigma0 cfg f) + (Maj cfg f g h)
    let a := a + t1'
    let e := t1' + t2'
    pure (w, a, b, c, d, e, f, g, h)

/-- round!(e, f, g, h, a, b, c, d, 0x650a73548baf63de, w[4], w[2], w[13], w[5]) -/
def Engine.process_block_fast.line1_36 (cfg : Cfg) : Engine.process_block_fast.State1 → Res Engine.process_block_fast.State1 :=
  fun (w, a, b, c, d, e, f, g, h) => do
    let x_146 ← index w 4
    let x_147 ← index w 2
    let x_148 ← index w 13
    let x_149 ← index w 5
    let w ← indexSet w 4 (((x_146 + (sigma1 cfg x_147)) + x_148) + (sigma0 cfg x_149))
    let x_151 ← index w 4
    let t1' : BitVec 64 := (((d + (Sigma1 cfg a)) + (Ch cfg a b c)) + 0x650a73548baf63de#64) + x_151
    let t2' : BitVec 64 := (Sigma0 cfg e) + (Maj cfg e f g)
    let h := h + t1'
    let d := t1' + t2'
    pure (w, a, b, c, d, e, f, g, h)

/-- round!(d, e, f, g, h, a, b, c, 0x766a0abb3c77b2a8, w[5], w[3], w[14], w[6]) -/
def Engine.process_block_fast.line1_37 (cfg : Cfg) : Engine.process_block_fast.State1 → Res Engine.process_block_fast.State1 :=
  fun (w, a, b, c, d, e, f, g, h) => do
    let x_152 ← index w 5
    let x_153 ← index w 3
    let x_154 ← index w 14
    let x_155 ← index w 6
    let w ← indexSet w 5 (((x_152 + (sigma1 cfg x_153)) + x_154) + (sigma0 cfg x_155))
    let x_157 ← index w 5
    let t1' : BitVec 64 := (((c + (Sigma1 cfg h)) + (Ch cfg h a b)) + 0x766a0abb3c77b2a8#64) + x_157
    let t2' : BitVec 64 := (Sigma0 cfg d) + (Maj cfg d e f)
    let g := g + t1'
    let c := t1' + t2'
    pure (w, a, b, c, d, e, f, g, h)

/-- round!(c, d, e, f, g, h, a, b, 0x81c2c92e47edaee6, w[6], w[4], w[15], w[7]) -/
def Engine.process_block_fast.line1_38 (cfg : Cfg) : Engine.process_block_fast.State1 → Res Engine.process_block_fast.State1 :=
  fun (w, a, b, c, d, e, f, g, h) => do
    let x_158 ← index w 6
    let x_159 ← index w 4
    let x_160 ← index w 15
    let x_161 ← index w 7
    let w ← indexSet w 6 (((x_158 + (sigma1 cfg x_159)) + x_160) + (sigma0 cfg x_161))
    let x_163 ← index w 6
    let t1' : BitVec 64 := (((b + (Sigma1 cfg g)) + (Ch cfg g h a)) + 0x81c2c92e47edaee6#64) + x_163
    let t2' : BitVec 64 := (Sigma0 cfg c) + (Maj cfg c d e)
    let f := f + t1'
    let b := t1' + t2'
    pure (w, a, b, c, d, e, f, g, h)

/-- round!(b, c, d, e, f, g, h, a, 0x92722c851482353b, w[7], w[5], w[0], w[8]) -/
def Engine.process_block_fast.line1_39 (cfg : Cfg) : Engine.process_block_fast.State1 → Res Engine.process_block_fast.State1 :=
  fun (w, a, b, c, d, e, f, g, h) => do
    let x_164 ← index w 7
    let x_165 ← index w 5
    let x_166 ← index w 0
    let x_167 ← index w 8
    let w ← indexSet w 7 (((x_164 + (sigma1 cfg x_165)) + x_166) + (sigma0 cfg x_167))
    let x_169 ← index w 7
    let t1' : BitVec 64 := (((a + (Sigma1 cfg f)) + (Ch cfg f g h)) + 0x92722c851482353b#64) + x_169
    let t2' : BitVec 64 := (Sigma0 cfg b) + (Maj cfg b c d)
    let e := e + t1'
    let a := t1' + t2'
    pure (w, a, b, c, d, e, f, g, h)

/-- round!(a, b, c, d, e, f, g, h, 0xa2bfe8a14cf10364, w[8], w[6], w[1], w[9]) -/
def Engine.process_block_fast.line1_40 (cfg : Cfg) : Engine.process_block_fast.State1 → Res Engine.process_block_fast.State1 :=
  fun (w, a, b, c, d, e, f, g, h) => do
    let x_170 ← index w 8
    let x_171 ← index w 6
    let x_172 ← index w 1
    let x_173 ← index w 9
    let w ← indexSet w 8 (((x_170 + (sigma1 cfg x_171)) + x_172) + (sigma0 cfg x_173))
    let x_175 ← index w 8
    let t1' : BitVec 64 := (((h + (Sigma1 cfg e)) + (Ch cfg e f g)) + 0xa2bfe8a14cf10364#64) + x_175
    let t2' : BitVec 64 := (Sigma0 cfg a) + (Maj cfg a b c)
    let d := d + t1'
    let h := t1' + t2'
    pure (w, a, b, c, d, e, f, g, h)

/-- round!(h, a, b, c, d, e, f, g, 0xa81a664bbc423001, w[9], w[7], w[2], w[10]) -/
def Engine.process_block_fast.line1_41 (cfg : Cfg) : Engine.process_block_fast.State1 → Res Engine.process_block_fast.State1 :=
  fun (w, a, b, c, d, e, f, g, h) => do
    let x_176 ← index w 9
    let x_177 ← index w 7
    let x_178 ← index w 2
    let x_179 ← index w 10
    let w ← indexSet w 9 (((x_176 + (sigma1 cfg x_177)) + x_178) + (sigma0 cfg x_179))
    let x_181 ← index w 9
    let t1' : BitVec 64 := (((g + (Sigma1 cfg d)) + (Ch cfg d e f)) + 0xa81a664bbc423001#64) + x_181
    let t2' : BitVec 64 := (Sigma0 cfg h) + (Maj cfg h a b)
    let c := c + t1'
    let g := t1' + t2'
    pure (w, a, b, c, d, e, f, g, h)

/-- round!(g, h, a, b, c, d, e, f, 0xc24b8b70d0f89791, w[10], w[8], w[3], w[11]) -/
def Engine.process_block_fast.line1_42 (cfg : Cfg) : Engine.process_block_fast.State1 → Res Engine.process_block_fast.State1 :=
  fun (w, a, b, c, d, e, f, g, h) => do
    let x_182 ← index w 10
    let x_183 ← index w 8
    let x_184 ← index w 3
    let x_185 ← index w 11
    let w ← indexSet w 10 (((x_182 + (sigma1 cfg x_183)) + x_184) + (sigma0 cfg x_185))
    let x_187 ← index w 10
    let t1' : BitVec 64 := (((f + (Sigma1 cfg c)) + (Ch cfg c d e)) + 0xc24b8b70d0f89791#64) + x_187
    let t2' : BitVec 64 := (Sigma0 cfg g) + (Maj cfg g h a)
    let b := b + t1'
    let f := t1' + t2'
    pure (w, a, b, c, d, e, f, g, h)

/-- round!(f, g, h, a, b, c, d, e, 0xc76c51a30654be30, w[11], w[9], w[4], w[12]) -/
def Engine.process_block_fast.line1_43 (cfg : Cfg) : Engine.process_block_fast.State1 → Res Engine.process_block_fast.State1 :=
  fun (w, a, b, c, d, e, f, g, h) => do
    let x_188 ← index w 11
    let x_189 ← index w 9
    let x_190 ← index w 4
    let x_191 ← index w 12
    let w ← indexSet w 11 (((x_188 + (sigma1 cfg x_189)) + x_190) + (sigma0 cfg x_191))
    let x_193 ← index w 11
    let t1' : BitVec 64 := (((e + (Sigma1 cfg b)) + (Ch cfg b c d)) + 0xc76c51a30654be30#64) + x_193
    let t2' : BitVec 64 := (Sigma0 cfg f) + (Maj cfg f g h)
    let a := a + t1'
    let e := t1' + t2'
    pure (w, a, b, c, d, e, f, g, h)

/-- round!(e, f, g, h, a, b, c, d, 0xd192e819d6ef5218, w[12], w[10], w[5], w[13]) -/
def Engine.process_block_fast.line1_44 (cfg : Cfg) : Engine.process_block_fast.State1 → Res Engine.process_block_fast.State1 :=
  fun (w, a, b, c, d, e, f, g, h) => do
    let x_194 ← index w 12
    let x_195 ← index w 10
    let x_196 ← index w 5
    let x_197 ← index w 13
    let w ← indexSet w 12 (((x_194 + (sigma1 cfg x_195)) + x_196) + (sigma0 cfg x_197))
    let x_199 ← index w 12
    let t1' : BitVec 64 := (((d + (Sigma1 cfg a)) + (Ch cfg a b c)) + 0xd192e819d6ef5218#64) + x_199
    let t2' : BitVec 64 := (Sigma0 cfg e) + (Maj cfg e f g)
    let h := h + t1'
    let d := t1' + t2'
    pure (w, a, b, c, d, e, f, g, h)

/-- round!(d, e, f, g, h, a, b, c, 0xd69906245565a910, w[13], w[11], w[6], w[14]) -/
def Engine.process_block_fast.line1_45 (cfg : Cfg) : Engine.process_block_fast.State1 → Res Engine.process_block_fast.State1 :=
  fun (w, a, b, c, d, e, f, g, h) => do
    let x_200 ← index w 13
    let x_201 ← index w 11
    let x_202 ← index w 6
    let x_203 ← index w 14
    let w ← indexSet w 13 (((x_200 + (sigma1 cfg x_201)) + x_202) + (sigma0 cfg x_203))
    let x_205 ← index w 13
    let t1' : BitVec 64 := (((c + (Sigma1 cfg h)) + (Ch cfg h a b)) + 0xd69906245565a910#64) + x_205
    let t2' : BitVec 64 := (Sigma0 cfg d) + (Maj cfg d e f)
    let g := g + t1'
    let c := t1' + t2'
    pure (w, a, b, c, d, e, f, g, h)

/-- round!(c, d, e, f, g, h, a, b, 0xf40e35855771202a, w[14], w[12], w[7], w[15]) -/
def Engine.process_block_fast.line1_46 (cfg : Cfg) : Engine.process_block_fast.State1 → Res Engine.process_block_fast.State1 :=
  fun (w, a, b, c, d, e, f, g, h) => do
    let x_206 ← index w 14
    let x_207 ← index w 12
    let x_208 ← index w 7
    let x_209 ← index w 15
    let w ← indexSet w 14 (((x_206 + (sigma1 cfg x_207)) + x_208) + (sigma0 cfg x_209))
    let x_211 ← index w 14
    let t1' : BitVec 64 := (((b + (Sigma1 cfg g)) + (Ch cfg g h a)) + 0xf40e35855771202a#64) + x_211
    let t2' : BitVec 64 := (Sigma0 cfg c) + (Maj cfg c d e)
    let f := f + t1'
    let b := t1' + t2'
    pure (w, a, b, c, d, e, f, g, h)

/-- round!(b, c, d, e, f, g, h, a, 0x106aa07032bbd1b8, w[15], w[13], w[8], w[0]) -/
def Engine.process_block_fast.line1_47 (cfg : Cfg) : Engine.process_block_fast.State1 → Res Engine.process_block_fast.State1 :=
  fun (w, a, b, c, d, e, f, g, h) => do
    let x_212 ← index w 15
    let x_213 ← index w 13
    let x_214 ← index w 8
    let x_215 ← index w 0
    let w ← indexSet w 15 (((x_212 + (sigma1 cfg x_213)) + x_214) + (sigma0 cfg x_215))
    let x_217 ← index w 15
    let t1' : BitVec 64 := (((a + (Sigma1 cfg f)) + (Ch cfg f g h)) + 0x106aa07032bbd1b8#64) + x_217
    let t2' : BitVec 64 := (Sigma0 cfg b) + (Maj cfg b c d)
    let e := e + t1'
    let a := t1' + t2'
    pure (w, a, b, c, d, e, f, g, h)

/-- round!(a, b, c, d, e, f, g, h, 0x19a4c116b8d2d0c8, w[0], w[14], w[9], w[1]) -/
def Engine.process_block_fast.line1_48 (cfg : Cfg) : Engine.process_block_fast.State1 → Res Engine.process_block_fast.State1 :=
  fun (w, a, b, c, d, e, f, g, h) => do
    let x_218 ← index w 0
    let x_219 ← index w 14
    let x_220 ← index w 9
    let x_221 ← index w 1
    let w ← indexSet w 0 (((x_218 + (sigma1 cfg x_219)) + x_220) + (sigma0 cfg x_221))
    let x_223 ← index w 0
    let t1' : BitVec 64 := (((h + (Sigma1 cfg e)) + (Ch cfg e f g)) + 0x19a4c116b8d2d0c8#64) + x_223
    let t2' : BitVec 64 := (Sigma0 cfg a) + (Maj cfg a b c)
    let d := d + t1'
    let h := t1' + t2'
    pure (w, a, b, c, d, e, f, g, h)

/-- round!(h, a, b, c, d, e, f, g, 0x1e376c085141ab53, w[1], w[15], w[10], w[2]) -/
def Engine.process_block_fast.line1_49 (cfg : Cfg) : Engine.process_block_fast.State1 → Res Engine.process_block_fast.State1 :=
  fun (w, a, b, c, d, e, f, g, h) => do
    let x_224 ← index w 1
    let x_225 ← index w 15
    let x_226 ← index w 10
    let x_227 ← index w 2
    let w ← indexSet w 1 (((x_224 + (sigma1 cfg x_225)) + x_226) + (sigma0 cfg x_227))
    let x_229 ← index w 1
    let t1' : BitVec 64 := (((g + (Sigma1 cfg d)) + (Ch cfg d e f)) + 0x1e376c085141ab53#64) + x_229
    let t2' : BitVec 64 := (Sigma0 cfg h) + (Maj cfg h a b)
    let c := c + t1'
    let g := t1' + t2'
    pure (w, a, b, c, d, e, f, g, h)

/-- round!(g, h, a, b, c, d, e, f, 0x2748774cdf8eeb99, w[2], w[0], w[11], w[3]) -/
def Engine.process_block_fast.line1_50 (cfg : Cfg) : Engine.process_block_fast.State1 → Res Engine.process_block_fast.State1 :=
  fun (w, a, b, c, d, e, f, g, h) => do
    let x_230 ← index w 2
    let x_231 ← index w 0
    let x_232 ← index w 11
    let x_233 ← index w 3
    let w ← indexSet w 2 (((x_230 + (sigma1 cfg x_231)) + x_232) + (sigma0 cfg x_233))
    let x_235 ← index w 2
    let t1' : BitVec 64 := (((f + (Sigma1 cfg c)) + (Ch cfg c d e)) + 0x2748774cdf8eeb99#64) + x_235
    let t2' : BitVec 64 := (Sigma0 cfg g) + (Maj cfg g h a)
    let b := b + t1'
    let f := t1' + t2'
    pure (w, a, b, c, d, e, f, g, h)

/-- round!(f, g, h, a, b, c, d, e, 0x34b0bcb5e19b48a8, w[3], w[1], w[12], w[4]) -/
def Engine.process_block_fast.line1_51 (cfg : Cfg) : Engine.process_block_fast.State1 → Res Engine.process_block_fast.State1 :=
  fun (w, a, b, c, d, e, f, g, h) => do
    let x_236 ← index w 3
    let x_237 ← index w 1
    let x_238 ← index w 12
    let x_239 ← index w 4
    let w ← indexSet w 3 (((x_236 + (sigma1 cfg x_237)) + x_238) + (sigma0 cfg x_239))
    let x_241 ← index w 3
    let t1' : BitVec 64 := (((e + (Sigma1 cfg b)) + (Ch cfg b c d)) + 0x34b0bcb5e19b48a8#64) + x_241
    let t2' : BitVec 64 := (Sigma0 cfg f) + (Maj cfg f g h)
    let a := a + t1'
    let e := t1' + t2'
    pure (w, a, b, c, d, e, f, g, h)

/-- round!(e, f, g, h, a, b, c, d, 0x391c0cb3c5c95a63, w[4], w[2], w[13], w[5]) -/
def Engine.process_block_fast.line1_52 (cfg : Cfg) : Engine.process_block_fast.State1 → Res Engine.process_block_fast.State1 :=
  fun (w, a, b, c, d, e, f, g, h) => do
    let x_242 ← index w 4
    let x_243 ← index w 2
    let x_244 ← index w 13
    let x_245 ← index w 5
    let w ← indexSet w 4 (((x_242 + (sigma1 cfg x_243)) + x_244) + (sigma0 cfg x_245))
    let x_247 ← index w 4
    let t1' : BitVec 64 := (((d + (Sigma1 cfg a)) + (Ch cfg a b c)) + 0x391c0cb3c5c95a63#64) + x_247
    let t2' : BitVec 64 := (Sigma0 cfg e) + (Maj cfg e f g)
    let h := h + t1'
    let d := t1' + t2'
    pure (w, a, b, c, d, e, f, g, h)

/-- round!(d, e, f, g, h, a, b, c, 0x4ed8aa4ae3418acb, w[5], w[3], w[14], w[6]) -/
def Engine.process_block_fast.line1_53 (cfg : Cfg) : Engine.process_block_fast.State1 → Res Engine.process_block_fast.State1 :=
  fun (w, a, b, c, d, e, f, g, h) => do
    let x_248 ← index w 5
    let x_249 ← index w 3
    let x_250 ← index w 14
    let x_251 ← index w 6
    let w ← indexSet w 5 (((x_248 + (sigma1 cfg x_249)) + x_250) + (sigma0 cfg x_251))
    let x_253 ← index w 5
    let t1' : BitVec 64 := (((c + (Sigma1 cfg h)) + (Ch cfg h a b)) + 0x4ed8aa4ae3418acb#64) + x_253
    let t2' : BitVec 64 := (Sigma0 cfg d) + (Maj cfg d e f)
    let g := g + t1'
    let c := t1' + t2'
    pure (w, a, b, c, d, e, f, g, h)

/-- round!(c, d, e, f, g, h, a, b, 0x5b9cca4f7763e373, w[6], w[4], w[15], w[7]) -/
def Engine.process_block_fast.line1_54 (cfg : Cfg) : Engine.process_block_fast.State1 → Res Engine.process_block_fast.State1 :=
  fun (w, a, b, c, d, e, f, g, h) => do
    let x_254 ← index w 6
    let x_255 ← index w 4
    let x_256 ← index w 15
    let x_257 ← index w 7
    let w ← indexSet w 6 (((x_254 + (sigma1 cfg x_255)) + x_256) + (sigma0 cfg x_257))
    let x_259 ← index w 6
    let t1' : BitVec 64 := (((b + (Sigma1 cfg g)) + (Ch cfg g h a)) + 0x5b9cca4f7763e373#64) + x_259
    let t2' : BitVec 64 := (Sigma0 cfg c) + (Maj cfg c d e)
    let f := f + t1'
    let b := t1' + t2'
    pure (w, a, b, c, d, e, f, g, h)

/-- round!(b, c, d, e, f, g, h, a, 0x682e6ff3d6b2b8a3, w[7], w[5], w[0], w[8]) -/
def Engine.process_block_fast.line1_55 (cfg : Cfg) : Engine.process_block_fast.State1 → Res Engine.process_block_fast.State1 :=
  fun (w, a, b, c, d, e, f, g, h) => do
    let x_260 ← index w 7
    let x_261 ← index w 5
    let x_262 ← index w 0
    let x_263 ← index w 8
    let w ← indexSet w 7 (((x_260 + (sigma1 cfg x_261)) + x_262) + (sigma0 cfg x_263))
    let x_265 ← index w 7
    let t1' : BitVec 64 := (((a + (Sigma1 cfg f)) + (Ch cfg f g h)) + 0x682e6ff3d6b2b8a3#64) + x_265
    let t2' : BitVec 64 := (Sigma0 cfg b) + (Maj cfg b c d)
    let e := e + t1'
    let a := t1' + t2'
    pure (w, a, b, c, d, e, f, g, h)

/-- round!(a, b, c, d, e, f, g, h, 0x748f82ee5defb2fc, w[8], w[6], w[1], w[9]) -/
def Engine.process_block_fast.line1_56 (cfg : Cfg) : Engine.process_block_fast.State1 → Res Engine.process_block_fast.State1 :=
  fun (w, a, b, c, d, e, f, g, h) => do
    let x_266 ← index w 8
    let x_267 ← index w 6
    let x_268 ← index w 1
    let x_269 ← index w 9
    let w ← indexSet w 8 (((x_266 + (sigma1 cfg x_267)) + x_268) + (sigma0 cfg x_269))
    let x_271 ← index w 8
    let t1' : BitVec 64 := (((h + (Sigma1 cfg e)) + (Ch cfg e f g)) + 0x748f82ee5defb2fc#64) + x_271
    let t2' : BitVec 64 := (Sigma0 cfg a) + (Maj cfg a b c)
    let d := d + t1'
    let h := t1' + t2'
    pure (w, a, b, c, d, e, f, g, h)

/-- round!(h, a, b, c, d, e, f, g, 0x78a5636f43172f60, w[9], w[7], w[2], w[10]) -/
def Engine.process_block_fast.line1_57 (cfg : Cfg) : Engine.process_block_fast.State1 → Res Engine.process_block_fast.State1 :=
  fun (w, a, b, c, d, e, f, g, h) => do
    let x_272 ← index w 9
    let x_273 ← index w 7
    let x_274 ← index w 2
    let x_275 ← index w 10
    let w ← indexSet w 9 (((x_272 + (sigma1 cfg x_273)) + x_274) + (sigma0 cfg x_275))
    let x_277 ← index w 9
    let t1' : BitVec 64 := (((g + (Sigma1 cfg d)) + (Ch cfg d e f)) + 0x78a5636f43172f60#64) + x_277
    let t2' : BitVec 64 := (Sigma0 cfg h) + (Maj cfg h a b)
    let c := c + t1'
    let g := t1' + t2'
    pure (w, a, b, c, d, e, f, g, h)

/-- round!(g, h, a, b, c, d, e, f, 0x84c87814a1f0ab72, w[10], w[8], w[3], w[11]) -/
def Engine.process_block_fast.line1_58 (cfg : Cfg) : Engine.process_block_fast.State1 → Res Engine.process_block_fast.State1 :=
  fun (w, a, b, c, d, e, f, g, h) => do
    let x_278 ← index w 10
    let x_279 ← index w 8
    let x_280 ← index w 3
    let x_281 ← index w 11
    let w ← indexSet w 10 (((x_278 + (sigma1 cfg x_279)) + x_280) + (sigma0 cfg x_281))
    let x_283 ← index w 10
    let t1' : BitVec 64 := (((f + (Sigma1 cfg c)) + (Ch cfg c d e)) + 0x84c87814a1f0ab72#64) + x_283
    let t2' : BitVec 64 := (Sigma0 cfg g) + (Maj cfg g h a)
    let b := b + t1'
    let f := t1' + t2'
    pure (w, a, b, c, d, e, f, g, h)

/-- round!(f, g, h, a, b, c, d, e, 0x8cc702081a6439ec, w[11], w[9], w[4], w[12]) -/
def Engine.process_block_fast.line1_59 (cfg : Cfg) : Engine.process_block_fast.State1 → Res Engine.process_block_fast.State1 :=
  fun (w, a, b, c, d, e, f, g, h) => do
    let x_284 ← index w 11
    let x_285 ← index w 9
    let x_286 ← index w 4
    let x_287 ← index w 12
    let w ← indexSet w 11 (((x_284 + (sigma1 cfg x_285)) + x_286) + (sigma0 cfg x_287))
    let x_289 ← index w 11
    let t1' : BitVec 64 := (((e + (Sigma1 cfg b)) + (Ch cfg b c d)) + 0x8cc702081a6439ec#64) + x_289
    let t2' : BitVec 64 := (Sigma0 cfg f) + (Maj cfg f g h)
    let a := a + t1'
    let e := t1' + t2'
    pure (w, a, b, c, d, e, f, g, h)

/-- round!(e, f, g, h, a, b, c, d, 0x90befffa23631e28, w[12], w[10], w[5], w[13]) -/
def Engine.process_block_fast.line1_60 (cfg : Cfg) : Engine.process_block_fast.State1 → Res Engine.process_block_fast.State1 :=
  fun (w, a, b, c, d, e, f, g, h) => do
    let x_290 ← index w 12
    let x_291 ← index w 10
    let x_292 ← index w 5
    let x_293 ← index w 13
    let w ← indexSet w 12 (((x_290 + (sigma1 cfg x_291)) + x_292) + (sigma0 cfg x_293))
    let x_295 ← index w 12
    let t1' : BitVec 64 := (((d + (Sigma1 cfg a)) + (Ch cfg a b c)) + 0x90befffa23631e28#64) + x_295
    let t2' : BitVec 64 := (Sigma0 cfg e) + (Maj cfg e f g)
    let h := h + t1'
    let d := t1' + t2'
    pure (w, a, b, c, d, e, f, g, h)

/-- round!(d, e, f, g, h, a, b, c, 0xa4506cebde82bde9, w[13], w[11], w[6], w[14]) -/
def Engine.process_block_fast.line1_61 (cfg : Cfg) : Engine.process_block_fast.State1 → Res Engine.process_block_fast.State1 :=
  fun (w, a, b, c, d, e, f, g, h) => do
    let x_296 ← index w 13
    let x_297 ← index w 11
    let x_298 ← index w 6
    let x_299 ← index w 14
    let w ← indexSet w 13 (((x_296 + (sigma1 cfg x_297)) + x_298) + (sigma0 cfg x_299))
    let x_301 ← index w 13
    let t1' : BitVec 64 := (((c + (Sigma1 cfg h)) + (Ch cfg h a b)) + 0xa4506cebde82bde9#64) + x_301
    let t2' : BitVec 64 := (Sigma0 cfg d) + (Maj cfg d e f)
    let g := g + t1'
    let c := t1' + t2'
    pure (w, a, b, c, d, e, f, g, h)

/-- round!(c, d, e, f, g, h, a, b, 0xbef9a3f7b2c67915, w[14], w[12], w[7], w[15]) -/
def Engine.process_block_fast.line1_62 (cfg : Cfg) : Engine.process_block_fast.State1 → Res Engine.process_block_fast.State1 :=
  fun (w, a, b, c, d, e, f, g, h) => do
    let x_302 ← index w 14
    let x_303 ← index w 12
    let x_304 ← index w 7
    let x_305 ← index w 15
    let w ← indexSet w 14 (((x_302 + (sigma1 cfg x_303)) + x_304) + (sigma0 cfg x_305))
    let x_307 ← index w 14
    let t1' : BitVec 64 := (((b + (Sigma1 cfg g)) + (Ch cfg g h a)) + 0xbef9a3f7b2c67915#64) + x_307
    let t2' : BitVec 64 := (Sigma0 cfg c) + (Maj cfg c d e)
    let f := f + t1'
    let b := t1' + t2'
    pure (w, a, b, c, d, e, f, g, h)

/-- round!(b, c, d, e, f, g, h, a, 0xc67178f2e372532b, w[15], w[13], w[8], w[0]) -/
def Engine.process_block_fast.line1_63 (cfg : Cfg) : Engine.process_block_fast.State1 → Res Engine.process_block_fast.State1 :=
  fun (w, a, b, c, d, e, f, g, h) => do
    let x_308 ← index w 15
    let x_309 ← index w 13
    let x_310 ← index w 8
    let x_311 ← index w 0
    let w ← indexSet w 15 (((x_308 + (sigma1 cfg x_309)) + x_310) + (sigma0 cfg x_311))
    let x_313 ← index w 15
    let t1' : BitVec 64 := (((a + (Sigma1 cfg f)) + (Ch cfg f g h)) + 0xc67178f2e372532b#64) + x_313
    let t2' : BitVec 64 := (Sigma0 cfg b) + (Maj cfg b c d)
    let e := e + t1'
    let a := t1' + t2'
    pure (w, a, b, c, d, e, f, g, h)

/-- round!(a, b, c, d, e, f, g, h, 0xca273eceea26619c, w[0], w[14], w[9], w[1]) -/
def Engine.process_block_fast.line1_64 (cfg : Cfg) : Engine.process_block_fast.State1 → Res Engine.process_block_fast.State1 :=
  fun (w, a, b, c, d, e, f, g, h) => do
    let x_314 ← index w 0
    let x_315 ← index w 14
    let x_316 ← index w 9
    let x_317 ← index w 1
    let w ← indexSet w 0 (((x_314 + (sigma1 cfg x_315)) + x_316) + (sigma0 cfg x_317))
    let x_319 ← index w 0
    let t1' : BitVec 64 := (((h + (Sigma1 cfg e)) + (Ch cfg e f g)) + 0xca273eceea26619c#64) + x_319
    let t2' : BitVec 64 := (Sigma0 cfg a) + (Maj cfg a b c)
    let d := d + t1'
    let h := t1' + t2'
    pure (w, a, b, c, d, e, f, g, h)

/-- round!(h, a, b, c, d, e, f, g, 0xd186b8c721c0c207, w[1], w[15], w[10], w[2]) -/
def Engine.process_block_fast.line1_65 (cfg : Cfg) : Engine.process_block_fast.State1 → Res Engine.process_block_fast.State1 :=
  fun (w, a, b, c, d, e, f, g, h) => do
    let x_320 ← index w 1
    let x_321 ← index w 15
    let x_322 ← index w 10
    let x_323 ← index w 2
    let w ← indexSet w 1 (((x_320 + (sigma1 cfg x_321)) + x_322) + (sigma0 cfg x_323))
    let x_325 ← index w 1
    let t1' : BitVec 64 := (((g + (Sigma1 cfg d)) + (Ch cfg d e f)) + 0xd186b8c721c0c207#64) + x_325
    let t2' : BitVec 64 := (Sigma0 cfg h) + (Maj cfg h a b)
    let c := c + t1'
    let g := t1' + t2'
    pure (w, a, b, c, d, e, f, g, h)

/-- round!(g, h, a, b, c, d, e, f, 0xeada7dd6cde0eb1e, w[2], w[0], w[11], w[3]) -/
def Engine.process_block_fast.line1_66 (cfg : Cfg) : Engine.process_block_fast.State1 → Res Engine.process_block_fast.State1 :=
  fun (w, a, b, c, d, e, f, g, h) => do
    let x_326 ← index w 2
    let x_327 ← index w 0
    let x_328 ← index w 11
    let x_329 ← index w 3
    let w ← indexSet w 2 (((x_326 + (sigma1 cfg x_327)) + x_328) + (sigma0 cfg x_329))
    let x_331 ← index w 2
    let t1' : BitVec 64 := (((f + (Sigma1 cfg c)) + (Ch cfg c d e)) + 0xeada7dd6cde0eb1e#64) + x_331
    let t2' : BitVec 64 := (Sigma0 cfg g) + (Maj cfg g h a)
    let b := b + t1'
    let f := t1' + t2'
    pure (w, a, b, c, d, e, f, g, h)

/-- round!(f, g, h, a, b, c, d, e, 0xf57d4f7fee6ed178, w[3], w[1], w[12], w[4]) -/
def Engine.process_block_fast.line1_67 (cfg : Cfg) : Engine.process_block_fast.State1 → Res Engine.process_block_fast.State1 :=
  fun (w, a, b, c, d, e, f, g, h) => do
    let x_332 ← index w 3
    let x_333 ← index w 1
    let x_334 ← index w 12
    let x_335 ← index w 4
    let w ← indexSet w 3 (((x_332 + (sigma1 cfg x_333)) + x_334) + (sigma0 cfg x_335))
    let x_337 ← index w 3
    let t1' : BitVec 64 := (((e + (Sigma1 cfg b)) + (Ch cfg b c d)) + 0xf57d4f7fee6ed178#64) + x_337
    let t2' : BitVec 64 := (Sigma0 cfg f) + (Maj cfg f g h)
    let a := a + t1'
    let e := t1' + t2'
    pure (w, a, b, c, d, e, f, g, h)

/-- round!(e, f, g, h, a, b, c, d, 0x06f067aa72176fba, w[4], w[2], w[13], w[5]) -/
def Engine.process_block_fast.line1_68 (cfg : Cfg) : Engine.process_block_fast.State1 → Res Engine.process_block_fast.State1 :=
  fun (w, a, b, c, d, e, f, g, h) => do
    let x_338 ← index w 4
    let x_339 ← index w 2
    let x_340 ← index w 13
    let x_341 ← index w 5
    let w ← indexSet w 4 (((x_338 + (sigma1 cfg x_339)) + x_340) + (sigma0 cfg x_341))
    let x_343 ← index w 4
    let t1' : BitVec 64 := (((d + (Sigma1 cfg a)) + (Ch cfg a b c)) + 0x06f067aa72176fba#64) + x_343
    let t2' : BitVec 64 := (Sigma0 cfg e) + (Maj cfg e f g)
    let h := h + t1'
    let d := t1' + t2'
    pure (w, a, b, c, d, e, f, g, h)

/-- round!(d, e, f, g, h, a, b, c, 0x0a637dc5a2c898a6, w[5], w[3], w[14], w[6]) -/
def Engine.process_block_fast.line1_69 (cfg : Cfg) : Engine.process_block_fast.State1 → Res Engine.process_block_fast.State1 :=
  fun (w, a, b, c, d, e, f, g, h) => do
    let x_344 ← index w 5
    let x_345 ← index w 3
    let x_346 ← index w 14
    let x_347 ← index w 6
    let w ← indexSet w 5 (((x_344 + (sigma1 cfg x_345)) + x_346) + (sigma0 cfg x_347))
    let x_349 ← index w 5
    let t1' : BitVec 64 := (((c + (Sigma1 cfg h)) + (Ch cfg h a b)) + 0x0a637dc5a2c898a6#64) + x_349
    let t2' : BitVec 64 := (Sigma0 cfg d) + (Maj cfg d e f)
    let g := g + t1'
    let c := t1' + t2'
    pure (w, a, b, c, d, e, f, g, h)

/-- round!(c, d, e, f, g, h, a, b, 0x113f9804bef90dae, w[6], w[4], w[15], w[7]) -/
def Engine.process_block_fast.line1_70 (cfg : Cfg) : Engine.process_block_fast.State1 → Res Engine.process_block_fast.State1 :=
  fun (w, a, b, c, d, e, f, g, h) => do
    let x_350 ← index w 6
    let x_351 ← index w 4
    let x_352 ← index w 15
    let x_353 ← index w 7
    let w ← indexSet w 6 (((x_350 + (sigma1 cfg x_351)) + x_352) + (sigma0 cfg x_353))
    let x_355 ← index w 6
    let t1' : BitVec 64 := (((b + (Sigma1 cfg g)) + (Ch cfg g h a)) + 0x113f9804bef90dae#64) + x_355
    let t2' : BitVec 64 := (Sigma0 cfg c) + (Maj cfg c d e)
    let f := f + t1'
    let b := t1' + t2'
    pure (w, a, b, c, d, e, f, g, h)

/-- round!(b, c, d, e, f, g, h, a, 0x1b710b35131c471b, w[7], w[5], w[0], w[8]) -/
def Engine.process_block_fast.line1_71 (cfg : Cfg) : Engine.process_block_fast.State1 → Res Engine.process_block_fast.State1 :=
  fun (w, a, b, c, d, e, f, g, h) => do
    let x_356 ← index w 7
    let x_357 ← index w 5
    let x_358 ← index w 0
    let x_359 ← index w 8
    let w ← indexSet w 7 (((x_356 + (sigma1 cfg x_357)) + x_358) + (sigma0 cfg x_359))
    let x_361 ← index w 7
    let t1' : BitVec 64 := (((a + (Sigma1 cfg f)) + (Ch cfg f g h)) + 0x1b710b35131c471b#64) + x_361
    let t2' : BitVec 64 := (Sigma0 cfg b) + (Maj cfg b c d)
    let e := e + t1'
    let a := t1' + t2'
    pure (w, a, b, c, d, e, f, g, h)

/-- round!(a, b, c, d, e, f, g, h, 0x28db77f523047d84, w[8], w[6], w[1], w[9]) -/
def Engine.process_block_fast.line1_72 (cfg : Cfg) : Engine.process_block_fast.State1 → Res Engine.process_block_fast.State1 :=
  fun (w, a, b, c, d, e, f, g, h) => do
    let x_362 ← index w 8
    let x_363 ← index w 6
    let x_364 ← index w 1
    let x_365 ← index w 9
    let w ← indexSet w 8 (((x_362 + (sigma1 cfg x_363)) + x_364) + (sigma0 cfg x_365))
    let x_367 ← index w 8
    let t1' : BitVec 64 := (((h + (Sigma1 cfg e)) + (Ch cfg e f g)) + 0x28db77f523047d84#64) + x_367
    let t2' : BitVec 64 := (Sigma0 cfg a) + (Maj cfg a b c)
    let d := d + t1'
    let h := t1' + t2'
    pure (w, a, b, c, d, e, f, g, h)

/-- round!(h, a, b, c, d, e, f, g, 0x32caab7b40c72493, w[9], w[7], w[2], w[10]) -/
def Engine.process_block_fast.line1_73 (cfg : Cfg) : Engine.process_block_fast.State1 → Res Engine.process_block_fast.State1 :=
  fun (w, a, b, c, d, e, f, g, h) => do
    let x_368 ← index w 9
    let x_369 ← index w 7
    let x_370 ← index w 2
    let x_371 ← index w 10
    let w ← indexSet w 9 (((x_368 + (sigma1 cfg x_369)) + x_370) + (sigma0 cfg x_371))
    let x_373 ← index w 9
    let t1' : BitVec 64 := (((g + (Sigma1 cfg d)) + (Ch cfg d e f)) + 0x32caab7b40c72493#64) + x_373
    let t2' : BitVec 64 := (Sigma0 cfg h) + (Maj cfg h a b)
    let c := c + t1'
    let g := t1' + t2'
    pure (w, a, b, c, d, e, f, g, h)

/-- round!(g, h, a, b, c, d, e, f, 0x3c9ebe0a15c9bebc, w[10], w[8], w[3], w[11]) -/
def Engine.process_block_fast.line1_74 (cfg : Cfg) : Engine.process_block_fast.State1 → Res Engine.process_block_fast.State1 :=
  fun (w, a, b, c, d, e, f, g, h) => do
    let x_374 ← index w 10
    let x_375 ← index w 8
    let x_376 ← index w 3
    let x_377 ← index w 11
    let w ← indexSet w 10 (((x_374 + (sigma1 cfg x_375)) + x_376) + (sigma0 cfg x_377))
    let x_379 ← index w 10
    let t1' : BitVec 64 := (((f + (Sigma1 cfg c)) + (Ch cfg c d e)) + 0x3c9ebe0a15c9bebc#64) + x_379
    let t2' : BitVec 64 := (Sigma0 cfg g) + (Maj cfg g h a)
    let b := b + t1'
    let f := t1' + t2'
    pure (w, a, b, c, d, e, f, g, h)

/-- round!(f, g, h, a, b, c, d, e, 0x431d67c49c100d4c, w[11], w[9], w[4], w[12]) -/
def Engine.process_block_fast.line1_75 (cfg : Cfg) : Engine.process_block_fast.State1 → Res Engine.process_block_fast.State1 :=
  fun (w, a, b, c, d, e, f, g, h) => do
    let x_380 ← index w 11
    let x_381 ← index w 9
    let x_382 ← index w 4
    let x_383 ← index w 12
    let w ← indexSet w 11 (((x_380 + (sigma1 cfg x_381)) + x_382) + (sigma0 cfg x_383))
    let x_385 ← index w 11
    let t1' : BitVec 64 := (((e + (Sigma1 cfg b)) + (Ch cfg b c d)) + 0x431d67c49c100d4c#64) + x_385
    let t2' : BitVec 64 := (Sigma0 cfg f) + (Maj cfg f g h)
    let a := a + t1'
    let e := t1' + t2'
    pure (w, a, b, c, d, e, f, g, h)

/-- round!(e, f, g, h, a, b, c, d, 0x4cc5d4becb3e42b6, w[12], w[10], w[5], w[13]) -/
def Engine.process_block_fast.line1_76 (cfg : Cfg) : Engine.process_block_fast.State1 → Res Engine.process_block_fast.State1 :=
  fun (w, a, b, c, d, e, f, g, h) => do
    let x_386 ← index w 12
    let x_387 ← index w 10
    let x_388 ← index w 5
    let x_389 ← index w 13
    let w ← indexSet w 12 (((x_386 + (sigma1 cfg x_387)) + x_388) + (sigma0 cfg x_389))
    let x_391 ← index w 12
    let t1' : BitVec 64 := (((d + (Sigma1 cfg a)) + (Ch cfg a b c)) + 0x4cc5d4becb3e42b6#64) + x_391
    let t2' : BitVec 64 := (Sigma0 cfg e) + (Maj cfg e f g)
    let h := h + t1'
    let d := t1' + t2'
    pure (w, a, b, c, d, e, f, g, h)

/-- round!(d, e, f, g, h, a, b, c, 0x597f299cfc657e2a, w[13], w[11], w[6], w[14]) -/
def Engine.process_block_fast.line1_77 (cfg : Cfg) : Engine.process_block_fast.State1 → Res Engine.process_block_fast.State1 :=
  fun (w, a, b, c, d, e, f, g, h) => do
    let x_392 ← index w 13
    let x_393 ← index w 11
    let x_394 ← index w 6
    let x_395 ← index w 14
    let w ← indexSet w 13 (((x_392 + (sigma1 cfg x_393)) + x_394) + (sigma0 cfg x_395))
    let x_397 ← index w 13
    let t1' : BitVec 64 := (((c + (Sigma1 cfg h)) + (Ch cfg h a b)) + 0x597f299cfc657e2a#64) + x_397
    let t2' : BitVec 64 := (Sigma0 cfg d) + (Maj cfg d e f)
    let g := g + t1'
    let c := t1' + t2'
    pure (w, a, b, c, d, e, f, g, h)

/-- round!(c, d, e, f, g, h, a, b, 0x5fcb6fab3ad6faec, w[14], w[12], w[7], w[15]) -/
def Engine.process_block_fast.line1_78 (cfg : Cfg) : Engine.process_block_fast.State1 → Res Engine.process_block_fast.State1 :=
  fun (w, a, b, c, d, e, f, g, h) => do
    let x_398 ← index w 14
    let x_399 ← index w 12
    let x_400 ← index w 7
    let x_401 ← index w 15
    let w ← indexSet w 14 (((x_398 + (sigma1 cfg x_399)) + x_400) + (sigma0 cfg x_401))
    let x_403 ← index w 14
    let t1' : BitVec 64 := (((b + (Sigma1 cfg g)) + (Ch cfg g h a)) + 0x5fcb6fab3ad6faec#64) + x_403
    let t2' : BitVec 64 := (Sigma0 cfg c) + (Maj cfg c d e)
    let f := f + t1'
    let b := t1' + t2'
    pure (w, a, b, c, d, e, f, g, h)

/-- round!(b, c, d, e, f, g, h, a, 0x6c44198c4a475817, w[15], w[13], w[8], w[0]) -/
def Engine.process_block_fast.line1_79 (cfg : Cfg) : Engine.process_block_fast.State1 → Res Engine.process_block_fast.State1 :=
  fun (w, a, b, c, d, e, f, g, h) => do
    let x_404 ← index w 15
    let x_405 ← index w 13
    let x_406 ← index w 8
    let x_407 ← index w 0
    let w ← indexSet w 15 (((x_404 + (sigma1 cfg x_405)) + x_406) + (sigma0 cfg x_407))
    let x_409 ← index w 15
    let t1' : BitVec 64 := (((a + (Sigma1 cfg f)) + (Ch cfg f g h)) + 0x6c44198c4a475817#64) + x_409
    let t2' : BitVec 64 := (Sigma0 cfg b) + (Maj cfg b c d)
    let e := e + t1'
    let a := t1' + t2'
    pure (w, a, b, c, d, e, f, g, h)

/-- The 80 statements. -/
def Engine.process_block_fast.lines1 (cfg : Cfg) : List (Engine.process_block_fast.State1 → Res Engine.process_block_fast.State1) := [
  Engine.process_block_fast.line1_0 cfg,
  Engine.process_block_fast.line1_1 cfg,
  Engine.process_block_fast.line1_2 cfg,
  Engine.process_block_fast.line1_3 cfg,
  Engine.process_block_fast.line1_4 cfg,
  Engine.process_block_fast.line1_5 cfg,
  Engine.process_block_fast.line1_6 cfg,
  Engine.process_block_fast.line1_7 cfg,
  Engine.process_block_fast.line1_8 cfg,
  Engine.process_block_fast.line1_9 cfg,
  Engine.process_block_fast.line1_10 cfg,
  Engine.process_block_fast.line1_11 cfg,
  Engine.process_block_fast.line1_12 cfg,
  Engine.process_block_fast.line1_13 cfg,
  Engine.process_block_fast.line1_14 cfg,
  Engine.process_block_fast.line1_15 cfg,
  Engine.process_block_fast.line1_16 cfg,
  Engine.process_block_fast.line1_17 cfg,
  Engine.process_block_fast.line1_18 cfg,
  Engine.process_block_fast.line1_19 cfg,
  Engine.process_block_fast.line1_20 cfg,
  Engine.process_block_fast.line1_21 cfg,
  Engine.process_block_fast.line1_22 cfg,
  Engine.process_block_fast.line1_23 cfg,
  Engine.process_block_fast.line1_24 cfg,
  Engine.process_block_fast.line1_25 cfg,
  Engine.process_block_fast.line1_26 cfg,
  Engine.process_block_fast.line1_27 cfg,
  Engine.process_block_fast.line1_28 cfg,
  Engine.process_block_fast.line1_29 cfg,
  Engine.process_block_fast.line1_30 cfg,
  Engine.process_block_fast.line1_31 cfg,
  Engine.process_block_fast.line1_32 cfg,
  Engine.process_block_fast.line1_33 cfg,
  Engine.process_block_fast.line1_34 cfg,
  Engine.process_block_fast.line1_35 cfg,
  Engine.process_block_fast.line1_36 cfg,
  Engine.process_block_fast.line1_37 cfg,
  Engine.process_block_fast.line1_38 cfg,
  Engine.process_block_fast.line1_39 cfg,
  Engine.process_block_fast.line1_40 cfg,
  Engine.process_block_fast.line1_41 cfg,
  Engine.process_block_fast.line1_42 cfg,
  Engine.process_block_fast.line1_43 cfg,
  Engine.process_block_fast.line1_44 cfg,
  Engine.process_block_fast.line1_45 cfg,
  Engine.process_block_fast.line1_46 cfg,
  Engine.process_block_fast.line1_47 cfg,
  Engine.process_block_fast.line1_48 cfg,
  Engine.process_block_fast.line1_49 cfg,
  Engine.process_block_fast.line1_50 cfg,
  Engine.process_block_fast.line1_51 cfg,
  Engine.process_block_fast.line1_52 cfg,
  Engine.process_block_fast.line1_53 cfg,
  Engine.process_block_fast.line1_54 cfg,
  Engine.process_block_fast.line1_55 cfg,
  Engine.process_block_fast.line1_56 cfg,
  Engine.process_block_fast.line1_57 cfg,
  Engine.process_block_fast.line1_58 cfg,
  Engine.process_block_fast.line1_59 cfg,
  Engine.process_block_fast.line1_60 cfg,
  Engine.process_block_fast.line1_61 cfg,
  Engine.process_block_fast.line1_62 cfg,
  Engine.process_block_fast.line1_63 cfg,
  Engine.process_block_fast.line1_64 cfg,
  Engine.process_block_fast.line1_65 cfg,
  Engine.process_block_fast.line1_66 cfg,
  Engine.process_block_fast.line1_67 cfg,
  Engine.process_block_fast.line1_68 cfg,
  Engine.process_block_fast.line1_69 cfg,
  Engine.process_block_fast.line1_70 cfg,
  Engine.process_block_fast.line1_71 cfg,
  Engine.process_block_fast.line1_72 cfg,
  Engine.process_block_fast.line1_73 cfg,
  Engine.process_block_fast.line1_74 cfg,
  Engine.process_block_fast.line1_75 cfg,
  Engine.process_block_fast.line1_76 cfg,
  Engine.process_block_fast.line1_77 cfg,
  Engine.process_block_fast.line1_78 cfg,
  Engine.process_block_fast.line1_79 cfg]

/-- `Engine::process_block`, sha512.rs 204-314, without feature `small-hash`. -/
def Engine.process_block_fast (cfg : Cfg) (self : Engine) : Res Engine := do
  debugAssert cfg (self.buffer.length == Sha512.BLOCK_SIZE)
  let w : List (BitVec 64) := List.replicate 16 0#64
  let w ← Rs.zipMut w (chunksExact 8 self.buffer) fun w_val buff_bytes => do
    let x_1 ← Rs.tryInto 8 buff_bytes
    let w_val := Rs.fromBeBytes 64 x_1
    pure w_val
  let a ← index self.h 0
  let b ← index self.h 1
  let c ← index self.h 2
  let d ← index self.h 3
  let e ← index self.h 4
  let f ← index self.h 5
  let g ← index self.h 6
  let h ← index self.h 7
  let (w, a, b, c, d, e, f, g, h) ← Rs.runLines (Engine.process_block_fast.lines1 cfg) (w, a, b, c, d, e, f, g, h)
  let x_410 ← index self.h 0
  let x_411 ← indexSet self.h 0 (x_410 + a)
  let self := { self with h := x_411 }
  let x_412 ← index self.h 1
  let x_413 ← indexSet self.h 1 (x_412 + b)
  let self := { self with h := x_413 }
  let x_414 ← index self.h 2
  let x_415 ← indexSet self.h 2 (x_414 + c)
  let self := { self with h := x_415 }
  let x_416 ← index self.h 3
  let x_417 ← indexSet self.h 3 (x_416 + d)
  let self := { self with h := x_417 }
  let x_418 ← index self.h 4
  let x_419 ← indexSet self.h 4 (x_418 + e)
  let self := { self with h := x_419 }
  let x_420 ← index self.h 5
  let x_421 ← indexSet self.h 5 (x_420 + f)
  let self := { self with h := x_421 }
  let x_422 ← index self.h 6
  let x_423 ← indexSet self.h 6 (x_422 + g)
  let self := { self with h := x_423 }
  let x_424 ← index self.h 7
  let x_425 ← indexSet self.h 7 (x_424 + h)
  let self := { self with h := x_425 }
  pure self

/-- The variables w, a, b, c, d, e, f, g, h of `process_block`. -/
abbrev Engine.process_block_small.State1 := (List (BitVec 64)) × (BitVec 64) × (BitVec 64) × (BitVec 64) × (BitVec 64) × (BitVec 64) × (BitVec 64) × (BitVec 64) × (BitVec 64)

/-- round!(a, b, c, d, e, f, g, h, 0x428a2f98d728ae22, w[0]) -/
def Engine.process_block_small.line1_0 (cfg : Cfg) : Engine.process_block_small.State1 → Res Engine.process_block_small.State1 :=
  fun (w, a, b, c, d, e, f, g, h) => do
    let x_10 ← index w 0
    let (x_11, x_12) := small_hash.round cfg a b c d e f g h 0x428a2f98d728ae22#64 x_10
    let d := x_11
    let h := x_12
    pure (w, a, b, c, d, e, f, g, h)

/-- round!(h, a, b, c, d, e, f, g, 0x7137449123ef65cd, w[1]) -/
def Engine.process_block_small.line1_1 (cfg : Cfg) : Engine.process_block_small.State1 → Res Engine.process_block_small.State1 :=
  fun (w, a, b, c, d, e, f, g, h) => do
    let x_13 ← index w 1
    let (x_14, x_15) := small_hash.round cfg h a b c d e f g 0x7137449123ef65cd#64 x_13
    let c := x_14
    let g := x_15
    pure (w, a, b, c, d, e, f, g, h)

/-- round!(g, h, a, b, c, d, e, f, 0xb5c0fbcfec4d3b2f, w[2]) -/
def Engine.process_block_small.line1_2 (cfg : Cfg) : Engine.process_block_small.State1 → Res Engine.process_block_small.State1 :=
  fun (w, a, b, c, d, e, f, g, h) => do
    let x_16 ← index w 2
    let (x_17, x_18) := small_hash.round cfg g h a b c d e f 0xb5c0fbcfec4d3b2f#64 x_16
    let b := x_17
    let f := x_18
    pure (w, a, b, c, d, e, f, g, h)

/-- round!(f, g, h, a, b, c, d, e, 0xe9b5dba58189dbbc, w[3]) -/
def Engine.process_block_small.line1_3 (cfg : Cfg) : Engine.process_block_small.State1 → Res Engine.process_block_small.State1 :=
  fun (w, a, b, c, d, e, f, g, h) => do
    let x_19 ← index w 3
    let (x_20, x_21) := small_hash.round cfg f g h a b c d e 0xe9b5dba58189dbbc#64 x_19
    let a := x_20
    let e := x_21
    pure (w, a, b, c, d, e, f, g, h)

/-- round!(e, f, g, h, a, b, c, d, 0x3956c25bf348b538, w[4]) -/
def Engine.process_block_small.line1_4 (cfg : Cfg) : Engine.process_block_small.State1 → Res Engine.process_block_small.State1 :=
  fun (w, a, b, c, d, e, f, g, h) => do
    let x_22 ← index w 4
    let (x_23, x_24) := small_hash.round cfg e f g h a b c d 0x3956c25bf348b538#64 x_22
    let h := x_23
    let d := x_24
    pure (w, a, b, c, d, e, f, g, h)

/-- round!(d, e, f, g, h, a, b, c, 0x59f111f1b605d019, w[5]) -/
def Engine.process_block_small.line1_5 (cfg : Cfg) : Engine.process_block_small.State1 → Res Engine.process_block_small.State1 :=
  fun (w, a, b, c, d, e, f, g, h) => do
    let x_25 ← index w 5
    let (x_26, x_27) := small_hash.round cfg d e f g h a b c 0x59f111f1b605d019#64 x_25
    let g := x_26
    let c := x_27
    pure (w, a, b, c, d, e, f, g, h)

/-- round!(c, d, e, f, g, h, a, b, 0x923f82a4af194f9b, w[6]) -/
def Engine.process_block_small.line1_6 (cfg : Cfg) : Engine.process_block_small.State1 → Res Engine.process_block_small.State1 :=
  fun (w, a, b, c, d, e, f, g, h) => do
    let x_28 ← index w 6
    let (x_29, x_30) := small_hash.round cfg c d e f g h a b 0x923f82a4af194f9b#64 x_28
    let f := x_29
    let b := x_30
    pure (w, a, b, c, d, e, f, g, h)

/-- round!(b, c, d, e, f, g, h, a, 0xab1c5ed5da6d8118, w[7]) -/
def Engine.process_block_small.line1_7 (cfg : Cfg) : Engine.process_block_small.State1 → Res Engine.process_block_small.State1 :=
  fun (w, a, b, c, d, e, f, g, h) => do
    let x_31 ← index w 7
    let (x_32, x_33) := small_hash.round cfg b c d e f g h a 0xab1c5ed5da6d8118#64 x_31
    let e := x_32
    let a := x_33
    pure (w, a, b, c, d, e, f, g, h)

/-- round!(a, b, c, d, e, f, g, h, 0xd807aa98a3030242, w[8]) -/
def Engine.process_block_small.line1_8 (cfg : Cfg) : Engine.process_block_small.State1 → Res Engine.process_block_small.State1 :=
  fun (w, a, b, c, d, e, f, g, h) => do
    let x_34 ← index w 8
    let (x_35, x_36) := small_hash.round cfg a b c d e f g h 0xd807aa98a3030242#64 x_34
    let d := x_35
    let h := x_36
    pure (w, a, b, c, d, e, f, g, h)

/-- round!(h, a, b, c, d, e, f, g, 0x12835b0145706fbe, w[9]) -/
def Engine.process_block_small.line1_9 (cfg : Cfg) : Engine.process_block_small.State1 → Res Engine.process_block_small.State1 :=
  fun (w, a, b, c, d, e, f, g, h) => do
    let x_37 ← index w 9
    let (x_38, x_39) := small_hash.round cfg h a b c d e f g 0x12835b0145706fbe#64 x_37
    let c := x_38
    let g := x_39
    pure (w, a, b, c, d, e, f, g, h)

/-- round!(g, h, a, b, c, d, e, f, 0x243185be4ee4b28c, w[10]) -/
def Engine.process_block_small.line1_10 (cfg : Cfg) : Engine.process_block_small.State1 → Res Engine.process_block_small.State1 :=
  fun (w, a, b, c, d, e, f, g, h) => do
    let x_40 ← index w 10
    let (x_41, x_42) := small_hash.round cfg g h a b c d e f 0x243185be4ee4b28c#64 x_40
    let b := x_41
    let f := x_42
    pure (w, a, b, c, d, e, f, g, h)

/-- round!(f, g, h, a, b, c, d, e, 0x550c7dc3d5ffb4e2, w[11]) -/
def Engine.process_block_small.line1_11 (cfg : Cfg) : Engine.process_block_small.State1 → Res Engine.process_block_small.State1 :=
  fun (w, a, b, c, d, e, f, g, h) => do
    let x_43 ← index w 11
    let (x_44, x_45) := small_hash.round cfg f g h a b c d e 0x550c7dc3d5ffb4e2#64 x_43
    let a := x_44
    let e := x_45
    pure (w, a, b, c, d, e, f, g, h)

/-- round!(e, f, g, h, a, b, c, d, 0x72be5d74f27b896f, w[12]) -/
def Engine.process_block_small.line1_12 (cfg : Cfg) : Engine.process_block_small.State1 → Res Engine.process_block_small.State1 :=
  fun (w, a, b, c, d, e, f, g, h) => do
    let x_46 ← index w 12
    let (x_47, x_48) := small_hash.round cfg e f g h a b c d 0x72be5d74f27b896f#64 x_46
    let h := x_47
    let d := x_48
    pure (w, a, b, c, d, e, f, g, h)

/-- round!(d, e, f, g, h, a, b, c, 0x80deb1fe3b1696b1, w[13]) -/
def Engine.process_block_small.line1_13 (cfg : Cfg) : Engine.process_block_small.State1 → Res Engine.process_block_small.State1 :=
  fun (w, a, b, c, d, e, f, g, h) => do
    let x_49 ← index w 13
    let (x_50, x_51) := small_hash.round cfg d e f g h a b c 0x80deb1fe3b1696b1#64 x_49
    let g := x_50
    let c := x_51
    pure (w, a, b, c, d, e, f, g, h)

/-- round!(c, d, e, f, g, h, a, b, 0x9bdc06a725c71235, w[14]) -/
def Engine.process_block_small.line1_14 (cfg : Cfg) : Engine.process_block_small.State1 → Res Engine.process_block_small.State1 :=
  fun (w, a, b, c, d, e, f, g, h) => do
    let x_52 ← index w 14
    let (x_53, x_54) := small_hash.round cfg c d e f g h a b 0x9bdc06a725c71235#64 x_52
    let f := x_53
    let b := x_54
    pure (w, a, b, c, d, e, f, g, h)

/-- round!(b, c, d, e, f, g, h, a, 0xc19bf174cf692694, w[15]) -/
def Engine.process_block_small.line1_15 (cfg : Cfg) : Engine.process_block_small.State1 → Res Engine.process_block_small.State1 :=
  fun (w, a, b, c, d, e, f, g, h) => do
    let x_55 ← index w 15
    let (x_56, x_57) := small_hash.round cfg b c d e f g h a 0xc19bf174cf692694#64 x_55
    let e := x_56
    let a := x_57
    pure (w, a, b, c, d, e, f, g, h)

/-- round!(a, b, c, d, e, f, g, h, 0xe49b69c19ef14ad2, w[0], w[14], w[9], w[1]) -/
def Engine.process_block_small.line1_16 (cfg : Cfg) : Engine.process_block_small.State1 → Res Engine.process_block_small.State1 :=
  fun (w, a, b, c, d, e, f, g, h) => do
    let x_58 ← index w 0
    let x_59 ← index w 14
    let x_60 ← index w 9
    let x_61 ← index w 1
    let (x_62, x_63, x_64) := small_hash.later_round cfg a b c d e f g h 0xe49b69c19ef14ad2#64 x_58 x_59 x_60 x_61
    let d := x_63
    let h := x_64
    let w ← indexSet w 0 x_62
    pure (w, a, b, c, d, e, f, g, h)

/-- round!(h, a, b, c, d, e, f, g, 0xefbe4786384f25e3, w[1], w[15], w[10], w[2]) -/
def Engine.process_block_small.line1_17 (cfg : Cfg) : Engine.process_block_small.State1 → Res Engine.process_block_small.State1 :=
  fun (w, a, b, c, d, e, f, g, h) => do
    let x_66 ← index w 1
    let x_67 ← index w 15
    let x_68 ← index w 10
    let x_69 ← index w 2
    let (x_70, x_71, x_72) := small_hash.later_round cfg h a b c d e f g 0xefbe4786384f25e3#64 x_66 x_67 x_68 x_69
    let c := x_71
    let g := x_72
    let w ← indexSet w 1 x_70
    pure (w, a, b, c, d, e, f, g, h)

/-- round!(g, h, a, b, c, d, e, f, 0x0fc19dc68b8cd5b5, w[2], w[0], w[11], w[3]) -/
def Engine.process_block_small.line1_18 (cfg : Cfg) : Engine.process_block_small.State1 → Res Engine.process_block_small.State1 :=
  fun (w, a, b, c, d, e, f, g, h) => do
    let x_74 ← index w 2
    let x_75 ← index w 0
    let x_76 ← index w 11
    let x_77 ← index w 3
    let (x_78, x_79, x_80) := small_hash.later_round cfg g h a b c d e f 0x0fc19dc68b8cd5b5#64 x_74 x_75 x_76 x_77
    let b := x_79
    let f := x_80
    let w ← indexSet w 2 x_78
    pure (w, a, b, c, d, e, f, g, h)

/-- round!(f, g, h, a, b, c, d, e, 0x240ca1cc77ac9c65, w[3], w[1], w[12], w[4]) -/
def Engine.process_block_small.line1_19 (cfg : Cfg) : Engine.process_block_small.State1 → Res Engine.process_block_small.State1 :=
  fun (w, a, b, c, d, e, f, g, h) => do
    let x_82 ← index w 3
    let x_83 ← index w 1
    let x_84 ← index w 12
    let x_85 ← index w 4
    let (x_86, x_87, x_88) := small_hash.later_round cfg f g h a b c d e 0x240ca1cc77ac9c65#64 x_82 x_83 x_84 x_85
    let a := x_87
    let e := x_88
    let w ← indexSet w 3 x_86
    pure (w, a, b, c, d, e, f, g, h)

/-- round!(e, f, g, h, a, b, c, d, 0x2de92c6f592b0275, w[4], w[2], w[13], w[5]) -/
def Engine.process_block_small.line1_20 (cfg : Cfg) : Engine.process_block_small.State1 → Res Engine.process_block_small.State1 :=
  fun (w, a, b, c, d, e, f, g, h) => do
    let x_90 ← index w 4
    let x_91 ← index w 2
    let x_92 ← index w 13
    let x_93 ← index w 5
    let (x_94, x_95, x_96) := small_hash.later_round cfg e f g h a b c d 0x2de92c6f592b0275#64 x_90 x_91 x_92 x_93
    let h := x_95
    let d := x_96
    let w ← indexSet w 4 x_94
    pure (w, a, b, c, d, e, f, g, h)

/-- round!(d, e, f, g, h, a, b, c, 0x4a7484aa6ea6e483, w[5], w[3], w[14], w[6]) -/
def Engine.process_block_small.line1_21 (cfg : Cfg) : Engine.process_block_small.State1 → Res Engine.process_block_small.State1 :=
  fun (w, a, b, c, d, e, f, g, h) => do
    let x_98 ← index w 5
    let x_99 ← index w 3
    let x_100 ← index w 14
    let x_101 ← index w 6
    let (x_102, x_103, x_104) := small_hash.later_round cfg d e f g h a b c 0x4a7484aa6ea6e483#64 x_98 x_99 x_100 x_101
    let g := x_103
    let c := x_104
    let w ← indexSet w 5 x_102
    pure (w, a, b, c, d, e, f, g, h)

/-- round!(c, d, e, f, g, h, a, b, 0x5cb0a9dcbd41fbd4, w[6], w[4], w[15], w[7]) -/
def Engine.process_block_small.line1_22 (cfg : Cfg) : Engine.process_block_small.State1 → Res Engine.process_block_small.State1 :=
  fun (w, a, b, c, d, e, f, g, h) => do
    let x_106 ← index w 6
    let x_107 ← index w 4
    let x_108 ← index w 15
    let x_109 ← index w 7
    let (x_110, x_111, x_112) := small_hash.later_round cfg c d e f g h a b 0x5cb0a9dcbd41fbd4#64 x_106 x_107 x_108 x_109
    let f := x_111
    let b := x_112
    let w ← indexSet w 6 x_110
    pure (w, a, b, c, d, e, f, g, h)

/-- round!(b, c, d, e, f, g, h, a, 0x76f988da831153b5, w[7], w[5], w[0], w[8]) -/
def Engine.process_block_small.line1_23 (cfg : Cfg) : Engine.process_block_small.State1 → Res Engine.process_block_small.State1 :=
  fun (w, a, b, c, d, e, f, g, h) => do
    let x_114 ← index w 7
    let x_115 ← index w 5
    let x_116 ← index w 0
    let x_117 ← index w 8
    let (x_118, x_119, x_120) := small_hash.later_round cfg b c d e f g h a 0x76f988da831153b5#64 x_114 x_115 x_116 x_117
    let e := x_119
    let a := x_120
    let w ← indexSet w 7 x_118
    pure (w, a, b, c, d, e, f, g, h)

/-- round!(a, b, c, d, e, f, g, h, 0x983e5152ee66dfab, w[8], w[6], w[1], w[9]) -/
def Engine.process_block_small.line1_24 (cfg : Cfg) : Engine.process_block_small.State1 → Res Engine.process_block_small.State1 :=
  fun (w, a, b, c, d, e, f, g, h) => do
    let x_122 ← index w 8
    let x_123 ← index w 6
    let x_124 ← index w 1
    let x_125 ← index w 9
    let (x_126, x_127, x_128) := small_hash.later_round cfg a b c d e f g h 0x983e5152ee66dfab#64 x_122 x_123 x_124 x_125
    let d := x_127
    let h := x_128
    let w ← indexSet w 8 x_126
    pure (w, a, b, c, d, e, f, g, h)

/-- round!(h, a, b, c, d, e, f, g, 0xa831c66d2db43210, w[9], w[7], w[2], w[10]) -/
def Engine.process_block_small.line1_25 (cfg : Cfg) : Engine.process_block_small.State1 → Res Engine.process_block_small.State1 :=
  fun (w, a, b, c, d, e, f, g, h) => do
    let x_130 ← index w 9
    let x_131 ← index w 7
    let x_132 ← index w 2
    let x_133 ← index w 10
    let (x_134, x_135, x_136) := small_hash.later_round cfg h a b c d e f g 0xa831c66d2db43210#64 x_130 x_131 x_132 x_133
    let c := x_135
    let g := x_136
    let w ← indexSet w 9 x_134
    pure (w, a, b, c, d, e, f, g, h)

/-- round!(g, h, a, b, c, d, e, f, 0xb00327c898fb213f, w[10], w[8], w[3], w[11]) -/
def Engine.process_block_small.line1_26 (cfg : Cfg) : Engine.process_block_small.State1 → Res Engine.process_block_small.State1 :=
  fun (w, a, b, c, d, e, f, g, h) => do
    let x_138 ← index w 10
    let x_139 ← index w 8
    let x_140 ← index w 3
    let x_141 ← index w 11
    let (x_142, x_143, x_144) := small_hash.later_round cfg g h a b c d e f 0xb00327c898fb213f#64 x_138 x_139 x_140 x_141
    let b := x_143
    let f := x_144
    let w ← indexSet w 10 x_142
    pure (w, a, b, c, d, e, f, g, h)

/-- round!(f, g, h, a, b, c, d, e, 0xbf597fc7beef0ee4, w[11], w[9], w[4], w[12]) -/
def Engine.process_block_small.line1_27 (cfg : Cfg) : Engine.process_block_small.State1 → Res Engine.process_block_small.State1 :=
  fun (w, a, b, c, d, e, f, g, h) => do
    let x_146 ← index w 11
    let x_147 ← index w 9
    let x_148 ← index w 4
    let x_149 ← index w 12
    let (x_150, x_151, x_152) := small_hash.later_round cfg f g h a b c d e 0xbf597fc7beef0ee4#64 x_146 x_147 x_148 x_149
    let a := x_151
    let e := x_152
    let w ← indexSet w 11 x_150
    pure (w, a, b, c, d, e, f, g, h)

/-- round!(e, f, g, h, a, b, c, d, 0xc6e00bf33da88fc2, w[12], w[10], w[5], w[13]) -/
def Engine.process_block_small.line1_28 (cfg : Cfg) : Engine.process_block_small.State1 → Res Engine.process_block_small.State1 :=
  fun (w, a, b, c, d, e, f, g, h) => do
    let x_154 ← index w 12
    let x_155 ← index w 10
    let x_156 ← index w 5
    let x_157 ← index w 13
    let (x_158, x_159, x_160) := small_hash.later_round cfg e f g h a b c d 0xc6e00bf33da88fc2#64 x_154 x_155 x_156 x_157
    let h := x_159
    let d := x_160
    let w ← indexSet w 12 x_158
    pure (w, a, b, c, d, e, f, g, h)

/-- round!(d, e, f, g, h, a, b, c, 0xd5a79147930aa725, w[13], w[11], w[6], w[14]) -/
def Engine.process_block_small.line1_29 (cfg : Cfg) : Engine.process_block_small.State1 → Res Engine.process_block_small.State1 :=
  fun (w, a, b, c, d, e, f, g, h) => do
    let x_162 ← index w 13
    let x_163 ← index w 11
    let x_164 ← index w 6
    let x_165 ← index w 14
    let (x_166, x_167, x_168) := small_hash.later_round cfg d e f g h a b c 0xd5a79147930aa725#64 x_162 x_163 x_164 x_165
    let g := x_167
    let c := x_168
    let w ← indexSet w 13 x_166
    pure (w, a, b, c, d, e, f, g, h)

/-- round!(c, d, e, f, g, h, a, b, 0x06ca6351e003826f, w[14], w[12], w[7], w[15]) -/
def Engine.process_block_small.line1_30 (cfg : Cfg) : Engine.process_block_small.State1 → Res Engine.process_block_small.State1 :=
  fun (w, a, b, c, d, e, f, g, h) => do
    let x_170 ← index w 14
    let x_171 ← index w 12
    let x_172 ← index w 7
    let x_173 ← index w 15
    let (x_174, x_175, x_176) := small_hash.later_round cfg c d e f g h a b 0x06ca6351e003826f#64 x_170 x_171 x_172 x_173
    let f := x_175
    let b := x_176
    let w ← indexSet w 14 x_174
    pure (w, a, b, c, d, e, f, g, h)

/-- round!(b, c, d, e, f, g, h, a, 0x142929670a0e6e70, w[15], w[13], w[8], w[0]) -/
def Engine.process_block_small.line1_31 (cfg : Cfg) : Engine.process_block_small.State1 → Res Engine.process_block_small.State1 :=
  fun (w, a, b, c, d, e, f, g, h) => do
    let x_178 ← index w 15
    let x_179 ← index w 13
    let x_180 ← index w 8
    let x_181 ← index w 0
    let (x_182, x_183, x_184) := small_hash.later_round cfg b c d e f g h a 0x142929670a0e6e70#64 x_178 x_179 x_180 x_181
    let e := x_183
    let a := x_184
    let w ← indexSet w 15 x_182
    pure (w, a, b, c, d, e, f, g, h)

/-- round!(a, b, c, d, e, f, g, h, 0x27b70a8546d22ffc, w[0], w[14], w[9], w[1]) -/
def Engine.process_block_small.line1_32 (cfg : Cfg) : Engine.process_block_small.State1 → Res Engine.process_block_small.State1 :=
  fun (w, a, b, c, d, e, f, g, h) => do
    let x_186 ← index w 0
    let x_187 ← index w 14
    let x_188 ← index w 9
    let x_189 ← index w 1
    let (x_190, x_191, x_192) := small_hash.later_round cfg a b c d e f g h 0x27b70a8546d22ffc#64 x_186 x_187 x_188 x_189
    let d := x_191
    let h := x_192
    let w ← indexSet w 0 x_190
    pure (w, a, b, c, d, e, f, g, h)

/-- round!(h, a, b, c, d, e, f, g, 0x2e1b21385c26c926, w[1], w[15], w[10], w[2]) -/
def Engine.process_block_small.line1_33 (cfg : Cfg) : Engine.process_block_small.State1 → Res Engine.process_block_small.State1 :=
  fun (w, a, b, c, d, e, f, g, h) => do
    let x_194 ← index w 1
    let x_195 ← index w 15
    let x_196 ← index w 10
    let x_197 ← index w 2
    let (x_198, x_199, x_200) := small_hash.later_round cfg h a b c d e f g 0x2e1b21385c26c926#64 x_194 x_195 x_196 x_197
    let c := x_199
    let g := x_200
    let w ← indexSet w 1 x_198
    pure (w, a, b, c, d, e, f, g, h)

/-- round!(g, h, a, b, c, d, e, f, 0x4d2c6dfc5ac42aed, w[2], w[0], w[11], w[3]) -/
def Engine.process_block_small.line1_34 (cfg : Cfg) : Engine.process_block_small.State1 → Res Engine.process_block_small.State1 :=
  fun (w, a, b, c, d, e, f, g, h) => do
    let x_202 ← index w 2
    let x_203 ← index w 0
    let x_204 ← index w 11
    let x_205 ← index w 3
    let (x_206, x_207, x_208) := small_hash.later_round cfg g h a b c d e f 0x4d2c6dfc5ac42aed#64 x_202 x_203 x_204 x_205
    let b := x_207
    let f := x_208
    let w ← indexSet w 2 x_206
    pure (w, a, b, c, d, e, f, g, h)

/-- round!(f, g, h, a, b, c, d, e, 0x53380d139d95b3df, w[3], w[1], w[12], w[4]) -/
def Engine.process_block_small.line1_35 (cfg : Cfg) : Engine.process_block_small.State1 → Res Engine.process_block_small.State1 :=
  fun (w, a, b, c, d, e, f, g, h) => do
    let x_210 ← index w 3
    let x_211 ← index w 1
    let x_212 ← index w 12
    let x_213 ← index w 4
    let (x_214, x_215, x_216) := small_hash.later_round cfg f g h a b c d e 0x53380d139d95b3df#64 x_210 x_211 x_212 x_213
    let a := x_215
    let e := x_216
    let w ← indexSet w 3 x_214
    pure (w, a, b, c, d, e, f, g, h)

/-- round!(e, f, g, h, a, b, c, d, 0x650a73548baf63de, w[4], w[2], w[13], w[5]) -/
def Engine.process_block_small.line1_36 (cfg : Cfg) : Engine.process_block_small.State1 → Res Engine.process_block_small.State1 :=
  fun (w, a, b, c, d, e, f, g, h) => do
    let x_218 ← index w 4
    let x_219 ← index w 2
    let x_220 ← index w 13
    let x_221 ← index w 5
    let (x_222, x_223, x_224) := small_hash.later_round cfg e f g h a b c d 0x650a73548baf63de#64 x_218 x_219 x_220 x_221
    let h := x_223
    let d := x_224
    let w ← indexSet w 4 x_222
    pure (w, a, b, c, d, e, f, g, h)

/-- round!(d, e, f, g, h, a, b, c, 0x766a0abb3c77b2a8, w[5], w[3], w[14], w[6]) -/
def Engine.process_block_small.line1_37 (cfg : Cfg) : Engine.process_block_small.State1 → Res Engine.process_block_small.State1 :=
  fun (w, a, b, c, d, e, f, g, h) => do
    let x_226 ← index w 5
    let x_227 ← index w 3
    let x_228 ← index w 14
    let x_229 ← index w 6
    let (x_230, x_231, x_232) := small_hash.later_round cfg d e f g h a b c 0x766a0abb3c77b2a8#64 x_226 x_227 x_228 x_229
    let g := x_231
    let c := x_232
    let w ← indexSet w 5 x_230
    pure (w, a, b, c, d, e, f, g, h)

/-- round!(c, d, e, f, g, h, a, b, 0x81c2c92e47edaee6, w[6], w[4], w[15], w[7]) -/
def Engine.process_block_small.line1_38 (cfg : Cfg) : Engine.process_block_small.State1 → Res Engine.process_block_small.State1 :=
  fun (w, a, b, c, d, e, f, g, h) => do
    let x_234 ← index w 6
    let x_235 ← index w 4
    let x_236 ← index w 15
    let x_237 ← index w 7
    let (x_238, x_239, x_240) := small_hash.later_round cfg c d e f g h a b 0x81c2c92e47edaee6#64 x_234 x_235 x_236 x_237
    let f := x_239
    let b := x_240
    let w ← indexSet w 6 x_238
    pure (w, a, b, c, d, e, f, g, h)

/-- round!(b, c, d, e, f, g, h, a, 0x92722c851482353b, w[7], w[5], w[0], w[8]) -/
def Engine.process_block_small.line1_39 (cfg : Cfg) : Engine.process_block_small.State1 → Res Engine.process_block_small.State1 :=
  fun (w, a, b, c, d, e, f, g, h) => do
    let x_242 ← index w 7
    let x_243 ← index w 5
    let x_244 ← index w 0
    let x_245 ← index w 8
    let (x_246, x_247, x_248) := small_hash.later_round cfg b c d e f g h a 0x92722c851482353b#64 x_242 x_243 x_244 x_245
    let e := x_247
    let a := x_248
    let w ← indexSet w 7 x_246
    pure (w, a, b, c, d, e, f, g, h)

/-- round!(a, b, c, d, e, f, g, h, 0xa2bfe8a14cf10364, w[8], w[6], w[1], w[9]) -/
def Engine.process_block_small.line1_40 (cfg : Cfg) : Engine.process_block_small.State1 → Res Engine.process_block_small.State1 :=
  fun (w, a, b, c, d, e, f, g, h) => do
    let x_250 ← index w 8
    let x_251 ← index w 6
    let x_252 ← index w 1
    let x_253 ← index w 9
    let (x_254, x_255, x_256) := small_hash.later_round cfg a b c d e f g h 0xa2bfe8a14cf10364#64 x_250 x_251 x_252 x_253
    let d := x_255
    let h := x_256
    let w ← indexSet w 8 x_254
    pure (w, a, b, c, d, e, f, g, h)

/-- round!(h, a, b, c, d, e, f, g, 0xa81a664bbc423001, w[9], w[7], w[2], w[10]) -/
def Engine.process_block_small.line1_41 (cfg : Cfg) : Engine.process_block_small.State1 → Res Engine.process_block_small.State1 :=
  fun (w, a, b, c, d, e, f, g, h) => do
    let x_258 ← index w 9
    let x_259 ← index w 7
    let x_260 ← index w 2
    let x_261 ← index w 10
    let (x_262, x_263, x_264) := small_hash.later_round cfg h a b c d e f g 0xa81a664bbc423001#64 x_258 x_259 x_260 x_261
    let c := x_263
    let g := x_264
    let w ← indexSet w 9 x_262
    pure (w, a, b, c, d, e, f, g, h)

/-- round!(g, h, a, b, c, d, e, f, 0xc24b8b70d0f89791, w[10], w[8], w[3], w[11]) -/
def Engine.process_block_small.line1_42 (cfg : Cfg) : Engine.process_block_small.State1 → Res Engine.process_block_small.State1 :=
  fun (w, a, b, c, d, e, f, g, h) => do
    let x_266 ← index w 10
    let x_267 ← index w 8
    let x_268 ← index w 3
    let x_269 ← index w 11
    let (x_270, x_271, x_272) := small_hash.later_round cfg g h a b c d e f 0xc24b8b70d0f89791#64 x_266 x_267 x_268 x_269
    let b := x_271
    let f := x_272
    let w ← indexSet w 10 x_270
    pure (w, a, b, c, d, e, f, g, h)

/-- round!(f, g, h, a, b, c, d, e, 0xc76c51a30654be30, w[11], w[9], w[4], w[12]) -/
def Engine.process_block_small.line1_43 (cfg : Cfg) : Engine.process_block_small.State1 → Res Engine.process_block_small.State1 :=
  fun (w, a, b, c, d, e, f, g, h) => do
    let x_274 ← index w 11
    let x_275 ← index w 9
    let x_276 ← index w 4
    let x_277 ← index w 12
    let (x_278, x_279, x_280) := small_hash.later_round cfg f g h a b c d e 0xc76c51a30654be30#64 x_274 x_275 x_276 x_277
    let a := x_279
    let e := x_280
    let w ← indexSet w 11 x_278
    pure (w, a, b, c, d, e, f, g, h)

/-- round!(e, f, g, h, a, b, c, d, 0xd192e819d6ef5218, w[12], w[10], w[5], w[13]) -/
def Engine.process_block_small.line1_44 (cfg : Cfg) : Engine.process_block_small.State1 → Res Engine.process_block_small.State1 :=
  fun (w, a, b, c, d, e, f, g, h) => do
    let x_282 ← index w 12
    let x_283 ← index w 10
    let x_284 ← index w 5
    let x_285 ← index w 13
    let (x_286, x_287, x_288) := small_hash.later_round cfg e f g h a b c d 0xd192e819d6ef5218#64 x_282 x_283 x_284 x_285
    let h := x_287
    let d := x_288
    let w ← indexSet w 12 x_286
    pure (w, a, b, c, d, e, f, g, h)

/-- round!(d, e, f, g, h, a, b, c, 0xd69906245565a910, w[13], w[11], w[6], w[14]) -/
def Engine.process_block_small.line1_45 (cfg : Cfg) : Engine.process_block_small.State1 → Res Engine.process_block_small.State1 :=
  fun (w, a, b, c, d, e, f, g, h) => do
    let x_290 ← index w 13
    let x_291 ← index w 11
    let x_292 ← index w 6
    let x_293 ← index w 14
    let (x_294, x_295, x_296) := small_hash.later_round cfg d e f g h a b c 0xd69906245565a910#64 x_290 x_291 x_292 x_293
    let g := x_295
    let c := x_296
    let w ← indexSet w 13 x_294
    pure (w, a, b, c, d, e, f, g, h)

/-- round!(c, d, e, f, g, h, a, b, 0xf40e35855771202a, w[14], w[12], w[7], w[15]) -/
def Engine.process_block_small.line1_46 (cfg : Cfg) : Engine.process_block_small.State1 → Res Engine.process_block_small.State1 :=
  fun (w, a, b, c, d, e, f, g, h) => do
    let x_298 ← index w 14
    let x_299 ← index w 12
    let x_300 ← index w 7
    let x_301 ← index w 15
    let (x_302, x_303, x_304) := small_hash.later_round cfg c d e f g h a b 0xf40e35855771202a#64 x_298 x_299 x_300 x_301
    let f := x_303
    let b := x_304
    let w ← indexSet w 14 x_302
    pure (w, a, b, c, d, e, f, g, h)

/-- round!(b, c, d, e, f, g, h, a, 0x106aa07032bbd1b8, w[15], w[13], w[8], w[0]) -/
def Engine.process_block_small.line1_47 (cfg : Cfg) : Engine.process_block_small.State1 → Res Engine.process_block_small.State1 :=
  fun (w, a, b, c, d, e, f, g, h) => do
    let x_306 ← index w 15
    let x_307 ← index w 13
    let x_308 ← index w 8
    let x_309 ← index w 0
    let (x_310, x_311, x_312) := small_hash.later_round cfg b c d e f g h a 0x106aa07032bbd1b8#64 x_306 x_307 x_308 x_309
    let e := x_311
    let a := x_312
    let w ← indexSet w 15 x_310
    pure (w, a, b, c, d, e, f, g, h)

/-- round!(a, b, c, d, e, f, g, h, 0x19a4c116b8d2d0c8, w[0], w[14], w[9], w[1]) -/
def Engine.process_block_small.line1_48 (cfg : Cfg) : Engine.process_block_small.State1 → Res Engine.process_block_small.State1 :=
  fun (w, a, b, c, d, e, f, g, h) => do
    let x_314 ← index w 0
    let x_315 ← index w 14
    let x_316 ← index w 9
    let x_317 ← index w 1
    let (x_318, x_319, x_320) := small_hash.later_round cfg a b c d e f g h 0x19a4c116b8d2d0c8#64 x_314 x_315 x_316 x_317
    let d := x_319
    let h := x_320
    let w ← indexSet w 0 x_318
    pure (w, a, b, c, d, e, f, g, h)

/-- round!(h, a, b, c, d, e, f, g, 0x1e376c085141ab53, w[1], w[15], w[10], w[2]) -/
def Engine.process_block_small.line1_49 (cfg : Cfg) : Engine.process_block_small.State1 → Res Engine.process_block_small.State1 :=
  fun (w, a, b, c, d, e, f, g, h) => do
    let x_322 ← index w 1
    let x_323 ← index w 15
    let x_324 ← index w 10
    let x_325 ← index w 2
    let (x_326, x_327, x_328) := small_hash.later_round cfg h a b c d e f g 0x1e376c085141ab53#64 x_322 x_323 x_324 x_325
    let c := x_327
    let g := x_328
    let w ← indexSet w 1 x_326
    pure (w, a, b, c, d, e, f, g, h)

/-- round!(g, h, a, b, c, d, e, f, 0x2748774cdf8eeb99, w[2], w[0], w[11], w[3]) -/
def Engine.process_block_small.line1_50 (cfg : Cfg) : Engine.process_block_small.State1 → Res Engine.process_block_small.State1 :=
  fun (w, a, b, c, d, e, f, g, h) => do
    let x_330 ← index w 2
    let x_331 ← index w 0
    let x_332 ← index w 11
    let x_333 ← index w 3
    let (x_334, x_335, x_336) := small_hash.later_round cfg g h a b c d e f 0x2748774cdf8eeb99#64 x_330 x_331 x_332 x_333
    let b := x_335
    let f := x_336
    let w ← indexSet w 2 x_334
    pure (w, a, b, c, d, e, f, g, h)

/-- round!(f, g, h, a, b, c, d, e, 0x34b0bcb5e19b48a8, w[3], w[1], w[12], w[4]) -/
def Engine.process_block_small.line1_51 (cfg : Cfg) : Engine.process_block_small.State1 → Res Engine.process_block_small.State1 :=
  fun (w, a, b, c, d, e, f, g, h) => do
    let x_338 ← index w 3
    let x_339 ← index w 1
    let x_340 ← index w 12
    let x_341 ← index w 4
    let (x_342, x_343, x_344) := small_hash.later_round cfg f g h a b c d e 0x34b0bcb5e19b48a8#64 x_338 x_339 x_340 x_341
    let a := x_343
    let e := x_344
    let w ← indexSet w 3 x_342
    pure (w, a, b, c, d, e, f, g, h)

/-- round!(e, f, g, h, a, b, c, d, 0x391c0cb3c5c95a63, w[4], w[2], w[13], w[5]) -/
def Engine.process_block_small.line1_52 (cfg : Cfg) : Engine.process_block_small.State1 → Res Engine.process_block_small.State1 :=
  fun (w, a, b, c, d, e, f, g, h) => do
    let x_346 ← index w 4
    let x_347 ← index w 2
    let x_348 ← index w 13
    let x_349 ← index w 5
    let (x_350, x_351, x_352) := small_hash.later_round cfg e f g h a b c d 0x391c0cb3c5c95a63#64 x_346 x_347 x_348 x_349
    let h := x_351
    let d := x_352
    let w ← indexSet w 4 x_350
    pure (w, a, b, c, d, e, f, g, h)

/-- round!(d, e, f, g, h, a, b, c, 0x4ed8aa4ae3418acb, w[5], w[3], w[14], w[6]) -/
def Engine.process_block_small.line1_53 (cfg : Cfg) : Engine.process_block_small.State1 → Res Engine.process_block_small.State1 :=
  fun (w, a, b, c, d, e, f, g, h) => do
    let x_354 ← index w 5
    let x_355 ← index w 3
    let x_356 ← index w 14
    let x_357 ← index w 6
    let (x_358, x_359, x_360) := small_hash.later_round cfg d e f g h a b c 0x4ed8aa4ae3418acb#64 x_354 x_355 x_356 x_357
    let g := x_359
    let c := x_360
    let w ← indexSet w 5 x_358
    pure (w, a, b, c, d, e, f, g, h)

/-- round!(c, d, e, f, g, h, a, b, 0x5b9cca4f7763e373, w[6], w[4], w[15], w[7]) -/
def Engine.process_block_small.line1_54 (cfg : Cfg) : Engine.process_block_small.State1 → Res Engine.process_block_small.State1 :=
  fun (w, a, b, c, d, e, f, g, h) => do
    let x_362 ← index w 6
    let x_363 ← index w 4
    let x_364 ← index w 15
    let x_365 ← index w 7
    let (x_366, x_367, x_368) := small_hash.later_round cfg c d e f g h a b 0x5b9cca4f7763e373#64 x_362 x_363 x_364 x_365
    let f := x_367
    let b := x_368
    let w ← indexSet w 6 x_366
    pure (w, a, b, c, d, e, f, g, h)

/-- round!(b, c, d, e, f, g, h, a, 0x682e6ff3d6b2b8a3, w[7], w[5], w[0], w[8]) -/
def Engine.process_block_small.line1_55 (cfg : Cfg) : Engine.process_block_small.State1 → Res Engine.process_block_small.State1 :=
  fun (w, a, b, c, d, e, f, g, h) => do
    let x_370 ← index w 7
    let x_371 ← index w 5
    let x_372 ← index w 0
    let x_373 ← index w 8
    let (x_374, x_375, x_376) := small_hash.later_round cfg b c d e f g h a 0x682e6ff3d6b2b8a3#64 x_370 x_371 x_372 x_373
    let e := x_375
    let a := x_376
    let w ← indexSet w 7 x_374
    pure (w, a, b, c, d, e, f, g, h)

/-- round!(a, b, c, d, e, f, g, h, 0x748f82ee5defb2fc, w[8], w[6], w[1], w[9]) -/
def Engine.process_block_small.line1_56 (cfg : Cfg) : Engine.process_block_small.State1 → Res Engine.process_block_small.State1 :=
  fun (w, a, b, c, d, e, f, g, h) => do
    let x_378 ← index w 8
    let x_379 ← index w 6
    let x_380 ← index w 1
    let x_381 ← index w 9
    let (x_382, x_383, x_384) := small_hash.later_round cfg a b c d e f g h 0x748f82ee5defb2fc#64 x_378 x_379 x_380 x_381
    let d := x_383
    let h := x_384
    let w ← indexSet w 8 x_382
    pure (w, a, b, c, d, e, f, g, h)

/-- round!(h, a, b, c, d, e, f, g, 0x78a5636f43172f60, w[9], w[7], w[2], w[10]) -/
def Engine.process_block_small.line1_57 (cfg : Cfg) : Engine.process_block_small.State1 → Res Engine.process_block_small.State1 :=
  fun (w, a, b, c, d, e, f, g, h) => do
    let x_386 ← index w 9
    let x_387 ← index w 7
    let x_388 ← index w 2
    let x_389 ← index w 10
    let (x_390, x_391, x_392) := small_hash.later_round cfg h a b c d e f g 0x78a5636f43172f60#64 x_386 x_387 x_388 x_389
    let c := x_391
    let g := x_392
    let w ← indexSet w 9 x_390
    pure (w, a, b, c, d, e, f, g, h)

/-- round!(g, h, a, b, c, d, e, f, 0x84c87814a1f0ab72, w[10], w[8], w[3], w[11]) -/
def Engine.process_block_small.line1_58 (cfg : Cfg) : Engine.process_block_small.State1 → Res Engine.process_block_small.State1 :=
  fun (w, a, b, c, d, e, f, g, h) => do
    let x_394 ← index w 10
    let x_395 ← index w 8
    let x_396 ← index w 3
    let x_397 ← index w 11
    let (x_398, x_399, x_400) := small_hash.later_round cfg g h a b c d e f 0x84c87814a1f0ab72#64 x_394 x_395 x_396 x_397
    let b := x_399
    let f := x_400
    let w ← indexSet w 10 x_398
    pure (w, a, b, c, d, e, f, g, h)

/-- round!(f, g, h, a, b, c, d, e, 0x8cc702081a6439ec, w[11], w[9], w[4], w[12]) -/
def Engine.process_block_small.line1_59 (cfg : Cfg) : Engine.process_block_small.State1 → Res Engine.process_block_small.State1 :=
  fun (w, a, b, c, d, e, f, g, h) => do
    let x_402 ← index w 11
    let x_403 ← index w 9
    let x_404 ← index w 4
    let x_405 ← index w 12
    let (x_406, x_407, x_408) := small_hash.later_round cfg f g h a b c d e 0x8cc702081a6439ec#64 x_402 x_403 x_404 x_405
    let a := x_407
    let e := x_408
    let w ← indexSet w 11 x_406
    pure (w, a, b, c, d, e, f, g, h)

/-- round!(e, f, g, h, a, b, c, d, 0x90befffa23631e28, w[12], w[10], w[5], w[13]) -/
def Engine.process_block_small.line1_60 (cfg : Cfg) : Engine.process_block_small.State1 → Res Engine.process_block_small.State1 :=
  fun (w, a, b, c, d, e, f, g, h) => do
    let x_410 ← index w 12
    let x_411 ← index w 10
    let x_412 ← index w 5
    let x_413 ← index w 13
    let (x_414, x_415, x_416) := small_hash.later_round cfg e f g h a b c d 0x90befffa23631e28#64 x_410 x_411 x_412 x_413
    let h := x_415
    let d := x_416
    let w ← indexSet w 12 x_414
    pure (w, a, b, c, d, e, f, g, h)

/-- round!(d, e, f, g, h, a, b, c, 0xa4506cebde82bde9, w[13], w[11], w[6], w[14]) -/
def Engine.process_block_small.line1_61 (cfg : Cfg) : Engine.process_block_small.State1 → Res Engine.process_block_small.State1 :=
  fun (w, a, b, c, d, e, f, g, h) => do
    let x_418 ← index w 13
    let x_419 ← index w 11
    let x_420 ← index w 6
    let x_421 ← index w 14
    let (x_422, x_423, x_424) := small_hash.later_round cfg d e f g h a b c 0xa4506cebde82bde9#64 x_418 x_419 x_420 x_421
    let g := x_423
    let c := x_424
    let w ← indexSet w 13 x_422
    pure (w, a, b, c, d, e, f, g, h)

/-- round!(c, d, e, f, g, h, a, b, 0xbef9a3f7b2c67915, w[14], w[12], w[7], w[15]) -/
def Engine.process_block_small.line1_62 (cfg : Cfg) : Engine.process_block_small.State1 → Res Engine.process_block_small.State1 :=
  fun (w, a, b, c, d, e, f, g, h) => do
    let x_426 ← index w 14
    let x_427 ← index w 12
    let x_428 ← index w 7
    let x_429 ← index w 15
    let (x_430, x_431, x_432) := small_hash.later_round cfg c d e f g h a b 0xbef9a3f7b2c67915#64 x_426 x_427 x_428 x_429
    let f := x_431
    let b := x_432
    let w ← indexSet w 14 x_430
    pure (w, a, b, c, d, e, f, g, h)

/-- round!(b, c, d, e, f, g, h, a, 0xc67178f2e372532b, w[15], w[13], w[8], w[0]) -/
def Engine.process_block_small.line1_63 (cfg : Cfg) : Engine.process_block_small.State1 → Res Engine.process_block_small.State1 :=
  fun (w, a, b, c, d, e, f, g, h) => do
    let x_434 ← index w 15
    let x_435 ← index w 13
    let x_436 ← index w 8
    let x_437 ← index w 0
    let (x_438, x_439, x_440) := small_hash.later_round cfg b c d e f g h a 0xc67178f2e372532b#64 x_434 x_435 x_436 x_437
    let e := x_439
    let a := x_440
    let w ← indexSet w 15 x_438
    pure (w, a, b, c, d, e, f, g, h)

/-- round!(a, b, c, d, e, f, g, h, 0xca273eceea26619c, w[0], w[14], w[9], w[1]) -/
def Engine.process_block_small.line1_64 (cfg : Cfg) : Engine.process_block_small.State1 → Res Engine.process_block_small.State1 :=
  fun (w, a, b, c, d, e, f, g, h) => do
    let x_442 ← index w 0
    let x_443 ← index w 14
    let x_444 ← index w 9
    let x_445 ← index w 1
    let (x_446, x_447, x_448) := small_hash.later_round cfg a b c d e f g h 0xca273eceea26619c#64 x_442 x_443 x_444 x_445
    let d := x_447
    let h := x_448
    let w ← indexSet w 0 x_446
    pure (w, a, b, c, d, e, f, g, h)

/-- round!(h, a, b, c, d, e, f, g, 0xd186b8c721c0c207, w[1], w[15], w[10], w[2]) -/
def Engine.process_block_small.line1_65 (cfg : Cfg) : Engine.process_block_small.State1 → Res Engine.process_block_small.State1 :=
  fun (w, a, b, c, d, e, f, g, h) => do
    let x_450 ← index w 1
    let x_451 ← index w 15
    let x_452 ← index w 10
    let x_453 ← index w 2
    let (x_454, x_455, x_456) := small_hash.later_round cfg h a b c d e f g 0xd186b8c721c0c207#64 x_450 x_451 x_452 x_453
    let c := x_455
    let g := x_456
    let w ← indexSet w 1 x_454
    pure (w, a, b, c, d, e, f, g, h)

/-- round!(g, h, a, b, c, d, e, f, 0xeada7dd6cde0eb1e, w[2], w[0], w[11], w[3]) -/
def Engine.process_block_small.line1_66 (cfg : Cfg) : Engine.process_block_small.State1 → Res Engine.process_block_small.State1 :=
  fun (w, a, b, c, d, e, f, g, h) => do
    let x_458 ← index w 2
    let x_459 ← index w 0
    let x_460 ← index w 11
    let x_461 ← index w 3
    let (x_462, x_463, x_464) := small_hash.later_round cfg g h a b c d e f 0xeada7dd6cde0eb1e#64 x_458 x_459 x_460 x_461
    let b := x_463
    let f := x_464
    let w ← indexSet w 2 x_462
    pure (w, a, b, c, d, e, f, g, h)

/-- round!(f, g, h, a, b, c, d, e, 0xf57d4f7fee6ed178, w[3], w[1], w[12], w[4]) -/
def Engine.process_block_small.line1_67 (cfg : Cfg) : Engine.process_block_small.State1 → Res Engine.process_block_small.State1 :=
  fun (w, a, b, c, d, e, f, g, h) => do
    let x_466 ← index w 3
    let x_467 ← index w 1
    let x_468 ← index w 12
    let x_469 ← index w 4
    let (x_470, x_471, x_472) := small_hash.later_round cfg f g h a b c d e 0xf57d4f7fee6ed178#64 x_466 x_467 x_468 x_469
    let a := x_471
    let e := x_472
    let w ← indexSet w 3 x_470
    pure (w, a, b, c, d, e, f, g, h)

/-- round!(e, f, g, h, a, b, c, d, 0x06f067aa72176fba, w[4], w[2], w[13], w[5]) -/
def Engine.process_block_small.line1_68 (cfg : Cfg) : Engine.process_block_small.State1 → Res Engine.process_block_small.State1 :=
  fun (w, a, b, c, d, e, f, g, h) => do
    let x_474 ← index w 4
    let x_475 ← index w 2
    let x_476 ← index w 13
    let x_477 ← index w 5
    let (x_478, x_479, x_480) := small_hash.later_round cfg e f g h a b c d 0x06f067aa72176fba#64 x_474 x_475 x_476 x_477
    let h := x_479
    let d := x_480
    let w ← indexSet w 4 x_478
    pure (w, a, b, c, d, e, f, g, h)

/-- round!(d, e, f, g, h, a, b, c, 0x0a637dc5a2c898a6, w[5], w[3], w[14], w[6]) -/
def Engine.process_block_small.line1_69 (cfg : Cfg) : Engine.process_block_small.State1 → Res Engine.process_block_small.State1 :=
  fun (w, a, b, c, d, e, f, g, h) => do
    let x_482 ← index w 5
    let x_483 ← index w 3
    let x_484 ← index w 14
    let x_485 ← index w 6
    let (x_486, x_487, x_488) := small_hash.later_round cfg d e f g h a b c 0x0a637dc5a2c898a6#64 x_482 x_483 x_484 x_485
    let g := x_487
    let c := x_488
    let w ← indexSet w 5 x_486
    pure (w, a, b, c, d, e, f, g, h)

/-- round!(c, d, e, f, g, h, a, b, 0x113f9804bef90dae, w[6], w[4], w[15], w[7]) -/
def Engine.process_block_small.line1_70 (cfg : Cfg) : Engine.process_block_small.State1 → Res Engine.process_block_small.State1 :=
  fun (w, a, b, c, d, e, f, g, h) => do
    let x_490 ← index w 6
    let x_491 ← index w 4
    let x_492 ← index w 15
    let x_493 ← index w 7
    let (x_494, x_495, x_496) := small_hash.later_round cfg c d e f g h a b 0x113f9804bef90dae#64 x_490 x_491 x_492 x_493
    let f := x_495
    let b := x_496
    let w ← indexSet w 6 x_494
    pure (w, a, b, c, d, e, f, g, h)

/-- round!(b, c, d, e, f, g, h, a, 0x1b710b35131c471b, w[7], w[5], w[0], w[8]) -/
def Engine.process_block_small.line1_71 (cfg : Cfg) : Engine.process_block_small.State1 → Res Engine.process_block_small.State1 :=
  fun (w, a, b, c, d, e, f, g, h) => do
    let x_498 ← index w 7
    let x_499 ← index w 5
    let x_500 ← index w 0
    let x_501 ← index w 8
    let (x_502, x_503, x_504) := small_hash.later_round cfg b c d e f g h a 0x1b710b35131c471b#64 x_498 x_499 x_500 x_501
    let e := x_503
    let a := x_504
    let w ← indexSet w 7 x_502
    pure (w, a, b, c, d, e, f, g, h)

/-- round!(a, b, c, d, e, f, g, h, 0x28db77f523047d84, w[8], w[6], w[1], w[9]) -/
def Engine.process_block_small.line1_72 (cfg : Cfg) : Engine.process_block_small.State1 → Res Engine.process_block_small.State1 :=
  fun (w, a, b, c, d, e, f, g, h) => do
    let x_506 ← index w 8
    let x_507 ← index w 6
    let x_508 ← index w 1
    let x_509 ← index w 9
    let (x_510, x_511, x_512) := small_hash.later_round cfg a b c d e f g h 0x28db77f523047d84#64 x_506 x_507 x_508 x_509
    let d := x_511
    let h := x_512
    let w ← indexSet w 8 x_510
    pure (w, a, b, c, d, e, f, g, h)

/-- round!(h, a, b, c, d, e, f, g, 0x32caab7b40c72493, w[9], w[7], w[2], w[10]) -/
def Engine.process_block_small.line1_73 (cfg : Cfg) : Engine.process_block_small.State1 → Res Engine.process_block_small.State1 :=
  fun (w, a, b, c, d, e, f, g, h) => do
    let x_514 ← index w 9
    let x_515 ← index w 7
    let x_516 ← index w 2
    let x_517 ← index w 10
    let (x_518, x_519, x_520) := small_hash.later_round cfg h a b c d e f g 0x32caab7b40c72493#64 x_514 x_515 x_516 x_517
    let c := x_519
    let g := x_520
    let w ← indexSet w 9 x_518
    pure (w, a, b, c, d, e, f, g, h)

/-- round!(g, h, a, b, c, d, e, f, 0x3c9ebe0a15c9bebc, w[10], w[8], w[3], w[11]) -/
def Engine.process_block_small.line1_74 (cfg : Cfg) : Engine.process_block_small.State1 → Res Engine.process_block_small.State1 :=
  fun (w, a, b, c, d, e, f, g, h) => do
    let x_522 ← index w 10
    let x_523 ← index w 8
    let x_524 ← index w 3
    let x_525 ← index w 11
    let (x_526, x_527, x_528) := small_hash.later_round cfg g h a b c d e f 0x3c9ebe0a15c9bebc#64 x_522 x_523 x_524 x_525
    let b := x_527
    let f := x_528
    let w ← indexSet w 10 x_526
    pure (w, a, b, c, d, e, f, g, h)

/-- round!(f, g, h, a, b, c, d, e, 0x431d67c49c100d4c, w[11], w[9], w[4], w[12]) -/
def Engine.process_block_small.line1_75 (cfg : Cfg) : Engine.process_block_small.State1 → Res Engine.process_block_small.State1 :=
  fun (w, a, b, c, d, e, f, g, h) => do
    let x_530 ← index w 11
    let x_531 ← index w 9
    let x_532 ← index w 4
    let x_533 ← index w 12
    let (x_534, x_535, x_536) := small_hash.later_round cfg f g h a b c d e 0x431d67c49c100d4c#64 x_530 x_531 x_532 x_533
    let a := x_535
    let e := x_536
    let w ← indexSet w 11 x_534
    pure (w, a, b, c, d, e, f, g, h)

/-- round!(e, f, g, h, a, b, c, d, 0x4cc5d4becb3e42b6, w[12], w[10], w[5], w[13]) -/
def Engine.process_block_small.line1_76 (cfg : Cfg) : Engine.process_block_small.State1 → Res Engine.process_block_small.State1 :=
  fun (w, a, b, c, d, e, f, g, h) => do
    let x_538 ← index w 12
    let x_539 ← index w 10
    let x_540 ← index w 5
    let x_541 ← index w 13
    let (x_542, x_543, x_544) := small_hash.later_round cfg e f g h a b c d 0x4cc5d4becb3e42b6#64 x_538 x_539 x_540 x_541
    let h := x_543
    let d := x_544
    let w ← indexSet w 12 x_542
    pure (w, a, b, c, d, e, f, g, h)

/-- round!(d, e, f, g, h, a, b, c, 0x597f299cfc657e2a, w[13], w[11], w[6], w[14]) -/
def Engine.process_block_small.line1_77 (cfg : Cfg) : Engine.process_block_small.State1 → Res Engine.process_block_small.State1 :=
  fun (w, a, b, c, d, e, f, g, h) => do
    let x_546 ← index w 13
    let x_547 ← index w 11
    let x_548 ← index w 6
    let x_549 ← index w 14
    let (x_550, x_551, x_552) := small_hash.later_round cfg d e f g h a b c 0x597f299cfc657e2a#64 x_546 x_547 x_548 x_549
    let g := x_551
    let c := x_552
    let w ← indexSet w 13 x_550
    pure (w, a, b, c, d, e, f, g, h)

/-- round!(c, d, e, f, g, h, a, b, 0x5fcb6fab3ad6faec, w[14], w[12], w[7], w[15]) -/
def Engine.process_block_small.line1_78 (cfg : Cfg) : Engine.process_block_small.State1 → Res Engine.process_block_small.State1 :=
  fun (w, a, b, c, d, e, f, g, h) => do
    let x_554 ← index w 14
    let x_555 ← index w 12
    let x_556 ← index w 7
    let x_557 ← index w 15
    let (x_558, x_559, x_560) := small_hash.later_round cfg c d e f g h a b 0x5fcb6fab3ad6faec#64 x_554 x_555 x_556 x_557
    let f := x_559
    let b := x_560
    let w ← indexSet w 14 x_558
    pure (w, a, b, c, d, e, f, g, h)

/-- round!(b, c, d, e, f, g, h, a, 0x6c44198c4a475817, w[15], w[13], w[8], w[0]) -/
def Engine.process_block_small.line1_79 (cfg : Cfg) : Engine.process_block_small.State1 → Res Engine.process_block_small.State1 :=
  fun (w, a, b, c, d, e, f, g, h) => do
    let x_562 ← index w 15
    let x_563 ← index w 13
    let x_564 ← index w 8
    let x_565 ← index w 0
    let (x_566, x_567, x_568) := small_hash.later_round cfg b c d e f g h a 0x6c44198c4a475817#64 x_562 x_563 x_564 x_565
    let e := x_567
    let a := x_568
    let w ← indexSet w 15 x_566
    pure (w, a, b, c, d, e, f, g, h)

/-- The 80 statements. -/
def Engine.process_block_small.lines1 (cfg : Cfg) : List (Engine.process_block_small.State1 → Res Engine.process_block_small.State1) := [
  Engine.process_block_small.line1_0 cfg,
  Engine.process_block_small.line1_1 cfg,
  Engine.process_block_small.line1_2 cfg,
  Engine.process_block_small.line1_3 cfg,
  Engine.process_block_small.line1_4 cfg,
  Engine.process_block_small.line1_5 cfg,
  Engine.process_block_small.line1_6 cfg,
  Engine.process_block_small.line1_7 cfg,
  Engine.process_block_small.line1_8 cfg,
  Engine.process_block_small.line1_9 cfg,
  Engine.process_block_small.line1_10 cfg,
  Engine.process_block_small.line1_11 cfg,
  Engine.process_block_small.line1_12 cfg,
  Engine.process_block_small.line1_13 cfg,
  Engine.process_block_small.line1_14 cfg,
  Engine.process_block_small.line1_15 cfg,
  Engine.process_block_small.line1_16 cfg,
  Engine.process_block_small.line1_17 cfg,
  Engine.process_block_small.line1_18 cfg,
  Engine.process_block_small.line1_19 cfg,
  Engine.process_block_small.line1_20 cfg,
  Engine.process_block_small.line1_21 cfg,
  Engine.process_block_small.line1_22 cfg,
  Engine.process_block_small.line1_23 cfg,
  Engine.process_block_small.line1_24 cfg,
  Engine.process_block_small.line1_25 cfg,
  Engine.process_block_small.line1_26 cfg,
  Engine.process_block_small.line1_27 cfg,
  Engine.process_block_small.line1_28 cfg,
  Engine.process_block_small.line1_29 cfg,
  Engine.process_block_small.line1_30 cfg,
  Engine.process_block_small.line1_31 cfg,
  Engine.process_block_small.line1_32 cfg,
  Engine.process_block_small.line1_33 cfg,
  Engine.process_block_small.line1_34 cfg,
  Engine.process_block_small.line1_35 cfg,
  Engine.process_block_small.line1_36 cfg,
  Engine.process_block_small.line1_37 cfg,
  Engine.process_block_small.line1_38 cfg,
  Engine.process_block_small.line1_39 cfg,
  Engine.process_block_small.line1_40 cfg,
  Engine.process_block_small.line1_41 cfg,
  Engine.process_block_small.line1_42 cfg,
  Engine.process_block_small.line1_43 cfg,
  Engine.process_block_small.line1_44 cfg,
  Engine.process_block_small.line1_45 cfg,
  Engine.process_block_small.line1_46 cfg,
  Engine.process_block_small.line1_47 cfg,
  Engine.process_block_small.line1_48 cfg,
  Engine.process_block_small.line1_49 cfg,
  Engine.process_block_small.line1_50 cfg,
  Engine.process_block_small.line1_51 cfg,
  Engine.process_block_small.line1_52 cfg,
  Engine.process_block_small.line1_53 cfg,
  Engine.process_block_small.line1_54 cfg,
  Engine.process_block_small.line1_55 cfg,
  Engine.process_block_small.line1_56 cfg,
  Engine.process_block_small.line1_57 cfg,
  Engine.process_block_small.line1_58 cfg,
  Engine.process_block_small.line1_59 cfg,
  Engine.process_block_small.line1_60 cfg,
  Engine.process_block_small.line1_61 cfg,
  Engine.process_block_small.line1_62 cfg,
  Engine.process_block_small.line1_63 cfg,
  Engine.process_block_small.line1_64 cfg,
  Engine.process_block_small.line1_65 cfg,
  Engine.process_block_small.line1_66 cfg,
  Engine.process_block_small.line1_67 cfg,
  Engine.process_block_small.line1_68 cfg,
  Engine.process_block_small.line1_69 cfg,
  Engine.process_block_small.line1_70 cfg,
  Engine.process_block_small.line1_71 cfg,
  Engine.process_block_small.line1_72 cfg,
  Engine.process_block_small.line1_73 cfg,
  Engine.process_block_small.line1_74 cfg,
  Engine.process_block_small.line1_75 cfg,
  Engine.process_block_small.line1_76 cfg,
  Engine.process_block_small.line1_77 cfg,
  Engine.process_block_small.line1_78 cfg,
  Engine.process_block_small.line1_79 cfg]

/-- `Engine::process_block`, sha512.rs 204-314, with feature `small-hash`. -/
def Engine.process_block_small (cfg : Cfg) (self : Engine) : Res Engine := do
  debugAssert cfg (self.buffer.length == Sha512.BLOCK_SIZE)
  let w : List (BitVec 64) := List.replicate 16 0#64
  let w ← Rs.zipMut w (chunksExact 8 self.buffer) fun w_val buff_bytes => do
    let x_1 ← Rs.tryInto 8 buff_bytes
    let w_val := Rs.fromBeBytes 64 x_1
    pure w_val
  let a ← index self.h 0
  let b ← index self.h 1
  let c ← index self.h 2
  let d ← index self.h 3
  let e ← index self.h 4
  let f ← index self.h 5
  let g ← index self.h 6
  let h ← index self.h 7
  let (w, a, b, c, d, e, f, g, h) ← Rs.runLines (Engine.process_block_small.lines1 cfg) (w, a, b, c, d, e, f, g, h)
  let x_570 ← index self.h 0
  let x_571 ← indexSet self.h 0 (x_570 + a)
  let self := { self with h := x_571 }
  let x_572 ← index self.h 1
  let x_573 ← indexSet self.h 1 (x_572 + b)
  let self := { self with h := x_573 }
  let x_574 ← index self.h 2
  let x_575 ← indexSet self.h 2 (x_574 + c)
  let self := { self with h := x_575 }
  let x_576 ← index self.h 3
  let x_577 ← indexSet self.h 3 (x_576 + d)
  let self := { self with h := x_577 }
  let x_578 ← index self.h 4
  let x_579 ← indexSet self.h 4 (x_578 + e)
  let self := { self with h := x_579 }
  let x_580 ← index self.h 5
  let x_581 ← indexSet self.h 5 (x_580 + f)
  let self := { self with h := x_581 }
  let x_582 ← index self.h 6
  let x_583 ← indexSet self.h 6 (x_582 + g)
  let self := { self with h := x_583 }
  let x_584 ← index self.h 7
  let x_585 ← indexSet self.h 7 (x_584 + h)
  let self := { self with h := x_585 }
  pure self

/-- `Engine::process_block`, sha512.rs 204-314. -/
def Engine.process_block (cfg : Cfg) (self : Engine) : Res Engine :=
  if cfg.smallHash then Engine.process_block_small cfg self else Engine.process_block_fast cfg self

/-- `Engine::input`, internal_macros.rs 22-36. -/
def Engine.input (cfg : Cfg) (self : Engine) (inp : List Byte) : Res Engine := do
  let (self, inp) ← Rs.whileR cfg.usizeMod
    (fun (self, inp) => pure (!inp.isEmpty))
    (fun (self, inp) => do
      let buf_idx : Nat := self.length % Engine.BLOCK_SIZE
      let rem_len ← subUsize cfg Engine.BLOCK_SIZE buf_idx
      let write_len : Nat := min rem_len inp.length
      let x_2 ← addUsize cfg buf_idx write_len
      Rs.checkRange self.buffer buf_idx x_2
      let x_3 ← sliceTo inp write_len
      let x_4 ← copyIntoRange self.buffer buf_idx x_2 x_3
      let self := { self with buffer := x_4 }
      let x_5 ← addUsize cfg self.length write_len
      let self := { self with length := x_5 }
      let self ←
        if (self.length % Engine.BLOCK_SIZE) == 0 then do
          let self ← Engine.process_block cfg self
          pure self
        else do
          pure self
      let inp ← sliceFrom inp write_len
      pure (self, inp)) (self, inp)
  pure self

/-- `Engine::midstate`, sha512.rs 107-113. -/
def Engine.midstate (cfg : Cfg) (self : Engine) : Res (List Byte) := do
  let ret : List Byte := List.replicate 64 0#8
  let ret ← Rs.zipChunksMut 8 self.h ret fun val ret_bytes => do
    let ret_bytes ← Rs.copyFromSlice ret_bytes (Rs.toBeBytes val)
    pure ret_bytes
  pure ret

/-- `Engine::finalize`, sha512.rs 78-96. -/
def Engine.finalize (cfg : Cfg) (self : Engine) : Res (List Byte) := do
  let data_len : BitVec 64 := BitVec.ofNat 64 self.length
  let zeroes : List Byte := List.replicate 112 0#8
  let self ← Engine.input cfg self [0x80#8]
  let self ←
    if decide ((self.length % Sha512.BLOCK_SIZE) > zeroes.length) then do
      let self ← Engine.input cfg self zeroes
      pure self
    else do
      pure self
  let pad_length ← subUsize cfg zeroes.length (self.length % Sha512.BLOCK_SIZE)
  let x_4 ← sliceTo zeroes pad_length
  let self ← Engine.input cfg self x_4
  debugAssert cfg ((self.length % Sha512.BLOCK_SIZE) == zeroes.length)
  let self ← Engine.input cfg self (List.replicate 8 0#8)
  let x_7 ← Rs.mulU cfg 8#64 data_len
  let self ← Engine.input cfg self (Rs.toBeBytes x_7)
  debugAssert cfg ((self.length % Sha512.BLOCK_SIZE) == 0)
  let x_9 ← Engine.midstate cfg self
  pure x_9

/-- `Hash::hash`, internal_macros.rs 158-162. -/
def Hash.hash (cfg : Cfg) (bytes : List Byte) : Res Hash := do
  let engine := Hash.engine cfg
  let engine ← Engine.input cfg engine bytes
  let x_2 ← Engine.finalize cfg engine
  pure ({ f0 := x_2 } : Hash)

/-- `Hash::from_engine`, internal_macros.rs 170-173. -/
def Hash.from_engine (cfg : Cfg) (engine : Engine) : Res Hash := do
  let digest ← Engine.finalize cfg engine
  pure ({ f0 := digest } : Hash)

/-- `Hash::from_bytes_ref`, internal_macros.rs 177-180. -/
def Hash.from_bytes_ref (cfg : Cfg) (bytes : List Byte) : Hash :=
  ({ f0 := bytes } : Hash)

/-- `Hash::from_bytes_mut`, internal_macros.rs 184-187. -/
def Hash.from_bytes_mut (cfg : Cfg) (bytes : List Byte) : Hash × (Hash → List Byte) :=
  (({ f0 := bytes } : Hash), fun r => r.f0)

/-- `Hash::from_byte_array`, internal_macros.rs 201. -/
def Hash.from_byte_array (cfg : Cfg) (bytes : List Byte) : Hash :=
  ({ f0 := bytes } : Hash)

/-- `Hash::from_slice`, internal_macros.rs 190-198. -/
def Hash.from_slice (cfg : Cfg) (sl : List Byte) : Res (Except Lib.FromSliceError Hash) := do
  let x_2 ←
    if sl.length != (512 / 8) then do
      pure (Except.error ({ expected := 512 / 8, got := sl.length } : Lib.FromSliceError))
    else do
      let ret : List Byte := List.replicate 64 0#8
      let ret ← Rs.copyFromSlice ret sl
      pure (Except.ok (Hash.from_byte_array cfg ret))
  pure x_2

/-- `Hash::to_byte_array`, internal_macros.rs 204. -/
def Hash.to_byte_array (cfg : Cfg) (self : Hash) : (List Byte) :=
  self.f0

/-- `Hash::as_byte_array`, internal_macros.rs 207. -/
def Hash.as_byte_array (cfg : Cfg) (self : Hash) : (List Byte) :=
  self.f0

/-- `Hash::as_bytes`, internal_macros.rs 211. -/
def Hash.as_bytes (cfg : Cfg) (self : Hash) : (List Byte) :=
  self.f0

/-- `Hash::to_bytes`, internal_macros.rs 216. -/
def Hash.to_bytes (cfg : Cfg) (self : Hash) : (List Byte) :=
  self.f0

/-- `Hash::all_zeros`, internal_macros.rs 223. -/
def Hash.all_zeros (cfg : Cfg) : Hash :=
  ({ f0 := List.replicate 64 0x00#8 } : Hash)

/-- `Hash::JsonSchema::schema_name`, internal_macros.rs 228. -/
def Hash.JsonSchema.schema_name (cfg : Cfg) : (List Byte) :=
  ascii "Hash"

/-- `Hash::JsonSchema::json_schema`, internal_macros.rs 230-239. -/
def Hash.JsonSchema.json_schema (cfg : Cfg) (gen : Rs.SchemaGenerator) : Res Rs.SchemaObject := do
  let len : BitVec 32 := 512#32 / 8#32
  let schema := Rs.stringSchema gen
  let x_1 ← Rs.mulU cfg len 2#32
  let x_2 ← Rs.mulU cfg len 2#32
  let schema := { schema with string := some ({ max_length := some x_1, min_length := some x_2, pattern := some (ascii "[0-9a-fA-F]+") } : Rs.StringValidation) }
  pure schema

/-- `Hash::FromStr::from_str`, internal_macros.rs 106-111. -/
def Hash.FromStr.from_str (cfg : Cfg) (s : List Byte) : Res (Except Hex.Error Hash) := do
  let x_1 ← Rs.fromHex 64 s
  Rs.tryOk x_1 fun bytes => do
    pure (Except.ok (Hash.from_byte_array cfg bytes))

/-- `Hash::LowerHex::fmt`, internal_macros.rs 54-56. -/
def Hash.LowerHex.fmt (cfg : Cfg) (self : Hash) (f : Hex.Flags) : Res (List Byte) := do
  let x_1 ← Hex.fmtHexExact f 64 self.f0 .lower
  pure x_1

/-- `Hash::UpperHex::fmt`, internal_macros.rs 61-63. -/
def Hash.UpperHex.fmt (cfg : Cfg) (self : Hash) (f : Hex.Flags) : Res (List Byte) := do
  let x_1 ← Hex.fmtHexExact f 64 self.f0 .upper
  pure x_1

/-- `Hash::Display::fmt`, internal_macros.rs 68-70. -/
def Hash.Display.fmt (cfg : Cfg) (self : Hash) (f : Hex.Flags) : Res (List Byte) := do
  let x_1 ← Hash.LowerHex.fmt cfg self f
  pure x_1

/-- `Hash::Debug::fmt`, internal_macros.rs 75-77. -/
def Hash.Debug.fmt (cfg : Cfg) (self : Hash) (f : Hex.Flags) : Res (List Byte) := do
  let x_1 ← Hash.Display.fmt cfg self ({ alternate := true })
  pure x_1

/-- `Hash::SerdeHash::from_slice_delegated`, serde_macros.rs 115-117. -/
def Hash.SerdeHash.from_slice_delegated (cfg : Cfg) (sl : List Byte) : Res (Except Lib.FromSliceError Hash) := do
  let x_1 ← Hash.from_slice cfg sl
  pure x_1

/-- `Hash::AsRef::as_ref`, internal_macros.rs 12. -/
def Hash.AsRef.as_ref (cfg : Cfg) (self : Hash) : (List Byte) :=
  self.f0

/-- `Hash::AsRefArray::as_ref`, internal_macros.rs 119. -/
def Hash.AsRefArray.as_ref (cfg : Cfg) (self : Hash) : (List Byte) :=
  self.f0

/-- `Hash::Index::index`, internal_macros.rs 126. -/
def Hash.Index.index (cfg : Cfg) (self : Hash) (index_ : Rs.SliceIndex) : Res (List Byte) := do
  let x_1 ← Rs.SliceIndex.get index_ self.f0
  pure x_1

/-- `Engine::sha512_256`, sha512.rs 41-50. -/
def Engine.sha512_256 (cfg : Cfg) : Engine :=
  ({ h := [0x22312194fc2bf72c#64, 0x9f555fa3c84c64c2#64, 0x2393b86b6f53b151#64, 0x963877195940eabd#64, 0x96283ee2a88effe3#64, 0xbe5e1e2553863992#64, 0x2b0199fc2c85b8aa#64, 0x0eb72ddc81c52ca2#64], length := 0, buffer := List.replicate 128 0#8 } : Engine)

/-- `Engine::sha384`, sha512.rs 54-63. -/
def Engine.sha384 (cfg : Cfg) : Engine :=
  ({ h := [0xcbbb9d5dc1059ed8#64, 0x629a292a367cd507#64, 0x9159015a3070dd17#64, 0x152fecd8f70e5939#64, 0x67332667ffc00b31#64, 0x8eb44a8768581511#64, 0xdb0c2e0d64f98fa7#64, 0x47b5481dbefa4fa4#64], length := 0, buffer := List.replicate 128 0#8 } : Engine)

/-- `Engine::n_bytes_hashed`, sha512.rs 72. -/
def Engine.n_bytes_hashed (cfg : Cfg) (self : Engine) : Nat :=
  self.length

/-- `Engine::from_midstate`, sha512.rs 123-132. -/
def Engine.from_midstate (cfg : Cfg) (midstate : List Byte) (length : Nat) : Res Engine := do
  assertR ((length % Sha512.BLOCK_SIZE) == 0)
  let ret : List (BitVec 64) := List.replicate 8 0#64
  let ret ← Rs.zipMut ret (chunksExact 4 midstate) fun ret_val midstate_bytes => do
    let x_1 ← Rs.tryInto 8 midstate_bytes
    let ret_val := Rs.fromBeBytes 64 x_1
    pure ret_val
  pure ({ buffer := List.replicate 128 0#8, h := ret, length := length } : Engine)

/-- `impl SerdeHash for Hash`. -/
def Hash.serdeHash (cfg : Cfg) : SerdeMacros.SerdeHash where
  State := Hash
  from_slice_delegated sl := Hash.SerdeHash.from_slice_delegated cfg sl
  from_str s := Hash.FromStr.from_str cfg s
  fmt self f := Hash.Display.fmt cfg self f
  index self i := Hash.Index.index cfg self (.rangeFull i)

/-- `Hash::Serialize::serialize`, serde_macros.rs 121-123. -/
def Hash.Serialize.serialize (cfg : Cfg) (self : Hash) (s : Rs.Serializer) : Res Rs.Serialized := do
  let x_1 ← SerdeMacros.SerdeHash.serialize cfg (Hash.serdeHash cfg) self s
  pure x_1

/-- `Hash::Deserialize::deserialize`, serde_macros.rs 127-129. -/
def Hash.Deserialize.deserialize (cfg : Cfg) (d : Rs.Deserializer) : Res (Except Rs.DeError Hash) := do
  let x_1 ← SerdeMacros.SerdeHash.deserialize cfg (Hash.serdeHash cfg) d
  pure x_1

/-- `#[derive(PartialEq)]` of `Hash`, internal_macros.rs 144. -/
def Hash.PartialEq.eq (cfg : Cfg) (self : Hash) (other : Hash) : Bool :=
  self.f0 == other.f0

/-- `#[derive(PartialOrd)]` of `Hash`, internal_macros.rs 144. -/
def Hash.PartialOrd.partial_cmp (cfg : Cfg) (self : Hash) (other : Hash) : Option Ordering :=
  some (Rs.cmpSlice self.f0 other.f0)

/-- `#[derive(Ord)]` of `Hash`, internal_macros.rs 144. -/
def Hash.Ord.cmp (cfg : Cfg) (self : Hash) (other : Hash) : Ordering :=
  Rs.cmpSlice self.f0 other.f0

/-- `#[derive(Hash)]` of `Hash`, internal_macros.rs 144. -/
def Hash.Hash.hash (cfg : Cfg) (H : Rs.Hasher) (self : Hash) (h : H.State) : H.State :=
  H.hashSlice self.f0 h

/-- `impl HashEngine for Engine`, sha512.rs 66. -/
def engine (cfg : Cfg) : Chf.HashEngine where
  State := Engine
  Midstate := List Byte
  blockSize := Engine.BLOCK_SIZE
  default := pure (Engine.default cfg)
  new := pure (Engine.default cfg)
  input self data := Engine.input cfg self data
  nBytesHashed self := Engine.n_bytes_hashed cfg self
  finalize self := Engine.finalize cfg self
  midstate self := Engine.midstate cfg self
  fromMidstate midstate length := Engine.from_midstate cfg midstate length

end Chf.Source.Sha512
