import Verif.Model.Engine

/-!
# `sha512.rs`, `sha384.rs`, `sha512_256.rs`

`/repo/src/sha512.rs` 14-314, `/repo/src/sha384.rs` 14-50, `/repo/src/sha512_256.rs` 19-61.
-/

namespace Chf.Sha512

/-- `BLOCK_SIZE`, `sha512.rs` 14. -/
def blockSize : Nat := 128

/-- `Ch`, `sha512.rs` 136. -/
def ch (x y z : BitVec 64) : BitVec 64 := z ^^^ (x &&& (y ^^^ z))
/-- `Maj`, `sha512.rs` 138. -/
def maj (x y z : BitVec 64) : BitVec 64 := (x &&& y) ||| (z &&& (x ||| y))
/-- `Sigma0`, `sha512.rs` 140. -/
def bigSigma0 (x : BitVec 64) : BitVec 64 := x.rotateLeft 36 ^^^ x.rotateLeft 30 ^^^ x.rotateLeft 25
/-- `Sigma1`, `sha512.rs` 142. -/
def bigSigma1 (x : BitVec 64) : BitVec 64 := x.rotateLeft 50 ^^^ x.rotateLeft 46 ^^^ x.rotateLeft 23
/-- `sigma0`, `sha512.rs` 143. -/
def sigma0 (x : BitVec 64) : BitVec 64 := x.rotateLeft 63 ^^^ x.rotateLeft 56 ^^^ (x >>> 7)
/-- `sigma1`, `sha512.rs` 144. -/
def sigma1 (x : BitVec 64) : BitVec 64 := x.rotateLeft 45 ^^^ x.rotateLeft 3 ^^^ (x >>> 6)

/-- First form of the macro `round!` in `fast_hash`, `sha512.rs` 188-193. -/
def fastRound (l : RoundLine 64) (s : RoundState 64) : RoundState 64 :=
  let r := s.regs
  let t1 := r.get l.rh + bigSigma1 (r.get l.re) + ch (r.get l.re) (r.get l.rf) (r.get l.rg) + l.k
    + s.win[l.wi]
  let t2 := bigSigma0 (r.get l.ra) + maj (r.get l.ra) (r.get l.rb) (r.get l.rc)
  let r := r.set l.rd (r.get l.rd + t1)
  let r := r.set l.rh (t1 + t2)
  { s with regs := r }

/-- Both forms of the macro `round!` in `fast_hash`, `sha512.rs` 183-200. -/
def fastLine (s : RoundState 64) (l : RoundLine 64) : RoundState 64 :=
  match l.later with
  | none => fastRound l s
  | some (i1, i2, i3) =>
      let nw := s.win[l.wi] + sigma1 s.win[i1] + s.win[i2] + sigma0 s.win[i3]
      fastRound l { s with win := s.win.set l.wi nw }

/-- `small_hash::round`, `sha512.rs` 151-160: `d` and `h` are `&mut`, so their new values are
returned.  Their old values are read before either is written. -/
def smallRoundFn (a b c d e f g h k w : BitVec 64) : BitVec 64 × BitVec 64 :=
  let t1 := h + bigSigma1 e + ch e f g + k + w
  let t2 := bigSigma0 a + maj a b c
  (d + t1, t1 + t2)

/-- `small_hash::later_round`, `sha512.rs` 161-169: new `d`, new `h`, returned `w`. -/
def smallLaterRoundFn (a b c d e f g h k w w1 w2 w3 : BitVec 64) :
    BitVec 64 × BitVec 64 × BitVec 64 :=
  let w := w + sigma1 w1 + w2 + sigma0 w3
  let dh := smallRoundFn a b c d e f g h k w
  (dh.1, dh.2, w)

/-- The macro `round!` in `small_hash`, `sha512.rs` 171-180. -/
def smallLine (s : RoundState 64) (l : RoundLine 64) : RoundState 64 :=
  let r := s.regs
  match l.later with
  | none =>
      let u := smallRoundFn (r.get l.ra) (r.get l.rb) (r.get l.rc) (r.get l.rd) (r.get l.re)
        (r.get l.rf) (r.get l.rg) (r.get l.rh) l.k s.win[l.wi]
      let r := r.set l.rd u.1
      let r := r.set l.rh u.2
      { s with regs := r }
  | some (i1, i2, i3) =>
      let u := smallLaterRoundFn (r.get l.ra) (r.get l.rb) (r.get l.rc) (r.get l.rd) (r.get l.re)
        (r.get l.rf) (r.get l.rg) (r.get l.rh) l.k s.win[l.wi] s.win[i1] s.win[i2] s.win[i3]
      let r := r.set l.rd u.1
      let r := r.set l.rh u.2.1
      { regs := r, win := s.win.set l.wi u.2.2 }

/-- The macro `round!` selected by feature `small-hash`. -/
def line (c : Cfg) : RoundState 64 → RoundLine 64 → RoundState 64 :=
  if c.smallHash then smallLine else fastLine

/-- The 80 lines of `process_block`, `sha512.rs` 221-304. -/
def blockLines : List (RoundLine 64) := [
  ⟨.a, .b, .c, .d, .e, .f, .g, .h, 0x428a2f98d728ae22#64, 0, none⟩,
  ⟨.h, .a, .b, .c, .d, .e, .f, .g, 0x7137449123ef65cd#64, 1, none⟩,
  ⟨.g, .h, .a, .b, .c, .d, .e, .f, 0xb5c0fbcfec4d3b2f#64, 2, none⟩,
  ⟨.f, .g, .h, .a, .b, .c, .d, .e, 0xe9b5dba58189dbbc#64, 3, none⟩,
  ⟨.e, .f, .g, .h, .a, .b, .c, .d, 0x3956c25bf348b538#64, 4, none⟩,
  ⟨.d, .e, .f, .g, .h, .a, .b, .c, 0x59f111f1b605d019#64, 5, none⟩,
  ⟨.c, .d, .e, .f, .g, .h, .a, .b, 0x923f82a4af194f9b#64, 6, none⟩,
  ⟨.b, .c, .d, .e, .f, .g, .h, .a, 0xab1c5ed5da6d8118#64, 7, none⟩,
  ⟨.a, .b, .c, .d, .e, .f, .g, .h, 0xd807aa98a3030242#64, 8, none⟩,
  ⟨.h, .a, .b, .c, .d, .e, .f, .g, 0x12835b0145706fbe#64, 9, none⟩,
  ⟨.g, .h, .a, .b, .c, .d, .e, .f, 0x243185be4ee4b28c#64, 10, none⟩,
  ⟨.f, .g, .h, .a, .b, .c, .d, .e, 0x550c7dc3d5ffb4e2#64, 11, none⟩,
  ⟨.e, .f, .g, .h, .a, .b, .c, .d, 0x72be5d74f27b896f#64, 12, none⟩,
  ⟨.d, .e, .f, .g, .h, .a, .b, .c, 0x80deb1fe3b1696b1#64, 13, none⟩,
  ⟨.c, .d, .e, .f, .g, .h, .a, .b, 0x9bdc06a725c71235#64, 14, none⟩,
  ⟨.b, .c, .d, .e, .f, .g, .h, .a, 0xc19bf174cf692694#64, 15, none⟩,
  ⟨.a, .b, .c, .d, .e, .f, .g, .h, 0xe49b69c19ef14ad2#64, 0, some (14, 9, 1)⟩,
  ⟨.h, .a, .b, .c, .d, .e, .f, .g, 0xefbe4786384f25e3#64, 1, some (15, 10, 2)⟩,
  ⟨.g, .h, .a, .b, .c, .d, .e, .f, 0x0fc19dc68b8cd5b5#64, 2, some (0, 11, 3)⟩,
  ⟨.f, .g, .h, .a, .b, .c, .d, .e, 0x240ca1cc77ac9c65#64, 3, some (1, 12, 4)⟩,
  ⟨.e, .f, .g, .h, .a, .b, .c, .d, 0x2de92c6f592b0275#64, 4, some (2, 13, 5)⟩,
  ⟨.d, .e, .f, .g, .h, .a, .b, .c, 0x4a7484aa6ea6e483#64, 5, some (3, 14, 6)⟩,
  ⟨.c, .d, .e, .f, .g, .h, .a, .b, 0x5cb0a9dcbd41fbd4#64, 6, some (4, 15, 7)⟩,
  ⟨.b, .c, .d, .e, .f, .g, .h, .a, 0x76f988da831153b5#64, 7, some (5, 0, 8)⟩,
  ⟨.a, .b, .c, .d, .e, .f, .g, .h, 0x983e5152ee66dfab#64, 8, some (6, 1, 9)⟩,
  ⟨.h, .a, .b, .c, .d, .e, .f, .g, 0xa831c66d2db43210#64, 9, some (7, 2, 10)⟩,
  ⟨.g, .h, .a, .b, .c, .d, .e, .f, 0xb00327c898fb213f#64, 10, some (8, 3, 11)⟩,
  ⟨.f, .g, .h, .a, .b, .c, .d, .e, 0xbf597fc7beef0ee4#64, 11, some (9, 4, 12)⟩,
  ⟨.e, .f, .g, .h, .a, .b, .c, .d, 0xc6e00bf33da88fc2#64, 12, some (10, 5, 13)⟩,
  ⟨.d, .e, .f, .g, .h, .a, .b, .c, 0xd5a79147930aa725#64, 13, some (11, 6, 14)⟩,
  ⟨.c, .d, .e, .f, .g, .h, .a, .b, 0x06ca6351e003826f#64, 14, some (12, 7, 15)⟩,
  ⟨.b, .c, .d, .e, .f, .g, .h, .a, 0x142929670a0e6e70#64, 15, some (13, 8, 0)⟩,
  ⟨.a, .b, .c, .d, .e, .f, .g, .h, 0x27b70a8546d22ffc#64, 0, some (14, 9, 1)⟩,
  ⟨.h, .a, .b, .c, .d, .e, .f, .g, 0x2e1b21385c26c926#64, 1, some (15, 10, 2)⟩,
  ⟨.g, .h, .a, .b, .c, .d, .e, .f, 0x4d2c6dfc5ac42aed#64, 2, some (0, 11, 3)⟩,
  ⟨.f, .g, .h, .a, .b, .c, .d, .e, 0x53380d139d95b3df#64, 3, some (1, 12, 4)⟩,
  ⟨.e, .f, .g, .h, .a, .b, .c, .d, 0x650a73548baf63de#64, 4, some (2, 13, 5)⟩,
  ⟨.d, .e, .f, .g, .h, .a, .b, .c, 0x766a0abb3c77b2a8#64, 5, some (3, 14, 6)⟩,
  ⟨.c, .d, .e, .f, .g, .h, .a, .b, 0x81c2c92e47edaee6#64, 6, some (4, 15, 7)⟩,
  ⟨.b, .c, .d, .e, .f, .g, .h, .a, 0x92722c851482353b#64, 7, some (5, 0, 8)⟩,
  ⟨.a, .b, .c, .d, .e, .f, .g, .h, 0xa2bfe8a14cf10364#64, 8, some (6, 1, 9)⟩,
  ⟨.h, .a, .b, .c, .d, .e, .f, .g, 0xa81a664bbc423001#64, 9, some (7, 2, 10)⟩,
  ⟨.g, .h, .a, .b, .c, .d, .e, .f, 0xc24b8b70d0f89791#64, 10, some (8, 3, 11)⟩,
  ⟨.f, .g, .h, .a, .b, .c, .d, .e, 0xc76c51a30654be30#64, 11, some (9, 4, 12)⟩,
  ⟨.e, .f, .g, .h, .a, .b, .c, .d, 0xd192e819d6ef5218#64, 12, some (10, 5, 13)⟩,
  ⟨.d, .e, .f, .g, .h, .a, .b, .c, 0xd69906245565a910#64, 13, some (11, 6, 14)⟩,
  ⟨.c, .d, .e, .f, .g, .h, .a, .b, 0xf40e35855771202a#64, 14, some (12, 7, 15)⟩,
  ⟨.b, .c, .d, .e, .f, .g, .h, .a, 0x106aa07032bbd1b8#64, 15, some (13, 8, 0)⟩,
  ⟨.a, .b, .c, .d, .e, .f, .g, .h, 0x19a4c116b8d2d0c8#64, 0, some (14, 9, 1)⟩,
  ⟨.h, .a, .b, .c, .d, .e, .f, .g, 0x1e376c085141ab53#64, 1, some (15, 10, 2)⟩,
  ⟨.g, .h, .a, .b, .c, .d, .e, .f, 0x2748774cdf8eeb99#64, 2, some (0, 11, 3)⟩,
  ⟨.f, .g, .h, .a, .b, .c, .d, .e, 0x34b0bcb5e19b48a8#64, 3, some (1, 12, 4)⟩,
  ⟨.e, .f, .g, .h, .a, .b, .c, .d, 0x391c0cb3c5c95a63#64, 4, some (2, 13, 5)⟩,
  ⟨.d, .e, .f, .g, .h, .a, .b, .c, 0x4ed8aa4ae3418acb#64, 5, some (3, 14, 6)⟩,
  ⟨.c, .d, .e, .f, .g, .h, .a, .b, 0x5b9cca4f7763e373#64, 6, some (4, 15, 7)⟩,
  ⟨.b, .c, .d, .e, .f, .g, .h, .a, 0x682e6ff3d6b2b8a3#64, 7, some (5, 0, 8)⟩,
  ⟨.a, .b, .c, .d, .e, .f, .g, .h, 0x748f82ee5defb2fc#64, 8, some (6, 1, 9)⟩,
  ⟨.h, .a, .b, .c, .d, .e, .f, .g, 0x78a5636f43172f60#64, 9, some (7, 2, 10)⟩,
  ⟨.g, .h, .a, .b, .c, .d, .e, .f, 0x84c87814a1f0ab72#64, 10, some (8, 3, 11)⟩,
  ⟨.f, .g, .h, .a, .b, .c, .d, .e, 0x8cc702081a6439ec#64, 11, some (9, 4, 12)⟩,
  ⟨.e, .f, .g, .h, .a, .b, .c, .d, 0x90befffa23631e28#64, 12, some (10, 5, 13)⟩,
  ⟨.d, .e, .f, .g, .h, .a, .b, .c, 0xa4506cebde82bde9#64, 13, some (11, 6, 14)⟩,
  ⟨.c, .d, .e, .f, .g, .h, .a, .b, 0xbef9a3f7b2c67915#64, 14, some (12, 7, 15)⟩,
  ⟨.b, .c, .d, .e, .f, .g, .h, .a, 0xc67178f2e372532b#64, 15, some (13, 8, 0)⟩,
  ⟨.a, .b, .c, .d, .e, .f, .g, .h, 0xca273eceea26619c#64, 0, some (14, 9, 1)⟩,
  ⟨.h, .a, .b, .c, .d, .e, .f, .g, 0xd186b8c721c0c207#64, 1, some (15, 10, 2)⟩,
  ⟨.g, .h, .a, .b, .c, .d, .e, .f, 0xeada7dd6cde0eb1e#64, 2, some (0, 11, 3)⟩,
  ⟨.f, .g, .h, .a, .b, .c, .d, .e, 0xf57d4f7fee6ed178#64, 3, some (1, 12, 4)⟩,
  ⟨.e, .f, .g, .h, .a, .b, .c, .d, 0x06f067aa72176fba#64, 4, some (2, 13, 5)⟩,
  ⟨.d, .e, .f, .g, .h, .a, .b, .c, 0x0a637dc5a2c898a6#64, 5, some (3, 14, 6)⟩,
  ⟨.c, .d, .e, .f, .g, .h, .a, .b, 0x113f9804bef90dae#64, 6, some (4, 15, 7)⟩,
  ⟨.b, .c, .d, .e, .f, .g, .h, .a, 0x1b710b35131c471b#64, 7, some (5, 0, 8)⟩,
  ⟨.a, .b, .c, .d, .e, .f, .g, .h, 0x28db77f523047d84#64, 8, some (6, 1, 9)⟩,
  ⟨.h, .a, .b, .c, .d, .e, .f, .g, 0x32caab7b40c72493#64, 9, some (7, 2, 10)⟩,
  ⟨.g, .h, .a, .b, .c, .d, .e, .f, 0x3c9ebe0a15c9bebc#64, 10, some (8, 3, 11)⟩,
  ⟨.f, .g, .h, .a, .b, .c, .d, .e, 0x431d67c49c100d4c#64, 11, some (9, 4, 12)⟩,
  ⟨.e, .f, .g, .h, .a, .b, .c, .d, 0x4cc5d4becb3e42b6#64, 12, some (10, 5, 13)⟩,
  ⟨.d, .e, .f, .g, .h, .a, .b, .c, 0x597f299cfc657e2a#64, 13, some (11, 6, 14)⟩,
  ⟨.c, .d, .e, .f, .g, .h, .a, .b, 0x5fcb6fab3ad6faec#64, 14, some (12, 7, 15)⟩,
  ⟨.b, .c, .d, .e, .f, .g, .h, .a, 0x6c44198c4a475817#64, 15, some (13, 8, 0)⟩]

/-- `self.h[i] = self.h[i].wrapping_add(..)` for `i` from 0 to 7, `sha512.rs` 306-313. -/
def addState (s r : Arr8 (BitVec 64)) : Arr8 (BitVec 64) :=
  ⟨s.x0 + r.get .a, s.x1 + r.get .b, s.x2 + r.get .c, s.x3 + r.get .d,
   s.x4 + r.get .e, s.x5 + r.get .f, s.x6 + r.get .g, s.x7 + r.get .h⟩

/-- `process_block`, `sha512.rs` 204-314. -/
def processBlock (c : Cfg) (buffer : List Byte) (h : Arr8 (BitVec 64)) :
    Res (Arr8 (BitVec 64)) := do
  debugAssert c (buffer.length == blockSize)
  let w ← fillZip fromBe64 (List.replicate 16 0) (chunksExact 8 buffer)
  let w ← arr16 w
  let s := blockLines.foldl (line c) { regs := h, win := w }
  pure (addState h s.regs)

/-- `Engine`, `sha512.rs` 18-22. -/
abbrev Engine := BlockEngine (Arr8 (BitVec 64))

/-- Initial state of `Engine::default`, `sha512.rs` 28-31. -/
def iv512 : Arr8 (BitVec 64) :=
  ⟨0x6a09e667f3bcc908, 0xbb67ae8584caa73b, 0x3c6ef372fe94f82b, 0xa54ff53a5f1d36f1,
   0x510e527fade682d1, 0x9b05688c2b3e6c1f, 0x1f83d9abfb41bd6b, 0x5be0cd19137e2179⟩
/-- Initial state of `Engine::sha512_256`, `sha512.rs` 43-46. -/
def iv512_256 : Arr8 (BitVec 64) :=
  ⟨0x22312194fc2bf72c, 0x9f555fa3c84c64c2, 0x2393b86b6f53b151, 0x963877195940eabd,
   0x96283ee2a88effe3, 0xbe5e1e2553863992, 0x2b0199fc2c85b8aa, 0x0eb72ddc81c52ca2⟩
/-- Initial state of `Engine::sha384`, `sha512.rs` 56-59. -/
def iv384 : Arr8 (BitVec 64) :=
  ⟨0xcbbb9d5dc1059ed8, 0x629a292a367cd507, 0x9159015a3070dd17, 0x152fecd8f70e5939,
   0x67332667ffc00b31, 0x8eb44a8768581511, 0xdb0c2e0d64f98fa7, 0x47b5481dbefa4fa4⟩

/-- `Engine::default`, `sha512.rs` 24-36. -/
def Engine.default : Engine := { h := iv512, length := 0, buffer := List.replicate 128 0 }
/-- `Engine::sha512_256`, `sha512.rs` 41-50. -/
def Engine.sha512_256 : Engine := { h := iv512_256, length := 0, buffer := List.replicate 128 0 }
/-- `Engine::sha384`, `sha512.rs` 54-63. -/
def Engine.sha384 : Engine := { h := iv384, length := 0, buffer := List.replicate 128 0 }

/-- `BLOCK_SIZE` and `process_block` of this engine. -/
def ops (c : Cfg) : BlockOps (Arr8 (BitVec 64)) := { B := blockSize, process := processBlock c }

/-- `midstate`, `sha512.rs` 107-113. -/
def midstate (e : Engine) : Res (List Byte) :=
  storeZip 8 be64 e.h.toList (List.replicate 64 0)

/-- `finalize`, `sha512.rs` 78-96. -/
def finalize (c : Cfg) (e : Engine) : Res (List Byte) := do
  let e ← BlockEngine.finalizeBlocks c (ops c) (blockSize - 16) [List.replicate 8 0] be64 e
  midstate e

/-- `from_midstate`, `sha512.rs` 123-132.  The midstate is split in chunks of FOUR bytes, each of
which is then converted to `[u8; 8]`. -/
def fromMidstate (midstate : List Byte) (length : Nat) : Res Engine := do
  assertR (length % blockSize == 0)
  let ret ← fillZip fromBe64 (List.replicate 8 0) (chunksExact 4 midstate)
  let ret ← Arr8.ofList ret
  pure { buffer := List.replicate 128 0, h := ret, length := length }

/-- `impl HashEngine for sha512::Engine`, `sha512.rs` 66-133. -/
def engine (c : Cfg) : HashEngine where
  State := Engine
  Midstate := List Byte
  blockSize := blockSize
  default := .ok Engine.default
  new := .ok Engine.default
  input := BlockEngine.input c (ops c)
  nBytesHashed e := e.length
  finalize := finalize c
  midstate := midstate
  fromMidstate := fromMidstate

end Chf.Sha512

namespace Chf

/-- `impl HashEngine for sha384::Engine`, `sha384.rs` 15-50. -/
def Sha384.engine (c : Cfg) : HashEngine where
  State := Sha512.Engine
  Midstate := List Byte
  blockSize := Sha512.blockSize
  default := .ok Sha512.Engine.sha384
  new := .ok Sha512.Engine.sha384
  input := BlockEngine.input c (Sha512.ops c)
  nBytesHashed e := e.length
  finalize e := do
    let d ← Sha512.finalize c e
    let d ← sliceTo d 48
    copyIntoRange (List.replicate 48 0) 0 48 d
  midstate := Sha512.midstate
  fromMidstate := Sha512.fromMidstate

/-- `impl HashEngine for sha512_256::Engine`, `sha512_256.rs` 26-61. -/
def Sha512_256.engine (c : Cfg) : HashEngine where
  State := Sha512.Engine
  Midstate := List Byte
  blockSize := Sha512.blockSize
  default := .ok Sha512.Engine.sha512_256
  new := .ok Sha512.Engine.sha512_256
  input := BlockEngine.input c (Sha512.ops c)
  nBytesHashed e := e.length
  finalize e := do
    let d ← Sha512.finalize c e
    let d ← sliceTo d 32
    copyIntoRange (List.replicate 32 0) 0 32 d
  midstate := Sha512.midstate
  fromMidstate := Sha512.fromMidstate

end Chf
