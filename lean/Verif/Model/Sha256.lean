import Verif.Model.Engine

/-!
# `sha256.rs`: engine and software block function

`/repo/src/sha256.rs` 20-113, 190-258, 428-459, 720-814.
-/

namespace Chf.Sha256

/-- `BLOCK_SIZE`, `sha256.rs` 21. -/
def blockSize : Nat := 64

/-- `Ch`, `sha256.rs` 191. -/
def ch (x y z : BitVec 32) : BitVec 32 := z ^^^ (x &&& (y ^^^ z))
/-- `Maj`, `sha256.rs` 193. -/
def maj (x y z : BitVec 32) : BitVec 32 := (x &&& y) ||| (z &&& (x ||| y))
/-- `Sigma0`, `sha256.rs` 195. -/
def bigSigma0 (x : BitVec 32) : BitVec 32 := x.rotateLeft 30 ^^^ x.rotateLeft 19 ^^^ x.rotateLeft 10
/-- `Sigma1`, `sha256.rs` 197. -/
def bigSigma1 (x : BitVec 32) : BitVec 32 := x.rotateLeft 26 ^^^ x.rotateLeft 21 ^^^ x.rotateLeft 7
/-- `sigma0`, `sha256.rs` 198. -/
def sigma0 (x : BitVec 32) : BitVec 32 := x.rotateLeft 25 ^^^ x.rotateLeft 14 ^^^ (x >>> 3)
/-- `sigma1`, `sha256.rs` 199. -/
def sigma1 (x : BitVec 32) : BitVec 32 := x.rotateLeft 15 ^^^ x.rotateLeft 13 ^^^ (x >>> 10)

/-- First form of the macro `round!` in `fast_hash`, `sha256.rs` 246-251. -/
def fastRound (l : RoundLine 32) (s : RoundState 32) : RoundState 32 :=
  let r := s.regs
  let t1 := r.get l.rh + bigSigma1 (r.get l.re) + ch (r.get l.re) (r.get l.rf) (r.get l.rg) + l.k
    + s.win[l.wi]
  let t2 := bigSigma0 (r.get l.ra) + maj (r.get l.ra) (r.get l.rb) (r.get l.rc)
  let r := r.set l.rd (r.get l.rd + t1)
  let r := r.set l.rh (t1 + t2)
  { s with regs := r }

/-- Both forms of the macro `round!` in `fast_hash`, `sha256.rs` 241-258: with the extra arguments
`w[i]` is reassigned before the first form runs. -/
def fastLine (s : RoundState 32) (l : RoundLine 32) : RoundState 32 :=
  match l.later with
  | none => fastRound l s
  | some (i1, i2, i3) =>
      let nw := s.win[l.wi] + sigma1 s.win[i1] + s.win[i2] + sigma0 s.win[i3]
      fastRound l { s with win := s.win.set l.wi nw }

/-- `small_hash::round`, `sha256.rs` 206-213. -/
def smallRoundFn (a b c d e f g h k w : BitVec 32) : BitVec 32 × BitVec 32 :=
  let t1 := h + bigSigma1 e + ch e f g + k + w
  let t2 := bigSigma0 a + maj a b c
  (d + t1, t1 + t2)

/-- `small_hash::later_round`, `sha256.rs` 214-222. -/
def smallLaterRoundFn (a b c d e f g h k w w1 w2 w3 : BitVec 32) :
    BitVec 32 × BitVec 32 × BitVec 32 :=
  let w := w + sigma1 w1 + w2 + sigma0 w3
  let dh := smallRoundFn a b c d e f g h k w
  (dh.1, dh.2, w)

/-- The macro `round!` in `small_hash`, `sha256.rs` 224-238. -/
def smallLine (s : RoundState 32) (l : RoundLine 32) : RoundState 32 :=
  let r := s.regs
  match l.later with
  | none =>
      let u := smallRoundFn (r.get l.ra) (r.get l.rb) (r.get l.rc) (r.get l.rd) (r.get l.re)
        (r.get l.rf) (r.get l.rg) (r.get l.rh) l.k s.win[l.wi]
      let r := r.set l.rd u.1
      let r := r.set l.rh u.2
      { s with regs := r }
  | some (i1, i2, i3) =>
      let u := smallLaterRoundFn (r.get l.ra) (r.get l.rb) (r.get l.rc) (r.get l.rd) (r.get l.re)
        (r.get l.rf) (r.get l.rg) (r.get l.rh) l.k s.win[l.wi] s.win[i1] s.win[i2] s.win[i3]
      let r := r.set l.rd u.1
      let r := r.set l.rh u.2.1
      { regs := r, win := s.win.set l.wi u.2.2 }

/-- The macro `round!` selected by feature `small-hash`. -/
def line (c : Cfg) : RoundState 32 → RoundLine 32 → RoundState 32 :=
  if c.smallHash then smallLine else fastLine

/-- The 64 lines of `software_process_block`, `sha256.rs` 738-804. -/
def blockLines : List (RoundLine 32) := [
  ⟨.a, .b, .c, .d, .e, .f, .g, .h, 0x428a2f98#32, 0, none⟩,
  ⟨.h, .a, .b, .c, .d, .e, .f, .g, 0x71374491#32, 1, none⟩,
  ⟨.g, .h, .a, .b, .c, .d, .e, .f, 0xb5c0fbcf#32, 2, none⟩,
  ⟨.f, .g, .h, .a, .b, .c, .d, .e, 0xe9b5dba5#32, 3, none⟩,
  ⟨.e, .f, .g, .h, .a, .b, .c, .d, 0x3956c25b#32, 4, none⟩,
  ⟨.d, .e, .f, .g, .h, .a, .b, .c, 0x59f111f1#32, 5, none⟩,
  ⟨.c, .d, .e, .f, .g, .h, .a, .b, 0x923f82a4#32, 6, none⟩,
  ⟨.b, .c, .d, .e, .f, .g, .h, .a, 0xab1c5ed5#32, 7, none⟩,
  ⟨.a, .b, .c, .d, .e, .f, .g, .h, 0xd807aa98#32, 8, none⟩,
  ⟨.h, .a, .b, .c, .d, .e, .f, .g, 0x12835b01#32, 9, none⟩,
  ⟨.g, .h, .a, .b, .c, .d, .e, .f, 0x243185be#32, 10, none⟩,
  ⟨.f, .g, .h, .a, .b, .c, .d, .e, 0x550c7dc3#32, 11, none⟩,
  ⟨.e, .f, .g, .h, .a, .b, .c, .d, 0x72be5d74#32, 12, none⟩,
  ⟨.d, .e, .f, .g, .h, .a, .b, .c, 0x80deb1fe#32, 13, none⟩,
  ⟨.c, .d, .e, .f, .g, .h, .a, .b, 0x9bdc06a7#32, 14, none⟩,
  ⟨.b, .c, .d, .e, .f, .g, .h, .a, 0xc19bf174#32, 15, none⟩,
  ⟨.a, .b, .c, .d, .e, .f, .g, .h, 0xe49b69c1#32, 0, some (14, 9, 1)⟩,
  ⟨.h, .a, .b, .c, .d, .e, .f, .g, 0xefbe4786#32, 1, some (15, 10, 2)⟩,
  ⟨.g, .h, .a, .b, .c, .d, .e, .f, 0x0fc19dc6#32, 2, some (0, 11, 3)⟩,
  ⟨.f, .g, .h, .a, .b, .c, .d, .e, 0x240ca1cc#32, 3, some (1, 12, 4)⟩,
  ⟨.e, .f, .g, .h, .a, .b, .c, .d, 0x2de92c6f#32, 4, some (2, 13, 5)⟩,
  ⟨.d, .e, .f, .g, .h, .a, .b, .c, 0x4a7484aa#32, 5, some (3, 14, 6)⟩,
  ⟨.c, .d, .e, .f, .g, .h, .a, .b, 0x5cb0a9dc#32, 6, some (4, 15, 7)⟩,
  ⟨.b, .c, .d, .e, .f, .g, .h, .a, 0x76f988da#32, 7, some (5, 0, 8)⟩,
  ⟨.a, .b, .c, .d, .e, .f, .g, .h, 0x983e5152#32, 8, some (6, 1, 9)⟩,
  ⟨.h, .a, .b, .c, .d, .e, .f, .g, 0xa831c66d#32, 9, some (7, 2, 10)⟩,
  ⟨.g, .h, .a, .b, .c, .d, .e, .f, 0xb00327c8#32, 10, some (8, 3, 11)⟩,
  ⟨.f, .g, .h, .a, .b, .c, .d, .e, 0xbf597fc7#32, 11, some (9, 4, 12)⟩,
  ⟨.e, .f, .g, .h, .a, .b, .c, .d, 0xc6e00bf3#32, 12, some (10, 5, 13)⟩,
  ⟨.d, .e, .f, .g, .h, .a, .b, .c, 0xd5a79147#32, 13, some (11, 6, 14)⟩,
  ⟨.c, .d, .e, .f, .g, .h, .a, .b, 0x06ca6351#32, 14, some (12, 7, 15)⟩,
  ⟨.b, .c, .d, .e, .f, .g, .h, .a, 0x14292967#32, 15, some (13, 8, 0)⟩,
  ⟨.a, .b, .c, .d, .e, .f, .g, .h, 0x27b70a85#32, 0, some (14, 9, 1)⟩,
  ⟨.h, .a, .b, .c, .d, .e, .f, .g, 0x2e1b2138#32, 1, some (15, 10, 2)⟩,
  ⟨.g, .h, .a, .b, .c, .d, .e, .f, 0x4d2c6dfc#32, 2, some (0, 11, 3)⟩,
  ⟨.f, .g, .h, .a, .b, .c, .d, .e, 0x53380d13#32, 3, some (1, 12, 4)⟩,
  ⟨.e, .f, .g, .h, .a, .b, .c, .d, 0x650a7354#32, 4, some (2, 13, 5)⟩,
  ⟨.d, .e, .f, .g, .h, .a, .b, .c, 0x766a0abb#32, 5, some (3, 14, 6)⟩,
  ⟨.c, .d, .e, .f, .g, .h, .a, .b, 0x81c2c92e#32, 6, some (4, 15, 7)⟩,
  ⟨.b, .c, .d, .e, .f, .g, .h, .a, 0x92722c85#32, 7, some (5, 0, 8)⟩,
  ⟨.a, .b, .c, .d, .e, .f, .g, .h, 0xa2bfe8a1#32, 8, some (6, 1, 9)⟩,
  ⟨.h, .a, .b, .c, .d, .e, .f, .g, 0xa81a664b#32, 9, some (7, 2, 10)⟩,
  ⟨.g, .h, .a, .b, .c, .d, .e, .f, 0xc24b8b70#32, 10, some (8, 3, 11)⟩,
  ⟨.f, .g, .h, .a, .b, .c, .d, .e, 0xc76c51a3#32, 11, some (9, 4, 12)⟩,
  ⟨.e, .f, .g, .h, .a, .b, .c, .d, 0xd192e819#32, 12, some (10, 5, 13)⟩,
  ⟨.d, .e, .f, .g, .h, .a, .b, .c, 0xd6990624#32, 13, some (11, 6, 14)⟩,
  ⟨.c, .d, .e, .f, .g, .h, .a, .b, 0xf40e3585#32, 14, some (12, 7, 15)⟩,
  ⟨.b, .c, .d, .e, .f, .g, .h, .a, 0x106aa070#32, 15, some (13, 8, 0)⟩,
  ⟨.a, .b, .c, .d, .e, .f, .g, .h, 0x19a4c116#32, 0, some (14, 9, 1)⟩,
  ⟨.h, .a, .b, .c, .d, .e, .f, .g, 0x1e376c08#32, 1, some (15, 10, 2)⟩,
  ⟨.g, .h, .a, .b, .c, .d, .e, .f, 0x2748774c#32, 2, some (0, 11, 3)⟩,
  ⟨.f, .g, .h, .a, .b, .c, .d, .e, 0x34b0bcb5#32, 3, some (1, 12, 4)⟩,
  ⟨.e, .f, .g, .h, .a, .b, .c, .d, 0x391c0cb3#32, 4, some (2, 13, 5)⟩,
  ⟨.d, .e, .f, .g, .h, .a, .b, .c, 0x4ed8aa4a#32, 5, some (3, 14, 6)⟩,
  ⟨.c, .d, .e, .f, .g, .h, .a, .b, 0x5b9cca4f#32, 6, some (4, 15, 7)⟩,
  ⟨.b, .c, .d, .e, .f, .g, .h, .a, 0x682e6ff3#32, 7, some (5, 0, 8)⟩,
  ⟨.a, .b, .c, .d, .e, .f, .g, .h, 0x748f82ee#32, 8, some (6, 1, 9)⟩,
  ⟨.h, .a, .b, .c, .d, .e, .f, .g, 0x78a5636f#32, 9, some (7, 2, 10)⟩,
  ⟨.g, .h, .a, .b, .c, .d, .e, .f, 0x84c87814#32, 10, some (8, 3, 11)⟩,
  ⟨.f, .g, .h, .a, .b, .c, .d, .e, 0x8cc70208#32, 11, some (9, 4, 12)⟩,
  ⟨.e, .f, .g, .h, .a, .b, .c, .d, 0x90befffa#32, 12, some (10, 5, 13)⟩,
  ⟨.d, .e, .f, .g, .h, .a, .b, .c, 0xa4506ceb#32, 13, some (11, 6, 14)⟩,
  ⟨.c, .d, .e, .f, .g, .h, .a, .b, 0xbef9a3f7#32, 14, some (12, 7, 15)⟩,
  ⟨.b, .c, .d, .e, .f, .g, .h, .a, 0xc67178f2#32, 15, some (13, 8, 0)⟩]

/-- `self.h[i] = self.h[i].wrapping_add(..)` for `i` from 0 to 7, `sha256.rs` 806-813 (and 405-412). -/
def addState (s r : Arr8 (BitVec 32)) : Arr8 (BitVec 32) :=
  ⟨s.x0 + r.get .a, s.x1 + r.get .b, s.x2 + r.get .c, s.x3 + r.get .d,
   s.x4 + r.get .e, s.x5 + r.get .f, s.x6 + r.get .g, s.x7 + r.get .h⟩

/-- `software_process_block`, `sha256.rs` 721-814. -/
def softwareProcessBlock (c : Cfg) (buffer : List Byte) (h : Arr8 (BitVec 32)) :
    Res (Arr8 (BitVec 32)) := do
  debugAssert c (buffer.length == blockSize)
  let w ← fillZip fromBe32 (List.replicate 16 0) (chunksExact 4 buffer)
  let w ← arr16 w
  let s := blockLines.foldl (line c) { regs := h, win := w }
  pure (addState h s.regs)

/-- Initial state, `sha256.rs` 31-42. -/
def iv : Arr8 (BitVec 32) :=
  ⟨0x6a09e667, 0xbb67ae85, 0x3c6ef372, 0xa54ff53a, 0x510e527f, 0x9b05688c, 0x1f83d9ab, 0x5be0cd19⟩

/-- `Engine`, `sha256.rs` 25-29. -/
abbrev Engine := BlockEngine (Arr8 (BitVec 32))

/-- `Engine::default`, `sha256.rs` 31-42. -/
def Engine.default : Engine := { h := iv, length := 0, buffer := List.replicate 64 0 }

/-- `midstate`, `sha256.rs` 88-94.  The newtype `Midstate([u8; 32])` is its bytes. -/
def midstate (e : Engine) : Res (List Byte) :=
  storeZip 4 be32 e.h.toList (List.replicate 32 0)

/-- `from_midstate`, `sha256.rs` 104-113 and its copy 434-443. -/
def fromMidstate (midstate : List Byte) (length : Nat) : Res Engine := do
  assertR (length % blockSize == 0)
  let ret ← fillZip fromBe32 (List.replicate 8 0) (chunksExact 4 midstate)
  let ret ← Arr8.ofList ret
  pure { buffer := List.replicate 64 0, h := ret, length := length }

end Chf.Sha256
