import Verif.Model.Observe
import Verif.Model.Sha256Engine
import Verif.Model.Sha512
import Verif.Model.Sha1
import Verif.Model.Ripemd160

/-!
# What an observer sees of the block functions

`/repo/src/sha256.rs` 201-258, 445-814; `/repo/src/sha512.rs` 146-314; `/repo/src/sha1.rs` 96-136;
`/repo/src/ripemd160.rs` 102-224.
-/

namespace Chf
open Obs

/-- `w[i]`. -/
def loadW {n : Nat} (w : Vector (BitVec n) 16) (i : Fin 16) : Obs (BitVec n) := do
  see [.read .w i 1]
  pure w[i]

/-- `w[i] = v`. -/
def storeW {n : Nat} (w : Vector (BitVec n) 16) (i : Fin 16) (v : BitVec n) :
    Obs (Vector (BitVec n) 16) := do
  see [.write .w i 1]
  pure (w.set i v)

/-- `let mut a = self.h[0];` .. -/
def loadH8 {n : Nat} (h : Arr8 (BitVec n)) : Obs (Arr8 (BitVec n)) := do
  see [.read .h 0 1, .read .h 1 1, .read .h 2 1, .read .h 3 1, .read .h 4 1, .read .h 5 1, .read .h 6 1,
    .read .h 7 1]
  pure h

/-- The events of `self.h[i] = self.h[i].wrapping_add(..)` for `i` from 0 to `n - 1`. -/
def updates (n : Nat) : List Ev := (List.range n).flatMap fun i => [.read .h i 1, .write .h i 1]

namespace Sha256

/-- First form of `round!` in `fast_hash`, `sha256.rs` 246-251. -/
def fastRoundO (l : RoundLine 32) (s : RoundState 32) : Obs (RoundState 32) := do
  let r := s.regs
  let x ← loadW s.win l.wi
  let t1 := r.get l.rh + bigSigma1 (r.get l.re) + ch (r.get l.re) (r.get l.rf) (r.get l.rg) + l.k + x
  let t2 := bigSigma0 (r.get l.ra) + maj (r.get l.ra) (r.get l.rb) (r.get l.rc)
  let r := r.set l.rd (r.get l.rd + t1)
  let r := r.set l.rh (t1 + t2)
  pure { s with regs := r }

/-- Both forms, `sha256.rs` 241-258. -/
def fastLineO (s : RoundState 32) (l : RoundLine 32) : Obs (RoundState 32) :=
  match l.later with
  | none => fastRoundO l s
  | some (i1, i2, i3) => do
      let x ← loadW s.win l.wi
      let x1 ← loadW s.win i1
      let x2 ← loadW s.win i2
      let x3 ← loadW s.win i3
      let win ← storeW s.win l.wi (x + sigma1 x1 + x2 + sigma0 x3)
      fastRoundO l { s with win := win }

/-- `round!` in `small_hash`, `sha256.rs` 206-238. -/
def smallLineO (s : RoundState 32) (l : RoundLine 32) : Obs (RoundState 32) :=
  let r := s.regs
  match l.later with
  | none => do
      let x ← loadW s.win l.wi
      let u := smallRoundFn (r.get l.ra) (r.get l.rb) (r.get l.rc) (r.get l.rd) (r.get l.re)
        (r.get l.rf) (r.get l.rg) (r.get l.rh) l.k x
      let r := r.set l.rd u.1
      let r := r.set l.rh u.2
      pure { s with regs := r }
  | some (i1, i2, i3) => do
      let x ← loadW s.win l.wi
      let x1 ← loadW s.win i1
      let x2 ← loadW s.win i2
      let x3 ← loadW s.win i3
      let u := smallLaterRoundFn (r.get l.ra) (r.get l.rb) (r.get l.rc) (r.get l.rd) (r.get l.re)
        (r.get l.rf) (r.get l.rg) (r.get l.rh) l.k x x1 x2 x3
      let r := r.set l.rd u.1
      let r := r.set l.rh u.2.1
      let win ← storeW s.win l.wi u.2.2
      pure { regs := r, win := win }

/-- The macro `round!` selected by feature `small-hash`. -/
def lineO (c : Cfg) : RoundState 32 → RoundLine 32 → Obs (RoundState 32) :=
  if c.smallHash then smallLineO else fastLineO

/-- `software_process_block`, `sha256.rs` 721-814. -/
def softwareProcessBlockO (c : Cfg) (buffer : List Byte) (h : Arr8 (BitVec 32)) :
    Obs (Arr8 (BitVec 32)) := do
  check (debugAssert c (buffer.length == blockSize))
  let w ← fillZipO .w .buffer 4 fromBe32 0 (List.replicate 16 0) (chunksExact 4 buffer)
  let w ← unseen (arr16 w)
  let r ← loadH8 h
  let s ← blockLines.foldlM (lineO c) { regs := r, win := w }
  see (updates 8)
  pure (addState h s.regs)

namespace Simd

/-- `_mm_loadu_si128(self.h.as_ptr().add(n))`. -/
def loadHO (h : Arr8 (BitVec 32)) (n : Nat) : Obs M128 := do
  see [.read .h n 4]
  unseen (loadH h n)

/-- `_mm_loadu_si128(self.buffer.as_ptr().add(n))`. -/
def loadBytesO (buffer : List Byte) (n : Nat) : Obs M128 := do
  see [.read .buffer n 16]
  unseen (loadBytes buffer n)

/-- `_mm_storeu_si128(self.h.as_mut_ptr().add(n), x)`. -/
def storeHO (h : Arr8 (BitVec 32)) (n : Nat) (x : M128) : Obs (Arr8 (BitVec 32)) := do
  see [.write .h n 4]
  unseen (storeH h n x)

/-- Load and rearrange the state, `sha256.rs` 489-495. -/
def loadStateO (h : Arr8 (BitVec 32)) (s : Xmm) : Obs Xmm := do
  let s := { s with tmp := ← loadHO h 0 }
  let s := { s with state1 := ← loadHO h 4 }
  let s := { s with tmp := mm_shuffle_epi32 s.tmp 0xB1 }
  let s := { s with state1 := mm_shuffle_epi32 s.state1 0x1B }
  let s := { s with state0 := mm_alignr_epi8 s.tmp s.state1 8 }
  let s := { s with state1 := mm_blend_epi16 s.state1 s.tmp 0xF0 }
  pure s

/-- Rounds 0-3, `sha256.rs` 504-512. -/
def rounds0_3O (buffer : List Byte) (s : Xmm) : Obs Xmm := do
  let s := { s with msg := ← loadBytesO buffer 0 }
  let s := { s with msg0 := mm_shuffle_epi8 s.msg mask }
  let s := { s with msg := mm_add_epi32 s.msg0 (mm_set_epi64x 0xE9B5DBA5B5C0FBCF#64 0x71374491428A2F98#64) }
  let s := { s with state1 := mm_sha256rnds2_epu32 s.state1 s.state0 s.msg }
  let s := { s with msg := mm_shuffle_epi32 s.msg 0x0E }
  let s := { s with state0 := mm_sha256rnds2_epu32 s.state0 s.state1 s.msg }
  pure s

/-- Rounds 4-7, `sha256.rs` 515-524. -/
def rounds4_7O (buffer : List Byte) (s : Xmm) : Obs Xmm := do
  let s := { s with msg1 := ← loadBytesO buffer 16 }
  let s := { s with msg1 := mm_shuffle_epi8 s.msg1 mask }
  let s := { s with msg := mm_add_epi32 s.msg1 (mm_set_epi64x 0xAB1C5ED5923F82A4#64 0x59F111F13956C25B#64) }
  let s := { s with state1 := mm_sha256rnds2_epu32 s.state1 s.state0 s.msg }
  let s := { s with msg := mm_shuffle_epi32 s.msg 0x0E }
  let s := { s with state0 := mm_sha256rnds2_epu32 s.state0 s.state1 s.msg }
  let s := { s with msg0 := mm_sha256msg1_epu32 s.msg0 s.msg1 }
  pure s

/-- Rounds 8-11, `sha256.rs` 527-536. -/
def rounds8_11O (buffer : List Byte) (s : Xmm) : Obs Xmm := do
  let s := { s with msg2 := ← loadBytesO buffer 32 }
  let s := { s with msg2 := mm_shuffle_epi8 s.msg2 mask }
  let s := { s with msg := mm_add_epi32 s.msg2 (mm_set_epi64x 0x550C7DC3243185BE#64 0x12835B01D807AA98#64) }
  let s := { s with state1 := mm_sha256rnds2_epu32 s.state1 s.state0 s.msg }
  let s := { s with msg := mm_shuffle_epi32 s.msg 0x0E }
  let s := { s with state0 := mm_sha256rnds2_epu32 s.state0 s.state1 s.msg }
  let s := { s with msg1 := mm_sha256msg1_epu32 s.msg1 s.msg2 }
  pure s

/-- Rounds 12-15, `sha256.rs` 539-551. -/
def rounds12_15O (buffer : List Byte) (s : Xmm) : Obs Xmm := do
  let s := { s with msg3 := ← loadBytesO buffer 48 }
  let s := { s with msg3 := mm_shuffle_epi8 s.msg3 mask }
  let s := { s with msg := mm_add_epi32 s.msg3 (mm_set_epi64x 0xC19BF1749BDC06A7#64 0x80DEB1FE72BE5D74#64) }
  let s := { s with state1 := mm_sha256rnds2_epu32 s.state1 s.state0 s.msg }
  let s := { s with tmp := mm_alignr_epi8 s.msg3 s.msg2 4 }
  let s := { s with msg0 := mm_add_epi32 s.msg0 s.tmp }
  let s := { s with msg0 := mm_sha256msg2_epu32 s.msg0 s.msg3 }
  let s := { s with msg := mm_shuffle_epi32 s.msg 0x0E }
  let s := { s with state0 := mm_sha256rnds2_epu32 s.state0 s.state1 s.msg }
  let s := { s with msg2 := mm_sha256msg1_epu32 s.msg2 s.msg3 }
  pure s

/-- `process_block_simd_x86_intrinsics`, `sha256.rs` 463-718.  Between the loads and the stores there
are only operations on registers, with literal shuffles; these are those of `Sha256Simd`. -/
def processBlockO (buffer : List Byte) (h : Arr8 (BitVec 32)) : Obs (Arr8 (BitVec 32)) := do
  let s : Xmm := ⟨0, 0, 0, 0, 0, 0, 0, 0⟩
  let s ← loadStateO h s
  let abefSave := s.state0
  let cdghSave := s.state1
  let s ← rounds0_3O buffer s
  let s ← rounds4_7O buffer s
  let s ← rounds8_11O buffer s
  let s ← rounds12_15O buffer s
  let s := rounds16_19 s
  let s := rounds20_23 s
  let s := rounds24_27 s
  let s := rounds28_31 s
  let s := rounds32_35 s
  let s := rounds36_39 s
  let s := rounds40_43 s
  let s := rounds44_47 s
  let s := rounds48_51 s
  let s := rounds52_55 s
  let s := rounds56_59 s
  let s := rounds60_63 s
  let s := combine abefSave cdghSave s
  let s := unpackState s
  let h ← storeHO h 0 s.state0
  storeHO h 4 s.state1

end Simd

/-- `process_block`, `sha256.rs` 445-459. -/
def processBlockO (c : Cfg) (buffer : List Byte) (h : Arr8 (BitVec 32)) : Obs (Arr8 (BitVec 32)) :=
  if c.shaNi then Simd.processBlockO buffer h else softwareProcessBlockO c buffer h

def opsO (c : Cfg) : ObsOps (Arr8 (BitVec 32)) := { B := blockSize, process := processBlockO c }

end Sha256

namespace Sha512

/-- First form of `round!` in `fast_hash`, `sha512.rs` 188-193. -/
def fastRoundO (l : RoundLine 64) (s : RoundState 64) : Obs (RoundState 64) := do
  let r := s.regs
  let x ← loadW s.win l.wi
  let t1 := r.get l.rh + bigSigma1 (r.get l.re) + ch (r.get l.re) (r.get l.rf) (r.get l.rg) + l.k + x
  let t2 := bigSigma0 (r.get l.ra) + maj (r.get l.ra) (r.get l.rb) (r.get l.rc)
  let r := r.set l.rd (r.get l.rd + t1)
  let r := r.set l.rh (t1 + t2)
  pure { s with regs := r }

/-- Both forms, `sha512.rs` 183-200. -/
def fastLineO (s : RoundState 64) (l : RoundLine 64) : Obs (RoundState 64) :=
  match l.later with
  | none => fastRoundO l s
  | some (i1, i2, i3) => do
      let x ← loadW s.win l.wi
      let x1 ← loadW s.win i1
      let x2 ← loadW s.win i2
      let x3 ← loadW s.win i3
      let win ← storeW s.win l.wi (x + sigma1 x1 + x2 + sigma0 x3)
      fastRoundO l { s with win := win }

/-- `round!` in `small_hash`, `sha512.rs` 151-180. -/
def smallLineO (s : RoundState 64) (l : RoundLine 64) : Obs (RoundState 64) :=
  let r := s.regs
  match l.later with
  | none => do
      let x ← loadW s.win l.wi
      let u := smallRoundFn (r.get l.ra) (r.get l.rb) (r.get l.rc) (r.get l.rd) (r.get l.re)
        (r.get l.rf) (r.get l.rg) (r.get l.rh) l.k x
      let r := r.set l.rd u.1
      let r := r.set l.rh u.2
      pure { s with regs := r }
  | some (i1, i2, i3) => do
      let x ← loadW s.win l.wi
      let x1 ← loadW s.win i1
      let x2 ← loadW s.win i2
      let x3 ← loadW s.win i3
      let u := smallLaterRoundFn (r.get l.ra) (r.get l.rb) (r.get l.rc) (r.get l.rd) (r.get l.re)
        (r.get l.rf) (r.get l.rg) (r.get l.rh) l.k x x1 x2 x3
      let r := r.set l.rd u.1
      let r := r.set l.rh u.2.1
      let win ← storeW s.win l.wi u.2.2
      pure { regs := r, win := win }

/-- The macro `round!` selected by feature `small-hash`. -/
def lineO (c : Cfg) : RoundState 64 → RoundLine 64 → Obs (RoundState 64) :=
  if c.smallHash then smallLineO else fastLineO

/-- `process_block`, `sha512.rs` 204-314. -/
def processBlockO (c : Cfg) (buffer : List Byte) (h : Arr8 (BitVec 64)) :
    Obs (Arr8 (BitVec 64)) := do
  check (debugAssert c (buffer.length == blockSize))
  let w ← fillZipO .w .buffer 8 fromBe64 0 (List.replicate 16 0) (chunksExact 8 buffer)
  let w ← unseen (arr16 w)
  let r ← loadH8 h
  let s ← blockLines.foldlM (lineO c) { regs := r, win := w }
  see (updates 8)
  pure (addState h s.regs)

def opsO (c : Cfg) : ObsOps (Arr8 (BitVec 64)) := { B := blockSize, process := processBlockO c }

end Sha512

namespace Sha1

/-- `w[i]` of an array of 80 words. -/
def loadW (w : List (BitVec 32)) (i : Nat) : Obs (BitVec 32) := do
  see [.read .w i 1]
  check (index w i)

/-- The message schedule, `sha1.rs` 103-105. -/
def expandO (w : List (BitVec 32)) : Obs (List (BitVec 32)) := do
  let w ← ((List.range 64).map (· + 16)).foldlM (init := w) fun w i => do
    see [.branch true]
    let x3 ← loadW w (i - 3)
    let x8 ← loadW w (i - 8)
    let x14 ← loadW w (i - 14)
    let x16 ← loadW w (i - 16)
    see [.write .w i 1]
    check (indexSet w i ((x3 ^^^ x8 ^^^ x14 ^^^ x16).rotateLeft 1))
  see [.branch false]
  pure w

/-- The `match i`, `sha1.rs` 114-120. -/
def fkO (i : Nat) (b c d : BitVec 32) : Obs (BitVec 32 × BitVec 32) :=
  choose (i ≤ 19) (pure ((b &&& c) ||| (~~~b &&& d), 0x5a827999)) <|
  choose (20 ≤ i ∧ i ≤ 39) (pure (b ^^^ c ^^^ d, 0x6ed9eba1)) <|
  choose (40 ≤ i ∧ i ≤ 59) (pure ((b &&& c) ||| (b &&& d) ||| (c &&& d), 0x8f1bbcdc)) <|
  choose (60 ≤ i ∧ i ≤ 79) (pure (b ^^^ c ^^^ d, 0xca62c1d6)) <|
  unseen (.error .unreachable)

/-- Body of the main loop, `sha1.rs` 113-129. -/
def stepO (s : Arr5 (BitVec 32)) (wi : BitVec 32) (i : Nat) : Obs (Arr5 (BitVec 32)) := do
  see [.branch true, .read .w i 1]
  let (f, k) ← fkO i s.x1 s.x2 s.x3
  let newA := s.x0.rotateLeft 5 + f + s.x4 + k + wi
  pure ⟨newA, s.x0, s.x1.rotateLeft 30, s.x2, s.x3⟩

/-- `process_block`, `sha1.rs` 96-136. -/
def processBlockO (c : Cfg) (buffer : List Byte) (h : Arr5 (BitVec 32)) :
    Obs (Arr5 (BitVec 32)) := do
  check (debugAssert c (buffer.length == blockSize))
  let w ← fillZipO .w .buffer 4 fromBe32 0 (List.replicate 80 0) (chunksExact 4 buffer)
  let w ← expandO w
  see [.read .h 0 1, .read .h 1 1, .read .h 2 1, .read .h 3 1, .read .h 4 1]
  let s ← w.zipIdx.foldlM (fun s wi => stepO s wi.1 wi.2) h
  see ([.branch false] ++ updates 5)
  pure ⟨h.x0 + s.x0, h.x1 + s.x1, h.x2 + s.x2, h.x3 + s.x3, h.x4 + s.x4⟩

def opsO (c : Cfg) : ObsOps (Arr5 (BitVec 32)) := { B := blockSize, process := processBlockO c }

end Sha1

namespace Ripemd160

/-- `bb[i]`. -/
def getO (o : Obj) (s : Arr5 (BitVec 32)) (i : Fin 5) : Obs (BitVec 32) := do
  see [.read o i 1]
  pure (get s i)

/-- `bb[i] = v`. -/
def setO (o : Obj) (s : Arr5 (BitVec 32)) (i : Fin 5) (v : BitVec 32) : Obs (Arr5 (BitVec 32)) := do
  see [.write o i 1]
  pure (set s i v)

/-- `round!` without feature `small-hash`, `ripemd160.rs` 126-134.  The arguments `x` and `round` are
expressions, evaluated in the first line of the macro. -/
def fastRoundO (o : Obj) (w : Vector (BitVec 32) 16) (add : BitVec 32)
    (f : BitVec 32 → BitVec 32 → BitVec 32 → BitVec 32) (bb : Arr5 (BitVec 32)) (l : RLine) :
    Obs (Arr5 (BitVec 32)) := do
  let a ← getO o bb l.i0
  let y1 ← getO o bb l.i1
  let y2 ← getO o bb l.i2
  let y3 ← getO o bb l.i3
  let x ← loadW w l.d
  let bb ← setO o bb l.i0 (a + f y1 y2 y3 + x + add)
  let a ← getO o bb l.i0
  let e ← getO o bb l.i4
  let bb ← setO o bb l.i0 (a.rotateLeft l.s + e)
  let z ← getO o bb l.i2
  setO o bb l.i2 (z.rotateLeft 10)

/-- `round!` with feature `small-hash`, `ripemd160.rs` 105-123. -/
def smallRoundO (o : Obj) (w : Vector (BitVec 32) 16) (add : BitVec 32)
    (f : BitVec 32 → BitVec 32 → BitVec 32 → BitVec 32) (bb : Arr5 (BitVec 32)) (l : RLine) :
    Obs (Arr5 (BitVec 32)) := do
  let a ← getO o bb l.i0
  let b ← getO o bb l.i1
  let z ← getO o bb l.i2
  let d ← getO o bb l.i3
  let e ← getO o bb l.i4
  let x ← loadW w l.d
  let y1 ← getO o bb l.i1
  let y2 ← getO o bb l.i2
  let y3 ← getO o bb l.i3
  let u := smallRoundFn a b z d e x l.s add (f y1 y2 y3)
  let bb ← setO o bb l.i0 u.1
  setO o bb l.i2 u.2

/-- One repetition `$( round!(..); )*` of the macro, over its lines. -/
def roundsO (c : Cfg) (o : Obj) (w : Vector (BitVec 32) 16) (add : BitVec 32)
    (f : BitVec 32 → BitVec 32 → BitVec 32 → BitVec 32) (lines : List RLine)
    (bb : Arr5 (BitVec 32)) : Obs (Arr5 (BitVec 32)) :=
  lines.foldlM (if c.smallHash then smallRoundO o w add f else fastRoundO o w add f) bb

/-- The body of `process_block!`, `ripemd160.rs` 158-224. -/
def processBlockMacroO (c : Cfg) (h : Arr5 (BitVec 32)) (w : Vector (BitVec 32) 16) :
    Obs (Arr5 (BitVec 32)) := do
  see [.read .h 0 5, .write .bb 0 5, .read .h 0 5, .write .bbb 0 5]
  let bb := h
  let bbb := h
  let bb ← roundsO c .bb w add1 fn1 round1 bb
  let bb ← roundsO c .bb w add2 fn2 round2 bb
  let bb ← roundsO c .bb w add3 fn3 round3 bb
  let bb ← roundsO c .bb w add4 fn4 round4 bb
  let bb ← roundsO c .bb w add5 fn5 round5 bb
  let bbb ← roundsO c .bbb w parAdd1 fn5 parRound1 bbb
  let bbb ← roundsO c .bbb w parAdd2 fn4 parRound2 bbb
  let bbb ← roundsO c .bbb w parAdd3 fn3 parRound3 bbb
  let bbb ← roundsO c .bbb w parAdd4 fn2 parRound4 bbb
  let bbb ← roundsO c .bbb w parAdd5 fn1 parRound5 bbb
  let bbb ← setO .bbb bbb 3 ((← getO .bbb bbb 3) + (← getO .h h 1) + (← getO .bb bb 2))
  let h ← setO .h h 1 ((← getO .h h 2) + (← getO .bb bb 3) + (← getO .bbb bbb 4))
  let h ← setO .h h 2 ((← getO .h h 3) + (← getO .bb bb 4) + (← getO .bbb bbb 0))
  let h ← setO .h h 3 ((← getO .h h 4) + (← getO .bb bb 0) + (← getO .bbb bbb 1))
  let h ← setO .h h 4 ((← getO .h h 0) + (← getO .bb bb 1) + (← getO .bbb bbb 2))
  setO .h h 0 (← getO .bbb bbb 3)

/-- `process_block`, `ripemd160.rs` 228-417. -/
def processBlockO (c : Cfg) (buffer : List Byte) (h : Arr5 (BitVec 32)) :
    Obs (Arr5 (BitVec 32)) := do
  check (debugAssert c (buffer.length == blockSize))
  let w ← fillZipO .w .buffer 4 fromLe32 0 (List.replicate 16 0) (chunksExact 4 buffer)
  let w ← unseen (arr16 w)
  processBlockMacroO c h w

def opsO (c : Cfg) : ObsOps (Arr5 (BitVec 32)) := { B := blockSize, process := processBlockO c }

end Ripemd160

end Chf
