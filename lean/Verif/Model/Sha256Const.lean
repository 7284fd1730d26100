import Verif.Model.Sha256

/-!
# `sha256.rs`: hashing in `const` context

`/repo/src/sha256.rs` 116-121, 164-178, 260-426.
-/

namespace Chf.Sha256

/-- `Midstate::read_u32`, `sha256.rs` 262-267. -/
def readU32 (c : Cfg) (bytes : List Byte) (idx : Nat) : Res (BitVec 32) := do
  let b0 ← index bytes (← addUsize c idx 0)
  let b1 ← index bytes (← addUsize c idx 1)
  let b2 ← index bytes (← addUsize c idx 2)
  let b3 ← index bytes (← addUsize c idx 3)
  pure (b0.setWidth 32 <<< 24 ||| b1.setWidth 32 <<< 16 ||| b2.setWidth 32 <<< 8
    ||| b3.setWidth 32 <<< 0)

/-- `Midstate::copy_w`, `sha256.rs` 269-277: the counter loop writes `w[0]` .. `w[15]` in order. -/
def copyW (c : Cfg) (bytes : List Byte) (idx : Nat) : Res (List (BitVec 32)) :=
  (List.range 16).mapM fun i => do readU32 c bytes (← addUsize c idx (← mulUsize c i 4))

/-- `while offset + i < bytes.len() { buf[i] = bytes[offset + i]; i += 1; }`, `sha256.rs` 304-307,
returning `buf` and `i`.  The first argument bounds the number of iterations. -/
def copyTail (c : Cfg) (bytes : List Byte) (offset : Nat) :
    Nat → List Byte → Nat → Res (List Byte × Nat)
  | 0, _, _ => .error .fuel
  | fuel + 1, buf, i => do
      let j ← addUsize c offset i
      if j < bytes.length then
        let b ← index bytes j
        let buf ← indexSet buf i b
        let i ← addUsize c i 1
        copyTail c bytes offset fuel buf i
      else pure (buf, i)

/-- The eight assignments `buf[64 - 8] = ((bit_len >> 8 * 7) & 0xFF) as u8;` .. `buf[64 - 1] = ..`,
`sha256.rs` 315-322. -/
def putBitLen (buf : List Byte) (bitLen : BitVec 64) : Res (List Byte) := do
  let b ← indexSet buf (64 - 8) (((bitLen >>> (8 * 7)) &&& 0xFF).setWidth 8)
  let b ← indexSet b (64 - 7) (((bitLen >>> (8 * 6)) &&& 0xFF).setWidth 8)
  let b ← indexSet b (64 - 6) (((bitLen >>> (8 * 5)) &&& 0xFF).setWidth 8)
  let b ← indexSet b (64 - 5) (((bitLen >>> (8 * 4)) &&& 0xFF).setWidth 8)
  let b ← indexSet b (64 - 4) (((bitLen >>> (8 * 3)) &&& 0xFF).setWidth 8)
  let b ← indexSet b (64 - 3) (((bitLen >>> (8 * 2)) &&& 0xFF).setWidth 8)
  let b ← indexSet b (64 - 2) (((bitLen >>> (8 * 1)) &&& 0xFF).setWidth 8)
  indexSet b (64 - 1) (((bitLen >>> (8 * 0)) &&& 0xFF).setWidth 8)

/-- The `else` branch computing the last one or two message windows, `sha256.rs` 300-325. -/
def lastWindow (c : Cfg) (bytes : List Byte) (numChunks chunk : Nat) :
    Res (List (BitVec 32)) := do
  let buf : List Byte := List.replicate 64 0
  let offset ← mulUsize c chunk 64
  let (buf, i) ← copyTail c bytes offset 65 buf 0
  let buf ←
    if bytes.length % 64 ≤ 64 - 9 ∨ chunk + 2 = numChunks then indexSet buf i 0x80 else pure buf
  let buf ←
    if chunk + 1 = numChunks then do
      let bitLen ← mulU64 c (asU64 bytes.length) 8
      putBitLen buf bitLen
    else pure buf
  copyW c buf 0

/-- The 64 lines of `const_hash`, `sha256.rs` 337-403. -/
def constLines : List (RoundLine 32) := [
  ⟨.a, .b, .c, .d, .e, .f, .g, .h, 0x428a2f98#32, 0, none⟩,
  ⟨.h, .a, .b, .c, .d, .e, .f, .g, 0x71374491#32, 1, none⟩,
  ⟨.g, .h, .a, .b, .c, .d, .e, .f, 0xb5c0fbcf#32, 2, none⟩,
  ⟨.f, .g, .h, .a, .b, .c, .d, .e, 0xe9b5dba5#32, 3, none⟩,
  ⟨.e, .f, .g, .h, .a, .b, .c, .d, 0x3956c25b#32, 4, none⟩,
  ⟨.d, .e, .f, .g, .h, .a, .b, .c, 0x59f111f1#32, 5, none⟩,
  ⟨.c, .d, .e, .f, .g, .h, .a, .b, 0x923f82a4#32, 6, none⟩,
  ⟨.b, .c, .d, .e, .f, .g, .h, .a, 0xab1c5ed5#32, 7, none⟩,
  ⟨.a, .b, .c, .d, .e, .f, .g, .h, 0xd807aa98#32, 8, none⟩,
  ⟨.h, .a, .b, .c, .d, .e, .f, .g, 0x12835b01#32, 9, none⟩,
  ⟨.g, .h, .a, .b, .c, .d, .e, .f, 0x243185be#32, 10, none⟩,
  ⟨.f, .g, .h, .a, .b, .c, .d, .e, 0x550c7dc3#32, 11, none⟩,
  ⟨.e, .f, .g, .h, .a, .b, .c, .d, 0x72be5d74#32, 12, none⟩,
  ⟨.d, .e, .f, .g, .h, .a, .b, .c, 0x80deb1fe#32, 13, none⟩,
  ⟨.c, .d, .e, .f, .g, .h, .a, .b, 0x9bdc06a7#32, 14, none⟩,
  ⟨.b, .c, .d, .e, .f, .g, .h, .a, 0xc19bf174#32, 15, none⟩,
  ⟨.a, .b, .c, .d, .e, .f, .g, .h, 0xe49b69c1#32, 0, some (14, 9, 1)⟩,
  ⟨.h, .a, .b, .c, .d, .e, .f, .g, 0xefbe4786#32, 1, some (15, 10, 2)⟩,
  ⟨.g, .h, .a, .b, .c, .d, .e, .f, 0x0fc19dc6#32, 2, some (0, 11, 3)⟩,
  ⟨.f, .g, .h, .a, .b, .c, .d, .e, 0x240ca1cc#32, 3, some (1, 12, 4)⟩,
  ⟨.e, .f, .g, .h, .a, .b, .c, .d, 0x2de92c6f#32, 4, some (2, 13, 5)⟩,
  ⟨.d, .e, .f, .g, .h, .a, .b, .c, 0x4a7484aa#32, 5, some (3, 14, 6)⟩,
  ⟨.c, .d, .e, .f, .g, .h, .a, .b, 0x5cb0a9dc#32, 6, some (4, 15, 7)⟩,
  ⟨.b, .c, .d, .e, .f, .g, .h, .a, 0x76f988da#32, 7, some (5, 0, 8)⟩,
  ⟨.a, .b, .c, .d, .e, .f, .g, .h, 0x983e5152#32, 8, some (6, 1, 9)⟩,
  ⟨.h, .a, .b, .c, .d, .e, .f, .g, 0xa831c66d#32, 9, some (7, 2, 10)⟩,
  ⟨.g, .h, .a, .b, .c, .d, .e, .f, 0xb00327c8#32, 10, some (8, 3, 11)⟩,
  ⟨.f, .g, .h, .a, .b, .c, .d, .e, 0xbf597fc7#32, 11, some (9, 4, 12)⟩,
  ⟨.e, .f, .g, .h, .a, .b, .c, .d, 0xc6e00bf3#32, 12, some (10, 5, 13)⟩,
  ⟨.d, .e, .f, .g, .h, .a, .b, .c, 0xd5a79147#32, 13, some (11, 6, 14)⟩,
  ⟨.c, .d, .e, .f, .g, .h, .a, .b, 0x06ca6351#32, 14, some (12, 7, 15)⟩,
  ⟨.b, .c, .d, .e, .f, .g, .h, .a, 0x14292967#32, 15, some (13, 8, 0)⟩,
  ⟨.a, .b, .c, .d, .e, .f, .g, .h, 0x27b70a85#32, 0, some (14, 9, 1)⟩,
  ⟨.h, .a, .b, .c, .d, .e, .f, .g, 0x2e1b2138#32, 1, some (15, 10, 2)⟩,
  ⟨.g, .h, .a, .b, .c, .d, .e, .f, 0x4d2c6dfc#32, 2, some (0, 11, 3)⟩,
  ⟨.f, .g, .h, .a, .b, .c, .d, .e, 0x53380d13#32, 3, some (1, 12, 4)⟩,
  ⟨.e, .f, .g, .h, .a, .b, .c, .d, 0x650a7354#32, 4, some (2, 13, 5)⟩,
  ⟨.d, .e, .f, .g, .h, .a, .b, .c, 0x766a0abb#32, 5, some (3, 14, 6)⟩,
  ⟨.c, .d, .e, .f, .g, .h, .a, .b, 0x81c2c92e#32, 6, some (4, 15, 7)⟩,
  ⟨.b, .c, .d, .e, .f, .g, .h, .a, 0x92722c85#32, 7, some (5, 0, 8)⟩,
  ⟨.a, .b, .c, .d, .e, .f, .g, .h, 0xa2bfe8a1#32, 8, some (6, 1, 9)⟩,
  ⟨.h, .a, .b, .c, .d, .e, .f, .g, 0xa81a664b#32, 9, some (7, 2, 10)⟩,
  ⟨.g, .h, .a, .b, .c, .d, .e, .f, 0xc24b8b70#32, 10, some (8, 3, 11)⟩,
  ⟨.f, .g, .h, .a, .b, .c, .d, .e, 0xc76c51a3#32, 11, some (9, 4, 12)⟩,
  ⟨.e, .f, .g, .h, .a, .b, .c, .d, 0xd192e819#32, 12, some (10, 5, 13)⟩,
  ⟨.d, .e, .f, .g, .h, .a, .b, .c, 0xd6990624#32, 13, some (11, 6, 14)⟩,
  ⟨.c, .d, .e, .f, .g, .h, .a, .b, 0xf40e3585#32, 14, some (12, 7, 15)⟩,
  ⟨.b, .c, .d, .e, .f, .g, .h, .a, 0x106aa070#32, 15, some (13, 8, 0)⟩,
  ⟨.a, .b, .c, .d, .e, .f, .g, .h, 0x19a4c116#32, 0, some (14, 9, 1)⟩,
  ⟨.h, .a, .b, .c, .d, .e, .f, .g, 0x1e376c08#32, 1, some (15, 10, 2)⟩,
  ⟨.g, .h, .a, .b, .c, .d, .e, .f, 0x2748774c#32, 2, some (0, 11, 3)⟩,
  ⟨.f, .g, .h, .a, .b, .c, .d, .e, 0x34b0bcb5#32, 3, some (1, 12, 4)⟩,
  ⟨.e, .f, .g, .h, .a, .b, .c, .d, 0x391c0cb3#32, 4, some (2, 13, 5)⟩,
  ⟨.d, .e, .f, .g, .h, .a, .b, .c, 0x4ed8aa4a#32, 5, some (3, 14, 6)⟩,
  ⟨.c, .d, .e, .f, .g, .h, .a, .b, 0x5b9cca4f#32, 6, some (4, 15, 7)⟩,
  ⟨.b, .c, .d, .e, .f, .g, .h, .a, 0x682e6ff3#32, 7, some (5, 0, 8)⟩,
  ⟨.a, .b, .c, .d, .e, .f, .g, .h, 0x748f82ee#32, 8, some (6, 1, 9)⟩,
  ⟨.h, .a, .b, .c, .d, .e, .f, .g, 0x78a5636f#32, 9, some (7, 2, 10)⟩,
  ⟨.g, .h, .a, .b, .c, .d, .e, .f, 0x84c87814#32, 10, some (8, 3, 11)⟩,
  ⟨.f, .g, .h, .a, .b, .c, .d, .e, 0x8cc70208#32, 11, some (9, 4, 12)⟩,
  ⟨.e, .f, .g, .h, .a, .b, .c, .d, 0x90befffa#32, 12, some (10, 5, 13)⟩,
  ⟨.d, .e, .f, .g, .h, .a, .b, .c, 0xa4506ceb#32, 13, some (11, 6, 14)⟩,
  ⟨.c, .d, .e, .f, .g, .h, .a, .b, 0xbef9a3f7#32, 14, some (12, 7, 15)⟩,
  ⟨.b, .c, .d, .e, .f, .g, .h, .a, 0xc67178f2#32, 15, some (13, 8, 0)⟩]

/-- One iteration's state update, `sha256.rs` 328-412. -/
def constBlock (c : Cfg) (w : List (BitVec 32)) (state : Arr8 (BitVec 32)) :
    Res (Arr8 (BitVec 32)) := do
  let w ← arr16 w
  let s := constLines.foldl (line c) { regs := state, win := w }
  pure (addState state s.regs)

/-- The `while chunk < num_chunks` loop, `sha256.rs` 294-413.  The first argument bounds the number
of iterations.  `chunk + 1`, `chunk + 2` and `chunk * 64 + 64` cannot exceed `len + 72`, whose
computation (291) is checked; they are plain additions here. -/
def constLoop (c : Cfg) (bytes : List Byte) (fin : Bool) (numChunks : Nat) :
    Nat → Nat → Arr8 (BitVec 32) → Res (Arr8 (BitVec 32))
  | 0, chunk, state => if chunk < numChunks then .error .fuel else .ok state
  | fuel + 1, chunk, state =>
      if chunk < numChunks then
        if !fin ∧ chunk + 1 = numChunks then .ok state
        else do
          let w ←
            if chunk * 64 + 64 ≤ bytes.length then copyW c bytes (chunk * 64)
            else lastWindow c bytes numChunks chunk
          let state ← constBlock c w state
          constLoop c bytes fin numChunks fuel (chunk + 1) state
      else .ok state

/-- The four output bytes of a state word, `sha256.rs` 418-421. -/
def outBytes (s : BitVec 32) : List Byte :=
  [(s >>> 24).setWidth 8, (s >>> 16).setWidth 8, (s >>> 8).setWidth 8, (s >>> 0).setWidth 8]

/-- Initial state of `const_hash`, `sha256.rs` 280-289. -/
def constIv : Arr8 (BitVec 32) :=
  ⟨0x6a09e667, 0xbb67ae85, 0x3c6ef372, 0xa54ff53a, 0x510e527f, 0x9b05688c, 0x1f83d9ab, 0x5be0cd19⟩

/-- `Midstate::const_hash`, `sha256.rs` 279-425.  The output loop (414-423) fills the 32 bytes in
order, four per state word; it is modelled as concatenation. -/
def midstateConstHash (c : Cfg) (bytes : List Byte) (fin : Bool) : Res (List Byte) := do
  let n ← addUsize c bytes.length 9
  let n ← addUsize c n 63
  let numChunks := n / 64
  let state ← constLoop c bytes fin numChunks numChunks 0 constIv
  pure (state.toList.flatMap outBytes)

/-- `Hash::const_hash`, `sha256.rs` 120. -/
def constHash (c : Cfg) (bytes : List Byte) : Res (List Byte) := midstateConstHash c bytes true

/-- `Midstate::hash_tag`, `sha256.rs` 169-178: the counter loop fills `buf[0]` .. `buf[63]`. -/
def hashTag (c : Cfg) (tag : List Byte) : Res (List Byte) := do
  let hash ← constHash c tag
  let buf ← (List.range 64).mapM fun i => index hash (i % hash.length)
  midstateConstHash c buf false

end Chf.Sha256
