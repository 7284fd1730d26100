import Verif.Model.Engine

/-!
# `siphash24.rs`

`/repo/src/siphash24.rs` 14-268.
-/

namespace Chf.Siphash24

/-- `State`, `siphash24.rs` 55-65. -/
structure State where
  v0 : BitVec 64
  v2 : BitVec 64
  v1 : BitVec 64
  v3 : BitVec 64
  deriving DecidableEq, Repr

/-- `compress!`, `siphash24.rs` 14-34, statement by statement. -/
def compress (s : State) : State :=
  let s := { s with v0 := s.v0 + s.v1 }
  let s := { s with v1 := s.v1.rotateLeft 13 }
  let s := { s with v1 := s.v1 ^^^ s.v0 }
  let s := { s with v0 := s.v0.rotateLeft 32 }
  let s := { s with v2 := s.v2 + s.v3 }
  let s := { s with v3 := s.v3.rotateLeft 16 }
  let s := { s with v3 := s.v3 ^^^ s.v2 }
  let s := { s with v0 := s.v0 + s.v3 }
  let s := { s with v3 := s.v3.rotateLeft 21 }
  let s := { s with v3 := s.v3 ^^^ s.v0 }
  let s := { s with v2 := s.v2 + s.v1 }
  let s := { s with v1 := s.v1.rotateLeft 17 }
  let s := { s with v1 := s.v1 ^^^ s.v2 }
  { s with v2 := s.v2.rotateLeft 32 }

/-- `c_rounds`, `siphash24.rs` 105-108. -/
def cRounds (s : State) : State := compress (compress s)

/-- `d_rounds`, `siphash24.rs` 111-116. -/
def dRounds (s : State) : State := compress (compress (compress (compress s)))

/-- `load_int_le!`, `siphash24.rs` 41-52, for an integer type of `size` bytes, as a number.  The
bytes are copied into a native-endian integer, then `to_le` swaps them on big-endian targets.
Reading outside the slice is undefined behaviour and is reported as `ub`. -/
def loadIntLe (c : Cfg) (buf : List Byte) (i size : Nat) : Res Nat := do
  let j ← if c.debugAssertions then addUsize c i size else pure (i + size)
  debugAssert c (j ≤ buf.length)
  if i + size ≤ buf.length then
    let raw := (buf.drop i).take size
    -- the integer whose native in-memory bytes are `raw`
    let data := if c.bigEndian then natOfLe raw.reverse else natOfLe raw
    -- `to_le`: identity on little-endian, byte swap on big-endian
    let swapped := if c.bigEndian then natOfLe (leOfNat size data).reverse else data
    pure swapped
  else .error .ub

/-- `buf.get_unchecked(i)`. -/
def getUnchecked (buf : List Byte) (i : Nat) : Res Byte :=
  match buf[i]? with
  | some b => .ok b
  | none => .error .ub

/-- `u8to64_le`, `siphash24.rs` 250-268. -/
def u8to64Le (c : Cfg) (buf : List Byte) (start len : Nat) : Res (BitVec 64) := do
  debugAssert c (len < 8)
  let i := 0
  let out : BitVec 64 := 0
  let (out, i) ←
    if i + 3 < len then do
      let x ← loadIntLe c buf (start + i) 4
      pure (BitVec.ofNat 64 x, i + 4)
    else pure (out, i)
  let (out, i) ←
    if i + 1 < len then do
      let x ← loadIntLe c buf (start + i) 2
      let x ← shlU64 c (BitVec.ofNat 64 x) (i * 8)
      pure (out ||| x, i + 2)
    else pure (out, i)
  let (out, i) ←
    if i < len then do
      let b ← getUnchecked buf (start + i)
      let x ← shlU64 c (b.setWidth 64) (i * 8)
      pure (out ||| x, i + 1)
    else pure (out, i)
  debugAssert c (i == len)
  pure out

/-- `Engine`, `siphash24.rs` 69-76. -/
structure Engine where
  k0 : BitVec 64
  k1 : BitVec 64
  length : Nat
  state : State
  tail : BitVec 64
  ntail : Nat
  deriving DecidableEq, Repr

/-- `Engine::with_keys`, `siphash24.rs` 81-95. -/
def withKeys (k0 k1 : BitVec 64) : Engine where
  k0 := k0
  k1 := k1
  length := 0
  state :=
    { v0 := k0 ^^^ 0x736f6d6570736575
      v1 := k1 ^^^ 0x646f72616e646f6d
      v2 := k0 ^^^ 0x6c7967656e657261
      v3 := k1 ^^^ 0x7465646279746573 }
  tail := 0
  ntail := 0

/-- `Engine::new`, `siphash24.rs` 99, and `Default`, 119-121. -/
def new : Engine := withKeys 0 0

/-- `Engine::keys`, `siphash24.rs` 102. -/
def keys (e : Engine) : BitVec 64 × BitVec 64 := (e.k0, e.k1)

/-- `v3 ^= m; c_rounds; v0 ^= m`, `siphash24.rs` 147-149, 162-164. -/
def absorb (s : State) (m : BitVec 64) : State :=
  let s := { s with v3 := s.v3 ^^^ m }
  let s := cRounds s
  { s with v0 := s.v0 ^^^ m }

/-- `while i < len - left { .. i += 8; }`, `siphash24.rs` 159-167, returning the state and `i`.  The
first argument bounds the number of iterations; `lim` is `len - left`. -/
def wordLoop (c : Cfg) (data : List Byte) (lim : Nat) : Nat → State → Nat → Res (State × Nat)
  | 0, _, _ => .error .fuel
  | fuel + 1, s, i =>
      if i < lim then do
        let mi ← loadIntLe c data i 8
        let s := absorb s (BitVec.ofNat 64 mi)
        let i ← addUsize c i 8
        wordLoop c data lim fuel s i
      else pure (s, i)

/-- `input`, `siphash24.rs` 133-171. -/
def input (c : Cfg) (e : Engine) (data : List Byte) : Res Engine := do
  let length := data.length
  let l ← addUsize c e.length length
  let e := { e with length := l }
  if e.ntail ≠ 0 then do
    let needed ← subUsize c 8 e.ntail
    let x ← u8to64Le c data 0 (min length needed)
    let sh ← mulUsize c 8 e.ntail
    let x ← shlU64 c x sh
    let e := { e with tail := e.tail ||| x }
    if length < needed then do
      let nt ← addUsize c e.ntail length
      pure { e with ntail := nt }
    else do
      let e := { e with state := absorb e.state e.tail, ntail := 0 }
      rest c e data needed
  else rest c e data 0
where
  /-- `siphash24.rs` 155-171. -/
  rest (c : Cfg) (e : Engine) (data : List Byte) (needed : Nat) : Res Engine := do
    let len ← subUsize c data.length needed
    let left := len % 8
    let lim ← subUsize c len left
    let (s, i) ← wordLoop c data lim (len / 8 + 1) e.state needed
    let tail ← u8to64Le c data i left
    pure { e with state := s, tail := tail, ntail := left }

/-- The shared computation of `finalize` (175-188), returning `hash`. -/
def finalizeU64 (e : Engine) : BitVec 64 :=
  let state := e.state
  let b : BitVec 64 := ((asU64 e.length &&& 0xff) <<< 56) ||| e.tail
  let state := { state with v3 := state.v3 ^^^ b }
  let state := cRounds state
  let state := { state with v0 := state.v0 ^^^ b }
  let state := { state with v2 := state.v2 ^^^ 0xff }
  let state := dRounds state
  state.v0 ^^^ state.v1 ^^^ state.v2 ^^^ state.v3

/-- `finalize`, `siphash24.rs` 175-189. -/
def finalize (e : Engine) : Res (List Byte) := .ok (le64 (finalizeU64 e))

/-- `from_midstate`, `siphash24.rs` 202-204: the length argument is ignored. -/
def fromMidstate (m : State) (_length : Nat) : Res Engine := .ok { new with state := m }

/-- `impl HashEngine for siphash24::Engine`, `siphash24.rs` 123-205. -/
def engine (c : Cfg) : HashEngine where
  State := Engine
  Midstate := State
  blockSize := 32
  default := .ok new
  new := .ok new
  input := input c
  nBytesHashed e := e.length
  finalize := finalize
  midstate e := .ok e.state
  fromMidstate := fromMidstate

/-- `Hash::hash_with_keys`, `siphash24.rs` 209-213. -/
def hashWithKeys (c : Cfg) (k0 k1 : BitVec 64) (data : List Byte) : Res (List Byte) := do
  let e ← input c (withKeys k0 k1) data
  finalize e

/-- `Hash::from_engine_to_u64`, `siphash24.rs` 224-237. -/
def fromEngineToU64 (e : Engine) : BitVec 64 :=
  let state := e.state
  let b : BitVec 64 := ((asU64 e.length &&& 0xff) <<< 56) ||| e.tail
  let state := { state with v3 := state.v3 ^^^ b }
  let state := cRounds state
  let state := { state with v0 := state.v0 ^^^ b }
  let state := { state with v2 := state.v2 ^^^ 0xff }
  let state := dRounds state
  state.v0 ^^^ state.v1 ^^^ state.v2 ^^^ state.v3

/-- `Hash::hash_to_u64_with_keys`, `siphash24.rs` 216-220. -/
def hashToU64WithKeys (c : Cfg) (k0 k1 : BitVec 64) (data : List Byte) : Res (BitVec 64) := do
  let e ← input c (withKeys k0 k1) data
  pure (fromEngineToU64 e)

/-- `Hash::as_u64`, `siphash24.rs` 240, on the bytes of a hash. -/
def asU64Hash (h : List Byte) : Res (BitVec 64) := fromLe64 h

/-- `Hash::from_u64`, `siphash24.rs` 243. -/
def fromU64 (x : BitVec 64) : List Byte := le64 x

end Chf.Siphash24
