import Verif.Model.ObserveBlocks
import Verif.Model.Programs

/-!
# What an observer sees of the engines and of programs

The rest of the functions of `Alg.engine`, observed, and programs over them.
-/

namespace Chf
open Obs

/-- The methods of an engine, observed.  `n_bytes_hashed` reads a field and shows nothing. -/
structure Observed (E : HashEngine) where
  default : Obs E.State
  new : Obs E.State
  input : E.State → List Byte → Obs E.State
  finalize : E.State → Obs (List Byte)
  midstate : E.State → Obs E.Midstate
  fromMidstate : E.Midstate → Nat → Obs E.State

/-- Provided method `hash`, `lib.rs` 171-175. -/
def Observed.hash {E : HashEngine} (O : Observed E) (bytes : List Byte) : Obs (List Byte) := do
  let engine ← O.new
  let engine ← O.input engine bytes
  O.finalize engine

namespace Sha256

/-- `midstate`, `sha256.rs` 88-94. -/
def midstateO (e : Engine) : Obs (List Byte) := storeZipO 4 be32 0 e.h.toList (List.replicate 32 0)

/-- `finalize`, `sha256.rs` 56-73. -/
def finalizeO (c : Cfg) (e : Engine) : Obs (List Byte) := do
  let e ← BlockEngine.finalizeBlocksO c (opsO c) (blockSize - 8) [] be64 e
  midstateO e

/-- `from_midstate`, `sha256.rs` 104-113. -/
def fromMidstateO (midstate : List Byte) (length : Nat) : Obs Engine := do
  check (assertR (length % blockSize == 0))
  let ret ← fillZipO .ret .arg 4 fromBe32 0 (List.replicate 8 0) (chunksExact 4 midstate)
  let ret ← unseen (Arr8.ofList ret)
  pure ({ buffer := List.replicate 64 0, h := ret, length := length } : Engine)

/-- `impl HashEngine for sha256::Engine`, `sha256.rs` 44-114. -/
def observed (c : Cfg) : Observed (engine c) where
  default := (pure Engine.default : Obs Engine)
  new := (pure Engine.default : Obs Engine)
  input := BlockEngine.inputO c (opsO c)
  finalize := finalizeO c
  midstate := midstateO
  fromMidstate := fromMidstateO

end Sha256

/-- `impl HashEngine for sha256t::Engine<T>`, `sha256t.rs` 14-43, with the tag of `Alg.sha256t`. -/
def Sha256t.observed (c : Cfg) (mid : List Byte) (len : Nat) (data : List Byte) :
    Observed (Sha256t.engine c (.ofMidstate c mid len data)) where
  default := tag
  new := tag
  input := BlockEngine.inputO c (Sha256.opsO c)
  finalize := Sha256.finalizeO c
  midstate := Sha256.midstateO
  fromMidstate := Sha256.fromMidstateO
where
  tag : Obs Sha256.Engine := do
    let e ← Sha256.fromMidstateO mid len
    BlockEngine.inputO c (Sha256.opsO c) e data

namespace Sha512

/-- `midstate`, `sha512.rs` 107-113. -/
def midstateO (e : Engine) : Obs (List Byte) := storeZipO 8 be64 0 e.h.toList (List.replicate 64 0)

/-- `finalize`, `sha512.rs` 78-96. -/
def finalizeO (c : Cfg) (e : Engine) : Obs (List Byte) := do
  let e ← BlockEngine.finalizeBlocksO c (opsO c) (blockSize - 16) [List.replicate 8 0] be64 e
  midstateO e

/-- `from_midstate`, `sha512.rs` 123-132. -/
def fromMidstateO (midstate : List Byte) (length : Nat) : Obs Engine := do
  check (assertR (length % blockSize == 0))
  let ret ← fillZipO .ret .arg 4 fromBe64 0 (List.replicate 8 0) (chunksExact 4 midstate)
  let ret ← unseen (Arr8.ofList ret)
  pure ({ buffer := List.replicate 128 0, h := ret, length := length } : Engine)

/-- `ret.copy_from_slice(&self.0.finalize()[..n])`, `sha384.rs` 37-41, `sha512_256.rs` 47-52. -/
def finalizePrefixO (c : Cfg) (n : Nat) (e : Engine) : Obs (List Byte) := do
  let d ← finalizeO c e
  let d ← check (sliceTo d n)
  see [.write .ret 0 n]
  check (copyIntoRange (List.replicate n 0) 0 n d)

/-- `impl HashEngine for sha512::Engine`, `sha512.rs` 66-133. -/
def observed (c : Cfg) : Observed (engine c) where
  default := (pure Engine.default : Obs Engine)
  new := (pure Engine.default : Obs Engine)
  input := BlockEngine.inputO c (opsO c)
  finalize := finalizeO c
  midstate := midstateO
  fromMidstate := fromMidstateO

end Sha512

/-- `impl HashEngine for sha384::Engine`, `sha384.rs` 19-50. -/
def Sha384.observed (c : Cfg) : Observed (Sha384.engine c) where
  default := (pure Sha512.Engine.sha384 : Obs Sha512.Engine)
  new := (pure Sha512.Engine.sha384 : Obs Sha512.Engine)
  input := BlockEngine.inputO c (Sha512.opsO c)
  finalize := Sha512.finalizePrefixO c 48
  midstate := Sha512.midstateO
  fromMidstate := Sha512.fromMidstateO

/-- `impl HashEngine for sha512_256::Engine`, `sha512_256.rs` 29-61. -/
def Sha512_256.observed (c : Cfg) : Observed (Sha512_256.engine c) where
  default := (pure Sha512.Engine.sha512_256 : Obs Sha512.Engine)
  new := (pure Sha512.Engine.sha512_256 : Obs Sha512.Engine)
  input := BlockEngine.inputO c (Sha512.opsO c)
  finalize := Sha512.finalizePrefixO c 32
  midstate := Sha512.midstateO
  fromMidstate := Sha512.fromMidstateO

namespace Sha1

/-- `midstate`, `sha1.rs` 66-72. -/
def midstateO (e : Engine) : Obs (List Byte) := storeZipO 4 be32 0 e.h.toList (List.replicate 20 0)

/-- `finalize`, `sha1.rs` 45-62. -/
def finalizeO (c : Cfg) (e : Engine) : Obs (List Byte) := do
  let e ← BlockEngine.finalizeBlocksO c (opsO c) (blockSize - 8) [] be64 e
  midstateO e

/-- `from_midstate`, `sha1.rs` 82-91. -/
def fromMidstateO (midstate : List Byte) (length : Nat) : Obs Engine := do
  check (assertR (length % blockSize == 0))
  let ret ← fillZipO .ret .arg 4 fromBe32 0 (List.replicate 5 0) (chunksExact 4 midstate)
  let ret ← unseen (Arr5.ofList ret)
  pure ({ buffer := List.replicate 64 0, h := ret, length := length } : Engine)

/-- `impl HashEngine for sha1::Engine`, `sha1.rs` 34-92. -/
def observed (c : Cfg) : Observed (engine c) where
  default := (pure Engine.default : Obs Engine)
  new := (pure Engine.default : Obs Engine)
  input := BlockEngine.inputO c (opsO c)
  finalize := finalizeO c
  midstate := midstateO
  fromMidstate := fromMidstateO

end Sha1

namespace Ripemd160

/-- `midstate`, `ripemd160.rs` 74-80. -/
def midstateO (e : Engine) : Obs (List Byte) := storeZipO 4 le32 0 e.h.toList (List.replicate 20 0)

/-- `finalize`, `ripemd160.rs` 46-63. -/
def finalizeO (c : Cfg) (e : Engine) : Obs (List Byte) := do
  let e ← BlockEngine.finalizeBlocksO c (opsO c) (blockSize - 8) [] le64 e
  midstateO e

/-- `from_midstate`, `ripemd160.rs` 90-99. -/
def fromMidstateO (midstate : List Byte) (length : Nat) : Obs Engine := do
  check (assertR (length % blockSize == 0))
  let ret ← fillZipO .ret .arg 4 fromBe32 0 (List.replicate 5 0) (chunksExact 4 midstate)
  let ret ← unseen (Arr5.ofList ret)
  pure ({ buffer := List.replicate 64 0, h := ret, length := length } : Engine)

/-- `impl HashEngine for ripemd160::Engine`, `ripemd160.rs` 34-100. -/
def observed (c : Cfg) : Observed (engine c) where
  default := (pure Engine.default : Obs Engine)
  new := (pure Engine.default : Obs Engine)
  input := BlockEngine.inputO c (opsO c)
  finalize := finalizeO c
  midstate := midstateO
  fromMidstate := fromMidstateO

end Ripemd160

namespace Siphash24

/-- `load_int_le!`, `siphash24.rs` 41-52. -/
def loadIntLeO (c : Cfg) (buf : List Byte) (i size : Nat) : Obs Nat := do
  let j ← if c.debugAssertions then check (addUsize c i size) else pure (i + size)
  check (debugAssert c (j ≤ buf.length))
  see [.read .data i size]
  unseen (if i + size ≤ buf.length then
      let raw := (buf.drop i).take size
      let data := if c.bigEndian then natOfLe raw.reverse else natOfLe raw
      let swapped := if c.bigEndian then natOfLe (leOfNat size data).reverse else data
      .ok swapped
    else .error .ub)

/-- `*buf.get_unchecked(i)`. -/
def getUncheckedO (buf : List Byte) (i : Nat) : Obs Byte := do
  see [.read .data i 1]
  unseen (getUnchecked buf i)

/-- `u8to64_le`, `siphash24.rs` 250-268. -/
def u8to64LeO (c : Cfg) (buf : List Byte) (start len : Nat) : Obs (BitVec 64) := do
  check (debugAssert c (len < 8))
  let i := 0
  let out : BitVec 64 := 0
  let (out, i) ←
    choose (i + 3 < len)
      (do
        let x ← loadIntLeO c buf (start + i) 4
        pure (BitVec.ofNat 64 x, i + 4))
      (pure (out, i))
  let (out, i) ←
    choose (i + 1 < len)
      (do
        let x ← loadIntLeO c buf (start + i) 2
        let x ← check (shlU64 c (BitVec.ofNat 64 x) (i * 8))
        pure (out ||| x, i + 2))
      (pure (out, i))
  let (out, i) ←
    choose (i < len)
      (do
        let b ← getUncheckedO buf (start + i)
        let x ← check (shlU64 c (b.setWidth 64) (i * 8))
        pure (out ||| x, i + 1))
      (pure (out, i))
  check (debugAssert c (i == len))
  pure out

/-- The loop of `input`, `siphash24.rs` 159-167. -/
def wordLoopO (c : Cfg) (data : List Byte) (lim : Nat) : Nat → State → Nat → Obs (State × Nat)
  | 0, _, _ => unseen (.error .fuel)
  | fuel + 1, s, i =>
      choose (i < lim)
        (do
          let mi ← loadIntLeO c data i 8
          let s := absorb s (BitVec.ofNat 64 mi)
          let i ← check (addUsize c i 8)
          wordLoopO c data lim fuel s i)
        (pure (s, i))

/-- `siphash24.rs` 155-171. -/
def restO (c : Cfg) (e : Engine) (data : List Byte) (needed : Nat) : Obs Engine := do
  let len ← check (subUsize c data.length needed)
  let left := len % 8
  let lim ← check (subUsize c len left)
  let (s, i) ← wordLoopO c data lim (len / 8 + 1) e.state needed
  let tail ← u8to64LeO c data i left
  pure { e with state := s, tail := tail, ntail := left }

/-- `input`, `siphash24.rs` 133-171. -/
def inputO (c : Cfg) (e : Engine) (data : List Byte) : Obs Engine := do
  let length := data.length
  let l ← check (addUsize c e.length length)
  let e := { e with length := l }
  choose (e.ntail ≠ 0)
    (do
      let needed ← check (subUsize c 8 e.ntail)
      let _ ← test (length ≤ needed)
      let x ← u8to64LeO c data 0 (min length needed)
      let sh ← check (mulUsize c 8 e.ntail)
      let x ← check (shlU64 c x sh)
      let e := { e with tail := e.tail ||| x }
      choose (length < needed)
        (do
          let nt ← check (addUsize c e.ntail length)
          pure { e with ntail := nt })
        (do
          let e := { e with state := absorb e.state e.tail, ntail := 0 }
          restO c e data needed))
    (restO c e data 0)

/-- `impl HashEngine for siphash24::Engine`, `siphash24.rs` 123-205.  Only `input` accesses memory by
index or branches; `finalize` and `from_midstate` are straight-line code on fields. -/
def observed (c : Cfg) : Observed (engine c) where
  default := (pure new : Obs Engine)
  new := (pure new : Obs Engine)
  input := inputO c
  finalize e := unseen (finalize e)
  midstate e := (pure e.state : Obs State)
  fromMidstate m n := unseen (fromMidstate m n)

end Siphash24

namespace Hmac

/-- `for (b_i, b_h) in pad.iter_mut().zip(key) { *b_i ^= *b_h; }`, from iteration `i` on. -/
def xorZipO (o : Obj) : Nat → List Byte → List Byte → Obs (List Byte)
  | i, p :: ps, k :: ks => do
      see [.branch true, .read .key i 1, .read o i 1, .write o i 1]
      let rest ← xorZipO o (i + 1) ps ks
      pure ((p ^^^ k) :: rest)
  | _, ps, _ => do
      see [.branch false]
      pure ps

/-- `Engine::new(key)`, `hmac.rs` 212-239. -/
def newO (c : Cfg) {E : HashEngine} (O : Observed E) (key : List Byte) : Obs (Engine E) := do
  check (debugAssert c (E.blockSize ≤ 128))
  let ipad : List Byte := List.replicate 128 0x36
  let opad : List Byte := List.replicate 128 0x5c
  let iengine ← mark .inner O.default
  let oengine ← mark .outer O.default
  let (ipad, opad) ←
    choose (key.length > E.blockSize)
      (do
        let hash ← mark .keyHash (O.hash key)
        let ipad ← xorZipO .ipad 0 ipad hash
        let opad ← xorZipO .opad 0 opad hash
        pure (ipad, opad))
      (do
        let ipad ← xorZipO .ipad 0 ipad key
        let opad ← xorZipO .opad 0 opad key
        pure (ipad, opad))
  let ip ← check (sliceTo ipad E.blockSize)
  let iengine ← mark .inner (O.input iengine ip)
  let op ← check (sliceTo opad E.blockSize)
  let oengine ← mark .outer (O.input oengine op)
  pure { iengine := iengine, oengine := oengine }

/-- `finalize`, `hmac.rs` 254-258. -/
def finalizeO {E : HashEngine} (O : Observed E) (e : Engine E) : Obs (List Byte) := do
  let ihash ← mark .inner (O.finalize e.iengine)
  let o ← mark .outer (O.input e.oengine ihash)
  mark .outer (O.finalize o)

/-- `impl HashEngine for hmac::Engine<E>`, `hmac.rs` 200-202 and 242-272. -/
def observed (c : Cfg) {E : HashEngine} (O : Observed E) : Observed (engine c E) where
  default := newO c O []
  new := newO c O []
  input := fun (e : Engine E) data => (do
    let i ← mark .inner (O.input e.iengine data)
    pure { e with iengine := i } : Obs (Engine E))
  finalize := finalizeO O
  midstate := fun (e : Engine E) => (do
    let i ← mark .inner (O.midstate e.iengine)
    let o ← mark .outer (O.midstate e.oengine)
    pure { inner := i, outer := o } : Obs (Midstate E))
  fromMidstate := fun (m : Midstate E) length => (do
    let i ← mark .inner (O.fromMidstate m.inner length)
    let o ← mark .outer (O.fromMidstate m.outer length)
    pure { iengine := i, oengine := o } : Obs (Engine E))

end Hmac

/-- Every engine, observed. -/
def Alg.observed (c : Cfg) : (a : Alg) → Observed (a.engine c)
  | sha1 => Sha1.observed c
  | sha256 => Sha256.observed c
  | sha384 => Sha384.observed c
  | sha512 => Sha512.observed c
  | sha512_256 => Sha512_256.observed c
  | ripemd160 => Ripemd160.observed c
  | siphash24 => Siphash24.observed c
  | sha256t mid len data => Sha256t.observed c mid len data
  | hmac a => Hmac.observed c (a.observed c)

/-- Make an engine; `none` if the program is ill typed. -/
def Alg.makeO (c : Cfg) : (a : Alg) → Make → Option (Obs (a.engine c).State)
  | a, .new => some (a.observed c).new
  | a, .default => some (a.observed c).default
  | siphash24, .sipKeys k0 k1 => some (pure (Siphash24.withKeys k0 k1))
  | hmac a, .hmacKey key => some (Hmac.newO c (a.observed c) key)
  | a, .resume μ n => (a.readMid c μ).map fun μ => (a.observed c).fromMidstate μ n
  | _, _ => none

/-- What an observer sees of one call of a program whose engines are `p`. -/
def Impl.callSeen (c : Cfg) (p : (Impl.crate c).Pool) : Call → List Ev
  | .make a how =>
      match a.makeO c how with
      | none => []
      | some x => x.seen
  | .input i data =>
      match (Impl.crate c).slot p i with
      | none => []
      | some ⟨a, e⟩ => ((a.observed c).input e data).seen
  | .midstate i =>
      match (Impl.crate c).slot p i with
      | none => []
      | some ⟨a, e⟩ => ((a.observed c).midstate e).seen
  | .finalize i =>
      match (Impl.crate c).slot p i with
      | none => []
      | some ⟨a, e⟩ => ((a.observed c).finalize e).seen
  | .clone _ => []
  | .count _ => []

/-- What an observer sees of the calls of a program. -/
def Impl.programSeen (c : Cfg) (p : (Impl.crate c).Pool) : List Call → List (List Ev)
  | [] => []
  | x :: xs => Impl.callSeen c p x :: Impl.programSeen c ((Impl.crate c).step p x).1 xs

end Chf
