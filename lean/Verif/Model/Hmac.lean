import Verif.Model.Engine

/-!
# `hmac.rs`: the engine

`/repo/src/hmac.rs` 185-282.
-/

namespace Chf.Hmac

/-- `Engine<E>`, `hmac.rs` 194-198. -/
structure Engine (E : HashEngine) where
  iengine : E.State
  oengine : E.State

/-- `Midstate<E>`, `hmac.rs` 277-282. -/
structure Midstate (E : HashEngine) where
  inner : E.Midstate
  outer : E.Midstate

/-- `for (b_i, b_h) in pad.iter_mut().zip(key) { *b_i ^= *b_h; }`, `hmac.rs` 221-226, 228-233. -/
def xorZip : List Byte → List Byte → List Byte
  | p :: ps, k :: ks => (p ^^^ k) :: xorZip ps ks
  | ps, _ => ps

/-- `Engine::new(key)`, `hmac.rs` 212-239. -/
def new (c : Cfg) (E : HashEngine) (key : List Byte) : Res (Engine E) := do
  debugAssert c (E.blockSize ≤ 128)
  let ipad : List Byte := List.replicate 128 0x36
  let opad : List Byte := List.replicate 128 0x5c
  let iengine ← E.default
  let oengine ← E.default
  let (ipad, opad) ←
    if key.length > E.blockSize then do
      let hash ← E.hash key
      pure (xorZip ipad hash, xorZip opad hash)
    else pure (xorZip ipad key, xorZip opad key)
  let ip ← sliceTo ipad E.blockSize
  let iengine ← E.input iengine ip
  let op ← sliceTo opad E.blockSize
  let oengine ← E.input oengine op
  pure { iengine := iengine, oengine := oengine }

/-- `finalize`, `hmac.rs` 254-258. -/
def finalize (E : HashEngine) (e : Engine E) : Res (List Byte) := do
  let ihash ← E.finalize e.iengine
  let o ← E.input e.oengine ihash
  E.finalize o

/-- `impl HashEngine for hmac::Engine<E>`, `hmac.rs` 200-202 and 242-272. -/
def engine (c : Cfg) (E : HashEngine) : HashEngine where
  State := Engine E
  Midstate := Midstate E
  blockSize := E.blockSize
  default := new c E []
  new := new c E []
  input e data := do
    let i ← E.input e.iengine data
    pure { e with iengine := i }
  nBytesHashed e := E.nBytesHashed e.iengine
  finalize := finalize E
  midstate e := do
    let i ← E.midstate e.iengine
    let o ← E.midstate e.oengine
    pure { inner := i, outer := o }
  fromMidstate m length := do
    let i ← E.fromMidstate m.inner length
    let o ← E.fromMidstate m.outer length
    pure { iengine := i, oengine := o }

end Chf.Hmac
