/- Generated from the translation of /repo/src by tools/rust2lean.py; do not edit. -/
import Verif.Seen.Prelude
import Verif.Source.Hmac

namespace Chf.Seen.Hmac
open Chf
set_option linter.unusedVariables false

/-- `Engine::new`, hmac.rs 212-239. -/
def Engine.new (cfg : Cfg) (E : Chf.HashEngine) (E' : Tr.HashEngine E) (key : List Byte) : Tr (Source.Hmac.Engine E) := do
  Tr.debugAssert cfg (decide (E.blockSize ≤ 128))
  let ipad : List Byte := List.replicate 128 0x36#8
  let opad : List Byte := List.replicate 128 0x5c#8
  let x_1 ← E'.default
  let x_2 ← E'.default
  let ret := ({ iengine := x_1, oengine := x_2 } : Source.Hmac.Engine E)
  let (ipad, opad) ←
    Tr.test (decide (key.length > E.blockSize)) >>= fun b_1 => if b_1 then do
      let hash ← E'.hash key
      let ipad ← Tr.zipMut ipad hash fun b_i b_h => do
        let b_i := b_i ^^^ b_h
        pure b_i
      let opad ← Tr.zipMut opad hash fun b_o b_h => do
        let b_o := b_o ^^^ b_h
        pure b_o
      pure (ipad, opad)
    else do
      let ipad ← Tr.zipMut ipad key fun b_i b_h => do
        let b_i := b_i ^^^ b_h
        pure b_i
      let opad ← Tr.zipMut opad key fun b_o b_h => do
        let b_o := b_o ^^^ b_h
        pure b_o
      pure (ipad, opad)
  let x_4 ← Tr.sliceTo ipad E.blockSize
  let x_5 ← E'.input ret.iengine x_4
  let ret := { ret with iengine := x_5 }
  let x_6 ← Tr.sliceTo opad E.blockSize
  let x_7 ← E'.input ret.oengine x_6
  let ret := { ret with oengine := x_7 }
  pure ret

/-- `Engine::default`, hmac.rs 201. -/
def Engine.default (cfg : Cfg) (E : Chf.HashEngine) (E' : Tr.HashEngine E) : Tr (Source.Hmac.Engine E) := do
  let x_1 ← Seen.Hmac.Engine.new cfg E E' []
  pure x_1

/-- `Engine::input`, hmac.rs 248. -/
def Engine.input (cfg : Cfg) (E : Chf.HashEngine) (E' : Tr.HashEngine E) (self : Source.Hmac.Engine E) (data : List Byte) : Tr (Source.Hmac.Engine E) := do
  let x_1 ← E'.input self.iengine data
  let self := { self with iengine := x_1 }
  pure self

/-- `Engine::finalize`, hmac.rs 254-258. -/
def Engine.finalize (cfg : Cfg) (E : Chf.HashEngine) (E' : Tr.HashEngine E) (self : Source.Hmac.Engine E) : Tr (List Byte) := do
  let ihash ← E'.finalize self.iengine
  let x_2 ← E'.input self.oengine ihash
  let self := { self with oengine := x_2 }
  let x_3 ← E'.finalize self.oengine
  pure x_3

/-- `Engine::midstate`, hmac.rs 261-263. -/
def Engine.midstate (cfg : Cfg) (E : Chf.HashEngine) (E' : Tr.HashEngine E) (self : Source.Hmac.Engine E) : Tr (Source.Hmac.Midstate E) := do
  let x_1 ← E'.midstate self.iengine
  let x_2 ← E'.midstate self.oengine
  pure ({ inner := x_1, outer := x_2 } : Source.Hmac.Midstate E)

/-- `Engine::from_midstate`, hmac.rs 266-271. -/
def Engine.from_midstate (cfg : Cfg) (E : Chf.HashEngine) (E' : Tr.HashEngine E) (midstate : Source.Hmac.Midstate E) (length : Nat) : Tr (Source.Hmac.Engine E) := do
  let x_1 ← E'.fromMidstate midstate.inner length
  let x_2 ← E'.fromMidstate midstate.outer length
  pure ({ iengine := x_1, oengine := x_2 } : Source.Hmac.Engine E)

/-- `impl HashEngine for Engine`, hmac.rs 242. -/
def engine (cfg : Cfg) (E : Chf.HashEngine) (E' : Tr.HashEngine E) : Tr.HashEngine (Source.Hmac.engine cfg E) where
  default := Seen.Hmac.Engine.default cfg E E'
  new := Seen.Hmac.Engine.default cfg E E'
  input self data := Seen.Hmac.Engine.input cfg E E' self data
  finalize self := Seen.Hmac.Engine.finalize cfg E E' self
  midstate self := Seen.Hmac.Engine.midstate cfg E E' self
  fromMidstate midstate length := Seen.Hmac.Engine.from_midstate cfg E E' midstate length

end Chf.Seen.Hmac
