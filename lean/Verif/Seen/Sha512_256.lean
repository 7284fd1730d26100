/- Generated from the translation of /repo/src by tools/rust2lean.py; do not edit. -/
import Verif.Seen.Prelude
import Verif.Source.Sha512_256
import Verif.Seen.Sha512

namespace Chf.Seen.Sha512_256
open Chf
set_option linter.unusedVariables false

/-- `Engine::input`, sha512_256.rs 44. -/
def Engine.input (cfg : Cfg) (self : Source.Sha512_256.Engine) (data : List Byte) : Tr Source.Sha512_256.Engine := do
  let x_1 ← Seen.Sha512.Engine.input cfg self.f0 data
  let self := { self with f0 := x_1 }
  pure self

/-- `Engine::finalize`, sha512_256.rs 47-52. -/
def Engine.finalize (cfg : Cfg) (self : Source.Sha512_256.Engine) : Tr (List Byte) := do
  let sha512 ← Seen.Sha512.Engine.finalize cfg self.f0
  let hash : List Byte := List.replicate 32 0#8
  let x_2 ← Tr.sliceTo sha512 32
  let hash ← Tr.copyFromSlice hash x_2
  pure hash

/-- `Hash::hash`, internal_macros.rs 158-162. -/
def Hash.hash (cfg : Cfg) (bytes : List Byte) : Tr Source.Sha512_256.Hash := do
  let engine := Source.Sha512_256.Hash.engine cfg
  let engine ← Seen.Sha512_256.Engine.input cfg engine bytes
  let x_2 ← Seen.Sha512_256.Engine.finalize cfg engine
  pure ({ f0 := x_2 } : Source.Sha512_256.Hash)

/-- `Engine::midstate`, sha512_256.rs 55. -/
def Engine.midstate (cfg : Cfg) (self : Source.Sha512_256.Engine) : Tr (List Byte) := do
  let x_1 ← Seen.Sha512.Engine.midstate cfg self.f0
  pure x_1

/-- `Engine::from_midstate`, sha512_256.rs 58-60. -/
def Engine.from_midstate (cfg : Cfg) (midstate : List Byte) (length : Nat) : Tr Source.Sha512_256.Engine := do
  let x_1 ← Seen.Sha512.Engine.from_midstate cfg midstate length
  pure ({ f0 := x_1 } : Source.Sha512_256.Engine)

/-- `impl HashEngine for Engine`, sha512_256.rs 35. -/
def engine (cfg : Cfg) : Tr.HashEngine (Source.Sha512_256.engine cfg) where
  default := pure (Source.Sha512_256.Engine.default cfg)
  new := pure (Source.Sha512_256.Engine.default cfg)
  input self data := Seen.Sha512_256.Engine.input cfg self data
  finalize self := Seen.Sha512_256.Engine.finalize cfg self
  midstate self := Seen.Sha512_256.Engine.midstate cfg self
  fromMidstate midstate length := Seen.Sha512_256.Engine.from_midstate cfg midstate length

end Chf.Seen.Sha512_256
