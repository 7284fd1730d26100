/- Generated from the translation of /repo/src by tools/rust2lean.py; do not edit. -/
import Verif.Seen.Prelude
import Verif.Source.Sha384
import Verif.Seen.Sha512

namespace Chf.Seen.Sha384
open Chf
set_option linter.unusedVariables false

/-- `Engine::input`, sha384.rs 34. -/
def Engine.input (cfg : Cfg) (self : Source.Sha384.Engine) (data : List Byte) : Tr Source.Sha384.Engine := do
  let x_1 ← Seen.Sha512.Engine.input cfg self.f0 data
  let self := { self with f0 := x_1 }
  pure self

/-- `Engine::finalize`, sha384.rs 37-41. -/
def Engine.finalize (cfg : Cfg) (self : Source.Sha384.Engine) : Tr (List Byte) := do
  let ret : List Byte := List.replicate 48 0#8
  let x_1 ← Seen.Sha512.Engine.finalize cfg self.f0
  let x_2 ← Tr.sliceTo x_1 48
  let ret ← Tr.copyFromSlice ret x_2
  pure ret

/-- `Hash::hash`, internal_macros.rs 158-162. -/
def Hash.hash (cfg : Cfg) (bytes : List Byte) : Tr Source.Sha384.Hash := do
  let engine := Source.Sha384.Hash.engine cfg
  let engine ← Seen.Sha384.Engine.input cfg engine bytes
  let x_2 ← Seen.Sha384.Engine.finalize cfg engine
  pure ({ f0 := x_2 } : Source.Sha384.Hash)

/-- `Engine::midstate`, sha384.rs 44. -/
def Engine.midstate (cfg : Cfg) (self : Source.Sha384.Engine) : Tr (List Byte) := do
  let x_1 ← Seen.Sha512.Engine.midstate cfg self.f0
  pure x_1

/-- `Engine::from_midstate`, sha384.rs 47-49. -/
def Engine.from_midstate (cfg : Cfg) (midstate : List Byte) (length : Nat) : Tr Source.Sha384.Engine := do
  let x_1 ← Seen.Sha512.Engine.from_midstate cfg midstate length
  pure ({ f0 := x_1 } : Source.Sha384.Engine)

/-- `impl HashEngine for Engine`, sha384.rs 25. -/
def engine (cfg : Cfg) : Tr.HashEngine (Source.Sha384.engine cfg) where
  default := pure (Source.Sha384.Engine.default cfg)
  new := pure (Source.Sha384.Engine.default cfg)
  input self data := Seen.Sha384.Engine.input cfg self data
  finalize self := Seen.Sha384.Engine.finalize cfg self
  midstate self := Seen.Sha384.Engine.midstate cfg self
  fromMidstate midstate length := Seen.Sha384.Engine.from_midstate cfg midstate length

end Chf.Seen.Sha384
