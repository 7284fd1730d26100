/- Generated from the translation of /repo/src by tools/rust2lean.py; do not edit. -/
import Verif.Left.Prelude
import Verif.Source.Sha512_256
import Verif.Left.Sha512

namespace Chf.Source.Sha512_256
open Chf
set_option linter.unusedVariables false

/-- `Engine::input`, sha512_256.rs 44. -/
def Engine.input_left (cfg : Cfg) (self : Engine) (data : List Byte) : Left Engine Engine := do
  let x_1 ← Left.field (fun x => { self with f0 := x }) (Sha512.Engine.input_left cfg self.f0 data)
  let self := { self with f0 := x_1 }
  pure self

end Chf.Source.Sha512_256
