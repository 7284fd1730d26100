/- Generated from the translation of /repo/src by tools/rust2lean.py; do not edit. -/
import Verif.Left.Prelude
import Verif.Source.Sha384
import Verif.Left.Sha512

namespace Chf.Source.Sha384
open Chf
set_option linter.unusedVariables false

/-- `Engine::input`, sha384.rs 34. -/
def Engine.input_left (cfg : Cfg) (self : Engine) (data : List Byte) : Left Engine Engine := do
  let x_1 ← Left.field (fun x => { self with f0 := x }) (Sha512.Engine.input_left cfg self.f0 data)
  let self := { self with f0 := x_1 }
  pure self

end Chf.Source.Sha384
