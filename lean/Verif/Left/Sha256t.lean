/- Generated from the translation of /repo/src by tools/rust2lean.py; do not edit. -/
import Verif.Left.Prelude
import Verif.Source.Sha256t
import Verif.Left.Sha256

namespace Chf.Source.Sha256t
open Chf
set_option linter.unusedVariables false

/-- `Engine::input`, sha256t.rs 27. -/
def Engine.input_left (cfg : Cfg) (T : Tag) (self : Engine) (data : List Byte) : Left Engine Engine := do
  let x_1 ← Left.field (fun x => { self with f0 := x }) (Sha256.Engine.input_left cfg self.f0 data)
  let self := { self with f0 := x_1 }
  pure self

end Chf.Source.Sha256t
