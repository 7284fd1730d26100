/- Generated from the translation of /repo/src by tools/rust2lean.py; do not edit. -/
import Verif.Left.Prelude
import Verif.Source.Hmac

namespace Chf.Source.Hmac
open Chf
set_option linter.unusedVariables false

/-- `Engine::input`, hmac.rs 248. -/
def Engine.input_left (cfg : Cfg) {E : Chf.HashEngine} (E' : Left.Input E) (self : Engine E) (data : List Byte) : Left (Engine E) (Engine E) := do
  let x_1 ← Left.field (fun x => { self with iengine := x }) (E'.input self.iengine data)
  let self := { self with iengine := x_1 }
  pure self

end Chf.Source.Hmac
