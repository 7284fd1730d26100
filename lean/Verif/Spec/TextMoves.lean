import Verif.Model.Text

/-!
# Specification: how inputs move midstates
-/

namespace Chf.Spec

/-- The midstate that an engine of the translated text, resumed from `v` with the length `n`, shows after
one call of `input` for each slice. -/
def midFrom (c : Cfg) (a : Alg) (v : MidVal) (n : Nat) (ds : List (List Byte)) : Option (Res MidVal) :=
  (Source.make c a (.resume v n)).map fun r => do
    let e ← r
    let e ← (Source.engineOf c a).inputs e ds
    let μ ← (Source.engineOf c a).midstate e
    pure (Source.showMid c a μ)

end Chf.Spec
