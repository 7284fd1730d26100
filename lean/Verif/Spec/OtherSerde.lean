import Verif.Source.SerdeMacros

/-!
# Specification: hash types written by others, for serde
-/

namespace Chf.Spec
open Chf Source.SerdeMacros

/-- A caller's type: a number of bytes kept in order and printed in hexadecimal, forwards or backwards. It
parses its digits the way it prints them if `parsesBack`, and otherwise forwards. -/
def otherType (n : Nat) (backwards parsesBack : Bool) : SerdeHash where
  State := List Byte
  from_slice_delegated sl := .ok (if sl.length = n then .ok sl else .error ⟨n, sl.length⟩)
  from_str s := (Hex.fromHex n s).map fun r => r.map fun bs =>
    if backwards && parsesBack then bs.1.reverse else bs.1
  fmt bs f := Hex.fmtHexExact f n (if backwards then bs.reverse else bs) .lower
  index bs _ := .ok bs

end Chf.Spec
