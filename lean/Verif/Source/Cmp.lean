/- Generated from /repo/src/cmp.rs by tools/rust2lean.py; do not edit. -/
import Verif.Source.Lib

namespace Chf.Source.Cmp
open Chf
set_option linter.unusedVariables false

/-- `fixed_time_eq`, cmp.rs 17-53. -/
def fixed_time_eq (cfg : Cfg) (a : List Byte) (b : List Byte) : Res Bool := do
  assertR (a.length == b.length)
  let count : Nat := a.length
  let lhs ← sliceTo a count
  let rhs ← sliceTo b count
  let r : Byte := 0#8
  let r ← (Rs.range 0 count).foldlM (init := r) fun r i => do
    let rs : Byte := r
    let x_3 ← index lhs i
    let x_4 ← index rhs i
    let rs := rs ||| (x_3 ^^^ x_4)
    let r := rs
    pure r
  let t : Byte := r
  let t := t ||| (t >>> 4)
  let r := t
  let t : Byte := r
  let t := t ||| (t >>> 2)
  let r := t
  let t : Byte := r
  let t := t ||| (t >>> 1)
  let r := t
  pure ((r &&& 1#8) == 0#8)

end Chf.Source.Cmp
