import Verif.Spec.Schema
import Verif.Source.Prelude

/-!
# Specification: what a schema value of `schemars` admits

The pattern is a text; of the syntax of regular expressions, the part that the crate uses is read:
a class of ranges, which may be followed by `+`.
-/

namespace Chf.Spec
open HashTy

/-- The ranges of a class up to the closing bracket, and what follows it. -/
def parseRanges : List Byte → Option (List (Byte × Byte) × List Byte)
  | [] => none
  | a :: rest =>
      if a = 0x5d then some ([], rest)
      else
        match rest with
        | m :: b :: rest =>
            if m = 0x2d then (parseRanges rest).map fun p => ((a, b) :: p.1, p.2) else none
        | _ => none

/-- `[a-z..]` or `[a-z..]+` -/
def parseRegex : List Byte → Option Regex
  | [] => none
  | a :: rest =>
      if a = 0x5b then
        match parseRanges rest with
        | some (rs, []) => some (.cls rs)
        | some (rs, [x]) => if x = 0x2b then some (.plus (.cls rs)) else none
        | _ => none
      else none

/-- The schema admits the string `v`. -/
structure Conforms (o : Rs.SchemaObject) (v : List Byte) : Prop where
  type : o.is_string = true
  max : ∀ s, o.string = some s → ∀ m, s.max_length = some m → chars v ≤ m.toNat
  min : ∀ s, o.string = some s → ∀ m, s.min_length = some m → m.toNat ≤ chars v
  pattern : ∀ s, o.string = some s → ∀ p, s.pattern = some p → ∃ r, parseRegex p = some r ∧ Found r v

end Chf.Spec
