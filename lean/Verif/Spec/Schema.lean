import Verif.Model.Serde
import Verif.Spec.Hex

/-!
# Specification: what a JSON schema of type string admits

JSON Schema Validation: `minLength` and `maxLength` bound the number of characters (6.3.1, 6.3.2), and
`pattern` is a regular expression that is not anchored (6.3.3): it is enough that a part of the string
matches.
-/

namespace Chf.Spec
open HashTy

/-- The language of a regular expression. -/
inductive Matches : Regex → List Byte → Prop where
  | cls {ranges lo hi b} (hr : (lo, hi) ∈ ranges) (h1 : lo ≤ b) (h2 : b ≤ hi) : Matches (.cls ranges) [b]
  | one {r v} (h : Matches r v) : Matches (.plus r) v
  | more {r v w} (h : Matches r v) (h' : Matches (.plus r) w) : Matches (.plus r) (v ++ w)

/-- Some part of the string matches. -/
def Found (r : Regex) (v : List Byte) : Prop := ∃ a m b, v = a ++ m ++ b ∧ Matches r m

/-- The number of characters of a UTF-8 string: its bytes that do not continue a character. -/
def chars (v : List Byte) : Nat := (v.filter fun b => !(128 ≤ b.toNat && b.toNat < 192)).length

/-- The schema admits the string. -/
structure Admits (sch : Schema) (v : List Byte) : Prop where
  min : sch.minLength ≤ chars v
  max : chars v ≤ sch.maxLength
  pattern : Found sch.pattern v

end Chf.Spec
