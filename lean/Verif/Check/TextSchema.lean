import Verif.Check.TextSerde
import Verif.Check.TextMoves

/-!
# Executable instances of C112
-/

namespace Chf.Check
open Chf Spec Rs

def sizes112 : List Nat :=
  [0, 1, 20, 32, 40000, 70000, 2 ^ 31 - 1, 2 ^ 31, 2 ^ 31 + 1, 2 ^ 32 - 1, 2 ^ 32, 2 ^ 32 + 1, 3 * 2 ^ 31 - 1, 3 * 2 ^ 31,
    2 ^ 40 + 5]

def check_C112_schema (_ : Unit) : Bool :=
  forall2 cfgs109 sizes112 fun c n =>
    match (Source.serdeText c ⟨.error .ub⟩ (.hmac n)).schema with
    | none => true
    | some (_, f) =>
      if c.overflowChecks = true ∧ 2 ^ 31 ≤ n % 2 ^ 32 then decide (f () = .error .overflow)
      else decide (f () = .ok ⟨true, some ⟨some (BitVec.ofNat 32 (2 * n)), some (BitVec.ofNat 32 (2 * n)),
        some (ascii "[0-9a-fA-F]+")⟩⟩)

def textSchemaChecks : List (String × (Unit → Bool)) := [("C112_schema", check_C112_schema)]

end Chf.Check
