import Verif.Check.TextSerde
import Verif.Model.TextSize

/-!
# Executable instances of C111
-/

namespace Chf.Check
open Chf Spec Rs

def check_C111_from_slice (_ : Unit) : Bool :=
  types.all fun x => (List.range 75).all fun n =>
    match (ty x.1).fromSlice (some100 n) with
    | .ok (.ok _) => decide (n = Source.serdeN x.1)
    | _ => decide (n ≠ Source.serdeN x.1)

def check_C111_serde (_ : Unit) : Bool :=
  types.all fun x => (List.range 75).all fun n =>
    match seeDe (t := x.1) (giving false (.bytes (some100 n))) with
    | .ok (.ok _) => decide (n = Source.serdeN x.1)
    | _ => decide (n ≠ Source.serdeN x.1)

def textSizeChecks : List (String × (Unit → Bool)) := [
  ("C111_from_slice", check_C111_from_slice), ("C111_serde", check_C111_serde)]

end Chf.Check
