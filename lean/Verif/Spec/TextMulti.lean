import Verif.Spec.TextCollide

/-!
# Specification: messages made of parts of which there are two to choose from
-/

namespace Chf.Spec

/-- All messages that have at each place one of the two parts given for it. -/
def choices : List (List Byte × List Byte) → List (List Byte)
  | [] => [[]]
  | (x, y) :: ps => (choices ps).map (x ++ ·) ++ (choices ps).map (y ++ ·)

/-- After `pre`, and then the first of the two parts at each place, the midstates after the two parts of the
next place are equal. The parts of a place have the same number of whole blocks. -/
def CollideInTurn (c : Cfg) (a : Alg) : List Byte → List (List Byte × List Byte) → Prop
  | _, [] => True
  | pre, (x, y) :: ps => x.length = y.length ∧ a.blockSize ∣ x.length ∧
      midAfter c a (pre ++ x) = midAfter c a (pre ++ y) ∧ CollideInTurn c a (pre ++ x) ps

end Chf.Spec
