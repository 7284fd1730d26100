import Verif.Check.Text
import Verif.Spec.Shattered
import Verif.Spec.TextMulti

/-!
# Instances of C107
-/

namespace Chf.Check
open Chf Spec

def decideInTurn (c : Cfg) (a : Alg) : (pre : List Byte) → (ps : List (List Byte × List Byte)) →
    Decidable (CollideInTurn c a pre ps)
  | _, [] => .isTrue trivial
  | pre, (x, y) :: ps =>
    have := decideInTurn c a (pre ++ x) ps
    inferInstanceAs (Decidable (x.length = y.length ∧ a.blockSize ∣ x.length ∧
      Spec.midAfter c a (pre ++ x) = Spec.midAfter c a (pre ++ y) ∧ CollideInTurn c a (pre ++ x) ps))

instance (c : Cfg) (a : Alg) (pre : List Byte) (ps : List (List Byte × List Byte)) :
    Decidable (CollideInTurn c a pre ps) := decideInTurn c a pre ps

def blocks107 : List Alg := [.sha1, .sha256, .sha384, .sha512, .sha512_256, .ripemd160]

/-- Parts that are not expected to collide, and parts that do. -/
def places107 : List (List (List Byte × List Byte)) :=
  [[], [(msg 128, (msg 128).reverse)], [(msg 128, msg 128), (msg 256, 7 :: msg 255)],
    [(msg 128, msg 127 ++ [9]), (msg 128, msg 128)], [(shattered1, shattered2)],
    [(shattered1, shattered2), (msg 64, msg 64)], [(msg 128, msg 128), (msg 128, msg 128)]]

def after107 : List (List (List Byte)) := [[], [msg 70], [msg 3, msg 130]]

def check_C107_multi (_ : Unit) : Bool :=
  forall2 [Cfg.debug64, .release64] blocks107 fun c a => forall2 places107 after107 fun ps ds =>
    !decide (CollideInTurn c a [] ps) ||
    (choices ps).all fun m => (choices ps).all fun m' => decide (Spec.midAfter c a m = Spec.midAfter c a m' ∧
      (Source.engineOf c a).hashByteChunks (m :: ds) = (Source.engineOf c a).hashByteChunks (m' :: ds))

def check_C107_sha1 (_ : Unit) : Bool :=
  forall2 [Cfg.debug64, .release64] after107 fun c ds =>
    (choices [(shattered1, shattered2), (msg 64, msg 64)]).all fun m =>
    (choices [(shattered1, shattered2), (msg 64, msg 64)]).all fun m' =>
      decide ((Source.engineOf c .sha1).hashByteChunks (m :: ds) = (Source.engineOf c .sha1).hashByteChunks (m' :: ds))

def textMultiChecks : List (String × (Unit → Bool)) := [
  ("C107_multi", check_C107_multi), ("C107_sha1", check_C107_sha1)]

end Chf.Check
