import Verif.Check.TextPermute
import Verif.Spec.TextMoves

/-!
# Instances of C109
-/

namespace Chf.Check
open Chf Spec

def cfgs109 : List Cfg := debug16 :: release16 :: cfgs

/-- Midstates to begin with. -/
def starts109 : List (Alg × MidVal) :=
  fix94.map (fun x => (x.1, .bytes x.2)) ++
    [(.sha1, .bytes (msg 20)), (.sha256, .bytes (msg 32)), (.sha1, .bytes (msg 32)), (.sha256, .bytes [])]

/-- The same bytes cut in different ways. -/
def cuts109 : List (List (List Byte) × List (List Byte)) :=
  [([], [[]]), ([msg 128], [msg 1, (msg 128).drop 1]), ([msg 64, msg 70], [msg 64 ++ (msg 70).take 3, [], (msg 70).drop 3]),
    ([count94, count94], [count94 ++ count94])]

def counts109 : List (Nat × Nat) := [(0, 64), (640, 0), (128, 128), (448, 576), (64, 65024)]

def check_C109_anywhere (_ : Unit) : Bool :=
  forall2 cfgs109 starts109 fun c x => forall2 cuts109 counts109 fun d n =>
    decide (midFrom c x.1 x.2 n.1 d.1 = midFrom c x.1 x.2 n.2 d.2)

def parts109 : List (List (List Byte) × List (List Byte)) :=
  [([msg 64], [msg 64]), ([msg 100, msg 28], [msg 3, msg 80]), ([count94], [msg 5]), ([], [msg 70])]

def check_C109_compose (_ : Unit) : Bool :=
  forall2 cfgs109 starts109 fun c x => forall2 parts109 counts109 fun d n =>
    match midFrom c x.1 x.2 n.1 d.1 with
    | some (.ok w) => decide (midFrom c x.1 x.2 n.1 (d.1 ++ d.2) = midFrom c x.1 w n.2 d.2)
    | _ => true

/-- Copies of the block `0, 1, …, 63`, cut in different ways. -/
def copies109 : List (Nat × List (List Byte)) :=
  [(0, []), (1, [count94]), (3, [count94 ++ count94, count94]), (2, [count94.take 63, count94.drop 63 ++ count94])]

def check_C109_repeat (_ : Unit) : Bool :=
  forall2 cfgs109 fix94 fun c x => forall2 copies109 counts109 fun k n =>
    !decide (midFrom c x.1 (.bytes x.2) n.1 [count94] = some (.ok (.bytes x.2))) ||
      decide (midFrom c x.1 (.bytes x.2) n.2 k.2 = some (.ok (.bytes x.2)))

/-- What callers see of an engine after further inputs. -/
def see109 (c : Cfg) (a : Alg) (e : (Source.engineOf c a).State) (more : List (List Byte)) :=
  ((Source.engineOf c a).observe e more).map fun x => (x.1, x.2.1.map (Source.showMid c a), x.2.2)

def check_C109_resume (_ : Unit) : Bool :=
  forall2 cfgs109 starts109 fun c x => forall2 parts109 counts109 fun d n =>
    match midFrom c x.1 x.2 n.1 d.1 with
    | some (.ok w) =>
      match Source.make c x.1 (.resume x.2 n.1), Source.make c x.1 (.resume w (n.1 + d.1.flatten.length)) with
      | some (.ok e), some (.ok e') =>
        match (Source.engineOf c x.1).inputs e d.1 with
        | .ok e1 => [[], [msg 5], [msg 60, msg 70]].all fun more => decide (see109 c x.1 e1 more = see109 c x.1 e' more)
        | _ => false
      | _, _ => false
    | _ => true

def textMovesChecks : List (String × (Unit → Bool)) := [
  ("C109_anywhere", check_C109_anywhere), ("C109_compose", check_C109_compose),
  ("C109_repeat", check_C109_repeat), ("C109_resume", check_C109_resume)]

end Chf.Check
