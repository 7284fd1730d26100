import Verif.Check.TextMid
import Verif.Spec.Resume

/-!
# Instances of C100
-/

namespace Chf.Check
open Chf Spec

def engines100 : List (Bool × Nat × Nat) :=
  [(false, 4, 3), (true, 4, 3), (false, 64, 20), (true, 64, 20), (false, 128, 64), (true, 100, 0)]

def keys100 : List (List Byte) := [[], msg 3, msg 4, msg 5, msg 64, msg 70, msg 128, msg 200]

/-- What a caller sees of an HMAC engine over `countEngine` after the slices. -/
def sees100 (c : Cfg) (x : Bool × Nat × Nat) (e : Source.Hmac.Engine (countEngine x.1 x.2.1 x.2.2))
    (ds : List (List Byte)) :
    Res (Nat × Res (List (Nat × List Byte)) × Res (List Byte)) :=
  ((Source.Hmac.engine c (countEngine x.1 x.2.1 x.2.2)).observe e ds).map fun y =>
    (y.1, y.2.1.map fun m => [m.inner, m.outer], y.2.2)

def check_C100_count (_ : Unit) : Bool :=
  forall2 cfgs engines100 fun c x => forall2 keys100 [[], [msg 1], [msg 63, msg 2], [msg 130, [], msg 7]] fun key ds =>
    let E := countEngine x.1 x.2.1 x.2.2
    match Source.Hmac.Engine.new c E key >>= fun h => (Source.Hmac.engine c E).inputs h ds with
    | .ok h => decide ((Source.Hmac.engine c E).nBytesHashed h = x.2.1 + ds.flatten.length)
    | .error _ => true

/-- The engine after the slices, and the one resumed from it. -/
def resumed100 (c : Cfg) (x : Bool × Nat × Nat) (key : List Byte) (ds : List (List Byte)) :
    Res (Source.Hmac.Engine (countEngine x.1 x.2.1 x.2.2) ×
      Res (Source.Hmac.Engine (countEngine x.1 x.2.1 x.2.2))) := do
  let E := countEngine x.1 x.2.1 x.2.2
  let h ← Source.Hmac.Engine.new c E key
  let h ← (Source.Hmac.engine c E).inputs h ds
  pure (h, do
    let μ ← (Source.Hmac.engine c E).midstate h
    (Source.Hmac.engine c E).fromMidstate μ ((Source.Hmac.engine c E).nBytesHashed h))

set_option synthInstance.maxSize 1000 in
def check_C100_resume (_ : Unit) : Bool :=
  forall2 cfgs engines100 fun c x => forall2 keys100 [[], [msg 1], [msg 63, msg 2], [msg 130]] fun key ds =>
    match resumed100 c x key [] with
    | .ok (h, .ok h') => decide (sees100 c x h ds = sees100 c x h' ds)
    | .ok (_, .error _) => false
    | .error _ => true

set_option synthInstance.maxSize 1000 in
def check_C100_later (_ : Unit) : Bool :=
  forall2 cfgs (engines100.filter (·.1)) fun c x => forall2 keys100 [[], [msg 1], [msg 63, msg 2]] fun key ds =>
    [[msg x.2.1], [msg 3, (msg (2 * x.2.1)).drop 3], [msg (3 * x.2.1), []]].all fun before =>
      match resumed100 c x key before with
      | .ok (h, .ok h') => decide (sees100 c x h ds = sees100 c x h' ds)
      | .ok (_, .error _) => false
      | .error _ => true

def textResumeChecks : List (String × (Unit → Bool)) :=
  [("C100_count", check_C100_count), ("C100_resume", check_C100_resume), ("C100_later", check_C100_later)]

end Chf.Check
