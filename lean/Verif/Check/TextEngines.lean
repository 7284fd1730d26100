import Verif.Check.States
import Verif.Source.Hmac

/-!
# Instances of C86
-/

namespace Chf.Check
open Chf Spec

def check_C86_rfc (_ : Unit) : Bool :=
  forall2 cfgs [(4, 3), (4, 4), (100, 20), (128, 128), (1, 0)] fun c x =>
    forall2 [[], msg 3, msg 4, msg 5, msg 99, msg 101, msg 128, msg 129] inputs3 fun key ds =>
      let E := toyEngine x.1 x.2
      decide ((do
        let e ← Source.Hmac.Engine.new c E key
        let e ← (Source.Hmac.engine c E).inputs e ds
        (Source.Hmac.engine c E).finalize e) = .ok (hmac (toyHash x.2) x.1 key ds.flatten))

def check_C86_large_block (_ : Unit) : Bool :=
  forall2 cfgs [129, 136, 144, 1000] fun c B =>
    [[], msg 3, msg 128, msg 129, msg 200].all fun key =>
      match Source.Hmac.Engine.new c (toyEngine B 32) key with
      | .ok _ => false
      | .error _ => true

def check_C86_provided (_ : Unit) : Bool :=
  forall2 cfgs inputs3 fun c ds =>
    decide (Source.Lib.HashEngine.hash c (toyEngine 4 5) ds.flatten = .ok (toyHash 5 ds.flatten)) &&
    decide (Source.Lib.HashEngine.hash_byte_chunks c (toyEngine 4 5) ds = .ok (toyHash 5 ds.flatten))

def textEngineChecks : List (String × (Unit → Bool)) := [
  ("C86_rfc", check_C86_rfc),
  ("C86_large_block", check_C86_large_block),
  ("C86_provided", check_C86_provided)]

end Chf.Check
