import Verif.Check.TextTypes

/-!
# Executable instances of C113
-/

namespace Chf.Check
open Chf Spec Rs

/-- What `hmac::Hash` makes of a message without a key. -/
def unkeyed113 (c : Cfg) (a : Alg) (ds : List (List Byte)) : Res (List Byte) := do
  let e ← Source.Hmac.Hash.engine c 32 (Source.engineOf c a)
  let e ← (Source.engineOf c a).inputs e ds
  let h ← Source.Hmac.Hash.from_engine c 32 (Source.engineOf c a) e
  pure h.f0

def check_C113_unkeyed (_ : Unit) : Bool :=
  forall2 engines chunkings fun x ds => decide (unkeyed113 x.1 x.2 ds = .ok (x.2.hashSpec ds.flatten))

def check_C113_zero_keys (_ : Unit) : Bool :=
  forall2 [Cfg.debug64, .release64] algs fun c a => forall2 [0, 1, 8, 63, 64, 128] inputs3 fun k ds =>
    !decide (k ≤ a.blockSize) || decide ((do
      let e ← Source.Hmac.Engine.new c (Source.engineOf c a) (List.replicate k 0)
      let e ← (Source.engineOf c (.hmac a)).inputs e ds
      let h ← Source.Hmac.Hash.from_engine c 32 (Source.engineOf c (.hmac a)) e
      pure h.f0) = unkeyed113 c (.hmac a) ds)

def textUnkeyedChecks : List (String × (Unit → Bool)) := [
  ("C113_unkeyed", check_C113_unkeyed), ("C113_zero_keys", check_C113_zero_keys)]

end Chf.Check
