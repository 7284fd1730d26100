import Verif.Check.TextHash

/-!
# Instances of C99
-/

namespace Chf.Check
open Chf Spec

def keys99 : List (BitVec 64 × BitVec 64) :=
  [(0, 0), (1, 2), (0x0706050403020100, 0x0f0e0d0c0b0a0908), (0x8000000000000000, 0xff00000000000001)]

def inputs99 : List (List (List Byte)) :=
  [[], [msg 0], [msg 3], [msg 3, msg 2], [msg 3, msg 5], [msg 3, msg 15], [msg 8], [msg 7, msg 0, msg 1, msg 30]]

def check_C99_keys (_ : Unit) : Bool :=
  forall2 cfgs inputs99 fun c ds =>
    (keys99.all fun k =>
      match (Source.Siphash24.engine c).inputs (Source.Siphash24.Engine.with_keys c k.1 k.2) ds with
      | .ok e => decide (Source.Siphash24.Engine.keys c e = k)
      | .error _ => true) &&
    [Source.Siphash24.Engine.new c, Source.Siphash24.Engine.default c, Source.Siphash24.Hash.engine c,
      Source.Siphash24.Engine.from_midstate c (Source.Siphash24.Engine.with_keys c 1 2).state 8].all fun e =>
      match (Source.Siphash24.engine c).inputs e ds with
      | .ok e => decide (Source.Siphash24.Engine.keys c e = (0, 0))
      | .error _ => true

def check_C99_from_engine (_ : Unit) : Bool :=
  forall2 cfgs keys99 fun c k =>
    [(0, 0), (3, 0x010203), (255, 0x01020304050607), (256, 0), (1000, 0xffffffffffffff)].all fun t =>
      let e : Source.Siphash24.Engine :=
        { Source.Siphash24.Engine.with_keys c k.1 k.2 with length := t.1, tail := t.2, ntail := t.1 % 8 }
      decide ((Source.Siphash24.Hash.from_engine c e).f0 =
        leBytes 8 (Source.Siphash24.Hash.from_engine_to_u64 c e).toNat) &&
      decide (Source.Siphash24.Hash.as_u64 c (Source.Siphash24.Hash.from_engine c e) =
        Source.Siphash24.Hash.from_engine_to_u64 c e) &&
      decide ((Source.Siphash24.Hash.from_u64 c (Source.Siphash24.Hash.from_engine_to_u64 c e)).f0 =
        (Source.Siphash24.Hash.from_engine c e).f0)

def check_C99_value (_ : Unit) : Bool :=
  forall2 cfgs keys99 fun c k =>
    [0, 1, 7, 8, 9, 15, 16, 63, 255, 256, 300].all fun n =>
      match Source.Siphash24.Hash.hash_with_keys c k.1 k.2 (msg n),
        Source.Siphash24.Engine.input c (Source.Siphash24.Engine.with_keys c k.1 k.2) (msg n) with
      | .ok h, .ok e =>
        decide ((Source.Siphash24.Hash.from_engine c e).f0 = h.f0) &&
        decide (Source.Siphash24.Hash.as_u64 c h = siphash24 k.1 k.2 (msg n)) &&
        decide (Source.Siphash24.Hash.hash_to_u64_with_keys c k.1 k.2 (msg n) = .ok (siphash24 k.1 k.2 (msg n))) &&
        decide (Source.Siphash24.Hash.from_engine_to_u64 c e = siphash24 k.1 k.2 (msg n))
      | _, _ => false

def numbers99 : List (BitVec 64) :=
  [0, 1, 2, 0x100, 0x0123456789abcdef, 0xefcdab8967452301, 0x8000000000000000, 0x80, 0xffffffffffffffff]

def check_C99_order (_ : Unit) : Bool :=
  let swap (x : BitVec 64) := beNat (leBytes 8 x.toNat)
  forall2 cfgs numbers99 fun c x => numbers99.all fun y =>
    let T := Source.hashText c ⟨.error .fuel⟩ .siphash24
    T.eq (Source.Siphash24.Hash.from_u64 c x) (Source.Siphash24.Hash.from_u64 c y) == decide (x = y) &&
    decide (T.cmp (Source.Siphash24.Hash.from_u64 c x) (Source.Siphash24.Hash.from_u64 c y) =
      compare (swap x) (swap y)) &&
    match T.display (Source.Siphash24.Hash.from_u64 c x) ⟨false⟩ with
    | .ok s => decide (s.length = 16 ∧ (∀ b ∈ s, IsLowerDigit b) ∧ value16 s = swap x)
    | .error _ => false

def textSiphashChecks : List (String × (Unit → Bool)) := [
  ("C99_keys", check_C99_keys),
  ("C99_from_engine", check_C99_from_engine),
  ("C99_value", check_C99_value),
  ("C99_order", check_C99_order)]

end Chf.Check
