import Verif.Check.TextMid

/-!
# Instances of C97
-/

namespace Chf.Check
open Chf Spec

/-- Ways to come to a block boundary, and some that do not. -/
def ways97 : List (Make × List (List Byte)) :=
  [(.new, []), (.default, [msg 128]), (.new, [(msg 128).take 60, (msg 128).drop 60]),
   (.new, [(msg 128).take 1, (msg 128).drop 1, []]), (.new, [List.replicate 128 7]), (.new, [msg 123]),
   (.new, [(msg 123).take 70, (msg 123).drop 70]), (.resume (.bytes (msg 20)) 128, []),
   (.resume (.bytes (msg 32)) 0, [msg 128])]

/-- The engine that a way leads to. -/
def walk97 (c : Cfg) (a : Alg) (w : Make × List (List Byte)) : Option (Source.engineOf c a).State :=
  match Source.make c a w.1 with
  | some (.ok e) => match (Source.engineOf c a).inputs e w.2 with
    | .ok e => some e
    | .error _ => none
  | _ => none

/-- What a caller sees after the slices. -/
def sees (c : Cfg) (a : Alg) (e : (Source.engineOf c a).State) (ds : List (List Byte)) :
    Res (Nat × Res MidVal × Res (List Byte)) :=
  ((Source.engineOf c a).observe e ds).map fun x => (x.1, x.2.1.map (Source.showMid c a), x.2.2)

/-- If whole blocks are hashed and counts and midstates are equal, so is everything after other slices. -/
def decides97 (c : Cfg) (a : Alg) (e e' : (Source.engineOf c a).State) (ds : List (List Byte)) : Bool :=
  let E := Source.engineOf c a
  !decide (a.blockSize ∣ E.nBytesHashed e ∧ E.nBytesHashed e = E.nBytesHashed e' ∧
    (E.midstate e).map (Source.showMid c a) = (E.midstate e').map (Source.showMid c a) ∧
    (E.input e [] >>= E.midstate).map (Source.showMid c a) = (E.input e' [] >>= E.midstate).map (Source.showMid c a)) ||
  decide (sees c a e ds = sees c a e' ds)

def check_C97_midstates (_ : Unit) : Bool :=
  forall2 cfgs [Alg.sha1, .sha256, .sha384, .sha512_256, .ripemd160, .sha256t (msg 32) 64 (msg 5)] fun c a =>
    forall2 ways97 ways97 fun w w' => match walk97 c a w, walk97 c a w' with
      | some e, some e' => [[], [msg 1], [msg 63, msg 2], [msg 130]].all fun ds => decides97 c a e e' ds
      | _, _ => true

/-- An engine and the one resumed from its midstate, whose buffer is another. -/
def check_C97_resumed (_ : Unit) : Bool :=
  forall2 cfgs [Alg.sha1, .sha256, .sha256t (msg 32) 64 (msg 5)] fun c a => ways97.all fun w =>
    match walk97 c a w with
    | some e => match (Source.engineOf c a).midstate e with
      | .ok μ => match Source.make c a (.resume (Source.showMid c a μ) ((Source.engineOf c a).nBytesHashed e)) with
        | some (.ok e') => !decide ((Source.engineOf c a).nBytesHashed e < c.usizeMod) ||
            [[], [msg 1], [msg 63, msg 2], [msg 130]].all fun ds => decides97 c a e e' ds
        | _ => true
      | _ => true
    | none => true

def textDecidesChecks : List (String × (Unit → Bool)) := [
  ("C97_midstates", check_C97_midstates), ("C97_resumed", check_C97_resumed)]

end Chf.Check
