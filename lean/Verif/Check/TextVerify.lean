import Verif.Check.Text
import Verif.Model.TextVerify
import Verif.Spec.Hex
import Verif.Spec.AlgLog

/-!
# Instances of C105
-/

namespace Chf.Check
open Chf Spec

/-- What may be received instead of the tag `t`, and the tag. -/
def received105 (t : List Byte) : List (List Byte) :=
  [t, [], t.dropLast, t ++ [0], t.reverse, t.map (· ^^^ 0xff), List.replicate t.length 0] ++
    (List.range t.length).map fun i =>
      t.take i ++ ((t.drop i).take 1).map (· ^^^ BitVec.ofNat 8 (2 ^ (i % 8))) ++ t.drop (i + 1)

/-- The two digits of each byte, with letters from `x` on. -/
def digits105 (x : Nat) (t : List Byte) : List Byte :=
  t.flatMap fun b => [b.toNat / 16, b.toNat % 16].map fun d => BitVec.ofNat 8 (if d < 10 then 48 + d else x + d - 10)

def keys105 : List (List Byte) := [[], msg 20, msg 64, msg 131]

def inputs105 : List (List (List Byte)) := [[], [msg 60, msg 9, msg 130], [msg 64]]

def check_C105_tag (_ : Unit) : Bool :=
  forall2 [Cfg.debug64, .release64] algs fun c a => forall2 keys105 inputs105 fun key ds =>
    match Source.macTag c a a.outLen key ds with
    | .error _ => false
    | .ok t => decide (t.f0 = hmac a.hashSpec a.blockSize key ds.flatten)

def check_C105_check (_ : Unit) : Bool :=
  forall2 [Cfg.debug64, .release64] [Alg.sha1, .siphash24, .sha512] fun c a => forall2 [msg 20] [[msg 3]] fun key ds =>
    let t := hmac a.hashSpec a.blockSize key ds.flatten
    (received105 t).all fun r => decide (Source.macCheck c a a.outLen key ds r = .ok (decide (r = t)))

def check_C105_check_str (_ : Unit) : Bool :=
  forall2 [Cfg.debug64, .release64] [Alg.ripemd160, .siphash24] fun c a => forall2 [msg 20] [[msg 3]] fun key ds =>
    let t := hmac a.hashSpec a.blockSize key ds.flatten
    ((received105 t).map (digits105 97) ++
      [digits105 65 t, digits105 103 t, digits105 97 t ++ [48], (digits105 97 t).dropLast]).all fun r =>
      match Source.macCheckStr c a a.outLen key ds r with
      | .error _ => false
      | .ok b => decide (b = true ↔ r.length = 2 * a.outLen ∧ (∀ x ∈ r, IsHexDigit x) ∧ value16 r = beNat t)

def check_C105_compare (_ : Unit) : Bool :=
  forall2 [Cfg.debug64, .release64] [Alg.sha256, .siphash24] fun c a => forall2 [msg 20] [[msg 3]] fun key ds =>
    let t := hmac a.hashSpec a.blockSize key ds.flatten
    (received105 t).all fun r => decide (Source.macCompare c a key ds r =
      if r.length = a.outLen then .ok (decide (r = t)) else .error .assertion)

def check_C105_seen (_ : Unit) : Bool :=
  forall2 [Cfg.debug64, .release64] algs fun c a => forall2 keys105 inputs105 fun key ds =>
    let blank (x : List Byte) : List Byte := List.replicate x.length 0
    let t := hmac a.hashSpec a.blockSize key ds.flatten
    [t, t.dropLast].all fun r =>
      decide ((Source.macCompareSeen c a key ds r).seen =
        (Source.macCompareSeen c a (blank key) (ds.map blank) (blank r)).seen ∧
      (Source.macCompareSeen c a key ds r).res = Source.macCompare c a key ds r)

def textVerifyChecks : List (String × (Unit → Bool)) := [
  ("C105_tag", check_C105_tag),
  ("C105_check", check_C105_check),
  ("C105_check_str", check_C105_check_str),
  ("C105_compare", check_C105_compare),
  ("C105_seen", check_C105_seen)]

end Chf.Check
