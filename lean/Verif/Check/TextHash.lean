import Verif.Check.TextTypes
import Verif.Model.TextHash

/-!
# Instances of C96
-/

namespace Chf.Check
open Chf Spec

/-- Inputs to hash, print and compare. -/
def inputs96 : List (List (List Byte)) := [[], [msg 3], [msg 3, msg 0], [msg 1, msg 2], [msg 64], [msg 60, msg 80]]

def check_C96_bytes (_ : Unit) : Bool :=
  forall2 engines inputs96 fun x ds =>
    decide ((Source.hashChunks x.1 x.2 ds).map (Source.typeOf x.1 x.2).toByteArray = .ok (x.2.hashSpec ds.flatten) ∧
      (Source.engineOf x.1 x.2).hashByteChunks ds = .ok (x.2.hashSpec ds.flatten))

def check_C96_hash (_ : Unit) : Bool :=
  forall2 engines inputs96 fun x ds =>
    match Source.hashOf x.1 x.2 with
    | none => match x.2 with
      | .hmac _ => true
      | _ => false
    | some hash => decide ((hash ds.flatten).map (Source.typeOf x.1 x.2).toByteArray = .ok (x.2.hashSpec ds.flatten))

def check_C96_printed (_ : Unit) : Bool :=
  forall2 engines inputs96 fun x ds =>
    match (Source.hashChunks x.1 x.2 ds >>= fun v => (Source.typeOf x.1 x.2).display v ⟨false⟩),
      (Source.hashChunks x.1 x.2 ds >>= fun v => (Source.typeOf x.1 x.2).debug v ⟨false⟩) with
    | .ok s, .ok t => decide (t = ascii "0x" ++ s ∧ s.length = 2 * (x.2.hashSpec ds.flatten).length ∧
        (∀ b ∈ s, IsLowerDigit b) ∧ value16 s = beNat (x.2.hashSpec ds.flatten))
    | _, _ => false

/-- Strings close to the digest `bs`, or the digest itself in digits that start at `ten` for 10. -/
def near (ten : Nat) (bs : List Byte) : List (List Byte) :=
  let digit (n : Nat) : Byte := if n < 10 then BitVec.ofNat 8 (48 + n) else BitVec.ofNat 8 (ten - 10 + n)
  let s := bs.flatMap fun b => [digit (b.toNat / 16), digit (b.toNat % 16)]
  [s, s ++ s, s.drop 1, s.drop 2, 48 :: 48 :: s.drop 2, s.take (s.length - 1) ++ [103], s.reverse, ascii "0x" ++ s]

/-- The parser accepts `s` as a value equal to the hash of the input. -/
def agrees (T : Source.HashText) (r : Res T.H) (p : Res (Except Hex.Error T.H)) : Bool :=
  match r, p with
  | .ok v, .ok (.ok w) => T.eq v w
  | _, _ => false

def check_C96_check (_ : Unit) : Bool :=
  forall2 engines inputs96 fun x ds =>
    forall2 (near 97 (x.2.hashSpec ds.flatten) ++ near 65 (x.2.hashSpec ds.flatten) ++
        near 65 (x.2.hashSpec (1 :: ds.flatten)))
      (Source.typeOf x.1 x.2).parsers fun s parse =>
    agrees (Source.typeOf x.1 x.2) (Source.hashChunks x.1 x.2 ds) (parse s) ==
      decide (s.length = 2 * (x.2.hashSpec ds.flatten).length ∧ (∀ b ∈ s, IsHexDigit b) ∧
        value16 s = beNat (x.2.hashSpec ds.flatten))

def check_C96_compared (_ : Unit) : Bool :=
  forall2 engines inputs96 fun x ds => inputs96.all fun es =>
    match Source.hashChunks x.1 x.2 ds, Source.hashChunks x.1 x.2 es with
    | .ok v, .ok w =>
      (Source.typeOf x.1 x.2).eq v w == decide (x.2.hashSpec ds.flatten = x.2.hashSpec es.flatten) &&
      decide ((Source.typeOf x.1 x.2).cmp v w =
        compare (beNat (x.2.hashSpec ds.flatten)) (beNat (x.2.hashSpec es.flatten)))
    | _, _ => false

def textHashChecks : List (String × (Unit → Bool)) := [
  ("C96_bytes", check_C96_bytes),
  ("C96_hash", check_C96_hash),
  ("C96_printed", check_C96_printed),
  ("C96_check", check_C96_check),
  ("C96_compared", check_C96_compared)]

end Chf.Check
