import Verif.Check.TextTypes

/-!
# Executable instances of C104
-/

namespace Chf.Check
open Spec

def check_C104_printed (_ : Unit) : Bool :=
  onTextPairs fun t a b => (ty t).makers.all fun mk =>
    [(ty t).display, (ty t).lowerHex, (ty t).upperHex].all fun print =>
      okAnd (print (mk a) ⟨false⟩) fun x => okAnd (print (mk b) ⟨false⟩) fun y =>
        decide (((ty t).cmp (mk a) (mk b) = .lt ↔ x < y) ∧ ((ty t).cmp (mk a) (mk b) = .eq ↔ x = y) ∧
          ((ty t).cmp (mk a) (mk b) = .gt ↔ y < x))

def check_C104_sorted (_ : Unit) : Bool :=
  onTextPairs fun t a b => (ty t).makers.all fun mk =>
    [[mk a, mk b], [mk a, mk b, mk b], [mk b, mk a, mk a]].all fun hs =>
      okAnd (hs.mapM fun h => (ty t).display h ⟨false⟩) fun ss =>
        decide ((hs.Pairwise (fun a b => (ty t).cmp a b ≠ .gt) ↔ ss.Pairwise (· ≤ ·)) ∧
          (hs.Pairwise (fun a b => (ty t).cmp a b = .lt) ↔ ss.Pairwise (· < ·)))

/-- The letter in lower case. -/
def low104 (x : Byte) : Byte := if 65 ≤ x.toNat ∧ x.toNat ≤ 70 then x + 32 else x

def check_C104_prefix (_ : Unit) : Bool :=
  onTextPairs fun t a b => (ty t).makers.all fun mk => (ty t).parsers.all fun parse =>
    okAnd ((ty t).display (mk a) ⟨false⟩) fun s => okAnd ((ty t).display (mk b) ⟨false⟩) fun s' =>
      [0, 1, 2, 3, 15, 16, 40].all fun k =>
        let p := (s.take k).map low104
        okOk (parse (p ++ List.replicate (2 * b.length - p.length) 0x30)) fun lo =>
        okOk (parse (p ++ List.replicate (2 * b.length - p.length) 0x66)) fun hi =>
          decide (p <+: s' ↔ (ty t).cmp lo (mk b) ≠ .gt ∧ (ty t).cmp (mk b) hi ≠ .gt)

def textSortedChecks : List (String × (Unit → Bool)) := [
  ("C104_printed", check_C104_printed),
  ("C104_sorted", check_C104_sorted),
  ("C104_prefix", check_C104_prefix)]

end Chf.Check
