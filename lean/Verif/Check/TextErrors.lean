import Verif.Check.TextTypes
import Verif.Spec.Decimal

/-!
# Instances of C108
-/

namespace Chf.Check
open Chf Spec Source

def errors108 : List Lib.FromSliceError :=
  [⟨32, 7⟩, ⟨7, 32⟩, ⟨0, 1⟩, ⟨20, 0⟩, ⟨48, 1203⟩, ⟨481, 203⟩, ⟨4, 81203⟩, ⟨100, 99⟩]

def check_C108_message (_ : Unit) : Bool :=
  errors108.all fun e =>
    let m := Lib.FromSliceError.Display.fmt .debug64 e ⟨false⟩
    let a := ascii "invalid slice length "
    let b := ascii " (expected "
    (List.range (m.length + 1)).any fun i => (List.range (m.length + 1)).any fun j =>
      let g := (m.drop a.length).take i
      let x := (m.drop (a.length + i + b.length)).take j
      decide (IsDecimal (Lib.FromSliceError.invalid_length .debug64 e) g ∧
        IsDecimal (Lib.FromSliceError.expected_length .debug64 e) x ∧ m = a ++ g ++ b ++ x ++ ascii ")")

def check_C108_readable (_ : Unit) : Bool :=
  forall2 errors108 errors108 fun e e' =>
    decide (Lib.FromSliceError.Display.fmt .debug64 e ⟨false⟩ = Lib.FromSliceError.Display.fmt .debug64 e' ⟨true⟩ ↔
      e.got = e'.got ∧ e.expected = e'.expected)

def check_C108_rejected (_ : Unit) : Bool :=
  types.all fun x => [0, 1, 7, 8, 20, 31, 32, 33, 48, 64, 65, 70].all fun n =>
    match (ty x.1).fromSlice (msg n) with
    | .ok (.ok _) => decide (n = x.2)
    | .ok (.error e) => decide (Lib.FromSliceError.invalid_length .debug64 e = n ∧
        Lib.FromSliceError.expected_length .debug64 e = x.2 ∧ n ≠ x.2)
    | .error _ => false

def check_C108_told_apart (_ : Unit) : Bool :=
  forall2 types types fun x y => forall2 [0, 1, 20, 32, 33] [1, 20, 33] fun n n' =>
    match (ty x.1).fromSlice (msg n), (ty y.1).fromSlice (msg n') with
    | .ok (.error e), .ok (.error e') =>
      decide (Lib.FromSliceError.Display.fmt .debug64 e ⟨false⟩ = Lib.FromSliceError.Display.fmt .debug64 e' ⟨false⟩ ↔
        n = n' ∧ x.2 = y.2)
    | _, _ => true

def textErrorsChecks : List (String × (Unit → Bool)) := [
  ("C108_message", check_C108_message), ("C108_readable", check_C108_readable),
  ("C108_rejected", check_C108_rejected), ("C108_told_apart", check_C108_told_apart)]

end Chf.Check
