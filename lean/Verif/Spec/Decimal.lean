import Verif.Rust

/-!
# Specification: decimal numbers in ASCII
-/

namespace Chf.Spec

/-- `0` to `9`. -/
def IsDecimalDigit (b : Byte) : Prop := '0'.toNat ≤ b.toNat ∧ b.toNat ≤ '9'.toNat

instance (b : Byte) : Decidable (IsDecimalDigit b) := by unfold IsDecimalDigit; infer_instance

/-- The number that the digits mean. -/
def value10 (ds : List Byte) : Nat := ds.foldl (fun n d => 10 * n + (d.toNat - '0'.toNat)) 0

/-- `ds` is the decimal number `n`, without superfluous digits. -/
def IsDecimal (n : Nat) (ds : List Byte) : Prop :=
  (∀ d ∈ ds, IsDecimalDigit d) ∧ value10 ds = n ∧ ds ≠ [] ∧ (10 ≤ n → 10 ^ (ds.length - 1) ≤ n) ∧
    (n < 10 → ds.length = 1)

instance (n : Nat) (ds : List Byte) : Decidable (IsDecimal n ds) := by unfold IsDecimal; infer_instance

end Chf.Spec
