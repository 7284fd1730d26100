import Verif.Spec.Bytes

/-!
# Specification: hexadecimal numbers

A string is the list of its bytes.
-/

namespace Chf.Spec

/-- The value of an ASCII hexadecimal digit of either case. -/
def digitVal (b : Byte) : Option Nat :=
  if '0'.toNat ≤ b.toNat ∧ b.toNat ≤ '9'.toNat then some (b.toNat - '0'.toNat)
  else if 'a'.toNat ≤ b.toNat ∧ b.toNat ≤ 'f'.toNat then some (b.toNat - 'a'.toNat + 10)
  else if 'A'.toNat ≤ b.toNat ∧ b.toNat ≤ 'F'.toNat then some (b.toNat - 'A'.toNat + 10)
  else none

/-- The character is a hexadecimal digit. -/
def IsHexDigit (b : Byte) : Prop := (digitVal b).isSome = true

instance (b : Byte) : Decidable (IsHexDigit b) := by unfold IsHexDigit; infer_instance

/-- The character is a hexadecimal digit and not an upper-case letter. -/
def IsLowerDigit (b : Byte) : Prop :=
  ('0'.toNat ≤ b.toNat ∧ b.toNat ≤ '9'.toNat) ∨ ('a'.toNat ≤ b.toNat ∧ b.toNat ≤ 'f'.toNat)

instance (b : Byte) : Decidable (IsLowerDigit b) := by unfold IsLowerDigit; infer_instance

/-- The character is a hexadecimal digit and not a lower-case letter. -/
def IsUpperDigit (b : Byte) : Prop :=
  ('0'.toNat ≤ b.toNat ∧ b.toNat ≤ '9'.toNat) ∨ ('A'.toNat ≤ b.toNat ∧ b.toNat ≤ 'F'.toNat)

instance (b : Byte) : Decidable (IsUpperDigit b) := by unfold IsUpperDigit; infer_instance

/-- The number written by hexadecimal digits, most significant first. -/
def value16 (s : List Byte) : Nat := s.foldl (fun acc b => acc * 16 + (digitVal b).getD 0) 0

end Chf.Spec
