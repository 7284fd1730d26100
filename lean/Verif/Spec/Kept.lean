import Verif.Rust

/-!
# What a buffer of `B` bytes that is written round and round keeps
-/

namespace Chf.Spec

/-- `m` has been written to the buffer, from place `p % B` on and round: the last `B` bytes of `m` are in
their places, and places that were not reached are as before. -/
def Kept (B p : Nat) (old m new : List Byte) : Prop :=
  new.length = old.length ∧
  (∀ j, (h : j < m.length) → m.length ≤ j + B → new[(p + j) % B]? = some m[j]) ∧
  ∀ i < B, (∀ j < m.length, (p + j) % B ≠ i) → new[i]? = old[i]?

instance (B p : Nat) (old m new : List Byte) : Decidable (Kept B p old m new) := by
  unfold Kept
  infer_instance

end Chf.Spec
