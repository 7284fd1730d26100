import Verif.Model.Programs

/-!
# Specification: the panics a program can meet
-/

namespace Chf.Spec

/-- The panic of `from_midstate` with a byte count of `n`, if it panics. -/
def resumePanic : Alg → Nat → Option Fault
  | .sha1, n | .sha256, n | .ripemd160, n | .sha256t _ _ _, n => if n % 64 = 0 then none else some .assertion
  | .sha384, n | .sha512, n | .sha512_256, n => if n % 128 = 0 then some .expect else some .assertion
  | .siphash24, _ => none
  | .hmac a, n => resumePanic a n

/-- The ways in which a call can go wrong: arithmetic overflow in `input`, in `finalize` and in
`hmac::Engine::new(key)`, in builds with overflow checks; and the panics of `from_midstate`. -/
def mayPanic (c : Cfg) : Call → Fault → Prop
  | .input _ _, f | .finalize _, f | .make _ (.hmacKey _), f => f = .overflow ∧ c.overflowChecks = true
  | .make a (.resume _ n), f => resumePanic a n = some f
  | _, _ => False

instance (c : Cfg) (x : Call) (f : Fault) : Decidable (mayPanic c x f) := by
  unfold mayPanic; split <;> infer_instance

end Chf.Spec
