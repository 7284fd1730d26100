import Verif.Rust

/-!
# Specification: where the constants come from

FIPS 180-4 sections 4.2 and 5.3, and the RIPEMD-160 paper.  Real roots are avoided: `q + x / 2^w` is
at most the `k`-th root of `n` iff `(q * 2^w + x)^k ≤ n * 2^(k*w)`.
-/

namespace Chf.Spec

/-- A prime number. -/
def IsPrime (p : Nat) : Prop := 2 ≤ p ∧ ∀ d, d ∣ p → d = 1 ∨ d = p

/-- `ps` are the first `n` primes, in order. -/
def FirstPrimes (n : Nat) (ps : List Nat) : Prop :=
  ps.length = n ∧ ps.Pairwise (· < ·) ∧ ∃ bound, ∀ p, p ∈ ps ↔ IsPrime p ∧ p < bound

/-- The integer part of `2^s` times the `k`-th root of `n` is `y`. -/
def IsScaledRoot (k s n y : Nat) : Prop := y ^ k ≤ n * 2 ^ (k * s) ∧ n * 2 ^ (k * s) < (y + 1) ^ k

/-- `x` is the first `w` bits of the fractional part of the `k`-th root of `n`. -/
def IsFracRoot (k w n : Nat) (x : BitVec w) : Prop := ∃ q, IsScaledRoot k w n (q * 2 ^ w + x.toNat)

/-- `xs` are the first `w` bits of the fractional parts of the `k`-th roots of the numbers `ns`. -/
def AreFracRoots (k w : Nat) (ns : List Nat) (xs : List (BitVec w)) : Prop :=
  ns.length = xs.length ∧ ∀ p ∈ ns.zip xs, IsFracRoot k w p.1 p.2

/-- The first eighty primes. -/
def primes80 : List Nat :=
  [2, 3, 5, 7, 11, 13, 17, 19, 23, 29, 31, 37, 41, 43, 47, 53, 59, 61, 67, 71, 73, 79, 83, 89, 97,
   101, 103, 107, 109, 113, 127, 131, 137, 139, 149, 151, 157, 163, 167, 173, 179, 181, 191, 193, 197,
   199, 211, 223, 227, 229, 233, 239, 241, 251, 257, 263, 269, 271, 277, 281, 283, 293, 307, 311, 313,
   317, 331, 337, 347, 349, 353, 359, 367, 373, 379, 383, 389, 397, 401, 409]

/-- A decidable form of `IsFracRoot`. -/
def fracRoot (k w n : Nat) (x : BitVec w) : Bool :=
  (List.range 32).any fun q => (q * 2 ^ w + x.toNat) ^ k ≤ n * 2 ^ (k * w) &&
    n * 2 ^ (k * w) < (q * 2 ^ w + x.toNat + 1) ^ k

end Chf.Spec
