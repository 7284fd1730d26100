import Verif.Rust

/-!
# Specification: UTF-8 (RFC 3629, section 3)
-/

namespace Chf.Spec

/-- The encoding of a code point. -/
def utf8Char (n : Nat) : List Byte :=
  if n < 0x80 then [.ofNat 8 n]
  else if n < 0x800 then [.ofNat 8 (0xc0 + n / 64), .ofNat 8 (0x80 + n % 64)]
  else if n < 0x10000 then
    [.ofNat 8 (0xe0 + n / 4096), .ofNat 8 (0x80 + n / 64 % 64), .ofNat 8 (0x80 + n % 64)]
  else
    [.ofNat 8 (0xf0 + n / 262144), .ofNat 8 (0x80 + n / 4096 % 64), .ofNat 8 (0x80 + n / 64 % 64),
      .ofNat 8 (0x80 + n % 64)]

/-- The code points that have an encoding: those up to `0x10ffff`, without the surrogates. -/
def IsScalar (n : Nat) : Prop := n < 0xd800 ∨ (0xe000 ≤ n ∧ n < 0x110000)

/-- The bytes encode some sequence of code points. -/
def IsUtf8 (v : List Byte) : Prop := ∃ cs : List Nat, (∀ n ∈ cs, IsScalar n) ∧ v = cs.flatMap utf8Char

end Chf.Spec
