import Verif.Model.TextSerde

/-!
# `SerdeHash::N` of every hash type, in the translated text

`serde_macros.rs` 81-82: "Size, in bits, of the hash." `serde_impl!` (`serde_macros.rs` 114) and `hmac.rs` 167
define it. The constant of `hmac::Hash<N>` is the parameter and has no name in the translation.
-/

namespace Chf.Source

/-- `<T as SerdeHash>::N`. -/
def serdeN : HashTy → Nat
  | .sha1 => Sha1.Hash.N
  | .sha256 => Sha256.Hash.N
  | .sha384 => Sha384.Hash.N
  | .sha512 => Sha512.Hash.N
  | .sha512_256 => Sha512_256.Hash.N
  | .ripemd160 => Ripemd160.Hash.N
  | .siphash24 => Siphash24.Hash.N
  | .sha256t => Sha256t.Hash.N
  | .hmac N => N
  | .midstate => Sha256.Midstate.N

end Chf.Source
