import Verif.Spec.Bytes

/-!
# Specification: HMAC (RFC 2104) and BIP-340 tagged hashes
-/

namespace Chf.Spec

/-- RFC 2104: the key as a string of exactly `B` bytes.  Keys longer than the block size `B` are
hashed first; zero bytes are appended. -/
def hmacKey (H : List Byte → List Byte) (B : Nat) (key : List Byte) : List Byte :=
  let k := if key.length > B then H key else key
  k ++ List.replicate (B - k.length) 0

/-- RFC 2104: `H(K XOR opad, H(K XOR ipad, text))`. -/
def hmac (H : List Byte → List Byte) (B : Nat) (key text : List Byte) : List Byte :=
  let k := hmacKey H B key
  H (k.map (· ^^^ 0x5c) ++ H (k.map (· ^^^ 0x36) ++ text))

/-- The 64-byte block in which the outer hash of HMAC over SHA-1 or SHA-256 ends: the inner digest and the
padding, with a length field for `n` bytes before it. -/
def outerBlock (ih : List Byte) (n : Nat) : List Byte :=
  ih ++ [0x80] ++ List.replicate (55 - ih.length) 0 ++ beBytes 8 (8 * (n + ih.length) % 2 ^ 64)

/-- BIP-340: `SHA256(SHA256(tag) || SHA256(tag) || x)`, for a hash function `H`. -/
def tagged (H : List Byte → List Byte) (tag x : List Byte) : List Byte := H (H tag ++ H tag ++ x)

end Chf.Spec
