import Verif.Model.Alg
import Verif.Spec.Log
import Verif.Spec.Hmac

/-!
# Specification: the log and the hash function of every engine
-/

namespace Chf.Alg
open Spec

/-- SHA-256 of `data ++ m`, started from a midstate that stands for `len` bytes. -/
def sha256From (mid : List Byte) (len : Nat) (data m : List Byte) : List Byte :=
  md256.digestWith (parse8 mid) (data ++ m) (8 * (len + (data.length + m.length)))

/-- The mathematical function the engine type stands for. -/
def hashSpec : Alg → List Byte → List Byte
  | .sha1 => Spec.sha1
  | .sha256 => Spec.sha256
  | .sha384 => Spec.sha384
  | .sha512 => Spec.sha512
  | .sha512_256 => Spec.sha512_256
  | .ripemd160 => Spec.ripemd160
  | .siphash24 => fun m => leBytes 8 (Spec.siphash24 0 0 m).toNat
  | .sha256t mid len data => sha256From mid len data
  | .hmac a => Spec.hmac a.hashSpec a.blockSize []

/-- The number of bytes of a digest. -/
def outLen : Alg → Nat
  | .sha1 | .ripemd160 => 20
  | .sha256 | .sha512_256 | .sha256t _ _ _ => 32
  | .sha384 => 48
  | .sha512 => 64
  | .siphash24 => 8
  | .hmac a => a.outLen

/-- What every observer of an engine returns, as a function of its log. -/
def log (c : Cfg) : (a : Alg) → LogSpec (a.engine c).Midstate
  | .sha1 => log1 c
  | .sha256 => log256 c
  | .sha384 => log384 c
  | .sha512 => log512 c
  | .sha512_256 => log512_256 c
  | .ripemd160 => logRmd c
  | .siphash24 =>
    logSip c (fun s => ({ v0 := s.v0, v1 := s.v1, v2 := s.v2, v3 := s.v3 } : Siphash24.State))
      (fun s => ⟨s.v0, s.v1, s.v2, s.v3⟩)
  | .sha256t mid len data => { log256 c with fresh := ((parse8 mid, len), data) }
  | .hmac a =>
    hmacLog (M := (a.engine c).Midstate) (Mid := Hmac.Midstate (a.engine c)) (a.log c)
      (a.engine c).blockSize
      (fun i o => { inner := i, outer := o }) (fun μ => μ.inner) (fun μ => μ.outer)

end Chf.Alg

namespace Chf.Spec

/-- The blocks the standard prescribes for a message. -/
def standardBlocks : Alg → List Byte → List (List Byte)
  | .sha1, m | .sha256, m => blocks 64 (pad 64 8 beBytes m)
  | .sha384, m | .sha512, m | .sha512_256, m => blocks 128 (pad 128 16 beBytes m)
  | .ripemd160, m => blocks 64 (pad 64 8 leBytes m)
  | _, _ => []

/-- The standard's bookkeeping for the hash functions of the SHA family and RIPEMD-160: the block
size and the size of the length field, in bytes. -/
def blockAndField : Alg → Option (Nat × Nat)
  | .sha1 | .sha256 | .ripemd160 | .sha256t _ _ _ => some (64, 8)
  | .sha384 | .sha512 | .sha512_256 => some (128, 16)
  | .siphash24 | .hmac _ => none

/-- The standard's digest of `m`, except that the length field is made to hold `bits`. -/
def digestClaiming : Alg → List Byte → Nat → List Byte
  | .sha1 => md1.digestWith iv1
  | .sha256 => md256.digestWith iv256
  | .sha384 => md384.digestWith iv384
  | .sha512 => md512.digestWith iv512
  | .sha512_256 => md512_256.digestWith iv512_256
  | .ripemd160 => mdRmd.digestWith ivRmd
  | _ => fun _ _ => []

/-- The standard's digest, except that the length field is computed from the number of bytes modulo
`2 ^ w` and holds the number of bits modulo `2 ^ 64`. -/
def wrappedDigest (w : Nat) (a : Alg) (m : List Byte) : List Byte :=
  digestClaiming a m (8 * (m.length % 2 ^ w) % 2 ^ 64)

/-- The plain hash functions. -/
def plain : Alg → Bool
  | .sha1 | .sha256 | .sha384 | .sha512 | .sha512_256 | .ripemd160 => true
  | _ => false

/-- The length of an `n`-byte message with its padding: `n`, one byte and the `L`-byte length field,
rounded up to complete blocks of `B` bytes. -/
def paddedTo (B L n : Nat) : Nat := (n + 1 + L + (B - 1)) / B * B

end Chf.Spec
