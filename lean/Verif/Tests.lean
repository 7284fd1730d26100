import Verif.Model.Hex
import Verif.Model.Sha256Const
import Verif.Spec.AlgLog

/-!
# Tests

Nothing here is a proof of a property.  The test vectors of `/repo/src` are evaluated by the kernel,
on the specifications and on the model, as a check that both were written down correctly.
-/

namespace Chf.Tests

/-- The bytes that a string of hex digits stands for. -/
def hex (s : String) : List Byte :=
  match Hex.decode (ascii s) 0 with
  | .ok bs => bs
  | .error _ => []

def dog : List Byte := ascii "The quick brown fox jumps over the lazy dog"
def cog : List Byte := ascii "The quick brown fox jumps over the lazy cog"
def opq : List Byte := ascii "abcdbcdecdefdefgefghfghighijhijkijkljklmklmnlmnomnopnopq"
def olsen : List Byte :=
  ascii "There is no reason for any individual to have a computer in their home. -Ken Olsen, 1977"

/-! ## The specifications -/

-- `sha1.rs` tests
example : Spec.sha1 [] = hex "da39a3ee5e6b4b0d3255bfef95601890afd80709" := by decide +kernel
example : Spec.sha1 dog = hex "2fd4e1c67a2d28fced849ee1bb76e7391b93eb12" := by decide +kernel
example : Spec.sha1 cog = hex "de9f2c7fd25e1b3afad3e85a0bd17d9b100db4b3" := by decide +kernel

-- `sha256.rs` tests
example : Spec.sha256 [] =
    hex "e3b0c44298fc1c149afbf4c8996fb92427ae41e4649b934ca495991b7852b855" := by decide +kernel
example : Spec.sha256 dog =
    hex "d7a8fbb307d7809469ca9abcb0082e4f8d5651e46d3cdb762d02d0bf37c9e592" := by decide +kernel

-- `sha384.rs` tests
example : Spec.sha384 [] =
    hex "38b060a751ac96384cd9327eb1b1e36a21fdb71114be07434c0cc7bf63f6e1da274edebfe76f65fbd51ad2f14898b95b" := by
  decide +kernel
example : Spec.sha384 olsen =
    hex "722d10c5de371ec0c8c4b5247ac8a5f1d240d68c73f8da13d8b25f0166d6f309bf9561979a111a0049405771d201941a" := by
  decide +kernel

-- `sha512.rs` tests
example : Spec.sha512 [] =
    hex "cf83e1357eefb8bdf1542850d66d8007d620e4050b5715dc83f4a921d36ce9ce47d0d13c5d85f2b0ff8318d2877eec2f63b931bd47417a81a538327af927da3e" := by
  decide +kernel
example : Spec.sha512 dog =
    hex "07e547d9586f6a73f73fbac0435ed76951218fb7d0c8d788a309d785436bbb642e93a252a954f23912547d1e8a3b5ed6e1bfd7097821233fa0538f3db854fee6" := by
  decide +kernel

-- `sha512_256.rs` tests
example : Spec.sha512_256 [] =
    hex "c672b8d1ef56ed28ab87c3622c5114069bdd3ad7b8f9737498d0c01ecef0967a" := by decide +kernel
example : Spec.sha512_256 olsen =
    hex "b5baf747c307f98849ec881cf0d48605ae4edd386372aea9b26e71db517e650b" := by decide +kernel

-- `ripemd160.rs` tests
example : Spec.ripemd160 (ascii "abc") = hex "8eb208f7e05d987a9b044a8e98c6b087f15a0bfc" := by
  decide +kernel
example : Spec.ripemd160 opq = hex "12a053384a9c0c88e405a06c27dcf49ada62eb2b" := by decide +kernel

-- `siphash24.rs` tests: lengths 0, 1, 8, 15, 63
def sipMsg (n : Nat) : List Byte := (List.range n).map (BitVec.ofNat 8)
def sipTest (n : Nat) : List Byte :=
  Spec.leBytes 8 (Spec.siphash24 0x0706050403020100 0x0f0e0d0c0b0a0908 (sipMsg n)).toNat
example : sipTest 0 = hex "310e0edd47db6f72" := by decide +kernel
example : sipTest 1 = hex "fd67dc93c539f874" := by decide +kernel
example : sipTest 8 = hex "6224939a79f5f593" := by decide +kernel
example : sipTest 15 = hex "e545be4961ca29a1" := by decide +kernel
example : sipTest 63 = hex "724506eb4c328a95" := by decide +kernel

-- `hmac.rs` tests: a short key, and one longer than a block
example : Spec.hmac Spec.sha256 64 (ascii "Jefe") (ascii "what do ya want for nothing?") =
    hex "5bdcc146bf60754e6a042426089575c75a003f089d2739839dec58b964ec3843" := by decide +kernel
example : Spec.hmac Spec.sha256 64 (List.replicate 131 0xaa)
    (ascii "Test Using Larger Than Block-Size Key - Hash Key First") =
    hex "60e431591ee0b67f0d8a26aacbf5b77f8e0bc6213728c5140546040f0ee37f54" := by decide +kernel

/-! ## The model

In a debug build without SHA extensions, a release build with them, a `small-hash` build, and on a
big-endian target. -/

def small : Cfg := { Cfg.debug64 with smallHash := true }
def bigEndian : Cfg := { Cfg.release32 with bigEndian := true }

example : (Sha1.engine .debug64).hash dog =
    .ok (hex "2fd4e1c67a2d28fced849ee1bb76e7391b93eb12") := by decide +kernel
example : (Sha256.engine .debug64).hash dog =
    .ok (hex "d7a8fbb307d7809469ca9abcb0082e4f8d5651e46d3cdb762d02d0bf37c9e592") := by decide +kernel
example : (Sha256.engine .release64).hash dog =
    .ok (hex "d7a8fbb307d7809469ca9abcb0082e4f8d5651e46d3cdb762d02d0bf37c9e592") := by decide +kernel
example : (Sha256.engine small).hash dog =
    .ok (hex "d7a8fbb307d7809469ca9abcb0082e4f8d5651e46d3cdb762d02d0bf37c9e592") := by decide +kernel
example : Sha256.constHash .debug64 dog =
    .ok (hex "d7a8fbb307d7809469ca9abcb0082e4f8d5651e46d3cdb762d02d0bf37c9e592") := by decide +kernel
example : (Sha512.engine .debug64).hash dog =
    .ok (hex "07e547d9586f6a73f73fbac0435ed76951218fb7d0c8d788a309d785436bbb642e93a252a954f23912547d1e8a3b5ed6e1bfd7097821233fa0538f3db854fee6") := by
  decide +kernel
example : (Sha512_256.engine small).hash olsen =
    .ok (hex "b5baf747c307f98849ec881cf0d48605ae4edd386372aea9b26e71db517e650b") := by decide +kernel
example : (Ripemd160.engine .debug64).hash opq =
    .ok (hex "12a053384a9c0c88e405a06c27dcf49ada62eb2b") := by decide +kernel
example : (Ripemd160.engine small).hash opq =
    .ok (hex "12a053384a9c0c88e405a06c27dcf49ada62eb2b") := by decide +kernel
example : Siphash24.hashWithKeys .debug64 0x0706050403020100 0x0f0e0d0c0b0a0908 (sipMsg 63) =
    .ok (hex "724506eb4c328a95") := by decide +kernel
example : Siphash24.hashWithKeys bigEndian 0x0706050403020100 0x0f0e0d0c0b0a0908 (sipMsg 15) =
    .ok (hex "e545be4961ca29a1") := by decide +kernel

end Chf.Tests
