import Verif.Model.Alg
import Verif.Model.HashType
import Verif.Model.Sha256Const

/-!
# Hash values made by hashing

The associated functions of the hash types that run an engine: `Hash::hash`, `Hash::engine` and
`Hash::from_engine` of `hash_type!` (`/repo/src/internal_macros.rs` 158-173), of `sha256t::Hash`
(`/repo/src/sha256t.rs` 65-80) and of `hmac::Hash` (`/repo/src/hmac.rs` 23-39), `const_hash`
(`/repo/src/sha256.rs` 120), and the SipHash ones (`/repo/src/siphash24.rs` 209-213).  Also
`core::hash::Hash` for hash values.
-/

namespace Chf
open HashTy

/-- The `N` of `type Digest = [u8; N]`: `sha1.rs` 35, `sha256.rs` 45, `sha384.rs` 26, `sha512.rs` 67,
`sha512_256.rs` 36, `ripemd160.rs` 35, `siphash24.rs` 124, `sha256t.rs` 19, `hmac.rs` 243. -/
def Alg.digestLen : Alg → Nat
  | .sha1 => 20
  | .sha256 => 32
  | .sha384 => 48
  | .sha512 => 64
  | .sha512_256 => 32
  | .ripemd160 => 20
  | .siphash24 => 8
  | .sha256t _ _ _ => 32
  | .hmac a => a.digestLen

/-- The hash type of the module of an engine.  `hmac::Hash<N>` goes with every engine whose digest is
`[u8; N]`, in particular with `hmac::Engine`. -/
def Alg.hashTy : Alg → HashTy
  | .sha1 => .sha1
  | .sha256 => .sha256
  | .sha384 => .sha384
  | .sha512 => .sha512
  | .sha512_256 => .sha512_256
  | .ripemd160 => .ripemd160
  | .siphash24 => .siphash24
  | .sha256t _ _ _ => .sha256t
  | .hmac a => .hmac a.digestLen

/-- How that type is implemented. -/
abbrev Alg.hashSrc (a : Alg) : Source := a.hashTy.source

namespace HashApi

/-- `Self(digest)`.  In Rust the digest is an array of the right length by typing; here a list of any
other length is a fault. -/
def wrap (s : Source) (digest : List Byte) : Res (Hash s) := do
  let bytes ← copyNew s.len digest
  pure ⟨bytes⟩

/-- `Hash::engine()`: `Engine::new()` in `internal_macros.rs` 165, `T::engine()` in `sha256t.rs` 72,
`E::new()` in `hmac.rs` 23-28. -/
def engine (c : Cfg) : (a : Alg) → Res (a.engine c).State
  | .sha256t mid len data => (Sha256t.Tag.ofMidstate c mid len data).engine
  | a => (a.engine c).new

/-- `Hash::from_engine(engine)`: `internal_macros.rs` 170-173, `sha256t.rs` 77-80, `hmac.rs` 33-39. -/
def fromEngine (c : Cfg) (a : Alg) (e : (a.engine c).State) : Res (Hash a.hashSrc) := do
  let digest ← (a.engine c).finalize e
  wrap _ digest

/-- `Hash::hash(bytes)`: `internal_macros.rs` 158-162, `sha256t.rs` 65-69.  `hmac::Hash` has no such
function; for it this is what a caller writes instead. -/
def hash (c : Cfg) (a : Alg) (bytes : List Byte) : Res (Hash a.hashSrc) := do
  let e ← engine c a
  let e ← (a.engine c).input e bytes
  let digest ← (a.engine c).finalize e
  wrap _ digest

/-- `sha256::Hash::const_hash(bytes)`, `sha256.rs` 120. -/
def constHash (c : Cfg) (bytes : List Byte) : Res (Hash Alg.sha256.hashSrc) := do
  let m ← Sha256.constHash c bytes
  wrap _ m

/-- `siphash24::Hash::hash_with_keys(k0, k1, data)`, `siphash24.rs` 209-213. -/
def hashWithKeys (c : Cfg) (k0 k1 : BitVec 64) (data : List Byte) : Res (Hash Alg.siphash24.hashSrc) := do
  let digest ← Siphash24.hashWithKeys c k0 k1 data
  wrap _ digest

/-! ## `core::hash::Hash` -/

/-- `core::hash::Hasher`, as far as arrays of bytes use it. -/
structure Hasher (S : Type) where
  /-- `write`. -/
  write : S → List Byte → S
  /-- `write_length_prefix`, which is `write_usize` unless overridden. -/
  writeLen : S → Nat → S

/-- `Hash::hash` of a slice of bytes in `core`: the length, then the bytes in one `write`.  Arrays hash
as slices. -/
def hashSlice {S : Type} (H : Hasher S) (bs : List Byte) (st : S) : S :=
  H.write (H.writeLen st bs.length) bs

/-- `Hash::hash` as `#[derive(Hash)]` writes it: the fields in order. -/
def derivedFeed {S : Type} (H : Hasher S) (fields : List (List Byte)) (st : S) : S :=
  fields.foldl (fun st f => hashSlice H f st) st

/-- `core::hash::Hash` for hash values: derived in `internal_macros.rs` 144, `hmac.rs` 18 and
`sha256.rs` 124, and by hand in `sha256t.rs` 165-167. -/
def feed {S : Type} (H : Hasher S) : {s : Source} → Hash s → S → S
  | .tagged, h, st => hashSlice H h.inner.val st
  | _, h, st => derivedFeed H (fields h) st

end HashApi
end Chf
