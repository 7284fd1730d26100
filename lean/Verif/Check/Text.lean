import Verif.Check.States
import Verif.Model.Text
import Verif.Source.Cmp
import Verif.Source.Lib

/-!
# Executable instances of the theorems about the translated text

As `Verif.Check.Instances`, for C67 - C70.  `tools/mutate_rust.py` evaluates them on translations of
edited copies of `/repo/src`.
-/

namespace Chf.Check
open Spec

def check_C67_sha1 (_ : Unit) : Bool :=
  forall2 cfgs lengths fun c n =>
    decide ((Source.Sha1.Hash.hash c (msg n)).map (·.f0) = .ok (sha1 (msg n)))

def check_C67_sha256 (_ : Unit) : Bool :=
  forall2 cfgs lengths fun c n =>
    decide ((Source.Sha256.Hash.hash c (msg n)).map (·.f0) = .ok (sha256 (msg n)))

def check_C67_sha384 (_ : Unit) : Bool :=
  forall2 cfgs lengths fun c n =>
    decide ((Source.Sha384.Hash.hash c (msg n)).map (·.f0) = .ok (sha384 (msg n)))

def check_C67_sha512 (_ : Unit) : Bool :=
  forall2 cfgs lengths fun c n =>
    decide ((Source.Sha512.Hash.hash c (msg n)).map (·.f0) = .ok (sha512 (msg n)))

def check_C67_sha512_256 (_ : Unit) : Bool :=
  forall2 cfgs lengths fun c n =>
    decide ((Source.Sha512_256.Hash.hash c (msg n)).map (·.f0) = .ok (sha512_256 (msg n)))

def check_C67_ripemd160 (_ : Unit) : Bool :=
  forall2 cfgs lengths fun c n =>
    decide ((Source.Ripemd160.Hash.hash c (msg n)).map (·.f0) = .ok (ripemd160 (msg n)))

def check_C67_siphash24 (_ : Unit) : Bool :=
  forall2 (.release32 :: cfgs) (List.range 42) fun c n =>
    decide ((Source.Siphash24.Hash.hash c (msg n)).map (·.f0) = .ok (leBytes 8 (siphash24 0 0 (msg n)).toNat))

def check_C67_siphash24_keys (_ : Unit) : Bool :=
  forall2 (.release32 :: cfgs) (List.range 42) fun c n => sipKeys.all fun k =>
    decide ((Source.Siphash24.Hash.hash_with_keys c k.1 k.2 (msg n)).map (·.f0) =
      .ok (leBytes 8 (siphash24 k.1 k.2 (msg n)).toNat) ∧
      Source.Siphash24.Hash.hash_to_u64_with_keys c k.1 k.2 (msg n) = .ok (siphash24 k.1 k.2 (msg n)))

def check_C67_engines (_ : Unit) : Bool :=
  forall2 engines chunkings fun x ds =>
    decide ((Source.engineOf x.1 x.2).hashByteChunks ds = .ok (x.2.hashSpec ds.flatten))

/-- The left-hand side of C67 for HMAC. -/
def hmacText (c : Cfg) (a : Alg) (key : List Byte) (ds : List (List Byte)) : Res (List Byte) := do
  let e ← Source.Hmac.Engine.new c (Source.engineOf c a) key
  let e ← (Source.engineOf c (.hmac a)).inputs e ds
  (Source.engineOf c (.hmac a)).finalize e

def check_C67_hmac (_ : Unit) : Bool :=
  forall2 [Cfg.debug64, .release64] algs fun c a => forall2 (msg 128 :: keys) inputs3 fun key ds =>
    decide (hmacText c a key ds = .ok (hmac a.hashSpec a.blockSize key ds.flatten))

def check_C68_programs (_ : Unit) : Bool :=
  forall2 cfgs programs fun c p => decide ((Source.text c).answers [] p = (logs c).answers [] p)

def check_C68_programs16 (_ : Unit) : Bool :=
  forall2 [debug16, release16, big16] programs16 fun c p =>
    decide ((Source.text c).answers [] p = (logs c).answers [] p)

def check_C68_model (_ : Unit) : Bool :=
  forall2 cfgs programs fun c p => decide ((Source.text c).answers [] p = (Impl.crate c).answers [] p)

def cfgs69 : List Cfg := [.debug64, .release64, { Cfg.debug64 with smallHash := true }, .release32]

def check_C69_const_hash (_ : Unit) : Bool :=
  forall2 cfgs69 (List.range 200) fun c n =>
    decide ((Source.Sha256.Hash.const_hash c (msg n)).map (·.f0) = .ok (sha256 (msg n)))

def check_C69_const_hash_hash (_ : Unit) : Bool :=
  forall2 cfgs69 lengths fun c n =>
    decide ((Source.Sha256.Hash.const_hash c (msg n)).map (·.f0) =
      (Source.Sha256.Hash.hash c (msg n)).map (·.f0))

def check_C69_hash_tag (_ : Unit) : Bool :=
  forall2 cfgs69 lengths fun c n =>
    decide ((Source.Sha256.Midstate.hash_tag c (msg n)).map (·.f0) = .ok (tagMidstate (msg n)))

def check_C69_bip340 (_ : Unit) : Bool :=
  forall2 cfgs69 lengths fun c n => lengths.all fun k =>
    decide ((Source.Sha256t.Hash.hash c (Source.bip340Tag c (msg n)) (msg k)).map (·.f0) =
      .ok (sha256 (sha256 (msg n) ++ sha256 (msg n) ++ msg k)))

/-- A result of `from_slice` as plain data. -/
def seeSlice {H : Type} (f : H → List Byte) : Res (Except Source.Lib.FromSliceError H) →
    Res (List Byte ⊕ Nat × Nat) :=
  Except.map fun
    | .ok h => .inl (f h)
    | .error e => .inr (e.expected, e.got)

/-- What it should be. -/
def wantSlice (len : Nat) (sl : List Byte) : Res (List Byte ⊕ Nat × Nat) :=
  .ok (if sl.length = len then .inl sl else .inr (len, sl.length))

def check_C70_from_slice (_ : Unit) : Bool :=
  forall2 cfgs (List.range 70) fun c n =>
    decide (seeSlice (·.f0) (Source.Sha1.Hash.from_slice c (msg n)) = wantSlice 20 (msg n)) &&
    decide (seeSlice (·.f0) (Source.Sha256.Hash.from_slice c (msg n)) = wantSlice 32 (msg n)) &&
    decide (seeSlice (·.f0) (Source.Sha384.Hash.from_slice c (msg n)) = wantSlice 48 (msg n)) &&
    decide (seeSlice (·.f0) (Source.Sha512.Hash.from_slice c (msg n)) = wantSlice 64 (msg n)) &&
    decide (seeSlice (·.f0) (Source.Sha512_256.Hash.from_slice c (msg n)) = wantSlice 32 (msg n)) &&
    decide (seeSlice (·.f0) (Source.Ripemd160.Hash.from_slice c (msg n)) = wantSlice 20 (msg n)) &&
    decide (seeSlice (·.f0) (Source.Siphash24.Hash.from_slice c (msg n)) = wantSlice 8 (msg n)) &&
    decide (seeSlice (·.f0) (Source.Sha256t.Hash.from_slice c ⟨.error .ub⟩ (msg n)) = wantSlice 32 (msg n)) &&
    decide (seeSlice (·.f0) (Source.Sha256.Midstate.from_slice c (msg n)) = wantSlice 32 (msg n))

def check_C70_errors (_ : Unit) : Bool :=
  decide ((Source.Lib.FromSliceError.new .debug64 3 32).expected_length .debug64 = 32 ∧
    (Source.Lib.FromSliceError.new .debug64 3 32).invalid_length .debug64 = 3)

def check_C70_fixed_time_eq (_ : Unit) : Bool :=
  forall2 cfgs (slices ++ [([], [1]), ([1, 2], [1]), (msg 40, msg 39), ([0, 0, 0x80], [0, 0, 0]),
      ([0x80], [0]), ([0], [1]), ([2], [0]), ([4], [0]), ([8], [0]),
      ([0x10], [0]), ([0x20], [0]), ([0x40], [0]), (msg 9, (msg 9).reverse)]) fun c x =>
    decide (Source.Cmp.fixed_time_eq c x.1 x.2 =
      if x.1.length = x.2.length then .ok (decide (x.1 = x.2)) else .error .assertion)

def check_C70_u64 (_ : Unit) : Bool :=
  forall2 cfgs [0, 1, 0x80, 0x0123456789abcdef, 0xffffffffffffffff] fun c x => decide (
    Source.Siphash24.Hash.as_u64 c (Source.Siphash24.Hash.from_u64 c x) = x ∧
    (Source.Siphash24.Hash.from_u64 c x).f0.length = 8 ∧
    (Source.Siphash24.Hash.from_u64 c (Source.Siphash24.Hash.as_u64 c ⟨msg 8⟩)).f0 = msg 8)

def textChecks : List (String × (Unit → Bool)) := [
  ("C68_programs16", check_C68_programs16),
  ("C67_sha1", check_C67_sha1),
  ("C67_sha256", check_C67_sha256),
  ("C67_sha384", check_C67_sha384),
  ("C67_sha512", check_C67_sha512),
  ("C67_sha512_256", check_C67_sha512_256),
  ("C67_ripemd160", check_C67_ripemd160),
  ("C67_siphash24", check_C67_siphash24),
  ("C67_siphash24_keys", check_C67_siphash24_keys),
  ("C67_engines", check_C67_engines),
  ("C67_hmac", check_C67_hmac),
  ("C68_programs", check_C68_programs),
  ("C68_model", check_C68_model),
  ("C69_const_hash", check_C69_const_hash),
  ("C69_const_hash_hash", check_C69_const_hash_hash),
  ("C69_hash_tag", check_C69_hash_tag),
  ("C69_bip340", check_C69_bip340),
  ("C70_from_slice", check_C70_from_slice),
  ("C70_errors", check_C70_errors),
  ("C70_fixed_time_eq", check_C70_fixed_time_eq),
  ("C70_u64", check_C70_u64)]

end Chf.Check
