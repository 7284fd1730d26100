import Verif.Check.Text
import Verif.Spec.Constants

/-!
# Executable instances of C103
-/

namespace Chf.Check
open Spec

/-- The integer part of `2^s` times the `k`-th root of `n`, bit by bit, for roots below 32. -/
def rootOf (k s n : Nat) : Nat :=
  (List.range (s + 5)).reverse.foldl (fun y i =>
    if (y + 2 ^ i) ^ k ≤ n * 2 ^ (k * s) then y + 2 ^ i else y) 0

/-- The first `w` bits of the fractional parts. -/
def fracsOf (k w : Nat) (ns : List Nat) : List (BitVec w) := ns.map fun n => BitVec.ofNat w (rootOf k w n)

/-- Two states. -/
def states103 (w : Nat) : List (Arr8 (BitVec w)) :=
  [⟨0, 1, 2, 3, 4, 5, 6, 7⟩, ⟨-1, -2, -3, -5, -8, -13, -21, -34⟩]

/-- Two states. -/
def fives103 : List (Arr5 (BitVec 32)) := [⟨0, 1, 2, 3, 4⟩, ⟨-1, -2, -3, -5, -8⟩]

def check_C103_sha256 (_ : Unit) : Bool :=
  let K := fracsOf 3 32 (primes80.take 64)
  forall2 cfgs (states103 32) fun c h =>
    decide ((Source.Sha256.Engine.default c).h = fracsOf 2 32 (primes80.take 8)) &&
    decide ((Source.Sha256.Engine.process_block c ⟨msg 64, h.toList, 7⟩).map
      (fun e => (e.buffer, e.h, e.length)) =
        .ok (msg 64, ({ sha256Fns with K := K }.compress h (msg 64)).toList, 7))

def check_C103_sha512 (_ : Unit) : Bool :=
  let K := fracsOf 3 64 primes80
  forall2 cfgs (states103 64) fun c h =>
    decide ((Source.Sha512.Engine.default c).h = fracsOf 2 64 (primes80.take 8)) &&
    decide ((Source.Sha384.Engine.default c).f0.h = fracsOf 2 64 ((primes80.drop 8).take 8)) &&
    decide ((Source.Sha512.Engine.process_block c ⟨h.toList, 7, msg 128⟩).map
      (fun e => (e.h, e.length, e.buffer)) =
        .ok (({ sha512Fns with K := K }.compress h (msg 128)).toList, 7, msg 128))

def check_C103_sha1 (_ : Unit) : Bool :=
  forall2 cfgs fives103 fun c h =>
    decide ((Source.Sha1.Engine.process_block c ⟨msg 64, h.toList, 7⟩).map
      (fun e => (e.buffer, e.h, e.length)) = .ok (msg 64, (compress1 h (msg 64)).toList, 7))

def check_C103_ripemd160 (_ : Unit) : Bool :=
  forall2 cfgs fives103 fun c h =>
    decide ((Source.Ripemd160.Engine.process_block c ⟨msg 64, h.toList, 7⟩).map
      (fun e => (e.buffer, e.h, e.length)) = .ok (msg 64, (compressRmd h (msg 64)).toList, 7))

def check_C103_initial (_ : Unit) : Bool :=
  forall2 cfgs sipKeys fun c k =>
    decide ((Source.Sha1.Engine.default c).h = leWords 32 [0x01, 0x23, 0x45, 0x67, 0x89, 0xab, 0xcd, 0xef,
      0xfe, 0xdc, 0xba, 0x98, 0x76, 0x54, 0x32, 0x10, 0xf0, 0xe1, 0xd2, 0xc3]) &&
    decide ((Source.Ripemd160.Engine.default c).h = (Source.Sha1.Engine.default c).h) &&
    (let s := (Source.Siphash24.Engine.with_keys c k.1 k.2).state
    decide ([s.v0 ^^^ k.1, s.v1 ^^^ k.2, s.v2 ^^^ k.1, s.v3 ^^^ k.2] =
        beWords 64 ("somepseudorandomlygeneratedbytes".toUTF8.toList.map (·.toBitVec))))

def check_C103_from (_ : Unit) : Bool :=
  forall2 cfgs lengths fun c n => (states103 64).all fun iv =>
    decide ((Source.Sha512.Engine.input c { Source.Sha512.Engine.default c with h := iv.toList } (msg n) >>=
      Source.Sha512.Engine.finalize c) = .ok (sha512From iv (msg n)))

def check_C103_sha512_256 (_ : Unit) : Bool :=
  cfgs.all fun c => decide ((Source.Sha512.Engine.input c
        { Source.Sha512.Engine.default c with
          h := (Source.Sha512.Engine.default c).h.map (· ^^^ 0xa5a5a5a5a5a5a5a5) }
        ("SHA-512/256".toUTF8.toList.map (·.toBitVec)) >>= Source.Sha512.Engine.finalize c).map
          (beWords 64) = .ok (Source.Sha512_256.Engine.default c).f0.h)

def textConstantsChecks : List (String × (Unit → Bool)) := [
  ("C103_sha256", check_C103_sha256),
  ("C103_sha512", check_C103_sha512),
  ("C103_sha1", check_C103_sha1),
  ("C103_ripemd160", check_C103_ripemd160),
  ("C103_initial", check_C103_initial),
  ("C103_from", check_C103_from),
  ("C103_sha512_256", check_C103_sha512_256)]

end Chf.Check
