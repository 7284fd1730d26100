import Verif.Check.Text
import Verif.Spec.Shape
import Verif.Model.TextSeen
import Verif.Seen.Cmp
import Verif.Seen.Lib

/-!
# Instances of C84 and C85
-/

namespace Chf.Check
open Chf Spec

/-- Pairs of slices, of equal and of different lengths. -/
def slicePairs : List (List Byte × List Byte) :=
  [([], []), ([1], [1]), ([1], [2]), ([1, 2, 3], [1, 2, 3]), ([1, 2, 3], [4, 2, 3]), ([1, 2, 3], [1, 2, 4]),
   (msg 32, msg 32), (msg 32, List.replicate 32 255), ([1, 2], [1]), ([], [7])]

def check_C84_computes (_ : Unit) : Bool :=
  forall2 cfgs slicePairs fun c p =>
    decide ((Seen.Cmp.fixed_time_eq c p.1 p.2).res = Source.Cmp.fixed_time_eq c p.1 p.2)

def check_C84_constant_time (_ : Unit) : Bool :=
  forall2 cfgs slicePairs fun c p => decide ((Seen.Cmp.fixed_time_eq c p.1 p.2).seen =
    (Seen.Cmp.fixed_time_eq c (blankBytes p.1) (blankBytes p.2)).seen)

def check_C84_reads (_ : Unit) : Bool :=
  forall2 cfgs slicePairs fun c p => p.1.length != p.2.length ||
    decide ((Seen.Cmp.fixed_time_eq c p.1 p.2).seen = .span 0 p.1.length :: .span 0 p.1.length ::
      ((List.range p.1.length).flatMap (fun i => [.branch true, .at i, .at i]) ++ [.branch false]))

def check_C85_programs (_ : Unit) : Bool :=
  forall2 cfgs programs fun c p =>
    decide (Source.programSeen c [] p = Source.programSeen c [] (p.map Call.blank))

/-- Types of engines. -/
def seenAlgs : List Alg :=
  [.sha1, .sha256, .sha384, .sha512, .sha512_256, .ripemd160, .siphash24, .sha256t (msg 32) 64 (msg 5),
   .hmac .sha1, .hmac (.hmac .sha256)]

def check_C85_hash (_ : Unit) : Bool :=
  forall2 cfgs seenAlgs fun c a => [0, 3, 8, 64, 130].all fun n =>
    let r := Seen.Lib.HashEngine.hash c (Source.engineOf c a) (Source.seenOf c a) (msg n)
    decide (r.seen = (Seen.Lib.HashEngine.hash c (Source.engineOf c a) (Source.seenOf c a) (blankBytes (msg n))).seen) &&
    decide (r.res = Source.Lib.HashEngine.hash c (Source.engineOf c a) (msg n))

def check_C85_hash_chunks (_ : Unit) : Bool :=
  forall2 cfgs seenAlgs fun c a => [[], [[]], [msg 3, msg 0, msg 70]].all fun ds =>
    let r := Seen.Lib.HashEngine.hash_byte_chunks c (Source.engineOf c a) (Source.seenOf c a) ds
    decide (r.seen = (Seen.Lib.HashEngine.hash_byte_chunks c (Source.engineOf c a) (Source.seenOf c a)
      (ds.map blankBytes)).seen) &&
    decide (r.res = Source.Lib.HashEngine.hash_byte_chunks c (Source.engineOf c a) ds)

def check_C85_const_hash (_ : Unit) : Bool :=
  forall2 cfgs [(0, true), (64, false), (64, true), (130, true), (3, false)] fun c x =>
    let r := Seen.Sha256.Midstate.const_hash c (msg x.1) x.2
    decide (r.seen = (Seen.Sha256.Midstate.const_hash c (blankBytes (msg x.1)) x.2).seen) &&
    decide (r.res.map (·.f0) = (Source.Sha256.Midstate.const_hash c (msg x.1) x.2).map (·.f0))

def check_C85_hash_tag (_ : Unit) : Bool :=
  forall2 cfgs [0, 3, 64, 130] fun c n =>
    let r := Seen.Sha256.Midstate.hash_tag c (msg n)
    decide (r.seen = (Seen.Sha256.Midstate.hash_tag c (blankBytes (msg n))).seen) &&
    decide (r.res.map (·.f0) = (Source.Sha256.Midstate.hash_tag c (msg n)).map (·.f0))

def check_C85_siphash (_ : Unit) : Bool :=
  forall2 cfgs [0, 1, 7, 8, 9, 23, 70] fun c n =>
    let r := Seen.Siphash24.Hash.hash_with_keys c 11#64 0xff00ff00ff00ff#64 (msg n)
    let s := Seen.Siphash24.Hash.hash_to_u64_with_keys c 11#64 0xff00ff00ff00ff#64 (msg n)
    decide (r.seen = (Seen.Siphash24.Hash.hash_with_keys c 0#64 0#64 (blankBytes (msg n))).seen) &&
    decide (r.res.map (·.f0) = (Source.Siphash24.Hash.hash_with_keys c 11#64 0xff00ff00ff00ff#64 (msg n)).map (·.f0)) &&
    decide (s.seen = (Seen.Siphash24.Hash.hash_to_u64_with_keys c 0#64 0#64 (blankBytes (msg n))).seen) &&
    decide (s.res = Source.Siphash24.Hash.hash_to_u64_with_keys c 11#64 0xff00ff00ff00ff#64 (msg n))

def textSeenChecks : List (String × (Unit → Bool)) :=
  [("C84_computes", check_C84_computes),
   ("C84_constant_time", check_C84_constant_time),
   ("C84_reads", check_C84_reads),
   ("C85_siphash", check_C85_siphash),
   ("C85_hash", check_C85_hash),
   ("C85_hash_chunks", check_C85_hash_chunks),
   ("C85_const_hash", check_C85_const_hash),
   ("C85_hash_tag", check_C85_hash_tag),
   ("C85_programs", check_C85_programs)]

end Chf.Check
