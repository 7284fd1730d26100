import Verif.Model.Trace
import Verif.Model.Write
import Verif.Spec.Programs
import Verif.Spec.Constants
import Verif.Model.Bip340
import Verif.Model.Cmp
import Verif.Spec.AlgLog

/-!
# Executable instances of property theorems

Each check evaluates the statement of one property theorem on some inputs.  This file imports the
model and the specifications but no proofs, so that it still runs when the model has been edited and
proofs no longer go through.  `Verif.Check.Sound` derives every check from the theorem it is named
after: a check that gives `false` on an edited model shows that the theorem is false of that model.

These are tests of the theorems, not proofs.
-/

namespace Chf.Check
open Spec

/-- A message of `n` bytes, all blocks different. -/
def msg (n : Nat) : List Byte := (List.range n).map fun i => BitVec.ofNat 8 (7 * i + i / 64 + 3)

/-- Lengths around the block and padding boundaries of both block sizes. -/
def lengths : List Nat := [0, 1, 3, 4, 7, 8, 9, 14, 55, 56, 63, 64, 65, 111, 112, 119, 120, 127, 128, 129, 200]

/-- Ways to cut messages into slices. -/
def chunkings : List (List (List Byte)) :=
  lengths.map (fun n => [msg n]) ++
  [[msg 1, msg 63, msg 70], [[], msg 60, [], msg 9], [msg 3, msg 5, msg 8, msg 200], [msg 130, msg 62]]

/-- 64-bit builds: debug, release with SHA extensions, `small-hash`, big-endian. -/
def cfgs : List Cfg :=
  [.debug64, .release64, { Cfg.debug64 with smallHash := true },
    { Cfg.release64 with shaNi := false, bigEndian := true }]

def forall2 {α β : Type} (xs : List α) (ys : List β) (p : α → β → Bool) : Bool :=
  xs.all fun x => ys.all (p x)

/-- The conjunction in C01 - C06. -/
def conforms (E : Cfg → HashEngine) (spec : List Byte → List Byte) : Bool :=
  forall2 cfgs chunkings fun c ds =>
    decide ((E c).hashByteChunks ds = .ok (spec ds.flatten) ∧
      (E c).hash ds.flatten = .ok (spec ds.flatten))

def sipKeys : List (BitVec 64 × BitVec 64) :=
  [(0, 0), (0x0706050403020100, 0x0f0e0d0c0b0a0908)]

def keys : List (List Byte) := [[], msg 20, msg 63, msg 64, msg 65, msg 131]

/-- The left-hand side of C23. -/
def hmacRun (c : Cfg) (E : HashEngine) (key m : List Byte) : Res (List Byte) := do
  let e ← Hmac.new c E key
  let e ← (Hmac.engine c E).input e m
  (Hmac.engine c E).finalize e

def slices : List (List Byte × List Byte) :=
  [([], []), ([1], [1]), ([1], [2]), ([1, 2, 3], [1, 2, 3]), ([1, 2, 3], [1, 2, 4]),
    ([9, 2, 3], [1, 2, 3]), ([1, 8, 3], [1, 2, 3]), (msg 40, msg 40), ([1, 2], [2, 1]), ([1], [0]), ([2], [0]), ([4], [0]), ([8], [0]),
    ([16], [0]), ([32], [0]), ([64], [0]), ([128], [0])]

/-- Engine types, with and without a tag or a key. -/
def algs : List Alg :=
  [.sha1, .sha256, .sha384, .sha512, .sha512_256, .ripemd160, .siphash24,
    .sha256t (msg 32) 64 (msg 5), .hmac .sha256, .hmac .sha512, .hmac (.hmac .sha1)]

def engines : List (Cfg × Alg) := cfgs.flatMap fun c => algs.map (c, ·)

/-- Pairs of ways to cut the same message. -/
def recuts : List (List (List Byte) × List (List Byte)) :=
  [([msg 0], []), ([[1], [2, 3]], [[1, 2, 3]]), ([msg 200], (msg 200).map ([·])),
    ([msg 64, msg 64, msg 3], [msg 64 ++ msg 64 ++ msg 3]),
    ([msg 60, msg 9, [], msg 70], [msg 60 ++ msg 9, msg 70]),
    ([msg 7, msg 1, msg 130], [msg 7 ++ msg 1 ++ msg 130])]

def inputs3 : List (List (List Byte)) := [[], [msg 1], [msg 64], [msg 60, msg 9, msg 130], [msg 62],
  [[0, 1], List.replicate 58 0], [List.replicate 120 0]]

/-- The counter, if nothing panicked. -/
def counted : Option (Res (Nat × Res MidVal × Res (List Byte))) → Option Nat
  | some (.ok (n, _, _)) => some n
  | _ => none

/-- Nothing panicked. -/
def fine : Option (Res (Nat × Res MidVal × Res (List Byte))) → Bool
  | some (.ok (_, .ok _, .ok _)) => true
  | _ => false

/-- The length of the digest. -/
def digestLen : Option (Res (Nat × Res MidVal × Res (List Byte))) → Option Nat
  | some (.ok (_, _, .ok d)) => some d.length
  | _ => none

/-- Input `ds`, take the midstate, resume from it, and compare what `more` does to both engines. -/
def resumesFrom (c : Cfg) (a : Alg) (start : Res (a.engine c).State) (more : List (List Byte)) : Bool :=
  let E := a.engine c
  let see (e : E.State) := (E.observe e more).map fun x => (x.1, x.2.1.map (a.showMid c), x.2.2)
  match start with
  | .error _ => false
  | .ok e =>
    match E.midstate e with
    | .error _ => false
    | .ok μ =>
      match E.fromMidstate μ (E.nBytesHashed e) with
      | .error _ => false
      | .ok e' => decide (see e = see e')

def resumes (c : Cfg) (a : Alg) (ds more : List (List Byte)) : Bool :=
  resumesFrom c a ((a.engine c).new >>= ((a.engine c).inputs · ds)) more

/-- Message lengths that are multiples of 64, and what is input afterwards. -/
def aligned : List (List (List Byte) × List (List Byte)) :=
  [([], []), ([msg 64], [msg 5]), ([msg 60, msg 68], [msg 64, msg 70]), ([msg 192], [])]

/-- Midstates of every type, as values. -/
def midOf : Alg → MidVal
  | .sha1 | .ripemd160 => .bytes (msg 20)
  | .sha256 | .sha256t _ _ _ => .bytes (msg 32)
  | .sha384 | .sha512 | .sha512_256 => .bytes (msg 64)
  | .siphash24 => .sip ⟨1, 2, 3, 4⟩
  | .hmac a => .pair (midOf a) (midOf a)

/-- Programs for C37: engines of every type made in every way, also with large counters. -/
def program (a : Alg) : List Call :=
  [.make a .new, .make a .default, .input 0 (msg 70), .clone 0, .input 0 (msg 60), .count 0, .count 2,
    .midstate 0, .midstate 2, .finalize 0, .input 0 [1], .finalize 2, .finalize 1,
    .make a (.resume (midOf a) 128), .make a (.resume (midOf a) 65),
    .make a (.resume (midOf a) (2 ^ 32 + 128)), .make a (.resume (midOf a) (2 ^ 61)),
    .input 3 (msg 130), .input 4 (msg 3), .input 5 (msg 9), .count 3, .count 4, .midstate 3,
    .finalize 3, .finalize 4, .finalize 5]

def programs : List (List Call) :=
  algs.map program ++
  [[.make .siphash24 (.sipKeys 5 6), .input 0 (msg 19), .count 0, .midstate 0, .finalize 0],
    [.make (.hmac .sha256) (.hmacKey (msg 65)), .input 0 (msg 70), .count 0, .midstate 0, .finalize 0],
    [.make (.hmac .sha512) (.hmacKey (msg 20)), .input 0 (msg 70), .count 0, .midstate 0, .finalize 0],
    [.make .sha256 .new, .input 0 (msg 60), .finalize 0],
    [.make .sha512 .new, .input 0 (msg 120), .finalize 0]]

/-- The blocks compressed on a message, if the engine compresses blocks. -/
def tracedBlocks (c : Cfg) (a : Alg) (ds : List (List Byte)) : Option (List (List Byte)) :=
  match a.blockHash c with
  | none => none
  | some X =>
    match X.trace c ds with
    | .ok (_, bs) => some bs
    | .error _ => none

def blockAlgs : List Alg := [.sha1, .sha256, .sha384, .sha512, .sha512_256, .ripemd160]

/-- `new`, inputs, `midstate`. -/
def midAfter (E : HashEngine) (ds : List (List Byte)) : Res E.Midstate := do
  let e ← E.new
  let e ← E.inputs e ds
  E.midstate e

def isOk {α : Type} : Res α → Bool
  | .ok _ => true
  | .error _ => false

/-- Engines whose `from_midstate` always panics, those where it checks the length, and those where it
succeeds. -/
def wide : List Alg := [.sha384, .sha512, .sha512_256, .hmac .sha512]
def blocky : List Alg := algs.filter fun a => match a with | .siphash24 => false | _ => true
def narrow : List Alg := [.sha1, .sha256, .ripemd160, .sha256t (msg 32) 64 (msg 5), .hmac .sha256]

def bigLengths : List Nat := [0, 128, 64, 1, 2 ^ 40, 2 ^ 40 + 129]
def bigLengths64 : List Nat := [0, 64, 128, 2 ^ 40, 2 ^ 63]
def oddLengths : List Nat := [1, 8, 63, 65, 127, 129, 2 ^ 40 + 32]

/-- Engines for HMAC. -/
def engines0 : List (Cfg × Alg) :=
  cfgs.flatMap fun c => [Alg.sha1, .sha256, .sha512, .ripemd160].map (c, ·)

/-- Write the buffers, and compare the digest and what the calls returned. -/
def writes (c : Cfg) (a : Alg) (bufs : List (List Byte)) : Bool :=
  match a.writer c with
  | none => true
  | some w =>
    let ok : Writer.Answer → Bool
      | .done (.ok ()) => true
      | _ => false
    match (do
      let e ← (a.engine c).new
      let (e, rs) ← w.steps e (bufs.map .writeAll)
      let d ← (a.engine c).finalize e
      pure (rs, d)), (a.engine c).hash bufs.flatten with
    | .ok (rs, d), .ok d' => rs.length == bufs.length && rs.all ok && d == d'
    | .error f, .error f' => f == f'
    | _, _ => false

def scaledRoot (k s n y : Nat) : Bool :=
  y ^ k ≤ n * 2 ^ (k * s) && n * 2 ^ (k * s) < (y + 1) ^ k

def fracRoots (k w : Nat) (ns : List Nat) (xs : List (BitVec w)) : Bool :=
  ns.length == xs.length && (ns.zip xs).all fun p => fracRoot k w p.1 p.2

def check_C01_sha256 (_ : Unit) : Bool :=
  conforms Sha256.engine sha256

def check_C02_sha1 (_ : Unit) : Bool :=
  conforms Sha1.engine sha1

def check_C03_sha512_partial (_ : Unit) : Bool :=
  conforms Sha512.engine sha512

def check_C04_sha384 (_ : Unit) : Bool :=
  conforms Sha384.engine sha384

def check_C05_sha512_256 (_ : Unit) : Bool :=
  conforms Sha512_256.engine sha512_256

def check_C06_ripemd160 (_ : Unit) : Bool :=
  conforms Ripemd160.engine ripemd160

def check_C07_hash_with_keys (_ : Unit) : Bool :=
  forall2 cfgs (sipKeys.flatMap fun k => lengths.map (k, ·))
    fun c x => decide (Siphash24.hashWithKeys c x.1.1 x.1.2 (msg x.2) =
      .ok (leBytes 8 (siphash24 x.1.1 x.1.2 (msg x.2)).toNat))

def check_C07_siphash24 (_ : Unit) : Bool :=
  forall2 cfgs (sipKeys.flatMap fun k => chunkings.map (k, ·)) fun c x =>
    decide (((Siphash24.engine c).inputs (Siphash24.withKeys x.1.1 x.1.2) x.2 >>=
      (Siphash24.engine c).finalize) = .ok (leBytes 8 (siphash24 x.1.1 x.1.2 x.2.flatten).toNat))

def check_C12_const_hash_sha256 (_ : Unit) : Bool :=
  forall2 cfgs lengths fun c n =>
    decide (Sha256.constHash c (msg n) = .ok (sha256 (msg n)))

def check_C13_hash_tag (_ : Unit) : Bool :=
  forall2 cfgs lengths fun c n =>
    decide (Sha256.hashTag c (msg n) = .ok (tagMidstate (msg n)))

def check_C23_hmac_sha256 (_ : Unit) : Bool :=
  forall2 cfgs (keys.flatMap fun k => [0, 9, 64].map (k, ·)) fun c x =>
    decide (hmacRun c (Sha256.engine c) x.1 (msg x.2) = .ok (hmac sha256 64 x.1 (msg x.2)))

def check_C25_equal_lengths (_ : Unit) : Bool :=
  slices.all fun x =>
    decide (Cmp.fixedTimeEq x.1 x.2 = .ok (decide (x.1 = x.2)))

def check_C34_hash_to_u64_spec (_ : Unit) : Bool :=
  forall2 cfgs (sipKeys.flatMap fun k => lengths.map (k, ·))
    fun c x => decide (Siphash24.hashToU64WithKeys c x.1.1 x.1.2 (msg x.2) =
      .ok (siphash24 x.1.1 x.1.2 (msg x.2)))

def check_C08_chunking (_ : Unit) : Bool :=
  forall2 engines recuts fun x r =>
    decide (x.2.run x.1 .new r.1 = x.2.run x.1 .new r.2)

def check_C08_hash_byte_chunks (_ : Unit) : Bool :=
  forall2 engines chunkings fun x ds =>
    decide ((x.2.engine x.1).hashByteChunks ds = (x.2.engine x.1).hash ds.flatten)

def check_C09_count (_ : Unit) : Bool :=
  forall2 engines inputs3 fun x ds =>
    decide (counted (x.2.run x.1 .new ds) = some (x.2.base + ds.flatten.length))

def check_C10_no_panic (_ : Unit) : Bool :=
  forall2 engines inputs3 fun x ds => fine (x.2.run x.1 .new ds)

def check_C11_digest_length (_ : Unit) : Bool :=
  forall2 engines inputs3 fun x ds =>
    decide (digestLen (x.2.run x.1 .new ds) = some x.2.outLen)

def check_C14_programs (_ : Unit) : Bool :=
  forall2 engines inputs3 fun x ds =>
    decide (x.2.run { x.1 with shaNi := true } .new ds = x.2.run { x.1 with shaNi := false } .new ds)

def check_C15_small_hash (_ : Unit) : Bool :=
  forall2 engines inputs3 fun x ds =>
    decide (x.2.run { x.1 with smallHash := true } .new ds =
      x.2.run { x.1 with smallHash := false } .new ds)

def check_C16_sha256_resume (_ : Unit) : Bool :=
  forall2 cfgs aligned fun c x => resumes c .sha256 x.1 x.2

def check_C17_sha1_resume (_ : Unit) : Bool :=
  forall2 cfgs aligned fun c x => resumes c .sha1 x.1 x.2

def check_C37_programs (_ : Unit) : Bool :=
  forall2 cfgs programs fun c p =>
    decide ((Impl.crate c).answers [] p = (logs c).answers [] p)

def check_C41_blocks (_ : Unit) : Bool :=
  forall2 (cfgs.flatMap fun c => blockAlgs.map (c, ·)) chunkings fun x ds =>
    decide (tracedBlocks x.1 x.2 ds = some (standardBlocks x.2 ds.flatten))

def check_C44_sha256_midstate (_ : Unit) : Bool :=
  forall2 cfgs chunkings fun c ds =>
    decide ((show Res (List Byte) from midAfter (Sha256.engine c) ds) =
      .ok (serialize8 (chain 64 compress256 iv256 ds.flatten)))

def check_C16_sha256t_resume (_ : Unit) : Bool :=
  forall2 cfgs aligned fun c x =>
    resumes c (.sha256t (msg 32) 64 []) x.1 x.2

def check_C18_always_panics (_ : Unit) : Bool :=
  forall2 cfgs (wide.flatMap fun a => bigLengths.map (a, ·)) fun c x =>
    decide (x.1.run c (.resume (midOf x.1) x.2) [] =
      some (.error (if x.2 % 128 = 0 then .expect else .assertion)))

def check_C19_wrong_digest_refuted (_ : Unit) : Bool :=
  decide ((do
      let e ← (Ripemd160.engine .debug64).new
      let μ ← (Ripemd160.engine .debug64).midstate e
      let e ← (Ripemd160.engine .debug64).fromMidstate μ ((Ripemd160.engine .debug64).nBytesHashed e)
      (Ripemd160.engine .debug64).finalize e) ≠ (Ripemd160.engine .debug64).hash [])

def check_C20_wrong_digest_refuted (_ : Unit) : Bool :=
  decide ((do
      let e ← (Siphash24.engine .debug64).new
      let e ← (Siphash24.engine .debug64).input e (List.replicate 8 0)
      let μ ← (Siphash24.engine .debug64).midstate e
      let e ← (Siphash24.engine .debug64).fromMidstate μ ((Siphash24.engine .debug64).nBytesHashed e)
      (Siphash24.engine .debug64).finalize e) ≠
    (Siphash24.engine .debug64).hash (List.replicate 8 0))

def check_C21_new_key_partial (_ : Unit) : Bool :=
  forall2 cfgs ([Alg.sha1, .sha256].flatMap fun a => keys.map (a, ·))
    fun c x => resumesFrom c (.hmac x.1) (Hmac.new c (x.1.engine c) x.2) [msg 3, msg 70]

def check_C22_unaligned_panics (_ : Unit) : Bool :=
  forall2 cfgs (blocky.flatMap fun a => oddLengths.map (a, ·))
    fun c x => decide (x.1.run c (.resume (midOf x.1) x.2) [] = some (.error .assertion))

def check_C22_aligned_succeeds (_ : Unit) : Bool :=
  forall2 cfgs (narrow.flatMap fun a => bigLengths64.map (a, ·))
    fun c x => decide (counted (x.1.run c (.resume (midOf x.1) x.2) []) = some x.2)

def check_C24_long_key_alg (_ : Unit) : Bool :=
  forall2 engines0 [msg 129, msg 200, msg 260] fun x key =>
    decide (hmacRun x.1 (x.2.engine x.1) key (msg 9) =
      hmacRun x.1 (x.2.engine x.1) (x.2.hashSpec key) (msg 9))

def check_C24_zero_padding (_ : Unit) : Bool :=
  forall2 engines0 [(msg 3, 1), (msg 20, 12), ([], 32), (msg 63, 1), ([], 64)] fun x k =>
    decide (hmacRun x.1 (x.2.engine x.1) k.1 (msg 9) =
      hmacRun x.1 (x.2.engine x.1) (k.1 ++ List.replicate k.2 0) (msg 9))

def check_C35_input_in_bounds (_ : Unit) : Bool :=
  forall2 cfgs (lengths.flatMap fun n => lengths.map (n, ·)) fun c x =>
    isOk ((Siphash24.engine c).new >>= (Siphash24.input c · (msg x.1)) >>=
      (Siphash24.input c · (msg x.2)))

def check_C42_sha256_extension (_ : Unit) : Bool :=
  forall2 cfgs (lengths.map fun n => (msg n, [msg 5, msg 70]))
    fun c x => decide ((do
      let d ← (Sha256.engine c).hash x.1
      let e ← (Sha256.engine c).fromMidstate d (pad 64 8 beBytes x.1).length
      let e ← (Sha256.engine c).inputs e x.2
      (Sha256.engine c).finalize e) = .ok (sha256 (pad 64 8 beBytes x.1 ++ x.2.flatten)))

def check_C44_ripemd160_midstate (_ : Unit) : Bool :=
  forall2 cfgs chunkings fun c ds =>
    decide ((show Res (List Byte) from midAfter (Ripemd160.engine c) ds) =
      .ok (serializeRmd (chain 64 compressRmd ivRmd ds.flatten)))

def check_C13_bip340_hash (_ : Unit) : Bool :=
  forall2 cfgs lengths fun c n =>
    decide (Sha256t.hash c (bip340Tag c (msg n)) (msg 70) =
      .ok (sha256 (sha256 (msg n) ++ sha256 (msg n) ++ msg 70)))

def check_C13_bip340 (_ : Unit) : Bool :=
  forall2 cfgs chunkings fun c ds =>
    decide ((Sha256t.engine c (bip340Tag c (msg 9))).hashByteChunks ds =
      .ok (tagged sha256 (msg 9) ds.flatten))

def check_C45_constructors (_ : Unit) : Bool :=
  cfgs.all fun c =>
    let E := Sha256t.engine c (bip340Tag c (msg 9))
    decide ((E.default >>= E.finalize) = (E.new >>= E.finalize) ∧
      (Sha256t.hashEngine (bip340Tag c (msg 9)) >>= E.finalize) = (E.new >>= E.finalize))

def check_C45_hash_from_engine (_ : Unit) : Bool :=
  forall2 cfgs chunkings fun c ds =>
    decide (Sha256t.hash c (bip340Tag c (msg 9)) ds.flatten = (do
      let e ← Sha256t.hashEngine (bip340Tag c (msg 9))
      let e ← (Sha256t.engine c (bip340Tag c (msg 9))).inputs e ds
      Sha256t.fromEngine c (bip340Tag c (msg 9)) e))

def check_C46_large_block_panics (_ : Unit) : Bool :=
  forall2 cfgs keys fun c key =>
    !isOk (Hmac.new c { Sha256.engine c with blockSize := 129 } key)

def check_C47_keys (_ : Unit) : Bool :=
  forall2 cfgs (sipKeys.flatMap fun k => chunkings.map (k, ·)) fun c x =>
    match (Siphash24.engine c).inputs (Siphash24.withKeys x.1.1 x.1.2) x.2 with
    | .ok e => decide (Siphash24.keys e = x.1)
    | .error _ => true

def check_C33_digest (_ : Unit) : Bool :=
  forall2 engines chunkings fun x bufs => writes x.1 x.2 bufs

def check_C33_which (_ : Unit) : Bool :=
  engines.all fun x =>
    (x.2.writer x.1).isNone == (match x.2 with | .sha384 | .sha512_256 => true | _ => false)

def check_C34_u64_round_trip (_ : Unit) : Bool :=
  [0, 1, 0x0123456789abcdef, 0xffffffffffffffff].all fun x =>
    decide (Siphash24.asU64Hash (Siphash24.fromU64 x) = .ok x)

def check_C34_hash_to_u64 (_ : Unit) : Bool :=
  forall2 cfgs (sipKeys.flatMap fun k => lengths.map (k, ·)) fun c x =>
    decide (Siphash24.hashToU64WithKeys c x.1.1 x.1.2 (msg x.2) =
      (Siphash24.hashWithKeys c x.1.1 x.1.2 (msg x.2) >>= Siphash24.asU64Hash))

def check_C25_different_lengths (_ : Unit) : Bool :=
  [(msg 1, msg 2), ([], [0]), (msg 9, msg 8)].all fun x =>
    decide (Cmp.fixedTimeEq x.1 x.2 = .error .assertion)

def check_C26_constant_time (_ : Unit) : Bool :=
  forall2 slices slices fun x y =>
    !(x.1.length == y.1.length && x.2.length == y.2.length) ||
      decide (Cmp.trace x.1 x.2 = Cmp.trace y.1 y.2)

def check_C26_reads (_ : Unit) : Bool :=
  slices.all fun x =>
    decide ((Cmp.trace x.1 x.2).filter (fun e => match e with | .read (.lhs _) => true | _ => false) =
      (List.range x.1.length).map (fun i => .read (.lhs i)) ∧
    (Cmp.trace x.1 x.2).filter (fun e => match e with | .read (.rhs _) => true | _ => false) =
      (List.range x.1.length).map (fun i => .read (.rhs i)))

def check_C48_sha256 (_ : Unit) : Bool :=
  fracRoots 3 32 (primes80.take 64) (Sha256.blockLines.map (·.k)) &&
    fracRoots 3 32 (primes80.take 64) (Sha256.constLines.map (·.k)) &&
    fracRoots 2 32 (primes80.take 8) Sha256.iv.toList

def check_C48_sha512 (_ : Unit) : Bool :=
  fracRoots 3 64 primes80 (Sha512.blockLines.map (·.k)) &&
    fracRoots 2 64 (primes80.take 8) Sha512.iv512.toList &&
    fracRoots 2 64 ((primes80.drop 8).take 8) Sha512.iv384.toList

def check_C48_sha1 (_ : Unit) : Bool :=
  (List.range 80).all fun i =>
    match Sha1.fk i 1 2 3 with
    | .ok (_, k) => scaledRoot 2 30 ([2, 3, 5, 10].getD (i / 20) 0) k.toNat
    | .error _ => false

def check_C48_ripemd160 (_ : Unit) : Bool :=
  Ripemd160.add1 == 0 && Ripemd160.parAdd5 == 0 &&
    ([2, 3, 5, 7].zip [Ripemd160.add2, Ripemd160.add3, Ripemd160.add4, Ripemd160.add5]).all
      (fun p => scaledRoot 2 30 p.1 p.2.toNat) &&
    ([2, 3, 5, 7].zip [Ripemd160.parAdd1, Ripemd160.parAdd2, Ripemd160.parAdd3, Ripemd160.parAdd4]).all
      (fun p => scaledRoot 3 30 p.1 p.2.toNat)

def checks : List (String × (Unit → Bool)) := [
  ("C01_sha256", check_C01_sha256),
  ("C02_sha1", check_C02_sha1),
  ("C03_sha512_partial", check_C03_sha512_partial),
  ("C04_sha384", check_C04_sha384),
  ("C05_sha512_256", check_C05_sha512_256),
  ("C06_ripemd160", check_C06_ripemd160),
  ("C07_hash_with_keys", check_C07_hash_with_keys),
  ("C12_const_hash_sha256", check_C12_const_hash_sha256),
  ("C13_hash_tag", check_C13_hash_tag),
  ("C23_hmac_sha256", check_C23_hmac_sha256),
  ("C25_equal_lengths", check_C25_equal_lengths),
  ("C34_hash_to_u64_spec", check_C34_hash_to_u64_spec),
  ("C08_chunking", check_C08_chunking),
  ("C08_hash_byte_chunks", check_C08_hash_byte_chunks),
  ("C09_count", check_C09_count),
  ("C10_no_panic", check_C10_no_panic),
  ("C11_digest_length", check_C11_digest_length),
  ("C14_programs", check_C14_programs),
  ("C15_small_hash", check_C15_small_hash),
  ("C16_sha256_resume", check_C16_sha256_resume),
  ("C17_sha1_resume", check_C17_sha1_resume),
  ("C37_programs", check_C37_programs),
  ("C41_blocks", check_C41_blocks),
  ("C44_sha256_midstate", check_C44_sha256_midstate),
  ("C16_sha256t_resume", check_C16_sha256t_resume),
  ("C18_always_panics", check_C18_always_panics),
  ("C19_wrong_digest_refuted", check_C19_wrong_digest_refuted),
  ("C20_wrong_digest_refuted", check_C20_wrong_digest_refuted),
  ("C21_new_key_partial", check_C21_new_key_partial),
  ("C22_unaligned_panics", check_C22_unaligned_panics),
  ("C22_aligned_succeeds", check_C22_aligned_succeeds),
  ("C24_long_key_alg", check_C24_long_key_alg),
  ("C24_zero_padding", check_C24_zero_padding),
  ("C35_input_in_bounds", check_C35_input_in_bounds),
  ("C42_sha256_extension", check_C42_sha256_extension),
  ("C44_ripemd160_midstate", check_C44_ripemd160_midstate),
  ("C13_bip340_hash", check_C13_bip340_hash),
  ("C13_bip340", check_C13_bip340),
  ("C45_constructors", check_C45_constructors),
  ("C45_hash_from_engine", check_C45_hash_from_engine),
  ("C46_large_block_panics", check_C46_large_block_panics),
  ("C47_keys", check_C47_keys),
  ("C33_digest", check_C33_digest),
  ("C33_which", check_C33_which),
  ("C34_u64_round_trip", check_C34_u64_round_trip),
  ("C34_hash_to_u64", check_C34_hash_to_u64),
  ("C25_different_lengths", check_C25_different_lengths),
  ("C26_constant_time", check_C26_constant_time),
  ("C26_reads", check_C26_reads),
  ("C48_sha256", check_C48_sha256),
  ("C48_sha512", check_C48_sha512),
  ("C48_sha1", check_C48_sha1),
  ("C48_ripemd160", check_C48_ripemd160),
  ("C07_siphash24", check_C07_siphash24)]

end Chf.Check
