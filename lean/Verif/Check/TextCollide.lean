import Verif.Check.States
import Verif.Spec.Shattered
import Verif.Spec.TextCollide

/-!
# Instances of C89 to C93
-/

namespace Chf.Check
open Chf Spec

/-- The blocks of `m`, each with what was input before it. -/
def places (a : Alg) (m : List Byte) : List (List Byte × List Byte) :=
  (List.range (standardBlocks a m).length).map fun i =>
    (((standardBlocks a m).take i).flatten, ((standardBlocks a m).drop i).headD [])

/-- Whether some blocks of `m` and `m'` collide. -/
def blocksCollide (c : Cfg) (a : Alg) (m m' : List Byte) : Bool :=
  let mids (m : List Byte) := (places a m).map fun x =>
    (Spec.midAfter c a x.1, x.2, Spec.midAfter c a (x.1 ++ x.2))
  let xs := mids m
  let ys := mids m'
  xs.any fun x => ys.any fun y =>
    decide ((x.1, x.2.1) ≠ (y.1, y.2.1)) && decide (x.2.2 = y.2.2) && isOk x.1 && isOk y.1 && isOk x.2.2

/-- Two cuts of each of the two messages. -/
def cuts89 (m : List Byte) : List (List (List Byte)) := [[m], [m.take 100, m.drop 100]]

def check_C89_collision (_ : Unit) : Bool :=
  [debug16, release16].all fun c =>
    forall2 (cuts89 shattered1) (cuts89 shattered2) fun ds ds' =>
      match (Source.engineOf c .sha1).hashByteChunks ds, (Source.engineOf c .sha1).hashByteChunks ds' with
      | .ok d, .ok d' => decide (d ≠ d') || blocksCollide c .sha1 ds.flatten ds'.flatten
      | _, _ => false

/-- Whether the midstates after `m` and `m'` are cut to the same digest. -/
def truncationCollides (c : Cfg) (a : Alg) (m m' : List Byte) : Bool :=
  match Spec.midAfter c a (standardBlocks a m).flatten, Spec.midAfter c a (standardBlocks a m').flatten with
  | .ok (.bytes x), .ok (.bytes x') =>
    decide (x ≠ x') && decide (x.take a.outLen = x'.take a.outLen) && decide (a.outLen < x.length)
  | _, _ => false

def pairs89 : List (List Byte × List Byte) :=
  [([], [0]), ([], [128]), ([1], [2]), (msg 5, msg 5 ++ [0]), (msg 64, msg 63), (msg 70, 1 :: msg 69),
    (msg 128, msg 64), (List.replicate 64 0, List.replicate 128 0)]

def check_C89_pairs (_ : Unit) : Bool :=
  [debug16, release16].all fun c =>
    forall2 blockAlgs pairs89 fun a p =>
      match (Source.engineOf c a).hashByteChunks [p.1], (Source.engineOf c a).hashByteChunks [p.2] with
      | .ok d, .ok d' => decide (d ≠ d') || blocksCollide c a p.1 p.2 || truncationCollides c a p.1 p.2
      | _, _ => false

def check_C89_tags (_ : Unit) : Bool :=
  [debug16, release16].all fun c =>
    forall2 [([], [1]), ([1], [1, 0]), (msg 3, msg 4), (msg 3, msg 3)] [([], []), ([], [0]), (msg 3, msg 3), (msg 64, msg 63)]
      fun t m =>
        decide (t.1 = t.2 ∧ m.1 = m.2) ||
        match Source.Sha256t.Hash.hash c (Source.bip340Tag c t.1) m.1,
          Source.Sha256t.Hash.hash c (Source.bip340Tag c t.2) m.2 with
        | .ok d, .ok d' => decide (d.f0 ≠ d'.f0) || blocksCollide c .sha256 t.1 t.2 ||
            blocksCollide c .sha256 (sha256 t.1 ++ sha256 t.1 ++ m.1) (sha256 t.2 ++ sha256 t.2 ++ m.2)
        | _, _ => false

def mac89 (c : Cfg) (a : Alg) (key : List Byte) (ds : List (List Byte)) : Res (List Byte) := do
  let e ← Source.Hmac.Engine.new c (Source.engineOf c a) key
  let e ← (Source.engineOf c (.hmac a)).inputs e ds
  (Source.engineOf c (.hmac a)).finalize e

def check_C89_hmac (_ : Unit) : Bool :=
  [debug16, release16].all fun c => blockAlgs.all fun a =>
    forall2 [([], [1]), (msg 3, msg 4), (msg 128, msg 129), (msg 200, msg 201), (msg 3, msg 3), ([1, 2, 3, 4], [5, 6, 3, 4])]
      [([], []), ([], [0]), (msg 3, msg 3), (msg 64, msg 63)]
      fun k m =>
        let K (key : List Byte) := hmacKey a.hashSpec a.blockSize key
        let I (key m : List Byte) := (K key).map (· ^^^ 0x36) ++ m
        let O (key m : List Byte) := (K key).map (· ^^^ 0x5c) ++ a.hashSpec (I key m)
        decide (K k.1 = K k.2 ∧ m.1 = m.2) ||
        match mac89 c a k.1 [m.1], mac89 c a k.2 [m.2] with
        | .ok d, .ok d' => decide (d ≠ d') ||
            ((blocksCollide c a (I k.1 m.1) (I k.2 m.2) || truncationCollides c a (I k.1 m.1) (I k.2 m.2)) ||
            (blocksCollide c a (O k.1 m.1) (O k.2 m.2) || truncationCollides c a (O k.1 m.1) (O k.2 m.2)))
        | _, _ => false

def ends90 : List (List (List Byte)) := [[], [msg 1], [msg 64], [msg 3, msg 130]]

def check_C90_sha1 (_ : Unit) : Bool :=
  forall2 (debug16 :: release16 :: cfgs) ends90 fun c ds =>
    let E := Source.engineOf c .sha1
    decide (E.hashByteChunks (shattered1 :: ds) = E.hashByteChunks (shattered2 :: ds)) &&
    decide ((do
        let e ← E.new
        let e ← E.input e shattered1
        let r ← E.observe e ds
        pure (r.1, r.2.1.map (Source.showMid c .sha1), r.2.2)) =
      (do
        let e ← E.new
        let e ← E.input e shattered2
        let r ← E.observe e ds
        pure (r.1, r.2.1.map (Source.showMid c .sha1), r.2.2)))

def check_C90_block (_ : Unit) : Bool :=
  [debug16, release16].all fun c => blocksCollide c .sha1 shattered1 shattered2

/-- What is seen of an HMAC engine of the text. -/
def macs91 (c : Cfg) (a : Alg) (key : List Byte) (ds : List (List Byte)) :
    Res (Nat × Res MidVal × Res (List Byte)) := do
  let e ← Source.Hmac.Engine.new c (Source.engineOf c a) key
  let r ← (Source.engineOf c (.hmac a)).observe e ds
  pure (r.1, r.2.1.map (Source.showMid c (.hmac a)), r.2.2)

def check_C91_zero_padding (_ : Unit) : Bool :=
  [debug16, release16].all fun c =>
    (forall2 algs [(msg 3, 1), (msg 3, 5), ([], 8)] fun a k =>
      decide (macs91 c a k.1 [msg 70] = macs91 c a (k.1 ++ List.replicate k.2 0) [msg 70])) &&
    algs.all fun a =>
      decide (macs91 c a (msg 3) [msg 70] =
        macs91 c a (msg 3 ++ List.replicate ((Source.engineOf c a).blockSize - 3) 0) [msg 70])

def check_C91_default (_ : Unit) : Bool :=
  [debug16, release16].all fun c => algs.all fun a =>
    let seen (x : Res (Source.engineOf c (.hmac a)).State) := do
      let e ← x
      let r ← (Source.engineOf c (.hmac a)).observe e [msg 70]
      pure (r.1, r.2.1.map (Source.showMid c (.hmac a)), r.2.2)
    decide (seen (Source.engineOf c (.hmac a)).default = macs91 c a [0] [msg 70]) &&
    decide (seen (Source.engineOf c (.hmac a)).new = macs91 c a [0, 0] [msg 70])

/-- A key and its hash, for keys just short of a block, of a block and just longer, and other pairs. -/
def check_C91_only (_ : Unit) : Bool :=
  [debug16, release16].all fun c =>
    blockAlgs.all fun a =>
      [(msg (a.blockSize - 1), a.hashSpec (msg (a.blockSize - 1))), (msg a.blockSize, a.hashSpec (msg a.blockSize)),
        (msg 129, a.hashSpec (msg 129)), (msg 3, msg 3 ++ [0]), (msg 3, msg 4), (msg 129, msg 130)].all fun k =>
        match Source.Hmac.Engine.new c (Source.engineOf c a) k.1, Source.Hmac.Engine.new c (Source.engineOf c a) k.2 with
        | .ok e, .ok e' =>
          decide (((Source.engineOf c (.hmac a)).midstate e).map (Source.showMid c (.hmac a)) ≠
            ((Source.engineOf c (.hmac a)).midstate e').map (Source.showMid c (.hmac a))) ||
          decide (hmacKey a.hashSpec a.blockSize k.1 = hmacKey a.hashSpec a.blockSize k.2) ||
          decide (Spec.midAfter c a ((hmacKey a.hashSpec a.blockSize k.1).map (· ^^^ 0x36)) =
            Spec.midAfter c a ((hmacKey a.hashSpec a.blockSize k.2).map (· ^^^ 0x36)))
        | _, _ => true

def check_C91_crate (_ : Unit) : Bool :=
  [debug16, release16].all fun c =>
    forall2 blockAlgs [129, 300] fun a n =>
      decide ((Source.engineOf c a).hash (msg n) = .ok (a.hashSpec (msg n))) &&
      decide (macs91 c a (msg n) [msg 70] = macs91 c a (a.hashSpec (msg n)) [msg 70])

def check_C91_sha1_keys (_ : Unit) : Bool :=
  forall2 [debug16, release16] [[], msg 5, msg 70] fun c s =>
    decide (macs91 c .sha1 (shattered1 ++ s) [msg 70] = macs91 c .sha1 (shattered2 ++ s) [msg 70])

def check_C92_extension (_ : Unit) : Bool :=
  [debug16, release16].all fun c =>
    [Alg.sha1, .sha256, .ripemd160].all fun a =>
      forall2 [0, 3, 56, 64, 200] [[], [msg 3], [msg 60, msg 70]] fun n ds =>
        match (Source.engineOf c a).hash (msg n) with
        | .ok d =>
          match Source.make c a (.resume (.bytes (asMidstate a d)) (padded a (msg n)).length) with
          | some (.ok e) =>
            decide ((do
              let e ← (Source.engineOf c a).inputs e ds
              (Source.engineOf c a).finalize e) =
              (Source.engineOf c a).hash (padded a (msg n) ++ ds.flatten))
          | _ => false
        | _ => false

def check_C92_others (_ : Unit) : Bool :=
  forall2 [debug16, release16] [0, 1, 128, 1024] fun c n =>
    (Source.make c .sha384 (.resume (.bytes (sha384 (msg 9))) n)).isNone &&
    (Source.make c .sha512_256 (.resume (.bytes (sha512_256 (msg 9))) n)).isNone &&
    match Source.make c .sha512 (.resume (.bytes (sha512 (msg 9))) n) with
    | some (.error _) => true
    | _ => false

def check_C93_exact (_ : Unit) : Bool :=
  forall2 [(Alg.sha1, 64, 8), (.sha512, 128, 16), (.ripemd160, 64, 8)] [3, 9000, 65392, 65463, 65464]
    fun x n =>
      decide ((Source.engineOf debug16 x.1).hashByteChunks [msg n] =
        if paddedTo x.2.1 x.2.2 n < 2 ^ 16 ∧ 8 * n < 2 ^ 64 then .ok (x.1.hashSpec (msg n))
        else .error .overflow)

def check_C93_right_or_panic (_ : Unit) : Bool :=
  forall2 (quietAlgs.filter fun a => a.blockSize ≤ 64) [[msg 3], [msg 65340, msg 60], [msg 65340, msg 130]] fun a ds =>
    decide ((Source.engineOf debug16 a).hashByteChunks ds = .ok (a.hashSpec ds.flatten)) ||
    decide ((Source.engineOf debug16 a).hashByteChunks ds = .error .overflow)

def check_C93_hmac (_ : Unit) : Bool :=
  forall2 [[], msg 40, msg 65, msg 65535] [[msg 3], [msg 65340, msg 60], [msg 65340, msg 130]]
    fun key ds =>
      let r := (do
        let e ← Source.Hmac.Engine.new debug16 (Source.engineOf debug16 .sha256) key
        let e ← (Source.engineOf debug16 (.hmac .sha256)).inputs e ds
        (Source.engineOf debug16 (.hmac .sha256)).finalize e)
      decide (r = .ok (hmac sha256 64 key ds.flatten)) || decide (r = .error .overflow)

def textCollideChecks : List (String × (Unit → Bool)) := [
  ("C89_collision", check_C89_collision),
  ("C89_pairs", check_C89_pairs),
  ("C89_tags", check_C89_tags),
  ("C89_hmac", check_C89_hmac),
  ("C90_sha1", check_C90_sha1),
  ("C90_block", check_C90_block),
  ("C91_zero_padding", check_C91_zero_padding),
  ("C91_default", check_C91_default),
  ("C91_only", check_C91_only),
  ("C91_crate", check_C91_crate),
  ("C91_sha1_keys", check_C91_sha1_keys),
  ("C92_extension", check_C92_extension),
  ("C92_others", check_C92_others),
  ("C93_exact", check_C93_exact),
  ("C93_right_or_panic", check_C93_right_or_panic),
  ("C93_hmac", check_C93_hmac)]

end Chf.Check
