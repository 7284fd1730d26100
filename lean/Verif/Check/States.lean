import Verif.Check.Limits
import Verif.Model.Unwind
import Verif.Spec.Unwind

/-!
# Executable instances of the theorems about states, caught panics and foreign engines

As `Verif.Check.Instances`, for C10, C15, C21, C38, C39 and C60 - C65.
-/

namespace Chf.Check
open Spec

/-- A program that stays below the limit of a 16-bit counter, if nothing is resumed above it. -/
def quiet16 (a : Alg) : List Call :=
  [.make a .new, .make a .default, .input 0 (msg 70), .clone 0, .input 0 (msg 60), .count 0, .count 2,
    .midstate 0, .midstate 2, .finalize 0, .finalize 2, .finalize 1,
    .make a (.resume (midOf a) 65), .make a (.resume (midOf a) (2 ^ 16 - 512)),
    .input 3 (msg 9), .count 3, .midstate 3, .input 3 (msg 119), .midstate 3, .clone 3,
    .input 3 (msg 57), .count 3, .midstate 3, .finalize 3, .finalize 4]

/-- A program that exceeds it, and goes on with the engines it has. -/
def loud16 (a : Alg) : List Call :=
  [.make a (.resume (midOf a) (2 ^ 16 - 256)), .clone 0, .input 0 (msg 100), .clone 0,
    .input 0 (msg 170), .count 0, .midstate 0, .finalize 0, .input 2 (msg 156), .count 2, .midstate 2,
    .input 1 (msg 255), .count 1, .input 1 [1], .count 1, .midstate 1, .input 1 [], .clone 1,
    .input 1 (msg 300), .count 1, .midstate 1, .finalize 1]

/-- The same for an engine that cannot be resumed. -/
def long16 (a : Alg) : List Call :=
  [.make a .new, .input 0 (msg 65000), .clone 0, .input 0 (msg 500), .input 0 (msg 36), .count 0,
    .midstate 0, .input 1 (msg 537), .count 1, .midstate 1, .finalize 1]

def quietAlgs : List Alg :=
  [.sha1, .sha256, .sha384, .sha512, .sha512_256, .ripemd160, .siphash24,
    .sha256t (msg 32) 64 (msg 5), .hmac .sha256, .hmac .sha512, .hmac (.hmac .sha1)]

def loudAlgs : List Alg := [.sha1, .ripemd160, .siphash24, .sha256t (msg 32) 64 (msg 5), .hmac .sha256]

def programs16 : List (List Call) :=
  quietAlgs.map quiet16 ++ loudAlgs.map loud16 ++
  [long16 .sha512, [.make .siphash24 (.sipKeys 5 6), .input 0 (msg 19), .count 0, .midstate 0, .finalize 0],
    [.make (.hmac .sha256) (.hmacKey (msg 65)), .input 0 (msg 70), .count 0, .midstate 0, .finalize 0]]

/-- The other build with the arithmetic of `debug16`. -/
def other16 : Cfg :=
  { debug16 with shaNi := !debug16.shaNi, smallHash := !debug16.smallHash,
                 bigEndian := !debug16.bigEndian, debugAssertions := !debug16.debugAssertions }

/-- Big-endian and without the SHA extensions. -/
def big16 : Cfg := { debug16 with shaNi := false, bigEndian := true }

def check_C15_pools (_ : Unit) : Bool :=
  forall2 [other16, big16] programs16 fun c p =>
    decide ((Impl.crate debug16).answers [] p = (Impl.crate c).answers [] p ∧
      (CatchImpl.crate debug16).answers [] p = (CatchImpl.crate c).answers [] p)

/-- The hash functions that do not cut their digests. -/
def check_C38_not_standard (_ : Unit) : Bool :=
  [Alg.sha1, .sha512].all fun a =>
    let ds := [msg 40000, msg 25606]
    match a.blockHash release16 with
    | none => false
    | some X =>
      match (a.engine release16).hashByteChunks ds, X.calls release16 ds with
      | .ok d, .ok r => !decide (d = a.hashSpec ds.flatten) ||
          !decide (r.2.getLast?.map Prod.snd = (standardBlocks a ds.flatten).getLast?)
      | _, _ => false

def check_C60_portable (_ : Unit) : Bool :=
  forall2 [debug16, big16] programs16 fun c p =>
    decide (.panic .overflow ∉ (Impl.crate c).answers [] p →
      (Impl.crate .release64).answers [] p = (Impl.crate c).answers [] p)

/-! ## C61 -/

def strides : List (Alg × Nat) :=
  [(.sha1, 64), (.sha256, 64), (.ripemd160, 64), (.sha256t (msg 32) 64 (msg 5), 64), (.sha384, 128),
    (.sha512, 128), (.sha512_256, 128), (.siphash24, 8)]

/-- Engines of a type: new ones and resumed ones, with inputs. -/
def manyEngines (c : Cfg) (a : Alg) : List (a.engine c).State :=
  let E := a.engine c
  let fresh := [[], [msg 64], [msg 128], [msg 60, msg 68], [msg 64, msg 64], [msg 56],
      [(msg 200).drop 72], [msg 100, msg 28], [msg 8], [msg 192], [msg 190, msg 2]].filterMap fun ds =>
    (E.new >>= (E.inputs · ds)).toOption
  let resumed := fresh.filterMap fun e =>
    match E.midstate e with
    | .error _ => none
    | .ok μ =>
      match a.readMid c (a.showMid c μ) with
      | none => none
      | some μ =>
        if E.nBytesHashed e < 2 ^ 64 then (E.fromMidstate μ (E.nBytesHashed e)).toOption else none
  fresh ++ resumed

def check_C61_state (_ : Unit) : Bool :=
  forall2 cfgs strides fun c x =>
    let E := x.1.engine c
    let es := (manyEngines c x.1).filter fun e => decide (E.nBytesHashed e % x.2 = 0)
    forall2 es es fun e e' =>
      !decide (E.nBytesHashed e = E.nBytesHashed e' ∧
        (E.midstate e).map (x.1.showMid c) = (E.midstate e').map (x.1.showMid c)) ||
      [[], [msg 1], [msg 70, msg 200]].all (same c x.1 e e')

/-! ## C62 -/

/-- Engines near the limit of a 16-bit counter. -/
def nearLimit (c : Cfg) (a : Alg) : List (a.engine c).State :=
  let E := a.engine c
  match a.readMid c (midOf a) with
  | none => []
  | some μ => ([2 ^ 16 - 256, 2 ^ 16 - 128, 2 ^ 16 - 64].filterMap fun n =>
      (E.fromMidstate μ n >>= (E.inputs · [msg 30])).toOption)

/-- The same for engines that cannot be resumed near the limit. -/
def farInput (c : Cfg) (a : Alg) : List (a.engine c).State :=
  [100, 300].filterMap fun n =>
    ((a.engine c).new >>= ((a.engine c).inputs · [msg 65200, msg n])).toOption

def limitEngines (c : Cfg) (a : Alg) : List (a.engine c).State :=
  (nearLimit c a ++ farInput c a).filter fun e => 2 ^ 15 < (a.engine c).nBytesHashed e

def slices62 : List (List Byte) := [[], msg 1, msg 36, msg 97, msg 98, msg 225, msg 226, msg 230, msg 400]

def check_C62_agrees (_ : Unit) : Bool :=
  forall2 [debug16, release16] [Alg.sha1, .sha512, .siphash24, .hmac .sha256] fun c a =>
    forall2 (limitEngines c a) slices62 fun e d =>
      match a.inputMut c e d, (a.engine c).input e d with
      | (e', none), .ok e'' => same c a e' e'' [msg 3]
      | (_, some f), .error g => decide (f = g)
      | _, _ => false

def check_C62_left (_ : Unit) : Bool :=
  [Alg.sha1, .sha512, .siphash24, .hmac .sha256].all fun a =>
    let E := a.engine debug16
    forall2 (limitEngines debug16 a) slices62 fun e d =>
      match a.inputMut debug16 e d with
      | (_, none) => true
      | (e', some f) =>
        decide (f = .overflow) &&
        (List.range d.length).any fun k =>
          match E.input e (d.take k) with
          | .error _ => false
          | .ok e'' => decide (E.nBytesHashed e' = E.nBytesHashed e'') && same debug16 a e' e'' [] &&
              same debug16 a e' e'' [msg 3] && same debug16 a e' e'' [msg 70]

def check_C62_programs (_ : Unit) : Bool :=
  forall2 [debug16, release16, other16] programs16 fun c p =>
    decide ((CatchImpl.crate c).answers [] p = (catchLogs c).answers [] p)

/-! ## C63 -/

/-- An engine from outside the crate, as in `Verif.Props.Contract`. -/
def toyEngine (B D : Nat) : HashEngine where
  State := List Byte
  Midstate := Unit
  blockSize := B
  default := .ok []
  new := .ok []
  input e d := .ok (e ++ d)
  nBytesHashed e := e.length
  finalize e := .ok (List.replicate D (e.foldl (fun h b => 3 * h + b) 1))
  midstate _ := .ok ()
  fromMidstate _ _ := .ok []

def toyHash (D : Nat) (m : List Byte) : List Byte := List.replicate D (m.foldl (fun h b => 3 * h + b) 1)

def check_C63_rfc (_ : Unit) : Bool :=
  forall2 cfgs [(4, 3), (4, 4), (100, 20), (128, 128), (1, 0)] fun c x =>
    forall2 [[], msg 3, msg 4, msg 5, msg 99, msg 101, msg 128, msg 129] inputs3 fun key ds =>
      let E := toyEngine x.1 x.2
      decide ((do
        let e ← Hmac.new c E key
        let e ← (Hmac.engine c E).inputs e ds
        (Hmac.engine c E).finalize e) = .ok (hmac (toyHash x.2) x.1 key ds.flatten))

def check_C63_large_block (_ : Unit) : Bool :=
  forall2 cfgs [129, 136, 144, 1000] fun c B =>
    [[], msg 3, msg 128, msg 129, msg 200].all fun key =>
      match Hmac.new c (toyEngine B 32) key with
      | .ok _ => false
      | .error _ => true

/-! ## C64 -/

def check_C64_exact (_ : Unit) : Bool :=
  forall2 [(Alg.sha1, 64, 8), (.sha512, 128, 16), (.ripemd160, 64, 8)] [3, 65390, 65392, 65463, 65464, 65535]
    fun x n =>
      decide ((x.1.engine debug16).hashByteChunks [msg n] =
        if paddedTo x.2.1 x.2.2 n < 2 ^ 16 ∧ 8 * n < 2 ^ 64 then .ok (x.1.hashSpec (msg n))
        else .error .overflow)

def check_C64_right_or_panic (_ : Unit) : Bool :=
  forall2 (quietAlgs.filter fun a => a.blockSize ≤ 64) [[msg 3], [msg 65340, msg 60], [msg 65340, msg 130]] fun a ds =>
    decide ((a.engine debug16).hashByteChunks ds = .ok (a.hashSpec ds.flatten)) ||
    decide ((a.engine debug16).hashByteChunks ds = .error .overflow)

def check_C64_hmac (_ : Unit) : Bool :=
  forall2 [[], msg 20, msg 65, msg 65535] [[msg 3], [msg 65340, msg 59], [msg 65340, msg 60], [msg 65340, msg 130]]
    fun key ds =>
      let r := (do
        let e ← Hmac.new debug16 (Sha256.engine debug16) key
        let e ← (Hmac.engine debug16 (Sha256.engine debug16)).inputs e ds
        (Hmac.engine debug16 (Sha256.engine debug16)).finalize e)
      decide (r = .ok (hmac sha256 64 key ds.flatten)) || decide (r = .error .overflow)

/-! ## C10, C39 -/

def check_C10_long (_ : Unit) : Bool :=
  forall2 [Cfg.debug64, .release64] [Alg.sha1, .sha512, .siphash24] fun c a =>
    isOk (do
      let e ← (a.engine c).new
      let e ← (a.engine c).inputs e [msg 65500, msg 99]
      let _ ← (a.engine c).midstate e
      (a.engine c).finalize e)

def check_C39_limit16 (_ : Unit) : Bool :=
  forall2 [debug16, release16, big16] [Alg.sha1, .ripemd160, .sha256] fun c a =>
    let E := a.engine c
    [0, 20, 120, 183, 184, 255].all fun n =>
      match blockAndField a, (a.readMid c (midOf a)).map fun μ =>
          E.fromMidstate μ 65280 >>= (E.inputs · [msg n]) with
      | some (B, L), some (.ok e) =>
        let must := c.overflowChecks && !decide (paddedTo B L (E.nBytesHashed e) < 2 ^ 16 ∧
          8 * E.nBytesHashed e < 2 ^ 64)
        match E.finalize e with
        | .ok _ => !must
        | .error f => must && decide (f = .overflow)
      | _, _ => true

/-! ## C65 -/

def readsBack (c : Cfg) (a : Alg) (μ : (a.engine c).Midstate) (n : Nat) (want : MidVal) : Bool :=
  let E := a.engine c
  match E.fromMidstate μ n with
  | .error _ => false
  | .ok e => decide (E.nBytesHashed e = n) &&
    match E.midstate e with
    | .error _ => false
    | .ok ν => decide (a.showMid c ν = want)

def check_C65_read_back (_ : Unit) : Bool :=
  forall2 cfgs [0, 64, 2 ^ 50, 2 ^ 64 - 64] fun c n =>
    readsBack c .sha1 (msg 20) n (.bytes (msg 20)) && readsBack c .sha256 (msg 32) n (.bytes (msg 32)) &&
    readsBack c (.sha256t (msg 32) 64 (msg 5)) (msg 32) n (.bytes (msg 32)) &&
    readsBack c .ripemd160 (msg 20) n (.bytes ((blocks 4 (msg 20)).map List.reverse).flatten) &&
    readsBack c (.hmac .sha256)
      (Hmac.Midstate.mk (E := Sha256.engine c) (msg 32) (List.replicate 32 (7 : Byte))) n
      (.pair (.bytes (msg 32)) (.bytes (List.replicate 32 7)))

/-! ## C09 -/

def check_C09_count_resume (_ : Unit) : Bool :=
  forall2 cfgs [Alg.sha1, .sha256, .ripemd160, .sha512, .sha256t (msg 32) 64 (msg 5), .hmac .sha1] fun c a =>
    [0, 3, 64, 128, 2 ^ 40].all fun n =>
      match a.readMid c (midOf a) with
      | none => false
      | some μ =>
        match (a.engine c).fromMidstate μ n with
        | .error _ => true
        | .ok e => decide ((a.engine c).nBytesHashed e = n)

/-! ## C21 -/

/-- Keys and multiples of the block size. -/
def started : List (List Byte × Nat) := [([], 0), (msg 20, 64), (msg 65, 128), (msg 200, 192)]

def check_C21_digests_sha256 (_ : Unit) : Bool :=
  forall2 cfgs started fun c x => inputs3.all fun ds =>
    let S := Sha256.engine c
    let E := Hmac.engine c S
    match Hmac.new c S x.1 >>= (E.input · (msg x.2)) with
    | .error _ => true
    | .ok e => !decide (S.nBytesHashed e.iengine % 64 = 0) ||
      match E.midstate e with
      | .error _ => false
      | .ok μ =>
        match E.fromMidstate μ (E.nBytesHashed e) with
        | .error _ => false
        | .ok e' =>
          match S.midstate e.oengine, E.inputs e ds, E.inputs e' ds with
          | .ok ν, .ok f, .ok f' =>
            match E.finalize f, E.finalize f', S.finalize (Hmac.Engine.iengine f) with
            | .ok d, .ok d', .ok ih =>
              decide (d = serialize8 (compress256 (parse8 ν) (outerBlock ih (S.nBytesHashed e.oengine)))) &&
              decide (d' = serialize8 (compress256 (parse8 ν) (outerBlock ih (S.nBytesHashed e.iengine))))
            | _, _, _ => true
          | _, _, _ => true

def stateChecks : List (String × (Unit → Bool)) := [
  ("C15_pools", check_C15_pools),
  ("C38_not_standard", check_C38_not_standard),
  ("C60_portable", check_C60_portable),
  ("C61_state", check_C61_state),
  ("C62_agrees", check_C62_agrees),
  ("C62_left", check_C62_left),
  ("C62_programs", check_C62_programs),
  ("C63_rfc", check_C63_rfc),
  ("C63_large_block", check_C63_large_block),
  ("C64_exact", check_C64_exact),
  ("C64_right_or_panic", check_C64_right_or_panic),
  ("C64_hmac", check_C64_hmac),
  ("C65_read_back", check_C65_read_back),
  ("C10_long", check_C10_long),
  ("C39_limit16", check_C39_limit16),
  ("C09_count_resume_partial", check_C09_count_resume),
  ("C21_digests_sha256", check_C21_digests_sha256)]

end Chf.Check
