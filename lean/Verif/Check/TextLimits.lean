import Verif.Check.Limits
import Verif.Model.Text

/-!
# Instances of C95
-/

namespace Chf.Check
open Chf Spec

/-- Slices whose lengths add up to 2^16 and to 2^16 + 70. -/
def over16 : List (List (List Byte)) := [[msg 40000, msg 25536], [msg 64000, [], msg 1736]]

def check_C95_wraps (_ : Unit) : Bool :=
  forall2 [Alg.sha1, .sha256, .sha384, .ripemd160] over16 fun a ds =>
    let E := Source.engineOf release16 a
    match E.new >>= (E.inputs · ds) with
    | .error _ => false
    | .ok e => decide (E.nBytesHashed e = ds.flatten.length % 2 ^ 16 ∧
        E.finalize e = .ok (wrappedDigest 16 a ds.flatten))

/-- Tags whose count is close to 2^16. -/
def tags95 : List (Nat × List Byte) :=
  [(64, []), (65472, msg 5), (65472, msg 63), (65408, msg 127), (65472, [])]

def check_C95_tagged (_ : Unit) : Bool :=
  forall2 tags95 [[], [msg 1], [msg 9], [msg 63, msg 1], [msg 300]] fun t ds =>
    decide ((Source.engineOf release16 (.sha256t (msg 32) t.1 t.2)).hashByteChunks ds =
      .ok (md256.digestWith (parse8 (msg 32)) (t.2 ++ ds.flatten)
        (8 * ((t.1 + (t.2 ++ ds.flatten).length) % 2 ^ 16) % 2 ^ 64)))

def check_C95_hmac (_ : Unit) : Bool :=
  forall2 [(Alg.sha1, []), (.sha256, msg 70)] [[msg 65471], [msg 40000, msg 25536]] fun x ds =>
    decide ((do
      let e ← Source.Hmac.Engine.new release16 (Source.engineOf release16 x.1) x.2
      let e ← (Source.engineOf release16 (.hmac x.1)).inputs e ds
      (Source.engineOf release16 (.hmac x.1)).finalize e) =
    .ok (hmac (wrappedDigest 16 x.1) x.1.blockSize x.2 ds.flatten))

def check_C95_siphash (_ : Unit) : Bool :=
  over16.all fun ds =>
    decide ((do
      let e ← (Source.Siphash24.engine release16).inputs (Source.Siphash24.Engine.with_keys release16 7 9) ds
      (Source.Siphash24.engine release16).finalize e) =
    .ok (leBytes 8 (siphash24 7 9 ds.flatten).toNat))

/-- The engine of the text resumed at `n`, after the slices. -/
def resumed95 (c : Cfg) (a : Alg) (n : Nat) (ds : List (List Byte)) : Option (Res (Source.engineOf c a).State) :=
  (Source.make c a (.resume (midOf a) n)).map fun r => r >>= ((Source.engineOf c a).inputs · ds)

def check_C95_finalize_panics_iff (_ : Unit) : Bool :=
  forall2 cfgs atLimits fun c x =>
    let E := Source.engineOf c x.1
    match blockAndField x.1, resumed95 c x.1 x.2.1 x.2.2 with
    | some (B, L), some (.ok e) =>
      let must := c.overflowChecks && !decide (paddedTo B L (E.nBytesHashed e) < 2 ^ 64 ∧
        8 * E.nBytesHashed e < 2 ^ 64)
      match E.finalize e with
      | .ok _ => !must
      | .error f => must && decide (f = .overflow)
    | _, _ => true

def textLimitChecks : List (String × (Unit → Bool)) := [
  ("C95_tagged", check_C95_tagged),
  ("C95_finalize_panics_iff", check_C95_finalize_panics_iff),
  ("C95_siphash", check_C95_siphash),
  ("C95_wraps", check_C95_wraps),
  ("C95_hmac", check_C95_hmac)]

end Chf.Check
