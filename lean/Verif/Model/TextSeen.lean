import Verif.Model.Text
import Verif.Seen.Sha1
import Verif.Seen.Sha256
import Verif.Seen.Sha384
import Verif.Seen.Sha512
import Verif.Seen.Sha512_256
import Verif.Seen.Ripemd160
import Verif.Seen.Siphash24
import Verif.Seen.Sha256t
import Verif.Seen.Hmac

/-!
# The engines of the translated text, observed

`Verif/Seen` is the translated text with every branch, index and slice recorded; see `Seen/Prelude.lean`.
-/

namespace Chf.Source
open Chf

/-- The tag built from a midstate, a length and data, observed. -/
def Sha256t.Tag.ofMidstateSeen (cfg : Cfg) (mid : List Byte) (len : Nat) (data : List Byte) :
    Seen.Sha256t.Tag where
  engine := do
    let e ← Seen.Sha256.Engine.from_midstate cfg ⟨mid⟩ len
    let e ← Seen.Sha256.Engine.input cfg e data
    pure { f0 := e, f1 := () }

/-- The engine types of `Alg`, observed. -/
def seenOf (cfg : Cfg) : (a : Alg) → Tr.HashEngine (engineOf cfg a)
  | .sha1 => Seen.Sha1.engine cfg
  | .sha256 => Seen.Sha256.engine cfg
  | .sha384 => Seen.Sha384.engine cfg
  | .sha512 => Seen.Sha512.engine cfg
  | .sha512_256 => Seen.Sha512_256.engine cfg
  | .ripemd160 => Seen.Ripemd160.engine cfg
  | .siphash24 => Seen.Siphash24.engine cfg
  | .sha256t mid len data =>
      Seen.Sha256t.engine cfg (.ofMidstate cfg mid len data) (Sha256t.Tag.ofMidstateSeen cfg mid len data)
  | .hmac a => Seen.Hmac.engine cfg (engineOf cfg a) (seenOf cfg a)

/-- Make a translated engine, observed. -/
def makeSeen (cfg : Cfg) : (a : Alg) → Make → Option (Tr (engineOf cfg a).State)
  | a, .new => some (seenOf cfg a).new
  | a, .default => some (seenOf cfg a).default
  | .siphash24, .sipKeys k0 k1 => some (pure (Siphash24.Engine.with_keys cfg k0 k1))
  | .hmac a, .hmacKey key => some (Seen.Hmac.Engine.new cfg (engineOf cfg a) (seenOf cfg a) key)
  | a, .resume μ n => (readMid cfg a μ).map fun μ => (seenOf cfg a).fromMidstate μ n
  | _, _ => none

/-- What an observer sees of one call of a program whose engines are `p`. -/
def callSeen (cfg : Cfg) (p : (text cfg).Pool) : Call → List Tr.Ev
  | .make a how =>
      match makeSeen cfg a how with
      | none => []
      | some x => x.seen
  | .input i data =>
      match (text cfg).slot p i with
      | none => []
      | some ⟨a, e⟩ => ((seenOf cfg a).input e data).seen
  | .midstate i =>
      match (text cfg).slot p i with
      | none => []
      | some ⟨a, e⟩ => ((seenOf cfg a).midstate e).seen
  | .finalize i =>
      match (text cfg).slot p i with
      | none => []
      | some ⟨a, e⟩ => ((seenOf cfg a).finalize e).seen
  | .clone _ => []
  | .count _ => []

/-- What an observer sees of the calls of a program. -/
def programSeen (cfg : Cfg) (p : (text cfg).Pool) : List Call → List (List Tr.Ev)
  | [] => []
  | x :: xs => callSeen cfg p x :: programSeen cfg ((text cfg).step p x).1 xs

end Chf.Source
