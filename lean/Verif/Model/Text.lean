import Verif.Model.Programs
import Verif.Source.Sha1
import Verif.Source.Sha256
import Verif.Source.Sha256t
import Verif.Source.Sha384
import Verif.Source.Sha512
import Verif.Source.Sha512_256
import Verif.Source.Ripemd160
import Verif.Source.Siphash24
import Verif.Source.Hmac

/-!
# The engines made of the translated text

`Verif/Source` is the text of the crate, translated function by function by `tools/rust2lean.py`.
Here its engines are put together as `Alg` does for the model's, so that the same programs can be run
over both.
-/

namespace Chf.Source
open Chf

/-- The tag built from a midstate, a length and data, with the translated functions. -/
def Sha256t.Tag.ofMidstate (cfg : Cfg) (mid : List Byte) (len : Nat) (data : List Byte) : Sha256t.Tag where
  engine := do
    let e ← Sha256.Engine.from_midstate cfg ⟨mid⟩ len
    let e ← Sha256.Engine.input cfg e data
    pure { f0 := e, f1 := () }

/-- A tag whose engine is `from_midstate(hash_tag(tag), 64)`, with the translated functions. -/
def bip340Tag (cfg : Cfg) (tag : List Byte) : Sha256t.Tag where
  engine := do
    let m ← Sha256.Midstate.hash_tag cfg tag
    let e ← Sha256.Engine.from_midstate cfg m 64
    pure { f0 := e, f1 := () }

/-- The engine types of `Alg`, made of the translated functions. -/
def engineOf (cfg : Cfg) : Alg → HashEngine
  | .sha1 => Sha1.engine cfg
  | .sha256 => Sha256.engine cfg
  | .sha384 => Sha384.engine cfg
  | .sha512 => Sha512.engine cfg
  | .sha512_256 => Sha512_256.engine cfg
  | .ripemd160 => Ripemd160.engine cfg
  | .siphash24 => Siphash24.engine cfg
  | .sha256t mid len data => Sha256t.engine cfg (.ofMidstate cfg mid len data)
  | .hmac a => Hmac.engine cfg (engineOf cfg a)

/-- The data of a tag is a slice: it is shorter than the address space. -/
def Fits (cfg : Cfg) : Alg → Prop
  | .sha256t _ _ data => data.length < cfg.usizeMod
  | .hmac a => Fits cfg a
  | _ => True

/-- A midstate of a translated engine as a value. -/
def showMid (cfg : Cfg) : (a : Alg) → (engineOf cfg a).Midstate → MidVal
  | .sha1, μ | .sha384, μ | .sha512, μ | .sha512_256, μ | .ripemd160, μ => .bytes μ
  | .sha256, μ => .bytes (Sha256.Midstate.to_byte_array cfg μ)
  | .sha256t _ _ _, μ => .bytes (Sha256.Midstate.to_byte_array cfg μ)
  | .siphash24, μ => .sip ⟨Siphash24.State.v0 μ, Siphash24.State.v2 μ, Siphash24.State.v1 μ,
      Siphash24.State.v3 μ⟩
  | .hmac a, μ => .pair (showMid cfg a (Hmac.Midstate.inner (E := engineOf cfg a) μ))
      (showMid cfg a (Hmac.Midstate.outer (E := engineOf cfg a) μ))

/-- A value as a midstate of a translated engine, if it has the type. -/
def readMid (cfg : Cfg) : (a : Alg) → MidVal → Option (engineOf cfg a).Midstate
  | .sha1, .bytes bs => if bs.length = 20 then some bs else none
  | .sha256, .bytes bs => if bs.length = 32 then some (Sha256.Midstate.from_byte_array cfg bs) else none
  | .sha384, .bytes bs => if bs.length = 64 then some bs else none
  | .sha512, .bytes bs => if bs.length = 64 then some bs else none
  | .sha512_256, .bytes bs => if bs.length = 64 then some bs else none
  | .ripemd160, .bytes bs => if bs.length = 20 then some bs else none
  | .sha256t _ _ _, .bytes bs =>
      if bs.length = 32 then some (Sha256.Midstate.from_byte_array cfg bs) else none
  | .siphash24, .sip s => some (Siphash24.State.mk s.v0 s.v2 s.v1 s.v3)
  | .hmac a, .pair i o =>
      match readMid cfg a i, readMid cfg a o with
      | some i, some o => some (Hmac.Midstate.mk (E := engineOf cfg a) i o)
      | _, _ => none
  | _, _ => none

/-- Make a translated engine; `none` if the call is ill typed. -/
def make (cfg : Cfg) : (a : Alg) → Make → Option (Res (engineOf cfg a).State)
  | a, .new => some (engineOf cfg a).new
  | a, .default => some (engineOf cfg a).default
  | .siphash24, .sipKeys k0 k1 => some (.ok (Siphash24.Engine.with_keys cfg k0 k1))
  | .hmac a, .hmacKey key => some (Hmac.Engine.new cfg (engineOf cfg a) key)
  | a, .resume μ n => (readMid cfg a μ).map fun μ => (engineOf cfg a).fromMidstate μ n
  | _, _ => none

/-- The engines of the translated text. -/
def text (cfg : Cfg) : Impl where
  State a := (engineOf cfg a).State
  make := make cfg
  input a := (engineOf cfg a).input
  count a := (engineOf cfg a).nBytesHashed
  mid a e := ((engineOf cfg a).midstate e).map (showMid cfg a)
  fin a := (engineOf cfg a).finalize

end Chf.Source
