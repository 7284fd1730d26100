import Verif.Model.Alg

/-!
# Whole programs over one engine

A program makes an engine in one of the ways the API offers, inputs some slices, and then looks at
the count, the midstate and the digest.  Midstates are shown as plain values (`MidVal`), so that runs
of the same program in different builds can be compared.
-/

namespace Chf

/-- A midstate as a value: `[u8; N]`, the four SipHash words, or HMAC's pair. -/
inductive MidVal where
  | bytes (bs : List Byte)
  | sip (s : Siphash24.State)
  | pair (inner outer : MidVal)
  deriving DecidableEq

/-- The ways to make an engine. -/
inductive Make where
  /-- `HashEngine::new()` -/
  | new
  /-- `Default::default()` -/
  | default
  /-- `siphash24::Engine::with_keys(k0, k1)` -/
  | sipKeys (k0 k1 : BitVec 64)
  /-- `hmac::Engine::<E>::new(key)` -/
  | hmacKey (key : List Byte)
  /-- `HashEngine::from_midstate(μ, n)` -/
  | resume (μ : MidVal) (n : Nat)

namespace Alg

/-- A midstate of this engine as a value. -/
def showMid (c : Cfg) : (a : Alg) → (a.engine c).Midstate → MidVal
  | sha1, μ | sha256, μ | sha384, μ | sha512, μ | sha512_256, μ | ripemd160, μ => .bytes μ
  | sha256t _ _ _, μ => .bytes μ
  | siphash24, μ => .sip μ
  | hmac a, μ => .pair (a.showMid c (Hmac.Midstate.inner (E := a.engine c) μ))
      (a.showMid c (Hmac.Midstate.outer (E := a.engine c) μ))

/-- A value as a midstate of this engine, if it has the type. -/
def readMid (c : Cfg) : (a : Alg) → MidVal → Option (a.engine c).Midstate
  | sha1, .bytes bs => if bs.length = 20 then some bs else none
  | sha256, .bytes bs => if bs.length = 32 then some bs else none
  | sha384, .bytes bs => if bs.length = 64 then some bs else none
  | sha512, .bytes bs => if bs.length = 64 then some bs else none
  | sha512_256, .bytes bs => if bs.length = 64 then some bs else none
  | ripemd160, .bytes bs => if bs.length = 20 then some bs else none
  | sha256t _ _ _, .bytes bs => if bs.length = 32 then some bs else none
  | siphash24, .sip s => some s
  | hmac a, .pair i o =>
      match a.readMid c i, a.readMid c o with
      | some i, some o => some (Hmac.Midstate.mk (E := a.engine c) i o)
      | _, _ => none
  | _, _ => none

/-- Make an engine; `none` if the program is ill typed. -/
def make (c : Cfg) : (a : Alg) → Make → Option (Res (a.engine c).State)
  | a, .new => some (a.engine c).new
  | a, .default => some (a.engine c).default
  | siphash24, .sipKeys k0 k1 => some (.ok (Siphash24.withKeys k0 k1))
  | hmac a, .hmacKey key => some (Hmac.new c (a.engine c) key)
  | a, .resume μ n => (a.readMid c μ).map fun μ => (a.engine c).fromMidstate μ n
  | _, _ => none

/-- Run a program: `none` if it is ill typed, a fault if it panics while making the engine or
inputting, else the count, the midstate and the digest (the last two may themselves panic). -/
def run (c : Cfg) (a : Alg) (mk : Make) (ds : List (List Byte)) :
    Option (Res (Nat × Res MidVal × Res (List Byte))) :=
  (a.make c mk).map fun r => do
    let e ← r
    let (n, μ, d) ← (a.engine c).observe e ds
    pure (n, μ.map (a.showMid c), d)

/-- The values of the Rust types: slices and lengths are below `2 ^ usizeBits`. -/
def _root_.Chf.Make.Typed (c : Cfg) : Make → Prop
  | .hmacKey key => key.length < c.usizeMod
  | .resume _ n => n < c.usizeMod
  | _ => True

end Alg
end Chf
