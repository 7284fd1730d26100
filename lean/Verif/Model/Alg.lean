import Verif.Model.Sha256Engine
import Verif.Model.Sha512
import Verif.Model.Sha1
import Verif.Model.Ripemd160
import Verif.Model.Siphash24
import Verif.Model.Hmac

/-!
# Every engine of the crate, and the ways a caller can obtain one

`Alg` is a syntax for the engine types a user of the crate can name; `History` lists the public
functions that produce an engine value.  Statements that hold "for every engine in every reachable
state" quantify over these.
-/

namespace Chf

/-- The tag whose `Tag::engine()` (`sha256t.rs` 46-49) builds an engine with `from_midstate` and one
`input`, which is all the public API offers apart from the engine recursion itself. -/
def Sha256t.Tag.ofMidstate (c : Cfg) (mid : List Byte) (len : Nat) (data : List Byte) : Sha256t.Tag where
  engine := do
    let e ← Sha256.fromMidstate mid len
    (Sha256.engine c).input e data

/-- The engine types: the modules of `/repo/src/lib.rs` 118-128 and the two generic ones. -/
inductive Alg where
  /-- `sha1::Engine` -/
  | sha1
  /-- `sha256::Engine` -/
  | sha256
  /-- `sha384::Engine` -/
  | sha384
  /-- `sha512::Engine` -/
  | sha512
  /-- `sha512_256::Engine` -/
  | sha512_256
  /-- `ripemd160::Engine` -/
  | ripemd160
  /-- `siphash24::Engine` -/
  | siphash24
  /-- `sha256t::Engine<T>` for the tag built from a midstate, a length and data -/
  | sha256t (mid : List Byte) (len : Nat) (data : List Byte)
  /-- `hmac::Engine<E>` -/
  | hmac (a : Alg)

namespace Alg

/-- The `HashEngine` implementation. -/
def engine (c : Cfg) : Alg → HashEngine
  | sha1 => Sha1.engine c
  | sha256 => Sha256.engine c
  | sha384 => Sha384.engine c
  | sha512 => Sha512.engine c
  | sha512_256 => Sha512_256.engine c
  | ripemd160 => Ripemd160.engine c
  | siphash24 => Siphash24.engine c
  | sha256t mid len data => Sha256t.engine c (.ofMidstate c mid len data)
  | hmac a => Hmac.engine c (a.engine c)

/-- `BLOCK_SIZE`. -/
def blockSize : Alg → Nat
  | sha384 | sha512 | sha512_256 => 128
  | siphash24 => 32
  | hmac a => a.blockSize
  | _ => 64

/-- The bytes a new engine counts as already hashed: those of the tag, and HMAC's key block. -/
def base : Alg → Nat
  | sha256t _ len data => len + data.length
  | hmac a => a.base + a.blockSize
  | _ => 0

/-- `new()` of this engine type does not panic: the tag is well typed and aligned, and what `new()`
inputs fits the counter.  Without a tag and with fewer than 2^9 nested HMACs this always holds. -/
def Ok (c : Cfg) : Alg → Prop
  | sha256t mid len data => mid.length = 32 ∧ 64 ∣ len ∧ len + data.length < c.usizeMod
  | hmac a => a.Ok c ∧ a.base + a.blockSize < c.usizeMod
  | _ => True

/-- The values of the Rust types of `from_midstate`'s arguments: `[u8; N]` (or a pair of them) and
`usize`. -/
def Typed (c : Cfg) : (a : Alg) → (a.engine c).Midstate → Nat → Prop
  | sha1, μ, n => List.length (α := Byte) μ = 20 ∧ n < c.usizeMod
  | sha256, μ, n => List.length (α := Byte) μ = 32 ∧ n < c.usizeMod
  | sha384, μ, n => List.length (α := Byte) μ = 64 ∧ n < c.usizeMod
  | sha512, μ, n => List.length (α := Byte) μ = 64 ∧ n < c.usizeMod
  | sha512_256, μ, n => List.length (α := Byte) μ = 64 ∧ n < c.usizeMod
  | ripemd160, μ, n => List.length (α := Byte) μ = 20 ∧ n < c.usizeMod
  | siphash24, _, n => n < c.usizeMod
  | sha256t _ _ _, μ, n => List.length (α := Byte) μ = 32 ∧ n < c.usizeMod
  | hmac a, μ, n =>
      a.Typed c (Hmac.Midstate.inner (E := a.engine c) μ) n ∧
      a.Typed c (Hmac.Midstate.outer (E := a.engine c) μ) n

end Alg

/-- `History c a k e`: a caller of the public API can obtain the engine `e` of type `a`, and the
bytes counted on the way there number `k` (as a natural number, without wrapping).  Cloning needs no
constructor. -/
inductive History (c : Cfg) : (a : Alg) → Nat → (a.engine c).State → Prop
  /-- `HashEngine::new()`, `lib.rs` 155. -/
  | new {a : Alg} {e} : (a.engine c).new = .ok e → History c a a.base e
  /-- `Default::default()`. -/
  | default {a : Alg} {e} : (a.engine c).default = .ok e → History c a a.base e
  /-- `siphash24::Engine::with_keys`, `siphash24.rs` 81-95. -/
  | sipKeys (k0 k1 : BitVec 64) : History c .siphash24 0 (Siphash24.withKeys k0 k1)
  /-- `hmac::Engine::<E>::new(key)`, `hmac.rs` 212-239. -/
  | hmacKey {a : Alg} {e} (key : List Byte) : key.length < c.usizeMod →
      Hmac.new c (a.engine c) key = .ok e → History c (.hmac a) (a.base + a.blockSize) e
  /-- `HashEngine::from_midstate`. -/
  | resume {a : Alg} {μ n e} : a.Typed c μ n → (a.engine c).fromMidstate μ n = .ok e →
      History c a n e
  /-- `HashEngine::input` of a slice. -/
  | input {a : Alg} {k e e'} (d : List Byte) : History c a k e → d.length < c.usizeMod →
      (a.engine c).input e d = .ok e' → History c a (k + d.length) e'

/-- The engine `e` can be obtained through the public API. -/
def Reachable (c : Cfg) (a : Alg) (e : (a.engine c).State) : Prop := ∃ k, History c a k e

/-- Everything a caller can learn from an engine after some further inputs: whether one of them
panicked, and else the count, the midstate and the digest. -/
def HashEngine.observe (E : HashEngine) (e : E.State) (ds : List (List Byte)) :
    Res (Nat × Res E.Midstate × Res (List Byte)) := do
  let e ← E.inputs e ds
  pure (E.nBytesHashed e, E.midstate e, E.finalize e)

/-- Two engines that no caller can tell apart by further inputs (slices are shorter than
`2 ^ usizeBits`), `n_bytes_hashed`, `midstate` and `finalize`. -/
def ObsEq (c : Cfg) (E : HashEngine) (e e' : E.State) : Prop :=
  ∀ ds : List (List Byte), (∀ d ∈ ds, d.length < c.usizeMod) → E.observe e ds = E.observe e' ds

end Chf
