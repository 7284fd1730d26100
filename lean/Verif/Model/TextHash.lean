import Verif.Model.TextTypes
import Verif.Spec.AlgLog

/-!
# Hashing with the translated hash types

`Hash::engine`, `Hash::from_engine` and `Hash::hash` of each module, by engine type.
-/

namespace Chf.Source
open Chf

/-- The type of the hashes of an engine type. -/
def tyOf : Alg → HashTy
  | .sha1 => .sha1
  | .sha256 => .sha256
  | .sha384 => .sha384
  | .sha512 => .sha512
  | .sha512_256 => .sha512_256
  | .ripemd160 => .ripemd160
  | .siphash24 => .siphash24
  | .sha256t _ _ _ => .sha256t
  | .hmac a => .hmac a.outLen

/-- The tag of a tagged hash; the other types have none. -/
def tagOf (cfg : Cfg) : Alg → Sha256t.Tag
  | .sha256t mid len data => .ofMidstate cfg mid len data
  | _ => ⟨.error .fuel⟩

/-- The hash type of an engine type. -/
def typeOf (cfg : Cfg) (a : Alg) : HashText := hashText cfg (tagOf cfg a) (tyOf a)

/-- `Hash::engine()` -/
def hashEngine (cfg : Cfg) : (a : Alg) → Res (engineOf cfg a).State
  | .sha1 => .ok (Sha1.Hash.engine cfg)
  | .sha256 => .ok (Sha256.Hash.engine cfg)
  | .sha384 => .ok (Sha384.Hash.engine cfg)
  | .sha512 => .ok (Sha512.Hash.engine cfg)
  | .sha512_256 => .ok (Sha512_256.Hash.engine cfg)
  | .ripemd160 => .ok (Ripemd160.Hash.engine cfg)
  | .siphash24 => .ok (Siphash24.Hash.engine cfg)
  | .sha256t mid len data => Sha256t.Hash.engine cfg (.ofMidstate cfg mid len data)
  | .hmac a => Hmac.Hash.engine cfg a.outLen (engineOf cfg (.hmac a))

/-- `Hash::from_engine(e)` -/
def hashFrom (cfg : Cfg) : (a : Alg) → (engineOf cfg a).State → Res (typeOf cfg a).H
  | .sha1, e => Sha1.Hash.from_engine cfg e
  | .sha256, e => Sha256.Hash.from_engine cfg e
  | .sha384, e => Sha384.Hash.from_engine cfg e
  | .sha512, e => Sha512.Hash.from_engine cfg e
  | .sha512_256, e => Sha512_256.Hash.from_engine cfg e
  | .ripemd160, e => Ripemd160.Hash.from_engine cfg e
  | .siphash24, e => .ok (Siphash24.Hash.from_engine cfg e)
  | .sha256t mid len data, e => Sha256t.Hash.from_engine cfg (.ofMidstate cfg mid len data) e
  | .hmac a, e => Hmac.Hash.from_engine cfg a.outLen (engineOf cfg (.hmac a)) e

/-- `Hash::hash(m)`, where there is one. -/
def hashOf (cfg : Cfg) : (a : Alg) → Option (List Byte → Res (typeOf cfg a).H)
  | .sha1 => some (Sha1.Hash.hash cfg)
  | .sha256 => some (Sha256.Hash.hash cfg)
  | .sha384 => some (Sha384.Hash.hash cfg)
  | .sha512 => some (Sha512.Hash.hash cfg)
  | .sha512_256 => some (Sha512_256.Hash.hash cfg)
  | .ripemd160 => some (Ripemd160.Hash.hash cfg)
  | .siphash24 => some (Siphash24.Hash.hash cfg)
  | .sha256t mid len data => some (Sha256t.Hash.hash cfg (.ofMidstate cfg mid len data))
  | .hmac _ => none

/-- `let e = Hash::engine(); e.input(d) for each d; Hash::from_engine(e)` -/
def hashChunks (cfg : Cfg) (a : Alg) (ds : List (List Byte)) : Res (typeOf cfg a).H := do
  let e ← hashEngine cfg a
  let e ← (engineOf cfg a).inputs e ds
  hashFrom cfg a e

/-- `lib.rs` 39-41, the documentation's program: `Engine::default()`, `io::copy(&mut reader, &mut engine)`,
`Hash::from_engine(engine)`; with what `copy` returned. -/
def hashReader (cfg : Cfg) (a : Alg) (w : Writer (engineOf cfg a).State) (reads : List Writer.ReadResult) :
    Res (Except IoError Nat × (typeOf cfg a).H) := do
  let e ← (engineOf cfg a).default
  let (e, r) ← w.copy e 0 reads
  let v ← hashFrom cfg a e
  pure (r, v)

end Chf.Source
