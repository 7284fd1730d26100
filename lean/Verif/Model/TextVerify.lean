import Verif.Model.TextSeen
import Verif.Source.Cmp
import Verif.Seen.Cmp

/-!
# Checking a message authentication code with the translated text

What a caller writes who has received a message and a tag: compute the tag with `hmac::Engine::new(key)`,
`input` and `hmac::Hash::from_engine`, read the received one with `from_slice` or `from_str`, and compare
the bytes with `fixed_time_eq` (hmac.rs 33-65, 212-258; cmp.rs 17-53).
-/

namespace Chf.Source
open Chf

/-- The tag of the slices `ds` under `key`. `N` is the number of bytes of a digest of `a`. -/
def macTag (cfg : Cfg) (a : Alg) (N : Nat) (key : List Byte) (ds : List (List Byte)) : Res Hmac.Hash := do
  let e ← Hmac.Engine.new cfg (engineOf cfg a) key
  let e ← (engineOf cfg (.hmac a)).inputs e ds
  Hmac.Hash.from_engine cfg N (engineOf cfg (.hmac a)) e

/-- Is `received` the tag? A slice of the wrong length is refused by `from_slice`. -/
def macCheck (cfg : Cfg) (a : Alg) (N : Nat) (key : List Byte) (ds : List (List Byte)) (received : List Byte) :
    Res Bool := do
  let tag ← macTag cfg a N key ds
  match ← Hmac.Hash.from_slice cfg N received with
  | .error _ => pure false
  | .ok r => Cmp.fixed_time_eq cfg (Hmac.Hash.as_bytes cfg N tag) (Hmac.Hash.as_bytes cfg N r)

/-- Is the string `received` the tag? -/
def macCheckStr (cfg : Cfg) (a : Alg) (N : Nat) (key : List Byte) (ds : List (List Byte))
    (received : List Byte) : Res Bool := do
  let tag ← macTag cfg a N key ds
  match ← Hmac.Hash.FromStr.from_str cfg N received with
  | .error _ => pure false
  | .ok r => Cmp.fixed_time_eq cfg (Hmac.Hash.as_bytes cfg N tag) (Hmac.Hash.as_bytes cfg N r)

/-- The digest compared with the received bytes, without the hash type: `fixed_time_eq` panics on a wrong
length. -/
def macCompare (cfg : Cfg) (a : Alg) (key : List Byte) (ds : List (List Byte)) (received : List Byte) :
    Res Bool := do
  let e ← Hmac.Engine.new cfg (engineOf cfg a) key
  let e ← (engineOf cfg (.hmac a)).inputs e ds
  let d ← (engineOf cfg (.hmac a)).finalize e
  Cmp.fixed_time_eq cfg d received

/-- `macCompare`, observed. -/
def macCompareSeen (cfg : Cfg) (a : Alg) (key : List Byte) (ds : List (List Byte)) (received : List Byte) :
    Tr Bool := do
  let e ← Seen.Hmac.Engine.new cfg (engineOf cfg a) (seenOf cfg a) key
  let e ← Tr.each ds (init := e) fun e d => (seenOf cfg (.hmac a)).input e d
  let d ← (seenOf cfg (.hmac a)).finalize e
  Seen.Cmp.fixed_time_eq cfg d received

end Chf.Source
