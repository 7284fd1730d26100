import Verif.Model.Text

/-!
# The bytes an engine of the translated text keeps in memory

The field `buffer` of `sha1::Engine` (sha1.rs 18-22), `sha256::Engine` (sha256.rs 25-29), `sha512::Engine`
(sha512.rs 18-22) and `ripemd160::Engine` (ripemd160.rs 18-22); `sha384::Engine` (sha384.rs 16),
`sha512_256::Engine` (sha512_256.rs 26) and `sha256t::Engine` (sha256t.rs 12) contain one of these.
`siphash24::Engine` has no such buffer; `hmac::Engine` (hmac.rs 195-198) has two engines.
-/

namespace Chf.Source
open Chf

/-- `engine.buffer`, or `engine.0.buffer`. -/
def bufferOf (cfg : Cfg) : (a : Alg) → (engineOf cfg a).State → List Byte
  | .sha1, e => Sha1.Engine.buffer e
  | .sha256, e => Sha256.Engine.buffer e
  | .sha384, e => Sha512.Engine.buffer (Sha384.Engine.f0 e)
  | .sha512, e => Sha512.Engine.buffer e
  | .sha512_256, e => Sha512.Engine.buffer (Sha512_256.Engine.f0 e)
  | .ripemd160, e => Ripemd160.Engine.buffer e
  | .sha256t _ _ _, e => Sha256.Engine.buffer (Sha256t.Engine.f0 e)
  | .siphash24, _ => []
  | .hmac _, _ => []

/-- The buffers of the two engines in a `hmac::Engine<a>`: that of the inner and that of the outer hash. -/
def hmacBuffers (cfg : Cfg) (a : Alg) (e : Hmac.Engine (engineOf cfg a)) : List Byte × List Byte :=
  (bufferOf cfg a e.iengine, bufferOf cfg a e.oengine)

end Chf.Source
