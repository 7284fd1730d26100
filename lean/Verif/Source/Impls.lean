/- Generated from /repo/src/impls.rs by tools/rust2lean.py; do not edit. -/
import Verif.Source.Lib
import Verif.Source.Sha1
import Verif.Source.Sha256
import Verif.Source.Sha512
import Verif.Source.Ripemd160
import Verif.Source.Siphash24
import Verif.Source.Hmac
import Verif.Source.Sha256t

namespace Chf.Source.Impls
open Chf
set_option linter.unusedVariables false

/-- `sha1::Engine::Write::write`, impls.rs 12-17. -/
def sha1.Engine.Write.write (cfg : Cfg) (us : Sha1.Engine) (buf : List Byte) : Res ((Except Rs.IoError Nat) × Sha1.Engine) := do
  let us ← Sha1.Engine.input cfg us buf
  pure (Except.ok buf.length, us)

/-- `sha1::Engine::Write::flush`, impls.rs 12-18. -/
def sha1.Engine.Write.flush (cfg : Cfg) (us : Sha1.Engine) : (Except Rs.IoError Unit) × Sha1.Engine :=
  (Except.ok (), us)

/-- `sha256::Engine::Write::write`, impls.rs 21-26. -/
def sha256.Engine.Write.write (cfg : Cfg) (us : Sha256.Engine) (buf : List Byte) : Res ((Except Rs.IoError Nat) × Sha256.Engine) := do
  let us ← Sha256.Engine.input cfg us buf
  pure (Except.ok buf.length, us)

/-- `sha256::Engine::Write::flush`, impls.rs 21-27. -/
def sha256.Engine.Write.flush (cfg : Cfg) (us : Sha256.Engine) : (Except Rs.IoError Unit) × Sha256.Engine :=
  (Except.ok (), us)

/-- `sha512::Engine::Write::write`, impls.rs 30-35. -/
def sha512.Engine.Write.write (cfg : Cfg) (us : Sha512.Engine) (buf : List Byte) : Res ((Except Rs.IoError Nat) × Sha512.Engine) := do
  let us ← Sha512.Engine.input cfg us buf
  pure (Except.ok buf.length, us)

/-- `sha512::Engine::Write::flush`, impls.rs 30-36. -/
def sha512.Engine.Write.flush (cfg : Cfg) (us : Sha512.Engine) : (Except Rs.IoError Unit) × Sha512.Engine :=
  (Except.ok (), us)

/-- `ripemd160::Engine::Write::write`, impls.rs 39-44. -/
def ripemd160.Engine.Write.write (cfg : Cfg) (us : Ripemd160.Engine) (buf : List Byte) : Res ((Except Rs.IoError Nat) × Ripemd160.Engine) := do
  let us ← Ripemd160.Engine.input cfg us buf
  pure (Except.ok buf.length, us)

/-- `ripemd160::Engine::Write::flush`, impls.rs 39-45. -/
def ripemd160.Engine.Write.flush (cfg : Cfg) (us : Ripemd160.Engine) : (Except Rs.IoError Unit) × Ripemd160.Engine :=
  (Except.ok (), us)

/-- `siphash24::Engine::Write::write`, impls.rs 48-53. -/
def siphash24.Engine.Write.write (cfg : Cfg) (us : Siphash24.Engine) (buf : List Byte) : Res ((Except Rs.IoError Nat) × Siphash24.Engine) := do
  let us ← Siphash24.Engine.input cfg us buf
  pure (Except.ok buf.length, us)

/-- `siphash24::Engine::Write::flush`, impls.rs 48-54. -/
def siphash24.Engine.Write.flush (cfg : Cfg) (us : Siphash24.Engine) : (Except Rs.IoError Unit) × Siphash24.Engine :=
  (Except.ok (), us)

/-- `hmac::Engine::Write::write`, impls.rs 59-62. -/
def hmac.Engine.Write.write (cfg : Cfg) (E : Chf.HashEngine) (self : Hmac.Engine E) (buf : List Byte) : Res ((Except Rs.IoError Nat) × (Hmac.Engine E)) := do
  let self ← Hmac.Engine.input cfg E self buf
  pure (Except.ok buf.length, self)

/-- `hmac::Engine::Write::flush`, impls.rs 65. -/
def hmac.Engine.Write.flush (cfg : Cfg) (E : Chf.HashEngine) (self : Hmac.Engine E) : (Except Rs.IoError Unit) × (Hmac.Engine E) :=
  (Except.ok (), self)

/-- `hmac::Engine::StdWrite::write`, impls.rs 71-74. -/
def hmac.Engine.StdWrite.write (cfg : Cfg) (E : Chf.HashEngine) (self : Hmac.Engine E) (buf : List Byte) : Res ((Except Rs.IoError Nat) × (Hmac.Engine E)) := do
  let self ← Hmac.Engine.input cfg E self buf
  pure (Except.ok buf.length, self)

/-- `hmac::Engine::StdWrite::flush`, impls.rs 77. -/
def hmac.Engine.StdWrite.flush (cfg : Cfg) (E : Chf.HashEngine) (self : Hmac.Engine E) : (Except Rs.IoError Unit) × (Hmac.Engine E) :=
  (Except.ok (), self)

/-- `sha256t::Engine::Write::write`, impls.rs 80-85. -/
def sha256t.Engine.Write.write (cfg : Cfg) (T : Sha256t.Tag) (us : Sha256t.Engine) (buf : List Byte) : Res ((Except Rs.IoError Nat) × Sha256t.Engine) := do
  let us ← Sha256t.Engine.input cfg T us buf
  pure (Except.ok buf.length, us)

/-- `sha256t::Engine::Write::flush`, impls.rs 80-86. -/
def sha256t.Engine.Write.flush (cfg : Cfg) (T : Sha256t.Tag) (us : Sha256t.Engine) : (Except Rs.IoError Unit) × Sha256t.Engine :=
  (Except.ok (), us)

end Chf.Source.Impls
