/- Generated from the translation of /repo/src by tools/rust2lean.py; do not edit. -/
import Verif.Seen.Prelude
import Verif.Source.Sha256t
import Verif.Seen.Sha256

namespace Chf.Seen.Sha256t
open Chf
set_option linter.unusedVariables false

/-- `trait Tag`: user code, observed. -/
structure Tag where
  engine : Tr Source.Sha256t.Engine

/-- `Engine::default`, sha256t.rs 15. -/
def Engine.default (cfg : Cfg) (T : Source.Sha256t.Tag) (T' : Seen.Sha256t.Tag) : Tr Source.Sha256t.Engine := do
  let x_1 ← T'.engine
  pure x_1

/-- `Engine::new`, sha256t.rs 24. -/
def Engine.new (cfg : Cfg) (T : Source.Sha256t.Tag) (T' : Seen.Sha256t.Tag) : Tr Source.Sha256t.Engine := do
  let x_1 ← T'.engine
  pure x_1

/-- `Engine::input`, sha256t.rs 27. -/
def Engine.input (cfg : Cfg) (T : Source.Sha256t.Tag) (T' : Seen.Sha256t.Tag) (self : Source.Sha256t.Engine) (data : List Byte) : Tr Source.Sha256t.Engine := do
  let x_1 ← Seen.Sha256.Engine.input cfg self.f0 data
  let self := { self with f0 := x_1 }
  pure self

/-- `Engine::finalize`, sha256t.rs 33. -/
def Engine.finalize (cfg : Cfg) (T : Source.Sha256t.Tag) (T' : Seen.Sha256t.Tag) (self : Source.Sha256t.Engine) : Tr (List Byte) := do
  let x_1 ← Seen.Sha256.Engine.finalize cfg self.f0
  pure x_1

/-- `Engine::midstate`, sha256t.rs 36. -/
def Engine.midstate (cfg : Cfg) (T : Source.Sha256t.Tag) (T' : Seen.Sha256t.Tag) (self : Source.Sha256t.Engine) : Tr Source.Sha256.Midstate := do
  let x_1 ← Seen.Sha256.Engine.midstate cfg self.f0
  pure x_1

/-- `Engine::from_midstate`, sha256t.rs 39-42. -/
def Engine.from_midstate (cfg : Cfg) (T : Source.Sha256t.Tag) (T' : Seen.Sha256t.Tag) (midstate : Source.Sha256.Midstate) (length : Nat) : Tr Source.Sha256t.Engine := do
  let inner ← Seen.Sha256.Engine.from_midstate cfg midstate length
  pure ({ f0 := inner, f1 := () } : Source.Sha256t.Engine)

/-- `Hash::engine`, sha256t.rs 72. -/
def Hash.engine (cfg : Cfg) (T : Source.Sha256t.Tag) (T' : Seen.Sha256t.Tag) : Tr Source.Sha256t.Engine := do
  let x_1 ← T'.engine
  pure x_1

/-- `Hash::hash`, sha256t.rs 65-69. -/
def Hash.hash (cfg : Cfg) (T : Source.Sha256t.Tag) (T' : Seen.Sha256t.Tag) (bytes : List Byte) : Tr Source.Sha256t.Hash := do
  let engine ← Seen.Sha256t.Hash.engine cfg T T'
  let engine ← Seen.Sha256t.Engine.input cfg T T' engine bytes
  let x_3 ← Seen.Sha256t.Engine.finalize cfg T T' engine
  pure ({ f0 := x_3, f1 := () } : Source.Sha256t.Hash)

/-- `impl HashEngine for Engine`, sha256t.rs 18. -/
def engine (cfg : Cfg) (T : Source.Sha256t.Tag) (T' : Seen.Sha256t.Tag) : Tr.HashEngine (Source.Sha256t.engine cfg T) where
  default := Seen.Sha256t.Engine.default cfg T T'
  new := Seen.Sha256t.Engine.new cfg T T'
  input self data := Seen.Sha256t.Engine.input cfg T T' self data
  finalize self := Seen.Sha256t.Engine.finalize cfg T T' self
  midstate self := Seen.Sha256t.Engine.midstate cfg T T' self
  fromMidstate midstate length := Seen.Sha256t.Engine.from_midstate cfg T T' midstate length

end Chf.Seen.Sha256t
