/- Generated from the translation of /repo/src by tools/rust2lean.py; do not edit. -/
import Verif.Seen.Prelude
import Verif.Source.Lib

namespace Chf.Seen.Lib
open Chf
set_option linter.unusedVariables false

/-- `HashEngine::new`, lib.rs 155. -/
def HashEngine.new (cfg : Cfg) (Self : Chf.HashEngine) (Self' : Tr.HashEngine Self) : Tr Self.State := do
  let x_1 ← Self'.default
  pure x_1

/-- `HashEngine::hash`, lib.rs 171-175. -/
def HashEngine.hash (cfg : Cfg) (Self : Chf.HashEngine) (Self' : Tr.HashEngine Self) (bytes : List Byte) : Tr (List Byte) := do
  let engine ← Self'.new
  let engine ← Self'.input engine bytes
  let x_3 ← Self'.finalize engine
  pure x_3

/-- `HashEngine::hash_byte_chunks`, lib.rs 178-188. -/
def HashEngine.hash_byte_chunks (cfg : Cfg) (Self : Chf.HashEngine) (Self' : Tr.HashEngine Self) (byte_slices : List (List Byte)) : Tr (List Byte) := do
  let engine ← Self'.new
  let engine ← Tr.each (byte_slices) (init := engine) fun engine slice => do
    let engine ← Self'.input engine slice
    pure engine
  let x_3 ← Self'.finalize engine
  pure x_3

end Chf.Seen.Lib
