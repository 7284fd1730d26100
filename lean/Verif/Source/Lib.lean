/- Generated from /repo/src/lib.rs by tools/rust2lean.py; do not edit. -/
import Verif.Source.Prelude

namespace Chf.Source.Lib
open Chf
set_option linter.unusedVariables false

/-- `struct FromSliceError`. -/
structure FromSliceError where
  expected : Nat
  got : Nat

/-- `HashEngine::new`, lib.rs 155. -/
def HashEngine.new (cfg : Cfg) (Self : Chf.HashEngine) : Res Self.State := do
  let x_1 ← Self.default
  pure x_1

/-- `HashEngine::hash`, lib.rs 171-175. -/
def HashEngine.hash (cfg : Cfg) (Self : Chf.HashEngine) (bytes : List Byte) : Res (List Byte) := do
  let engine ← Self.new
  let engine ← Self.input engine bytes
  let x_3 ← Self.finalize engine
  pure x_3

/-- `HashEngine::hash_byte_chunks`, lib.rs 178-188. -/
def HashEngine.hash_byte_chunks (cfg : Cfg) (Self : Chf.HashEngine) (byte_slices : List (List Byte)) : Res (List Byte) := do
  let engine ← Self.new
  let engine ← (byte_slices).foldlM (init := engine) fun engine slice => do
    let engine ← Self.input engine slice
    pure engine
  let x_3 ← Self.finalize engine
  pure x_3

/-- `FromSliceError::new`, lib.rs 211. -/
def FromSliceError.new (cfg : Cfg) (got : Nat) (expected : Nat) : FromSliceError :=
  ({ got := got, expected := expected } : FromSliceError)

/-- `FromSliceError::expected_length`, lib.rs 214. -/
def FromSliceError.expected_length (cfg : Cfg) (self : FromSliceError) : Nat :=
  self.expected

/-- `FromSliceError::invalid_length`, lib.rs 217. -/
def FromSliceError.invalid_length (cfg : Cfg) (self : FromSliceError) : Nat :=
  self.got

/-- `FromSliceError::Display::fmt`, lib.rs 221-223. -/
def FromSliceError.Display.fmt (cfg : Cfg) (self : FromSliceError) (f : Hex.Flags) : (List Byte) :=
  ascii "invalid slice length " ++ ascii (toString self.got) ++ ascii " (expected " ++ ascii (toString self.expected) ++ ascii ")"

/-- `#[derive(PartialEq)]` of `FromSliceError`, lib.rs 201. -/
def FromSliceError.PartialEq.eq (cfg : Cfg) (self : FromSliceError) (other : FromSliceError) : Bool :=
  self.expected == other.expected && self.got == other.got

/-! Not translated:

* `HashEngine::input`: no body
* `HashEngine::n_bytes_hashed`: no body
* `HashEngine::finalize`: no body
* `HashEngine::midstate`: no body
* `HashEngine::from_midstate`: no body
-/

end Chf.Source.Lib
