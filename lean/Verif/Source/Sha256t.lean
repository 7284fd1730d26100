/- Generated from /repo/src/sha256t.rs by tools/rust2lean.py; do not edit. -/
import Verif.Source.Lib
import Verif.Source.SerdeMacros
import Verif.Source.Sha256

namespace Chf.Source.Sha256t
open Chf
set_option linter.unusedVariables false

/-- `struct Engine`. -/
structure Engine where
  f0 : Sha256.Engine
  f1 : Unit

/-- `struct Hash`. -/
structure Hash where
  f0 : List Byte
  f1 : Unit

/-- `trait Tag`: user code. -/
structure Tag where
  engine : Res Engine

/-- `const Engine::BLOCK_SIZE`. -/
def Engine.BLOCK_SIZE : Nat := 64

/-- `const Hash::LEN`. -/
def Hash.LEN : Nat := 32

/-- `const Hash::N`. -/
def Hash.N : Nat := 32

/-- `Engine::default`, sha256t.rs 15. -/
def Engine.default (cfg : Cfg) (T : Tag) : Res Engine := do
  let x_1 ← T.engine
  pure x_1

/-- `Engine::new`, sha256t.rs 24. -/
def Engine.new (cfg : Cfg) (T : Tag) : Res Engine := do
  let x_1 ← T.engine
  pure x_1

/-- `Engine::input`, sha256t.rs 27. -/
def Engine.input (cfg : Cfg) (T : Tag) (self : Engine) (data : List Byte) : Res Engine := do
  let x_1 ← Sha256.Engine.input cfg self.f0 data
  let self := { self with f0 := x_1 }
  pure self

/-- `Engine::n_bytes_hashed`, sha256t.rs 30. -/
def Engine.n_bytes_hashed (cfg : Cfg) (T : Tag) (self : Engine) : Nat :=
  Sha256.Engine.n_bytes_hashed cfg self.f0

/-- `Engine::finalize`, sha256t.rs 33. -/
def Engine.finalize (cfg : Cfg) (T : Tag) (self : Engine) : Res (List Byte) := do
  let x_1 ← Sha256.Engine.finalize cfg self.f0
  pure x_1

/-- `Engine::midstate`, sha256t.rs 36. -/
def Engine.midstate (cfg : Cfg) (T : Tag) (self : Engine) : Res Sha256.Midstate := do
  let x_1 ← Sha256.Engine.midstate cfg self.f0
  pure x_1

/-- `Engine::from_midstate`, sha256t.rs 39-42. -/
def Engine.from_midstate (cfg : Cfg) (T : Tag) (midstate : Sha256.Midstate) (length : Nat) : Res Engine := do
  let inner ← Sha256.Engine.from_midstate cfg midstate length
  pure ({ f0 := inner, f1 := () } : Engine)

/-- `Hash::engine`, sha256t.rs 72. -/
def Hash.engine (cfg : Cfg) (T : Tag) : Res Engine := do
  let x_1 ← T.engine
  pure x_1

/-- `Hash::hash`, sha256t.rs 65-69. -/
def Hash.hash (cfg : Cfg) (T : Tag) (bytes : List Byte) : Res Hash := do
  let engine ← Hash.engine cfg T
  let engine ← Engine.input cfg T engine bytes
  let x_3 ← Engine.finalize cfg T engine
  pure ({ f0 := x_3, f1 := () } : Hash)

/-- `Hash::from_engine`, sha256t.rs 77-80. -/
def Hash.from_engine (cfg : Cfg) (T : Tag) (engine : Engine) : Res Hash := do
  let digest ← Engine.finalize cfg T engine
  pure ({ f0 := digest, f1 := () } : Hash)

/-- `Hash::from_bytes_ref`, sha256t.rs 84-87. -/
def Hash.from_bytes_ref (cfg : Cfg) (T : Tag) (bytes : List Byte) : Hash :=
  ({ f0 := bytes, f1 := () } : Hash)

/-- `Hash::from_bytes_mut`, sha256t.rs 91-94. -/
def Hash.from_bytes_mut (cfg : Cfg) (T : Tag) (bytes : List Byte) : Hash × (Hash → List Byte) :=
  (({ f0 := bytes, f1 := () } : Hash), fun r => r.f0)

/-- `Hash::from_byte_array`, sha256t.rs 108. -/
def Hash.from_byte_array (cfg : Cfg) (T : Tag) (bytes : List Byte) : Hash :=
  ({ f0 := bytes, f1 := () } : Hash)

/-- `Hash::from_slice`, sha256t.rs 97-105. -/
def Hash.from_slice (cfg : Cfg) (T : Tag) (sl : List Byte) : Res (Except Lib.FromSliceError Hash) := do
  let x_2 ←
    if sl.length != 32 then do
      pure (Except.error ({ expected := 32, got := sl.length } : Lib.FromSliceError))
    else do
      let ret : List Byte := List.replicate 32 0#8
      let ret ← Rs.copyFromSlice ret sl
      pure (Except.ok (Hash.from_byte_array cfg T ret))
  pure x_2

/-- `Hash::to_byte_array`, sha256t.rs 111. -/
def Hash.to_byte_array (cfg : Cfg) (T : Tag) (self : Hash) : (List Byte) :=
  self.f0

/-- `Hash::as_byte_array`, sha256t.rs 114. -/
def Hash.as_byte_array (cfg : Cfg) (T : Tag) (self : Hash) : (List Byte) :=
  self.f0

/-- `Hash::as_bytes`, sha256t.rs 117. -/
def Hash.as_bytes (cfg : Cfg) (T : Tag) (self : Hash) : (List Byte) :=
  self.f0

/-- `Hash::to_bytes`, sha256t.rs 121. -/
def Hash.to_bytes (cfg : Cfg) (T : Tag) (self : Hash) : (List Byte) :=
  self.f0

/-- `Hash::all_zeros`, sha256t.rs 128. -/
def Hash.all_zeros (cfg : Cfg) (T : Tag) : Hash :=
  ({ f0 := List.replicate 32 0x00#8, f1 := () } : Hash)

/-- `Hash::JsonSchema::schema_name`, sha256t.rs 133. -/
def Hash.JsonSchema.schema_name (cfg : Cfg) (T : Tag) : (List Byte) :=
  ascii "Hash"

/-- `Hash::JsonSchema::json_schema`, sha256t.rs 135-143. -/
def Hash.JsonSchema.json_schema (cfg : Cfg) (T : Tag) (gen : Rs.SchemaGenerator) : Res Rs.SchemaObject := do
  let schema := Rs.stringSchema gen
  let x_1 ← Rs.mulU cfg 32#32 2#32
  let x_2 ← Rs.mulU cfg 32#32 2#32
  let schema := { schema with string := some ({ max_length := some x_1, min_length := some x_2, pattern := some (ascii "[0-9a-fA-F]+") } : Rs.StringValidation) }
  pure schema

/-- `Hash::Clone::clone`, sha256t.rs 148. -/
def Hash.Clone.clone (cfg : Cfg) (T : Tag) (self : Hash) : Hash :=
  self

/-- `Hash::PartialEq::eq`, sha256t.rs 151. -/
def Hash.PartialEq.eq (cfg : Cfg) (T : Tag) (self : Hash) (other : Hash) : Bool :=
  self.f0 == other.f0

/-- `Hash::default`, sha256t.rs 155. -/
def Hash.default (cfg : Cfg) (T : Tag) : Hash :=
  ({ f0 := List.replicate 32 0#8, f1 := () } : Hash)

/-- `Hash::Ord::cmp`, sha256t.rs 163. -/
def Hash.Ord.cmp (cfg : Cfg) (T : Tag) (self : Hash) (other : Hash) : Ordering :=
  Rs.cmpSlice self.f0 other.f0

/-- `Hash::PartialOrd::partial_cmp`, sha256t.rs 158-160. -/
def Hash.PartialOrd.partial_cmp (cfg : Cfg) (T : Tag) (self : Hash) (other : Hash) : (Option Ordering) :=
  some (Hash.Ord.cmp cfg T self other)

/-- `Hash::Hash::hash`, sha256t.rs 166. -/
def Hash.Hash.hash (cfg : Cfg) (T : Tag) (H : Rs.Hasher) (self : Hash) (h : H.State) : H.State :=
  let h := H.hashSlice self.f0 h
  h

/-- `Hash::FromStr::from_str`, internal_macros.rs 106-111. -/
def Hash.FromStr.from_str (cfg : Cfg) (T : Tag) (s : List Byte) : Res (Except Hex.Error Hash) := do
  let x_1 ← Rs.fromHex 32 s
  Rs.tryOk x_1 fun bytes => do
    pure (Except.ok (Hash.from_byte_array cfg T bytes))

/-- `Hash::LowerHex::fmt`, internal_macros.rs 54-56. -/
def Hash.LowerHex.fmt (cfg : Cfg) (T : Tag) (self : Hash) (f : Hex.Flags) : Res (List Byte) := do
  let x_1 ← Hex.fmtHexExact f 32 self.f0 .lower
  pure x_1

/-- `Hash::UpperHex::fmt`, internal_macros.rs 61-63. -/
def Hash.UpperHex.fmt (cfg : Cfg) (T : Tag) (self : Hash) (f : Hex.Flags) : Res (List Byte) := do
  let x_1 ← Hex.fmtHexExact f 32 self.f0 .upper
  pure x_1

/-- `Hash::Display::fmt`, internal_macros.rs 68-70. -/
def Hash.Display.fmt (cfg : Cfg) (T : Tag) (self : Hash) (f : Hex.Flags) : Res (List Byte) := do
  let x_1 ← Hash.LowerHex.fmt cfg T self f
  pure x_1

/-- `Hash::Debug::fmt`, internal_macros.rs 75-77. -/
def Hash.Debug.fmt (cfg : Cfg) (T : Tag) (self : Hash) (f : Hex.Flags) : Res (List Byte) := do
  let x_1 ← Hash.Display.fmt cfg T self ({ alternate := true })
  pure x_1

/-- `Hash::SerdeHash::from_slice_delegated`, serde_macros.rs 115-117. -/
def Hash.SerdeHash.from_slice_delegated (cfg : Cfg) (T : Tag) (sl : List Byte) : Res (Except Lib.FromSliceError Hash) := do
  let x_1 ← Hash.from_slice cfg T sl
  pure x_1

/-- `Hash::AsRef::as_ref`, internal_macros.rs 12. -/
def Hash.AsRef.as_ref (cfg : Cfg) (T : Tag) (self : Hash) : (List Byte) :=
  self.f0

/-- `Hash::AsRefArray::as_ref`, internal_macros.rs 119. -/
def Hash.AsRefArray.as_ref (cfg : Cfg) (T : Tag) (self : Hash) : (List Byte) :=
  self.f0

/-- `Hash::Index::index`, internal_macros.rs 126. -/
def Hash.Index.index (cfg : Cfg) (T : Tag) (self : Hash) (index_ : Rs.SliceIndex) : Res (List Byte) := do
  let x_1 ← Rs.SliceIndex.get index_ self.f0
  pure x_1

/-- `impl SerdeHash for Hash`. -/
def Hash.serdeHash (cfg : Cfg) (T : Tag) : SerdeMacros.SerdeHash where
  State := Hash
  from_slice_delegated sl := Hash.SerdeHash.from_slice_delegated cfg T sl
  from_str s := Hash.FromStr.from_str cfg T s
  fmt self f := Hash.Display.fmt cfg T self f
  index self i := Hash.Index.index cfg T self (.rangeFull i)

/-- `Hash::Serialize::serialize`, serde_macros.rs 121-123. -/
def Hash.Serialize.serialize (cfg : Cfg) (T : Tag) (self : Hash) (s : Rs.Serializer) : Res Rs.Serialized := do
  let x_1 ← SerdeMacros.SerdeHash.serialize cfg (Hash.serdeHash cfg T) self s
  pure x_1

/-- `Hash::Deserialize::deserialize`, serde_macros.rs 127-129. -/
def Hash.Deserialize.deserialize (cfg : Cfg) (T : Tag) (d : Rs.Deserializer) : Res (Except Rs.DeError Hash) := do
  let x_1 ← SerdeMacros.SerdeHash.deserialize cfg (Hash.serdeHash cfg T) d
  pure x_1

/-- `impl HashEngine for Engine`, sha256t.rs 18. -/
def engine (cfg : Cfg) (T : Tag) : Chf.HashEngine where
  State := Engine
  Midstate := Sha256.Midstate
  blockSize := Engine.BLOCK_SIZE
  default := Engine.default cfg T
  new := Engine.new cfg T
  input self data := Engine.input cfg T self data
  nBytesHashed self := Engine.n_bytes_hashed cfg T self
  finalize self := Engine.finalize cfg T self
  midstate self := Engine.midstate cfg T self
  fromMidstate midstate length := Engine.from_midstate cfg T midstate length

/-! Not translated:

* `Tag::engine`: no body
-/

end Chf.Source.Sha256t
