/- Generated from /repo/src/sha384.rs by tools/rust2lean.py; do not edit. -/
import Verif.Source.Lib
import Verif.Source.SerdeMacros
import Verif.Source.Sha512

namespace Chf.Source.Sha384
open Chf
set_option linter.unusedVariables false

/-- `struct Hash`. -/
structure Hash where
  f0 : List Byte

/-- `struct Engine`. -/
structure Engine where
  f0 : Sha512.Engine

/-- `const Hash::LEN`. -/
def Hash.LEN : Nat := 48

/-- `const Hash::N`. -/
def Hash.N : Nat := 48

/-- `const Engine::BLOCK_SIZE`. -/
def Engine.BLOCK_SIZE : Nat := 128

/-- `Engine::default`, sha384.rs 20-22. -/
def Engine.default (cfg : Cfg) : Engine :=
  ({ f0 := Sha512.Engine.sha384 cfg } : Engine)

/-- `Hash::engine`, internal_macros.rs 165. -/
def Hash.engine (cfg : Cfg) : Engine :=
  Engine.default cfg

/-- `Engine::input`, sha384.rs 34. -/
def Engine.input (cfg : Cfg) (self : Engine) (data : List Byte) : Res Engine := do
  let x_1 ← Sha512.Engine.input cfg self.f0 data
  let self := { self with f0 := x_1 }
  pure self

/-- `Engine::finalize`, sha384.rs 37-41. -/
def Engine.finalize (cfg : Cfg) (self : Engine) : Res (List Byte) := do
  let ret : List Byte := List.replicate 48 0#8
  let x_1 ← Sha512.Engine.finalize cfg self.f0
  let x_2 ← sliceTo x_1 48
  let ret ← Rs.copyFromSlice ret x_2
  pure ret

/-- `Hash::hash`, internal_macros.rs 158-162. -/
def Hash.hash (cfg : Cfg) (bytes : List Byte) : Res Hash := do
  let engine := Hash.engine cfg
  let engine ← Engine.input cfg engine bytes
  let x_2 ← Engine.finalize cfg engine
  pure ({ f0 := x_2 } : Hash)

/-- `Hash::from_engine`, internal_macros.rs 170-173. -/
def Hash.from_engine (cfg : Cfg) (engine : Engine) : Res Hash := do
  let digest ← Engine.finalize cfg engine
  pure ({ f0 := digest } : Hash)

/-- `Hash::from_bytes_ref`, internal_macros.rs 177-180. -/
def Hash.from_bytes_ref (cfg : Cfg) (bytes : List Byte) : Hash :=
  ({ f0 := bytes } : Hash)

/-- `Hash::from_bytes_mut`, internal_macros.rs 184-187. -/
def Hash.from_bytes_mut (cfg : Cfg) (bytes : List Byte) : Hash × (Hash → List Byte) :=
  (({ f0 := bytes } : Hash), fun r => r.f0)

/-- `Hash::from_byte_array`, internal_macros.rs 201. -/
def Hash.from_byte_array (cfg : Cfg) (bytes : List Byte) : Hash :=
  ({ f0 := bytes } : Hash)

/-- `Hash::from_slice`, internal_macros.rs 190-198. -/
def Hash.from_slice (cfg : Cfg) (sl : List Byte) : Res (Except Lib.FromSliceError Hash) := do
  let x_2 ←
    if sl.length != (384 / 8) then do
      pure (Except.error ({ expected := 384 / 8, got := sl.length } : Lib.FromSliceError))
    else do
      let ret : List Byte := List.replicate 48 0#8
      let ret ← Rs.copyFromSlice ret sl
      pure (Except.ok (Hash.from_byte_array cfg ret))
  pure x_2

/-- `Hash::to_byte_array`, internal_macros.rs 204. -/
def Hash.to_byte_array (cfg : Cfg) (self : Hash) : (List Byte) :=
  self.f0

/-- `Hash::as_byte_array`, internal_macros.rs 207. -/
def Hash.as_byte_array (cfg : Cfg) (self : Hash) : (List Byte) :=
  self.f0

/-- `Hash::as_bytes`, internal_macros.rs 211. -/
def Hash.as_bytes (cfg : Cfg) (self : Hash) : (List Byte) :=
  self.f0

/-- `Hash::to_bytes`, internal_macros.rs 216. -/
def Hash.to_bytes (cfg : Cfg) (self : Hash) : (List Byte) :=
  self.f0

/-- `Hash::all_zeros`, internal_macros.rs 223. -/
def Hash.all_zeros (cfg : Cfg) : Hash :=
  ({ f0 := List.replicate 48 0x00#8 } : Hash)

/-- `Hash::JsonSchema::schema_name`, internal_macros.rs 228. -/
def Hash.JsonSchema.schema_name (cfg : Cfg) : (List Byte) :=
  ascii "Hash"

/-- `Hash::JsonSchema::json_schema`, internal_macros.rs 230-239. -/
def Hash.JsonSchema.json_schema (cfg : Cfg) (gen : Rs.SchemaGenerator) : Res Rs.SchemaObject := do
  let len : BitVec 32 := 384#32 / 8#32
  let schema := Rs.stringSchema gen
  let x_1 ← Rs.mulU cfg len 2#32
  let x_2 ← Rs.mulU cfg len 2#32
  let schema := { schema with string := some ({ max_length := some x_1, min_length := some x_2, pattern := some (ascii "[0-9a-fA-F]+") } : Rs.StringValidation) }
  pure schema

/-- `Hash::FromStr::from_str`, internal_macros.rs 106-111. -/
def Hash.FromStr.from_str (cfg : Cfg) (s : List Byte) : Res (Except Hex.Error Hash) := do
  let x_1 ← Rs.fromHex 48 s
  Rs.tryOk x_1 fun bytes => do
    pure (Except.ok (Hash.from_byte_array cfg bytes))

/-- `Hash::LowerHex::fmt`, internal_macros.rs 54-56. -/
def Hash.LowerHex.fmt (cfg : Cfg) (self : Hash) (f : Hex.Flags) : Res (List Byte) := do
  let x_1 ← Hex.fmtHexExact f 48 self.f0 .lower
  pure x_1

/-- `Hash::UpperHex::fmt`, internal_macros.rs 61-63. -/
def Hash.UpperHex.fmt (cfg : Cfg) (self : Hash) (f : Hex.Flags) : Res (List Byte) := do
  let x_1 ← Hex.fmtHexExact f 48 self.f0 .upper
  pure x_1

/-- `Hash::Display::fmt`, internal_macros.rs 68-70. -/
def Hash.Display.fmt (cfg : Cfg) (self : Hash) (f : Hex.Flags) : Res (List Byte) := do
  let x_1 ← Hash.LowerHex.fmt cfg self f
  pure x_1

/-- `Hash::Debug::fmt`, internal_macros.rs 75-77. -/
def Hash.Debug.fmt (cfg : Cfg) (self : Hash) (f : Hex.Flags) : Res (List Byte) := do
  let x_1 ← Hash.Display.fmt cfg self ({ alternate := true })
  pure x_1

/-- `Hash::SerdeHash::from_slice_delegated`, serde_macros.rs 115-117. -/
def Hash.SerdeHash.from_slice_delegated (cfg : Cfg) (sl : List Byte) : Res (Except Lib.FromSliceError Hash) := do
  let x_1 ← Hash.from_slice cfg sl
  pure x_1

/-- `Hash::AsRef::as_ref`, internal_macros.rs 12. -/
def Hash.AsRef.as_ref (cfg : Cfg) (self : Hash) : (List Byte) :=
  self.f0

/-- `Hash::AsRefArray::as_ref`, internal_macros.rs 119. -/
def Hash.AsRefArray.as_ref (cfg : Cfg) (self : Hash) : (List Byte) :=
  self.f0

/-- `Hash::Index::index`, internal_macros.rs 126. -/
def Hash.Index.index (cfg : Cfg) (self : Hash) (index_ : Rs.SliceIndex) : Res (List Byte) := do
  let x_1 ← Rs.SliceIndex.get index_ self.f0
  pure x_1

/-- `Engine::n_bytes_hashed`, sha384.rs 31. -/
def Engine.n_bytes_hashed (cfg : Cfg) (self : Engine) : Nat :=
  Sha512.Engine.n_bytes_hashed cfg self.f0

/-- `Engine::midstate`, sha384.rs 44. -/
def Engine.midstate (cfg : Cfg) (self : Engine) : Res (List Byte) := do
  let x_1 ← Sha512.Engine.midstate cfg self.f0
  pure x_1

/-- `Engine::from_midstate`, sha384.rs 47-49. -/
def Engine.from_midstate (cfg : Cfg) (midstate : List Byte) (length : Nat) : Res Engine := do
  let x_1 ← Sha512.Engine.from_midstate cfg midstate length
  pure ({ f0 := x_1 } : Engine)

/-- `impl SerdeHash for Hash`. -/
def Hash.serdeHash (cfg : Cfg) : SerdeMacros.SerdeHash where
  State := Hash
  from_slice_delegated sl := Hash.SerdeHash.from_slice_delegated cfg sl
  from_str s := Hash.FromStr.from_str cfg s
  fmt self f := Hash.Display.fmt cfg self f
  index self i := Hash.Index.index cfg self (.rangeFull i)

/-- `Hash::Serialize::serialize`, serde_macros.rs 121-123. -/
def Hash.Serialize.serialize (cfg : Cfg) (self : Hash) (s : Rs.Serializer) : Res Rs.Serialized := do
  let x_1 ← SerdeMacros.SerdeHash.serialize cfg (Hash.serdeHash cfg) self s
  pure x_1

/-- `Hash::Deserialize::deserialize`, serde_macros.rs 127-129. -/
def Hash.Deserialize.deserialize (cfg : Cfg) (d : Rs.Deserializer) : Res (Except Rs.DeError Hash) := do
  let x_1 ← SerdeMacros.SerdeHash.deserialize cfg (Hash.serdeHash cfg) d
  pure x_1

/-- `#[derive(PartialEq)]` of `Hash`, internal_macros.rs 144. -/
def Hash.PartialEq.eq (cfg : Cfg) (self : Hash) (other : Hash) : Bool :=
  self.f0 == other.f0

/-- `#[derive(PartialOrd)]` of `Hash`, internal_macros.rs 144. -/
def Hash.PartialOrd.partial_cmp (cfg : Cfg) (self : Hash) (other : Hash) : Option Ordering :=
  some (Rs.cmpSlice self.f0 other.f0)

/-- `#[derive(Ord)]` of `Hash`, internal_macros.rs 144. -/
def Hash.Ord.cmp (cfg : Cfg) (self : Hash) (other : Hash) : Ordering :=
  Rs.cmpSlice self.f0 other.f0

/-- `#[derive(Hash)]` of `Hash`, internal_macros.rs 144. -/
def Hash.Hash.hash (cfg : Cfg) (H : Rs.Hasher) (self : Hash) (h : H.State) : H.State :=
  H.hashSlice self.f0 h

/-- `impl HashEngine for Engine`, sha384.rs 25. -/
def engine (cfg : Cfg) : Chf.HashEngine where
  State := Engine
  Midstate := List Byte
  blockSize := Engine.BLOCK_SIZE
  default := pure (Engine.default cfg)
  new := pure (Engine.default cfg)
  input self data := Engine.input cfg self data
  nBytesHashed self := Engine.n_bytes_hashed cfg self
  finalize self := Engine.finalize cfg self
  midstate self := Engine.midstate cfg self
  fromMidstate midstate length := Engine.from_midstate cfg midstate length

end Chf.Source.Sha384
