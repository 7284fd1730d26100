/- Generated from /repo/src/hmac.rs by tools/rust2lean.py; do not edit. -/
import Verif.Source.Lib
import Verif.Source.SerdeMacros

namespace Chf.Source.Hmac
open Chf
set_option linter.unusedVariables false

/-- `struct Hash`. -/
structure Hash where
  f0 : List Byte

/-- `struct Engine`. -/
structure Engine (E : Chf.HashEngine) where
  iengine : E.State
  oengine : E.State

/-- `struct Midstate`. -/
structure Midstate (E : Chf.HashEngine) where
  inner : E.Midstate
  outer : E.Midstate

/-- `Hash::engine`, hmac.rs 23-28. -/
def Hash.engine (cfg : Cfg) (N : Nat) (E : Chf.HashEngine) : Res E.State := do
  let x_1 ← E.new
  pure x_1

/-- `Hash::from_byte_array`, hmac.rs 67. -/
def Hash.from_byte_array (cfg : Cfg) (N : Nat) (bytes : List Byte) : Hash :=
  ({ f0 := bytes } : Hash)

/-- `Hash::from_engine`, hmac.rs 33-39. -/
def Hash.from_engine (cfg : Cfg) (N : Nat) (E : Chf.HashEngine) (engine : E.State) : Res Hash := do
  let digest ← E.finalize engine
  pure (Hash.from_byte_array cfg N digest)

/-- `Hash::from_bytes_ref`, hmac.rs 43-46. -/
def Hash.from_bytes_ref (cfg : Cfg) (N : Nat) (bytes : List Byte) : Hash :=
  ({ f0 := bytes } : Hash)

/-- `Hash::from_bytes_mut`, hmac.rs 50-53. -/
def Hash.from_bytes_mut (cfg : Cfg) (N : Nat) (bytes : List Byte) : Hash × (Hash → List Byte) :=
  (({ f0 := bytes } : Hash), fun r => r.f0)

/-- `Hash::from_slice`, hmac.rs 56-64. -/
def Hash.from_slice (cfg : Cfg) (N : Nat) (sl : List Byte) : Res (Except Lib.FromSliceError Hash) := do
  let x_2 ←
    if sl.length != N then do
      pure (Except.error ({ expected := N, got := sl.length } : Lib.FromSliceError))
    else do
      let ret : List Byte := List.replicate N 0#8
      let ret ← Rs.copyFromSlice ret sl
      pure (Except.ok (Hash.from_byte_array cfg N ret))
  pure x_2

/-- `Hash::to_byte_array`, hmac.rs 70. -/
def Hash.to_byte_array (cfg : Cfg) (N : Nat) (self : Hash) : (List Byte) :=
  self.f0

/-- `Hash::as_byte_array`, hmac.rs 73. -/
def Hash.as_byte_array (cfg : Cfg) (N : Nat) (self : Hash) : (List Byte) :=
  self.f0

/-- `Hash::as_bytes`, hmac.rs 76. -/
def Hash.as_bytes (cfg : Cfg) (N : Nat) (self : Hash) : (List Byte) :=
  self.f0

/-- `Hash::to_bytes`, hmac.rs 80. -/
def Hash.to_bytes (cfg : Cfg) (N : Nat) (self : Hash) : (List Byte) :=
  self.f0

/-- `Hash::all_zeros`, hmac.rs 87. -/
def Hash.all_zeros (cfg : Cfg) (N : Nat) : Hash :=
  ({ f0 := List.replicate N 0x00#8 } : Hash)

/-- `Hash::JsonSchema::schema_name`, hmac.rs 92. -/
def Hash.JsonSchema.schema_name (cfg : Cfg) (N : Nat) : (List Byte) :=
  ascii "Hash"

/-- `Hash::JsonSchema::json_schema`, hmac.rs 94-102. -/
def Hash.JsonSchema.json_schema (cfg : Cfg) (N : Nat) (gen : Rs.SchemaGenerator) : Res Rs.SchemaObject := do
  let schema := Rs.stringSchema gen
  let x_1 ← Rs.mulU cfg (BitVec.ofNat 32 N) 2#32
  let x_2 ← Rs.mulU cfg (BitVec.ofNat 32 N) 2#32
  let schema := { schema with string := some ({ max_length := some x_1, min_length := some x_2, pattern := some (ascii "[0-9a-fA-F]+") } : Rs.StringValidation) }
  pure schema

/-- `Hash::FromStr::from_str`, hmac.rs 107-112. -/
def Hash.FromStr.from_str (cfg : Cfg) (N : Nat) (s : List Byte) : Res (Except Hex.Error Hash) := do
  let x_1 ← Rs.fromHex N s
  Rs.tryOk x_1 fun bytes => do
    pure (Except.ok (Hash.from_byte_array cfg N bytes))

/-- `Hash::LowerHex::fmt`, hmac.rs 124-127. -/
def Hash.LowerHex.fmt (cfg : Cfg) (N : Nat) (self : Hash) (f : Hex.Flags) : (List Byte) :=
  Hex.fmtByteSlice f self.f0 .lower

/-- `Hash::Display::fmt`, hmac.rs 116. -/
def Hash.Display.fmt (cfg : Cfg) (N : Nat) (self : Hash) (f : Hex.Flags) : (List Byte) :=
  Hash.LowerHex.fmt cfg N self f

/-- `Hash::Debug::fmt`, hmac.rs 120. -/
def Hash.Debug.fmt (cfg : Cfg) (N : Nat) (self : Hash) (f : Hex.Flags) : (List Byte) :=
  Hash.Display.fmt cfg N self ({ alternate := true })

/-- `Hash::UpperHex::fmt`, hmac.rs 131-134. -/
def Hash.UpperHex.fmt (cfg : Cfg) (N : Nat) (self : Hash) (f : Hex.Flags) : (List Byte) :=
  Hex.fmtByteSlice f self.f0 .upper

/-- `Hash::IndexUsize::index`, hmac.rs 138. -/
def Hash.IndexUsize.index (cfg : Cfg) (N : Nat) (self : Hash) (index_ : Nat) : Res Byte := do
  let x_1 ← Chf.index self.f0 index_
  pure x_1

/-- `Hash::IndexRange::index`, hmac.rs 143. -/
def Hash.IndexRange.index (cfg : Cfg) (N : Nat) (self : Hash) (index_ : Rs.Range) : Res (List Byte) := do
  let x_1 ← Rs.Range.get index_ self.f0
  pure x_1

/-- `Hash::IndexRangeFrom::index`, hmac.rs 148. -/
def Hash.IndexRangeFrom.index (cfg : Cfg) (N : Nat) (self : Hash) (index_ : Rs.RangeFrom) : Res (List Byte) := do
  let x_1 ← Rs.RangeFrom.get index_ self.f0
  pure x_1

/-- `Hash::IndexRangeTo::index`, hmac.rs 153. -/
def Hash.IndexRangeTo.index (cfg : Cfg) (N : Nat) (self : Hash) (index_ : Rs.RangeTo) : Res (List Byte) := do
  let x_1 ← Rs.RangeTo.get index_ self.f0
  pure x_1

/-- `Hash::IndexRangeFull::index`, hmac.rs 158. -/
def Hash.IndexRangeFull.index (cfg : Cfg) (N : Nat) (self : Hash) (index_ : Rs.RangeFull) : Res (List Byte) := do
  let x_1 ← Rs.RangeFull.get index_ self.f0
  pure x_1

/-- `Hash::AsRef::as_ref`, hmac.rs 162. -/
def Hash.AsRef.as_ref (cfg : Cfg) (N : Nat) (self : Hash) : (List Byte) :=
  self.f0

/-- `Hash::SerdeHash::from_slice_delegated`, hmac.rs 168. -/
def Hash.SerdeHash.from_slice_delegated (cfg : Cfg) (N : Nat) (sl : List Byte) : Res (Except Lib.FromSliceError Hash) := do
  let x_1 ← Hash.from_slice cfg N sl
  pure x_1

/-- `Engine::new`, hmac.rs 212-239. -/
def Engine.new (cfg : Cfg) (E : Chf.HashEngine) (key : List Byte) : Res (Engine E) := do
  debugAssert cfg (decide (E.blockSize ≤ 128))
  let ipad : List Byte := List.replicate 128 0x36#8
  let opad : List Byte := List.replicate 128 0x5c#8
  let x_1 ← E.default
  let x_2 ← E.default
  let ret := ({ iengine := x_1, oengine := x_2 } : Engine E)
  let (ipad, opad) ←
    if decide (key.length > E.blockSize) then do
      let hash ← E.hash key
      let ipad ← Rs.zipMut ipad hash fun b_i b_h => do
        let b_i := b_i ^^^ b_h
        pure b_i
      let opad ← Rs.zipMut opad hash fun b_o b_h => do
        let b_o := b_o ^^^ b_h
        pure b_o
      pure (ipad, opad)
    else do
      let ipad ← Rs.zipMut ipad key fun b_i b_h => do
        let b_i := b_i ^^^ b_h
        pure b_i
      let opad ← Rs.zipMut opad key fun b_o b_h => do
        let b_o := b_o ^^^ b_h
        pure b_o
      pure (ipad, opad)
  let x_4 ← sliceTo ipad E.blockSize
  let x_5 ← E.input ret.iengine x_4
  let ret := { ret with iengine := x_5 }
  let x_6 ← sliceTo opad E.blockSize
  let x_7 ← E.input ret.oengine x_6
  let ret := { ret with oengine := x_7 }
  pure ret

/-- `Engine::default`, hmac.rs 201. -/
def Engine.default (cfg : Cfg) (E : Chf.HashEngine) : Res (Engine E) := do
  let x_1 ← Engine.new cfg E []
  pure x_1

/-- `Engine::input`, hmac.rs 248. -/
def Engine.input (cfg : Cfg) (E : Chf.HashEngine) (self : Engine E) (data : List Byte) : Res (Engine E) := do
  let x_1 ← E.input self.iengine data
  let self := { self with iengine := x_1 }
  pure self

/-- `Engine::n_bytes_hashed`, hmac.rs 251. -/
def Engine.n_bytes_hashed (cfg : Cfg) (E : Chf.HashEngine) (self : Engine E) : Nat :=
  E.nBytesHashed self.iengine

/-- `Engine::finalize`, hmac.rs 254-258. -/
def Engine.finalize (cfg : Cfg) (E : Chf.HashEngine) (self : Engine E) : Res (List Byte) := do
  let ihash ← E.finalize self.iengine
  let x_2 ← E.input self.oengine ihash
  let self := { self with oengine := x_2 }
  let x_3 ← E.finalize self.oengine
  pure x_3

/-- `Engine::midstate`, hmac.rs 261-263. -/
def Engine.midstate (cfg : Cfg) (E : Chf.HashEngine) (self : Engine E) : Res (Midstate E) := do
  let x_1 ← E.midstate self.iengine
  let x_2 ← E.midstate self.oengine
  pure ({ inner := x_1, outer := x_2 } : Midstate E)

/-- `Engine::from_midstate`, hmac.rs 266-271. -/
def Engine.from_midstate (cfg : Cfg) (E : Chf.HashEngine) (midstate : Midstate E) (length : Nat) : Res (Engine E) := do
  let x_1 ← E.fromMidstate midstate.inner length
  let x_2 ← E.fromMidstate midstate.outer length
  pure ({ iengine := x_1, oengine := x_2 } : Engine E)

/-- `impl SerdeHash for Hash`. -/
def Hash.serdeHash (cfg : Cfg) (N : Nat) : SerdeMacros.SerdeHash where
  State := Hash
  from_slice_delegated sl := Hash.SerdeHash.from_slice_delegated cfg N sl
  from_str s := Hash.FromStr.from_str cfg N s
  fmt self f := pure (Hash.Display.fmt cfg N self f)
  index self i := Hash.IndexRangeFull.index cfg N self i

/-- `Hash::Serialize::serialize`, hmac.rs 173-175. -/
def Hash.Serialize.serialize (cfg : Cfg) (N : Nat) (self : Hash) (s : Rs.Serializer) : Res Rs.Serialized := do
  let x_1 ← SerdeMacros.SerdeHash.serialize cfg (Hash.serdeHash cfg N) self s
  pure x_1

/-- `Hash::Deserialize::deserialize`, hmac.rs 180-182. -/
def Hash.Deserialize.deserialize (cfg : Cfg) (N : Nat) (d : Rs.Deserializer) : Res (Except Rs.DeError Hash) := do
  let x_1 ← SerdeMacros.SerdeHash.deserialize cfg (Hash.serdeHash cfg N) d
  pure x_1

/-- `#[derive(PartialEq)]` of `Hash`, hmac.rs 18. -/
def Hash.PartialEq.eq (cfg : Cfg) (N : Nat) (self : Hash) (other : Hash) : Bool :=
  self.f0 == other.f0

/-- `#[derive(PartialOrd)]` of `Hash`, hmac.rs 18. -/
def Hash.PartialOrd.partial_cmp (cfg : Cfg) (N : Nat) (self : Hash) (other : Hash) : Option Ordering :=
  some (Rs.cmpSlice self.f0 other.f0)

/-- `#[derive(Ord)]` of `Hash`, hmac.rs 18. -/
def Hash.Ord.cmp (cfg : Cfg) (N : Nat) (self : Hash) (other : Hash) : Ordering :=
  Rs.cmpSlice self.f0 other.f0

/-- `#[derive(Hash)]` of `Hash`, hmac.rs 18. -/
def Hash.Hash.hash (cfg : Cfg) (N : Nat) (H : Rs.Hasher) (self : Hash) (h : H.State) : H.State :=
  H.hashSlice self.f0 h

/-- `impl HashEngine for Engine`, hmac.rs 242. -/
def engine (cfg : Cfg) (E : Chf.HashEngine) : Chf.HashEngine where
  State := Engine E
  Midstate := Midstate E
  blockSize := E.blockSize
  default := Engine.default cfg E
  new := Engine.default cfg E
  input self data := Engine.input cfg E self data
  nBytesHashed self := Engine.n_bytes_hashed cfg E self
  finalize self := Engine.finalize cfg E self
  midstate self := Engine.midstate cfg E self
  fromMidstate midstate length := Engine.from_midstate cfg E midstate length

end Chf.Source.Hmac
