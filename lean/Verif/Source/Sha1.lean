/- Generated from /repo/src/sha1.rs by tools/rust2lean.py; do not edit. -/
import Verif.Source.Lib
import Verif.Source.SerdeMacros

namespace Chf.Source.Sha1
open Chf
set_option linter.unusedVariables false

/-- `struct Hash`. -/
structure Hash where
  f0 : List Byte

/-- `struct Engine`. -/
structure Engine where
  buffer : List Byte
  h : List (BitVec 32)
  length : Nat

/-- `const Hash::LEN`. -/
def Hash.LEN : Nat := 20

/-- `const Hash::N`. -/
def Hash.N : Nat := 20

/-- `const BLOCK_SIZE`. -/
def BLOCK_SIZE : Nat := 64

/-- `const Engine::BLOCK_SIZE`. -/
def Engine.BLOCK_SIZE : Nat := 64

/-- `Engine::default`, sha1.rs 25-31. -/
def Engine.default (cfg : Cfg) : Engine :=
  ({ h := [0x67452301#32, 0xefcdab89#32, 0x98badcfe#32, 0x10325476#32, 0xc3d2e1f0#32], length := 0, buffer := List.replicate 64 0#8 } : Engine)

/-- `Hash::engine`, internal_macros.rs 165. -/
def Hash.engine (cfg : Cfg) : Engine :=
  Engine.default cfg

/-- `Engine::process_block`, sha1.rs 96-136. -/
def Engine.process_block (cfg : Cfg) (self : Engine) : Res Engine := do
  debugAssert cfg (self.buffer.length == Sha1.BLOCK_SIZE)
  let w : List (BitVec 32) := List.replicate 80 0#32
  let w ← Rs.zipMut w (chunksExact 4 self.buffer) fun w_val buff_bytes => do
    let x_1 ← Rs.tryInto 4 buff_bytes
    let w_val := Rs.fromBeBytes 32 x_1
    pure w_val
  let w ← (Rs.range 16 80).foldlM (init := w) fun w i => do
    let x_2 ← subUsize cfg i 3
    let x_3 ← index w x_2
    let x_4 ← subUsize cfg i 8
    let x_5 ← index w x_4
    let x_6 ← subUsize cfg i 14
    let x_7 ← index w x_6
    let x_8 ← subUsize cfg i 16
    let x_9 ← index w x_8
    let w ← indexSet w i ((((x_3 ^^^ x_5) ^^^ x_7) ^^^ x_9).rotateLeft 1)
    pure w
  let a ← index self.h 0
  let b ← index self.h 1
  let c ← index self.h 2
  let d ← index self.h 3
  let e ← index self.h 4
  let (a, b, c, d, e) ← (Rs.enumerate w).foldlM (init := (a, b, c, d, e)) fun (a, b, c, d, e) (i, wi) => do
    let x_16 ←
      if decide (0 ≤ i) && decide (i ≤ 19) then do
        pure ((b &&& c) ||| ((~~~b) &&& d), 0x5a827999#32)
      else if decide (20 ≤ i) && decide (i ≤ 39) then do
        pure ((b ^^^ c) ^^^ d, 0x6ed9eba1#32)
      else if decide (40 ≤ i) && decide (i ≤ 59) then do
        pure (((b &&& c) ||| (b &&& d)) ||| (c &&& d), 0x8f1bbcdc#32)
      else if decide (60 ≤ i) && decide (i ≤ 79) then do
        pure ((b ^^^ c) ^^^ d, 0xca62c1d6#32)
      else do
        Except.error Fault.unreachable
    let (f, k) := x_16
    let new_a : BitVec 32 := ((((a.rotateLeft 5) + f) + e) + k) + wi
    let e := d
    let d := c
    let c := b.rotateLeft 30
    let b := a
    let a := new_a
    pure (a, b, c, d, e)
  let x_17 ← index self.h 0
  let x_18 ← indexSet self.h 0 (x_17 + a)
  let self := { self with h := x_18 }
  let x_19 ← index self.h 1
  let x_20 ← indexSet self.h 1 (x_19 + b)
  let self := { self with h := x_20 }
  let x_21 ← index self.h 2
  let x_22 ← indexSet self.h 2 (x_21 + c)
  let self := { self with h := x_22 }
  let x_23 ← index self.h 3
  let x_24 ← indexSet self.h 3 (x_23 + d)
  let self := { self with h := x_24 }
  let x_25 ← index self.h 4
  let x_26 ← indexSet self.h 4 (x_25 + e)
  let self := { self with h := x_26 }
  pure self

/-- `Engine::input`, internal_macros.rs 22-36. -/
def Engine.input (cfg : Cfg) (self : Engine) (inp : List Byte) : Res Engine := do
  let (self, inp) ← Rs.whileR cfg.usizeMod
    (fun (self, inp) => pure (!inp.isEmpty))
    (fun (self, inp) => do
      let buf_idx : Nat := self.length % Engine.BLOCK_SIZE
      let rem_len ← subUsize cfg Engine.BLOCK_SIZE buf_idx
      let write_len : Nat := min rem_len inp.length
      let x_2 ← addUsize cfg buf_idx write_len
      Rs.checkRange self.buffer buf_idx x_2
      let x_3 ← sliceTo inp write_len
      let x_4 ← copyIntoRange self.buffer buf_idx x_2 x_3
      let self := { self with buffer := x_4 }
      let x_5 ← addUsize cfg self.length write_len
      let self := { self with length := x_5 }
      let self ←
        if (self.length % Engine.BLOCK_SIZE) == 0 then do
          let self ← Engine.process_block cfg self
          pure self
        else do
          pure self
      let inp ← sliceFrom inp write_len
      pure (self, inp)) (self, inp)
  pure self

/-- `Engine::midstate`, sha1.rs 66-72. -/
def Engine.midstate (cfg : Cfg) (self : Engine) : Res (List Byte) := do
  let ret : List Byte := List.replicate 20 0#8
  let ret ← Rs.zipChunksMut 4 self.h ret fun val ret_bytes => do
    let ret_bytes ← Rs.copyFromSlice ret_bytes (Rs.toBeBytes val)
    pure ret_bytes
  pure ret

/-- `Engine::finalize`, sha1.rs 45-62. -/
def Engine.finalize (cfg : Cfg) (self : Engine) : Res (List Byte) := do
  let data_len : BitVec 64 := BitVec.ofNat 64 self.length
  let zeroes : List Byte := List.replicate 56 0#8
  let self ← Engine.input cfg self [0x80#8]
  let self ←
    if decide ((self.length % Sha1.BLOCK_SIZE) > zeroes.length) then do
      let self ← Engine.input cfg self zeroes
      pure self
    else do
      pure self
  let pad_length ← subUsize cfg zeroes.length (self.length % Sha1.BLOCK_SIZE)
  let x_4 ← sliceTo zeroes pad_length
  let self ← Engine.input cfg self x_4
  debugAssert cfg ((self.length % Sha1.BLOCK_SIZE) == zeroes.length)
  let x_6 ← Rs.mulU cfg 8#64 data_len
  let self ← Engine.input cfg self (Rs.toBeBytes x_6)
  debugAssert cfg ((self.length % Sha1.BLOCK_SIZE) == 0)
  let x_8 ← Engine.midstate cfg self
  pure x_8

/-- `Hash::hash`, internal_macros.rs 158-162. -/
def Hash.hash (cfg : Cfg) (bytes : List Byte) : Res Hash := do
  let engine := Hash.engine cfg
  let engine ← Engine.input cfg engine bytes
  let x_2 ← Engine.finalize cfg engine
  pure ({ f0 := x_2 } : Hash)

/-- `Hash::from_engine`, internal_macros.rs 170-173. -/
def Hash.from_engine (cfg : Cfg) (engine : Engine) : Res Hash := do
  let digest ← Engine.finalize cfg engine
  pure ({ f0 := digest } : Hash)

/-- `Hash::from_bytes_ref`, internal_macros.rs 177-180. -/
def Hash.from_bytes_ref (cfg : Cfg) (bytes : List Byte) : Hash :=
  ({ f0 := bytes } : Hash)

/-- `Hash::from_bytes_mut`, internal_macros.rs 184-187. -/
def Hash.from_bytes_mut (cfg : Cfg) (bytes : List Byte) : Hash × (Hash → List Byte) :=
  (({ f0 := bytes } : Hash), fun r => r.f0)

/-- `Hash::from_byte_array`, internal_macros.rs 201. -/
def Hash.from_byte_array (cfg : Cfg) (bytes : List Byte) : Hash :=
  ({ f0 := bytes } : Hash)

/-- `Hash::from_slice`, internal_macros.rs 190-198. -/
def Hash.from_slice (cfg : Cfg) (sl : List Byte) : Res (Except Lib.FromSliceError Hash) := do
  let x_2 ←
    if sl.length != (160 / 8) then do
      pure (Except.error ({ expected := 160 / 8, got := sl.length } : Lib.FromSliceError))
    else do
      let ret : List Byte := List.replicate 20 0#8
      let ret ← Rs.copyFromSlice ret sl
      pure (Except.ok (Hash.from_byte_array cfg ret))
  pure x_2

/-- `Hash::to_byte_array`, internal_macros.rs 204. -/
def Hash.to_byte_array (cfg : Cfg) (self : Hash) : (List Byte) :=
  self.f0

/-- `Hash::as_byte_array`, internal_macros.rs 207. -/
def Hash.as_byte_array (cfg : Cfg) (self : Hash) : (List Byte) :=
  self.f0

/-- `Hash::as_bytes`, internal_macros.rs 211. -/
def Hash.as_bytes (cfg : Cfg) (self : Hash) : (List Byte) :=
  self.f0

/-- `Hash::to_bytes`, internal_macros.rs 216. -/
def Hash.to_bytes (cfg : Cfg) (self : Hash) : (List Byte) :=
  self.f0

/-- `Hash::all_zeros`, internal_macros.rs 223. -/
def Hash.all_zeros (cfg : Cfg) : Hash :=
  ({ f0 := List.replicate 20 0x00#8 } : Hash)

/-- `Hash::JsonSchema::schema_name`, internal_macros.rs 228. -/
def Hash.JsonSchema.schema_name (cfg : Cfg) : (List Byte) :=
  ascii "Hash"

/-- `Hash::JsonSchema::json_schema`, internal_macros.rs 230-239. -/
def Hash.JsonSchema.json_schema (cfg : Cfg) (gen : Rs.SchemaGenerator) : Res Rs.SchemaObject := do
  let len : BitVec 32 := 160#32 / 8#32
  let schema := Rs.stringSchema gen
  let x_1 ← Rs.mulU cfg len 2#32
  let x_2 ← Rs.mulU cfg len 2#32
  let schema := { schema with string := some ({ max_length := some x_1, min_length := some x_2, pattern := some (ascii "[0-9a-fA-F]+") } : Rs.StringValidation) }
  pure schema

/-- `Hash::FromStr::from_str`, internal_macros.rs 106-111. -/
def Hash.FromStr.from_str (cfg : Cfg) (s : List Byte) : Res (Except Hex.Error Hash) := do
  let x_1 ← Rs.fromHex 20 s
  Rs.tryOk x_1 fun bytes => do
    pure (Except.ok (Hash.from_byte_array cfg bytes))

/-- `Hash::LowerHex::fmt`, internal_macros.rs 54-56. -/
def Hash.LowerHex.fmt (cfg : Cfg) (self : Hash) (f : Hex.Flags) : Res (List Byte) := do
  let x_1 ← Hex.fmtHexExact f 20 self.f0 .lower
  pure x_1

/-- `Hash::UpperHex::fmt`, internal_macros.rs 61-63. -/
def Hash.UpperHex.fmt (cfg : Cfg) (self : Hash) (f : Hex.Flags) : Res (List Byte) := do
  let x_1 ← Hex.fmtHexExact f 20 self.f0 .upper
  pure x_1

/-- `Hash::Display::fmt`, internal_macros.rs 68-70. -/
def Hash.Display.fmt (cfg : Cfg) (self : Hash) (f : Hex.Flags) : Res (List Byte) := do
  let x_1 ← Hash.LowerHex.fmt cfg self f
  pure x_1

/-- `Hash::Debug::fmt`, internal_macros.rs 75-77. -/
def Hash.Debug.fmt (cfg : Cfg) (self : Hash) (f : Hex.Flags) : Res (List Byte) := do
  let x_1 ← Hash.Display.fmt cfg self ({ alternate := true })
  pure x_1

/-- `Hash::SerdeHash::from_slice_delegated`, serde_macros.rs 115-117. -/
def Hash.SerdeHash.from_slice_delegated (cfg : Cfg) (sl : List Byte) : Res (Except Lib.FromSliceError Hash) := do
  let x_1 ← Hash.from_slice cfg sl
  pure x_1

/-- `Hash::AsRef::as_ref`, internal_macros.rs 12. -/
def Hash.AsRef.as_ref (cfg : Cfg) (self : Hash) : (List Byte) :=
  self.f0

/-- `Hash::AsRefArray::as_ref`, internal_macros.rs 119. -/
def Hash.AsRefArray.as_ref (cfg : Cfg) (self : Hash) : (List Byte) :=
  self.f0

/-- `Hash::Index::index`, internal_macros.rs 126. -/
def Hash.Index.index (cfg : Cfg) (self : Hash) (index_ : Rs.SliceIndex) : Res (List Byte) := do
  let x_1 ← Rs.SliceIndex.get index_ self.f0
  pure x_1

/-- `Engine::n_bytes_hashed`, sha1.rs 40. -/
def Engine.n_bytes_hashed (cfg : Cfg) (self : Engine) : Nat :=
  self.length

/-- `Engine::from_midstate`, sha1.rs 82-91. -/
def Engine.from_midstate (cfg : Cfg) (midstate : List Byte) (length : Nat) : Res Engine := do
  assertR ((length % Sha1.BLOCK_SIZE) == 0)
  let ret : List (BitVec 32) := List.replicate 5 0#32
  let ret ← Rs.zipMut ret (chunksExact 4 midstate) fun ret_val midstate_bytes => do
    let x_1 ← Rs.tryInto 4 midstate_bytes
    let ret_val := Rs.fromBeBytes 32 x_1
    pure ret_val
  pure ({ buffer := List.replicate 64 0#8, h := ret, length := length } : Engine)

/-- `impl SerdeHash for Hash`. -/
def Hash.serdeHash (cfg : Cfg) : SerdeMacros.SerdeHash where
  State := Hash
  from_slice_delegated sl := Hash.SerdeHash.from_slice_delegated cfg sl
  from_str s := Hash.FromStr.from_str cfg s
  fmt self f := Hash.Display.fmt cfg self f
  index self i := Hash.Index.index cfg self (.rangeFull i)

/-- `Hash::Serialize::serialize`, serde_macros.rs 121-123. -/
def Hash.Serialize.serialize (cfg : Cfg) (self : Hash) (s : Rs.Serializer) : Res Rs.Serialized := do
  let x_1 ← SerdeMacros.SerdeHash.serialize cfg (Hash.serdeHash cfg) self s
  pure x_1

/-- `Hash::Deserialize::deserialize`, serde_macros.rs 127-129. -/
def Hash.Deserialize.deserialize (cfg : Cfg) (d : Rs.Deserializer) : Res (Except Rs.DeError Hash) := do
  let x_1 ← SerdeMacros.SerdeHash.deserialize cfg (Hash.serdeHash cfg) d
  pure x_1

/-- `#[derive(PartialEq)]` of `Hash`, internal_macros.rs 144. -/
def Hash.PartialEq.eq (cfg : Cfg) (self : Hash) (other : Hash) : Bool :=
  self.f0 == other.f0

/-- `#[derive(PartialOrd)]` of `Hash`, internal_macros.rs 144. -/
def Hash.PartialOrd.partial_cmp (cfg : Cfg) (self : Hash) (other : Hash) : Option Ordering :=
  some (Rs.cmpSlice self.f0 other.f0)

/-- `#[derive(Ord)]` of `Hash`, internal_macros.rs 144. -/
def Hash.Ord.cmp (cfg : Cfg) (self : Hash) (other : Hash) : Ordering :=
  Rs.cmpSlice self.f0 other.f0

/-- `#[derive(Hash)]` of `Hash`, internal_macros.rs 144. -/
def Hash.Hash.hash (cfg : Cfg) (H : Rs.Hasher) (self : Hash) (h : H.State) : H.State :=
  H.hashSlice self.f0 h

/-- `impl HashEngine for Engine`, sha1.rs 34. -/
def engine (cfg : Cfg) : Chf.HashEngine where
  State := Engine
  Midstate := List Byte
  blockSize := Engine.BLOCK_SIZE
  default := pure (Engine.default cfg)
  new := pure (Engine.default cfg)
  input self data := Engine.input cfg self data
  nBytesHashed self := Engine.n_bytes_hashed cfg self
  finalize self := Engine.finalize cfg self
  midstate self := Engine.midstate cfg self
  fromMidstate midstate length := Engine.from_midstate cfg midstate length

end Chf.Source.Sha1
