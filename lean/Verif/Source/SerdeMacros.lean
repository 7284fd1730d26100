/- Generated from /repo/src/serde_macros.rs by tools/rust2lean.py; do not edit. -/
import Verif.Source.Lib

namespace Chf.Source.SerdeMacros
open Chf
set_option linter.unusedVariables false

/-- `struct HexVisitor`. -/
structure HexVisitor where
  f0 : Unit

/-- `struct BytesVisitor`. -/
structure BytesVisitor where
  f0 : Unit

/-- `trait SerdeHash` with its supertraits, as far as the functions here use them. -/
structure SerdeHash where
  State : Type
  from_slice_delegated : List Byte → Res (Except Lib.FromSliceError State)
  /-- `FromStr` -/
  from_str : List Byte → Res (Except Hex.Error State)
  /-- `Display` -/
  fmt : State → Hex.Flags → Res (List Byte)
  /-- `Index<RangeFull>` -/
  index : State → Rs.RangeFull → Res (List Byte)

/-- `HexVisitor::Visitor::expecting`, serde_macros.rs 24-26. -/
def HexVisitor.Visitor.expecting (cfg : Cfg) (ValueT : SerdeHash) (self : HexVisitor) (formatter : Hex.Flags) : (List Byte) :=
  ascii "an ASCII hex string"

/-- `HexVisitor::Visitor::visit_bytes`, serde_macros.rs 28-37. -/
def HexVisitor.Visitor.visit_bytes (cfg : Cfg) (ValueT : SerdeHash) (self : HexVisitor) (v : List Byte) : Res (Except Rs.DeError ValueT.State) := do
  let x_2 ←
    if utf8Valid v then do
      let hex : List Byte := v
      let x_1 ← ValueT.from_str hex
      pure (Rs.Flow.next (Except.mapError Rs.DeError.custom x_1))
    else do
      pure (Rs.Flow.ret (Except.error (Rs.DeError.invalidValue (Rs.Unexpected.bytes v) (HexVisitor.Visitor.expecting cfg ValueT self { alternate := false }))))
  match x_2 with
  | Rs.Flow.ret r => pure r
  | Rs.Flow.next x_3 => do
    pure x_3

/-- `HexVisitor::Visitor::visit_str`, serde_macros.rs 39-44. -/
def HexVisitor.Visitor.visit_str (cfg : Cfg) (ValueT : SerdeHash) (self : HexVisitor) (v : List Byte) : Res (Except Rs.DeError ValueT.State) := do
  let x_1 ← ValueT.from_str v
  pure (Except.mapError Rs.DeError.custom x_1)

/-- `BytesVisitor::Visitor::expecting`, serde_macros.rs 56-58. -/
def BytesVisitor.Visitor.expecting (cfg : Cfg) (ValueT : SerdeHash) (self : BytesVisitor) (formatter : Hex.Flags) : (List Byte) :=
  ascii "a bytestring"

/-- `BytesVisitor::Visitor::visit_bytes`, serde_macros.rs 60-68. -/
def BytesVisitor.Visitor.visit_bytes (cfg : Cfg) (ValueT : SerdeHash) (self : BytesVisitor) (v : List Byte) : Res (Except Rs.DeError ValueT.State) := do
  let x_1 ← ValueT.from_slice_delegated v
  pure (Except.mapError (fun _ => Rs.DeError.invalidLength v.length (ascii "N")) x_1)

/-- `SerdeHash::serialize`, serde_macros.rs 88-94. -/
def SerdeHash.serialize (cfg : Cfg) (Self : SerdeHash) (self : Self.State) (s : Rs.Serializer) : Res Rs.Serialized := do
  let x_3 ←
    if s.human then do
      let x_1 ← Self.fmt self { alternate := false }
      pure (Rs.Serialized.str x_1)
    else do
      let x_2 ← Self.index self ⟨⟩
      pure (Rs.Serialized.bytes x_2)
  pure x_3

/-- `SerdeHash::deserialize`, serde_macros.rs 97-103. -/
def SerdeHash.deserialize (cfg : Cfg) (Self : SerdeHash) (d : Rs.Deserializer) : Res (Except Rs.DeError Self.State) := do
  let x_3 ←
    if d.human then do
      let x_1 ← Rs.Deserializer.run d .str { expecting := HexVisitor.Visitor.expecting cfg Self ({ f0 := () } : HexVisitor) { alternate := false }, visitStr := some (fun v => HexVisitor.Visitor.visit_str cfg Self ({ f0 := () } : HexVisitor) v), visitBytes := some (fun v => HexVisitor.Visitor.visit_bytes cfg Self ({ f0 := () } : HexVisitor) v) }
      pure x_1
    else do
      let x_2 ← Rs.Deserializer.run d .bytes { expecting := BytesVisitor.Visitor.expecting cfg Self ({ f0 := () } : BytesVisitor) { alternate := false }, visitStr := none, visitBytes := some (fun v => BytesVisitor.Visitor.visit_bytes cfg Self ({ f0 := () } : BytesVisitor) v) }
      pure x_2
  pure x_3

/-! Not translated:

* `SerdeHash::from_slice_delegated`: no body
-/

end Chf.Source.SerdeMacros
