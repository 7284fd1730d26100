import Verif.Model.HashType
import Verif.Model.Utf8

/-!
# `serde_macros.rs` and the `schemars` implementations

The trait `SerdeHash` (`/repo/src/serde_macros.rs` 72-104) and `serde_impl!` (110-131), which sets
`from_slice_delegated` to `from_slice` and passes `Serialize` and `Deserialize` on to the trait.

A serializer is reduced to whether it is human readable and to what it is asked to serialize, a
deserializer to whether it is human readable and to what it hands to the visitor.
-/

namespace Chf

namespace HashTy
variable {s : Source}

/-- Data given to a serializer, or by a deserializer to a visitor. -/
inductive Data where
  /-- `serialize_str`, `visit_str` and the methods that default to them. -/
  | str (v : List Byte)
  /-- `serialize_bytes`, `visit_bytes` and the methods that default to them. -/
  | bytes (v : List Byte)
  /-- Anything else. -/
  | other
  deriving DecidableEq

/-- The errors made by the visitors. -/
inductive DeError where
  /-- `E::custom` of a parse error -/
  | custom (e : Hex.Error)
  /-- `E::invalid_value` -/
  | invalidValue
  /-- `E::invalid_length` -/
  | invalidLength (n : Nat)
  /-- `E::invalid_type`, from the visitor methods that are not overridden -/
  | invalidType
  deriving DecidableEq

/-- `SerdeHash::serialize`, `serde_macros.rs` 88-94. -/
def serialize (humanReadable : Bool) (h : Hash s) : Res Data :=
  if humanReadable then do
    let v ← toStr h
    pure (.str v)
  else do
    let v ← index h .full
    pure (.bytes v)

/-- `Self::Value::from_str(v).map_err(E::custom)` -/
def parseCustom (s : Source) (v : List Byte) : Res (Except DeError (Hash s)) := do
  match ← fromStr s v with
  | .ok h => pure (.ok h)
  | .error e => pure (.error (.custom e))

/-- `HexVisitor`, `serde_macros.rs` 17-45. -/
def hexVisitor (s : Source) : Data → Res (Except DeError (Hash s))
  | .bytes v => if utf8Valid v then parseCustom s v else .ok (.error .invalidValue)
  | .str v => parseCustom s v
  | .other => .ok (.error .invalidType)

/-- `BytesVisitor`, `serde_macros.rs` 49-69. -/
def bytesVisitor (s : Source) : Data → Res (Except DeError (Hash s))
  | .bytes v => do
      match ← fromSlice s v with
      | .ok h => pure (.ok h)
      | .error _ => pure (.error (.invalidLength v.length))
  | .str _ => .ok (.error .invalidType)
  | .other => .ok (.error .invalidType)

/-- `SerdeHash::deserialize`, `serde_macros.rs` 97-103. -/
def deserialize (s : Source) (humanReadable : Bool) (d : Data) : Res (Except DeError (Hash s)) :=
  if humanReadable then hexVisitor s d else bytesVisitor s d

/-! ## JSON schema -/

/-- The regular expressions that occur in the schema: a class of ranges, and repetition. -/
inductive Regex where
  | cls (ranges : List (Byte × Byte))
  | plus (r : Regex)

/-- A schema of type string with the three validations. -/
structure Schema where
  maxLength : Nat
  minLength : Nat
  pattern : Regex

/-- `[0-9a-fA-F]+` -/
def hexPattern : Regex := .plus (.cls [(0x30, 0x39), (0x61, 0x66), (0x41, 0x46)])

/-- `a * b` on `u32`. -/
def mulU32 (c : Cfg) (a b : Nat) : Res Nat :=
  if a * b < 2 ^ 32 then .ok (a * b)
  else if c.overflowChecks then .error .overflow
  else .ok (a * b % 2 ^ 32)

/-- `json_schema`: `internal_macros.rs` 230-239, `sha256t.rs` 135-143, `hmac.rs` 94-102, where `N` is
cast to `u32`.  `Midstate` has none. -/
def jsonSchema (c : Cfg) : Source → Option (Res Schema)
  | .macro bits => some do
      let n ← mulU32 c (bits / 8) 2
      let m ← mulU32 c (bits / 8) 2
      pure { maxLength := n, minLength := m, pattern := hexPattern }
  | .tagged => some do
      let n ← mulU32 c 32 2
      let m ← mulU32 c 32 2
      pure { maxLength := n, minLength := m, pattern := hexPattern }
  | .hmac N => some do
      let n ← mulU32 c (N % 2 ^ 32) 2
      let m ← mulU32 c (N % 2 ^ 32) 2
      pure { maxLength := n, minLength := m, pattern := hexPattern }
  | .midstate => none

end HashTy
end Chf
