import Verif.Model.TextTypes

/-!
# `serde`, `schemars` and `core::hash::Hash` of the translated text
-/

namespace Chf.Source
open Chf

/-- What the hash type `H` has of these traits. -/
structure SerdeText (H : Type) where
  /-- `Serialize` -/
  serialize : H → Rs.Serializer → Res Rs.Serialized
  /-- `Deserialize` -/
  deserialize : Rs.Deserializer → Res (Except Rs.DeError H)
  /-- `core::hash::Hash` -/
  feed (A : Rs.Hasher) : H → A.State → A.State
  /-- `JsonSchema`: the name and the schema. -/
  schema : Option (List Byte × (Rs.SchemaGenerator → Res Rs.SchemaObject))

/-- The implementations for the hash types. -/
def serdeText (cfg : Cfg) (T : Sha256t.Tag) : (t : HashTy) → SerdeText (hashText cfg T t).H
  | .sha1 =>
      { serialize := Sha1.Hash.Serialize.serialize cfg
        deserialize := Sha1.Hash.Deserialize.deserialize cfg
        feed := Sha1.Hash.Hash.hash cfg
        schema := some (Sha1.Hash.JsonSchema.schema_name cfg, Sha1.Hash.JsonSchema.json_schema cfg) }
  | .sha256 =>
      { serialize := Sha256.Hash.Serialize.serialize cfg
        deserialize := Sha256.Hash.Deserialize.deserialize cfg
        feed := Sha256.Hash.Hash.hash cfg
        schema := some (Sha256.Hash.JsonSchema.schema_name cfg, Sha256.Hash.JsonSchema.json_schema cfg) }
  | .sha384 =>
      { serialize := Sha384.Hash.Serialize.serialize cfg
        deserialize := Sha384.Hash.Deserialize.deserialize cfg
        feed := Sha384.Hash.Hash.hash cfg
        schema := some (Sha384.Hash.JsonSchema.schema_name cfg, Sha384.Hash.JsonSchema.json_schema cfg) }
  | .sha512 =>
      { serialize := Sha512.Hash.Serialize.serialize cfg
        deserialize := Sha512.Hash.Deserialize.deserialize cfg
        feed := Sha512.Hash.Hash.hash cfg
        schema := some (Sha512.Hash.JsonSchema.schema_name cfg, Sha512.Hash.JsonSchema.json_schema cfg) }
  | .sha512_256 =>
      { serialize := Sha512_256.Hash.Serialize.serialize cfg
        deserialize := Sha512_256.Hash.Deserialize.deserialize cfg
        feed := Sha512_256.Hash.Hash.hash cfg
        schema := some (Sha512_256.Hash.JsonSchema.schema_name cfg, Sha512_256.Hash.JsonSchema.json_schema cfg) }
  | .ripemd160 =>
      { serialize := Ripemd160.Hash.Serialize.serialize cfg
        deserialize := Ripemd160.Hash.Deserialize.deserialize cfg
        feed := Ripemd160.Hash.Hash.hash cfg
        schema := some (Ripemd160.Hash.JsonSchema.schema_name cfg, Ripemd160.Hash.JsonSchema.json_schema cfg) }
  | .siphash24 =>
      { serialize := Siphash24.Hash.Serialize.serialize cfg
        deserialize := Siphash24.Hash.Deserialize.deserialize cfg
        feed := Siphash24.Hash.Hash.hash cfg
        schema := some (Siphash24.Hash.JsonSchema.schema_name cfg, Siphash24.Hash.JsonSchema.json_schema cfg) }
  | .sha256t =>
      { serialize := Sha256t.Hash.Serialize.serialize cfg T
        deserialize := Sha256t.Hash.Deserialize.deserialize cfg T
        feed := Sha256t.Hash.Hash.hash cfg T
        schema := some (Sha256t.Hash.JsonSchema.schema_name cfg T, Sha256t.Hash.JsonSchema.json_schema cfg T) }
  | .hmac N =>
      { serialize := Hmac.Hash.Serialize.serialize cfg N
        deserialize := Hmac.Hash.Deserialize.deserialize cfg N
        feed := Hmac.Hash.Hash.hash cfg N
        schema := some (Hmac.Hash.JsonSchema.schema_name cfg N, Hmac.Hash.JsonSchema.json_schema cfg N) }
  | .midstate =>
      { serialize := Sha256.Midstate.Serialize.serialize cfg
        deserialize := Sha256.Midstate.Deserialize.deserialize cfg
        feed := Sha256.Midstate.Hash.hash cfg
        schema := none }

end Chf.Source
