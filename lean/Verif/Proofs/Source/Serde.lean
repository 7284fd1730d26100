import Verif.Model.TextSerde
import Verif.Proofs.Source.Types
import Verif.Proofs.Serde
import Verif.Spec.SchemaText

/-!
# `serde`, `schemars` and `core::hash::Hash` of the translated text in terms of the other functions
-/

namespace Chf.Source
open Chf Chf.Rs Chf.Spec

/-- What a visitor makes of a string. -/
def hexOf {H : Type} (parse : List Byte → Res (Except Hex.Error H)) (v : List Byte) :
    Res (Except DeError H) :=
  (parse v).map fun r => r.mapError DeError.custom

/-- `deserialize` in terms of parsing and of `from_slice`. -/
def deserializeOf {H : Type} (parse : List Byte → Res (Except Hex.Error H))
    (slice : List Byte → Res (Except Lib.FromSliceError H)) (d : Deserializer) :
    Res (Except DeError H) :=
  if d.human then
    match d.data .str with
    | .str v => hexOf parse v
    | .bytes v =>
        if utf8Valid v then hexOf parse v
        else .ok (.error (.invalidValue (.bytes v) (ascii "an ASCII hex string")))
    | .other => .ok (.error (.invalidType .other (ascii "an ASCII hex string")))
    | .fail => .ok (.error .format)
  else
    match d.data .bytes with
    | .bytes v => (slice v).map fun r => r.mapError fun _ => .invalidLength v.length (ascii "N")
    | .str v => .ok (.error (.invalidType (.str v) (ascii "a bytestring")))
    | .other => .ok (.error (.invalidType .other (ascii "a bytestring")))
    | .fail => .ok (.error .format)

theorem serialize_text (cfg : Cfg) (D : SerdeMacros.SerdeHash) (h : D.State) (s : Serializer) :
    SerdeMacros.SerdeHash.serialize cfg D h s =
      if s.human then (D.fmt h ⟨false⟩).map Serialized.str else (D.index h ⟨⟩).map Serialized.bytes := by
  unfold SerdeMacros.SerdeHash.serialize
  cases s.human
  · show (D.index h ⟨⟩ >>= fun x => pure (Serialized.bytes x)) = _
    exact (Rs.map_eq_bind _ _).symm
  · show (D.fmt h ⟨false⟩ >>= fun x => pure (Serialized.str x)) = _
    exact (Rs.map_eq_bind _ _).symm

theorem deserialize_text (cfg : Cfg) (D : SerdeMacros.SerdeHash) (d : Deserializer) :
    SerdeMacros.SerdeHash.deserialize cfg D d = deserializeOf D.from_str D.from_slice_delegated d := by
  have hex : ∀ v, (D.from_str v >>= fun x => pure (x.mapError DeError.custom)) = hexOf D.from_str v :=
    fun v => (Rs.map_eq_bind _ _).symm
  unfold SerdeMacros.SerdeHash.deserialize deserializeOf
  cases d.human
  · simp only [Bool.false_eq_true, if_false, bind_pure]
    unfold Deserializer.run
    cases d.data .bytes with
    | bytes v => exact (Rs.map_eq_bind _ _).symm
    | _ => rfl
  · simp only [if_true, bind_pure]
    unfold Deserializer.run
    cases d.data .str with
    | bytes v =>
      show SerdeMacros.HexVisitor.Visitor.visit_bytes cfg D ⟨()⟩ v = if utf8Valid v = true then _ else _
      unfold SerdeMacros.HexVisitor.Visitor.visit_bytes
      cases utf8Valid v
      · rfl
      · rw [if_pos rfl, if_pos rfl, ← hex]
        simp only [pure_bind]
    | str v => exact hex v
    | _ => rfl

/-- The one parser that `serde` uses. -/
theorem parser_head (cfg : Cfg) (T : Sha256t.Tag) (t : HashTy) :
    ∃ parse ∈ (hashText cfg T t).parsers, ∀ d,
      (serdeText cfg T t).deserialize d = deserializeOf parse (hashText cfg T t).fromSlice d := by
  cases t <;> exact ⟨_, List.mem_cons_self, fun d => deserialize_text cfg _ d⟩

theorem serialize_eq (cfg : Cfg) (T : Sha256t.Tag) (t : HashTy) (h : (hashText cfg T t).H) (s : Serializer) :
    (serdeText cfg T t).serialize h s =
      if s.human then ((hashText cfg T t).display h ⟨false⟩).map Serialized.str
      else ((hashText cfg T t).index h .full).map Serialized.bytes := by
  cases t with
  | sha1 => exact serialize_text cfg (Sha1.Hash.serdeHash cfg) h s
  | sha256 => exact serialize_text cfg (Sha256.Hash.serdeHash cfg) h s
  | sha384 => exact serialize_text cfg (Sha384.Hash.serdeHash cfg) h s
  | sha512 => exact serialize_text cfg (Sha512.Hash.serdeHash cfg) h s
  | sha512_256 => exact serialize_text cfg (Sha512_256.Hash.serdeHash cfg) h s
  | ripemd160 => exact serialize_text cfg (Ripemd160.Hash.serdeHash cfg) h s
  | siphash24 => exact serialize_text cfg (Siphash24.Hash.serdeHash cfg) h s
  | sha256t => exact serialize_text cfg (Sha256t.Hash.serdeHash cfg T) h s
  | midstate => exact serialize_text cfg (Sha256.Midstate.serdeHash cfg) h s
  | hmac N => exact serialize_text cfg (Hmac.Hash.serdeHash cfg N) h s

theorem feed_eq (cfg : Cfg) (T : Sha256t.Tag) (t : HashTy) (A : Hasher) (h : (hashText cfg T t).H)
    (st : A.State) :
    (serdeText cfg T t).feed A h st = A.hashSlice ((hashText cfg T t).toByteArray h) st := by
  cases t <;> rfl

/-- The schema for `n` bytes. -/
def schemaOf (n : Nat) : SchemaObject :=
  { is_string := true
    string := some
      { max_length := some (BitVec.ofNat 32 (2 * n))
        min_length := some (BitVec.ofNat 32 (2 * n))
        pattern := some (ascii "[0-9a-fA-F]+") } }

end Chf.Source
