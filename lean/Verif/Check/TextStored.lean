import Verif.Check.TextHash
import Verif.Check.TextSerde

/-!
# Instances of C101
-/

namespace Chf.Check
open Chf Spec Rs

/-- `impl Serialize`, `Deserialize`, `Hash` and `JsonSchema` of the hash type of an engine type. -/
abbrev stored101 (x : Cfg × Alg) := Source.serdeText x.1 (Source.tagOf x.1 x.2) (Source.tyOf x.2)

def check_C101_serialized (_ : Unit) : Bool :=
  forall2 engines inputs96 fun x ds =>
    match (Source.hashChunks x.1 x.2 ds >>= fun v => (stored101 x).serialize v ⟨true⟩),
      (Source.hashChunks x.1 x.2 ds >>= fun v => (Source.typeOf x.1 x.2).display v ⟨false⟩),
      (Source.hashChunks x.1 x.2 ds >>= fun v => (stored101 x).serialize v ⟨false⟩) with
    | .ok (.str s), .ok t, .ok (.bytes b) => decide (t = s ∧ s.length = 2 * (x.2.hashSpec ds.flatten).length ∧
        (∀ b ∈ s, IsLowerDigit b) ∧ value16 s = beNat (x.2.hashSpec ds.flatten) ∧ b = x.2.hashSpec ds.flatten)
    | _, _, _ => false

/-- What is deserialized is equal to the hash of the input. -/
def same101 (x : Cfg × Alg) (ds : List (List Byte)) (d : Deserializer) : Bool :=
  match Source.hashChunks x.1 x.2 ds, (stored101 x).deserialize d with
  | .ok v, .ok (.ok w) => (Source.typeOf x.1 x.2).eq v w
  | _, _ => false

def check_C101_human (_ : Unit) : Bool :=
  forall2 engines inputs96 fun x ds =>
    (near 97 (x.2.hashSpec ds.flatten) ++ near 65 (x.2.hashSpec ds.flatten) ++
        near 65 (x.2.hashSpec (1 :: ds.flatten)) ++ [x.2.hashSpec ds.flatten]).all fun s =>
    [Data.str s, .bytes s].all fun data =>
    same101 x ds ⟨true, fun _ => data⟩ ==
      decide (s.length = 2 * (x.2.hashSpec ds.flatten).length ∧ (∀ b ∈ s, IsHexDigit b) ∧
        value16 s = beNat (x.2.hashSpec ds.flatten))

def check_C101_binary (_ : Unit) : Bool :=
  forall2 engines inputs96 fun x ds =>
    (near 97 (x.2.hashSpec ds.flatten) ++ [x.2.hashSpec ds.flatten, x.2.hashSpec (1 :: ds.flatten),
        (x.2.hashSpec ds.flatten).reverse, (x.2.hashSpec ds.flatten).drop 1, []]).all fun s =>
    same101 x ds ⟨false, fun _ => .bytes s⟩ == decide (s = x.2.hashSpec ds.flatten) &&
    !same101 x ds ⟨false, fun _ => .str s⟩

/-- The type and the lengths of a schema. -/
def fits101 (o : SchemaObject) (s : List Byte) : Bool :=
  o.is_string && (match o.string with
    | none => true
    | some v => (match v.max_length with
        | none => true
        | some m => decide (chars s ≤ m.toNat)) && (match v.min_length with
        | none => true
        | some m => decide (m.toNat ≤ chars s)))

def check_C101_schema (_ : Unit) : Bool :=
  forall2 engines inputs96 fun x ds =>
    match (stored101 x).schema, (Source.hashChunks x.1 x.2 ds >>= fun v => (stored101 x).serialize v ⟨true⟩) with
    | some (_, f), .ok (.str s) => match f () with
      | .ok o => fits101 o s
      | .error _ => false
    | _, _ => false

/-- What the hash of the input feeds a hasher. -/
def fed101 (x : Cfg × Alg) (ds : List (List Byte)) : Res (List (Nat ⊕ List Byte)) :=
  (Source.hashChunks x.1 x.2 ds).map fun v => (stored101 x).feed textRecorder v [.inl 3]

def check_C101_keys (_ : Unit) : Bool :=
  forall2 engines inputs96 fun x ds =>
    decide (fed101 x ds = .ok [.inl 3, .inl x.2.outLen, .inr (x.2.hashSpec ds.flatten)])

def textStoredChecks : List (String × (Unit → Bool)) := [
  ("C101_serialized", check_C101_serialized),
  ("C101_human", check_C101_human),
  ("C101_binary", check_C101_binary),
  ("C101_schema", check_C101_schema),
  ("C101_keys", check_C101_keys)]

end Chf.Check
