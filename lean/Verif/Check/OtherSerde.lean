import Verif.Check.TextSerde
import Verif.Spec.OtherSerde

/-!
# Executable instances of C110
-/

namespace Chf.Check
open Chf Spec Rs Source.SerdeMacros

/-- A caller's type whose functions answer with what they were called with, and panic when that begins with a
zero. -/
def echo110 : SerdeHash where
  State := List Byte
  from_slice_delegated sl := if sl.head? = some 0 then .error .copyLen else
    .ok (if sl.length = 3 then .ok (1 :: sl) else .error ⟨3, sl.length⟩)
  from_str s := if s.head? = some 0 then .error .ub else
    .ok (if s.length < 3 then .error (.invalidLength 3 s.length) else .ok (2 :: s))
  fmt bs f := if bs.head? = some 0 then .error .overflow else .ok ((if f.alternate then 35 else 36) :: bs)
  index bs _ := if bs.head? = some 0 then .error .sliceIndex else .ok (37 :: bs)

def values110 : List (List Byte) :=
  [[], [0], [65], [65, 66, 67], [0, 1, 2], [65, 66, 67, 68], [0xff, 1, 2], [0xc3, 0xa4, 65], [0xc3], [0, 0xff, 3]]

def check_C110_serialize (_ : Unit) : Bool :=
  forall2 cfgs values110 fun c h =>
    decide (SerdeHash.serialize c echo110 h ⟨true⟩ = (echo110.fmt h ⟨false⟩).map Serialized.str) &&
    decide (SerdeHash.serialize c echo110 h ⟨false⟩ = (echo110.index h ⟨⟩).map Serialized.bytes)

/-- What a deserialization gives. -/
def de110 (c : Cfg) (human : Bool) (x : Data) : Res (Except DeError (List Byte)) :=
  SerdeHash.deserialize c echo110 (giving human x)

def check_C110_human (_ : Unit) : Bool :=
  forall2 cfgs values110 fun c v =>
    let r : Res (Except DeError (List Byte)) := (echo110.from_str v).map (Except.mapError DeError.custom)
    decide (de110 c true (.str v) = r) &&
    (if utf8Valid v then decide (de110 c true (.bytes v) = r)
      else decide (de110 c true (.bytes v) =
        .ok (.error (.invalidValue (.bytes v) (ascii "an ASCII hex string"))))) &&
    (decide (de110 c true .other = .ok (.error (.invalidType .other (ascii "an ASCII hex string")))) &&
    decide (de110 c true .fail = .ok (.error .format)))

def check_C110_binary (_ : Unit) : Bool :=
  forall2 cfgs values110 fun c v =>
    let r : Res (Except DeError (List Byte)) :=
      (echo110.from_slice_delegated v).map (Except.mapError fun _ => DeError.invalidLength v.length (ascii "N"))
    decide (de110 c false (.bytes v) = r) &&
    decide (de110 c false (.str v) = .ok (.error (.invalidType (.str v) (ascii "a bytestring")))) &&
    (decide (de110 c false .other = .ok (.error (.invalidType .other (ascii "a bytestring")))) &&
    decide (de110 c false .fail = .ok (.error .format)))

def otherSerdeChecks : List (String × (Unit → Bool)) := [
  ("C110_serialize", check_C110_serialize), ("C110_human", check_C110_human), ("C110_binary", check_C110_binary)]

end Chf.Check
