import Verif.Check.TextTypes
import Verif.Model.TextSerde

/-!
# Executable instances of the theorems about `serde`, `Hash` and `schemars` of the translated text

As `Verif.Check.Text`, for C76 - C79.
-/

namespace Chf.Check
open Spec Rs

/-- The implementations of the text, in some build and with some tag. -/
def sd (t : HashTy) : Source.SerdeText (ty t).H := Source.serdeText .debug64 ⟨.error .ub⟩ t

/-- A deserializer that gives `x` when asked as it should be. -/
def giving (human : Bool) (x : Data) : Deserializer :=
  ⟨human, fun h => match human, h with
    | true, .str => x
    | false, .bytes => x
    | _, _ => .fail⟩

def seeDe {t : HashTy} (d : Deserializer) : Res (Except DeError (List Byte)) :=
  ((sd t).deserialize d).map (·.map (ty t).toByteArray)

def check_C76_serialize (_ : Unit) : Bool :=
  onTexts fun t n bs => (ty t).makers.all fun mk =>
    (match (sd t).serialize (mk bs) ⟨true⟩ with
      | .ok (.str lo) => decide (lo.length = 2 * n ∧ (∀ x ∈ lo, IsLowerDigit x) ∧ value16 lo = beNat bs)
      | _ => false) &&
    decide ((sd t).serialize (mk bs) ⟨false⟩ = .ok (.bytes bs))

def check_C76_round_trip (_ : Unit) : Bool :=
  onTexts fun t _ bs => (ty t).makers.all fun mk =>
    (match (sd t).serialize (mk bs) ⟨true⟩ with
      | .ok (.str lo) => decide (seeDe (t := t) (giving true (.str lo)) = .ok (.ok bs) ∧
          seeDe (t := t) (giving true (.bytes lo)) = .ok (.ok bs))
      | _ => false) &&
    match (sd t).serialize (mk bs) ⟨false⟩ with
      | .ok (.bytes v) => decide (seeDe (t := t) (giving false (.bytes v)) = .ok (.ok bs))
      | _ => false

/-- The conclusion of `C77_accepts` and `C77_human_errors` for a string. -/
def deserialized (n : Nat) (s : List Byte) (r : Res (Except DeError (List Byte))) : Bool :=
  if s.length ≠ 2 * n then decide (r = .ok (.error (.custom (.invalidLength (2 * n) s.length))))
  else match s.findIdx? (fun b => !decide (IsHexDigit b)) with
    | none => okOk r fun bs => decide (bs.length = n ∧ value16 s = beNat bs)
    | some i => match s[i]? with
      | none => true
      | some b => decide (r = .ok (.error (.custom (.invalidChar b i))))

def check_C77_human (_ : Unit) : Bool :=
  types.all fun x => (strings (.hmac x.2)).all fun s =>
    deserialized x.2 s (seeDe (t := x.1) (giving true (.str s))) &&
    (if utf8Valid s then deserialized x.2 s (seeDe (t := x.1) (giving true (.bytes s)))
      else decide (seeDe (t := x.1) (giving true (.bytes s)) =
        .ok (.error (.invalidValue (.bytes s) (ascii "an ASCII hex string")))))

def check_C77_binary (_ : Unit) : Bool :=
  types.all fun x => (List.range 75).all fun n =>
    decide (seeDe (t := x.1) (giving false (.bytes (some100 n))) =
      .ok (if n = x.2 then .ok (some100 n) else .error (.invalidLength n (ascii "N"))))

def check_C77_other (_ : Unit) : Bool :=
  types.all fun x => [[], some100 x.2, some100 40].all fun s =>
    decide (seeDe (t := x.1) (giving true .other) =
        .ok (.error (.invalidType .other (ascii "an ASCII hex string"))) ∧
      seeDe (t := x.1) (giving true .fail) = .ok (.error .format)) &&
    decide (seeDe (t := x.1) (giving false .other) =
        .ok (.error (.invalidType .other (ascii "a bytestring"))) ∧
      seeDe (t := x.1) (giving false .fail) = .ok (.error .format) ∧
      seeDe (t := x.1) (giving false (.str s)) =
        .ok (.error (.invalidType (.str s) (ascii "a bytestring"))))

/-- A hasher that keeps what it is fed. -/
def textRecorder : Hasher :=
  ⟨List (Nat ⊕ List Byte), fun s bs => s ++ [.inr bs], fun s n => s ++ [.inl n]⟩

def fed (t : HashTy) (h : (ty t).H) : List (Nat ⊕ List Byte) := (sd t).feed textRecorder h [.inl 3]

def check_C78_feed (_ : Unit) : Bool :=
  onTexts fun t n bs => (ty t).makers.all fun mk =>
    decide (fed t (mk bs) = [.inl 3, .inl n, .inr bs])

def check_C79_schema (_ : Unit) : Bool :=
  forall2 cfgs types fun c x =>
    match x.1, (Source.serdeText c ⟨.error .ub⟩ x.1).schema with
    | .midstate, s => s.isNone
    | _, none => false
    | _, some (name, f) => decide (name = ascii "Hash" ∧
        f () = .ok ⟨true, some ⟨some (BitVec.ofNat 32 (2 * x.2)), some (BitVec.ofNat 32 (2 * x.2)),
          some (ascii "[0-9a-fA-F]+")⟩⟩)

def check_C79_hmac_u32 (_ : Unit) : Bool :=
  cfgs.all fun c =>
    match (Source.serdeText c ⟨.error .ub⟩ (.hmac (2 ^ 31))).schema with
    | none => true
    | some (_, f) =>
      if c.overflowChecks then decide (f () = .error .overflow)
      else okAnd (f ()) fun o => decide (o.is_string = true ∧
        o.string.map (fun s => (s.max_length, s.min_length)) = some (some 0, some 0))

def textSerdeChecks : List (String × (Unit → Bool)) := [
  ("C76_serialize", check_C76_serialize),
  ("C76_round_trip", check_C76_round_trip),
  ("C77_human", check_C77_human),
  ("C77_binary", check_C77_binary),
  ("C77_other", check_C77_other),
  ("C78_feed", check_C78_feed),
  ("C79_schema", check_C79_schema),
  ("C79_hmac_u32", check_C79_hmac_u32)]

end Chf.Check
