import Verif.Check.Text
import Verif.Check.Values
import Verif.Model.TextTypes

/-!
# Executable instances of the theorems about the hash types and writers of the translated text

As `Verif.Check.Text`, for C71 - C75.
-/

namespace Chf.Check
open Spec

/-- The hash types with their lengths in bytes. -/
def types : List (HashTy × Nat) :=
  [(.sha1, 20), (.sha256, 32), (.sha384, 48), (.sha512, 64), (.sha512_256, 32), (.ripemd160, 20),
    (.siphash24, 8), (.sha256t, 32), (.hmac 0, 0), (.hmac 1, 1), (.hmac 5, 5), (.hmac 70, 70),
    (.midstate, 32)]

/-- The type of the text, in some build and with some tag. -/
def ty (t : HashTy) : Source.HashText := Source.hashText .debug64 ⟨.error .ub⟩ t

def onTexts (p : HashTy → Nat → List Byte → Bool) : Bool :=
  types.all fun x => fills.all fun f => p x.1 x.2 ((List.range x.2).map f)

def onTextPairs (p : HashTy → List Byte → List Byte → Bool) : Bool :=
  types.all fun x => fills.all fun f => fills.all fun g =>
    p x.1 ((List.range x.2).map f) ((List.range x.2).map g)

def check_C71_conversions (_ : Unit) : Bool :=
  onTextPairs fun t bs cs => (ty t).makers.all fun mk => (ty t).views.all fun v =>
    decide (v (mk bs) = bs) && ((ty t).writes.all fun w => decide (w bs (mk cs) = cs)) &&
      (ty t).clones.all fun cl => decide (v (cl (mk bs)) = bs)

def check_C71_count (_ : Unit) : Bool :=
  types.all fun x => decide (((ty x.1).views.length, (ty x.1).makers.length, (ty x.1).writes.length,
      (ty x.1).zeros.length, (ty x.1).parsers.length) =
    match x.1 with
    | .sha256t => (6, 3, 1, 2, 1)
    | .hmac _ => (5, 3, 1, 1, 1)
    | .midstate => (2, 1, 0, 1, 2)
    | _ => (6, 3, 1, 1, 1))

def check_C71_zeros (_ : Unit) : Bool :=
  types.all fun x => (ty x.1).zeros.all fun z =>
    decide ((ty x.1).len = x.2 ∧ (ty x.1).toByteArray z = List.replicate x.2 0)

def check_C71_from_slice (_ : Unit) : Bool :=
  types.all fun x => (List.range 75).all fun n =>
    decide (seeSlice (ty x.1).toByteArray ((ty x.1).fromSlice (some100 n)) = wantSlice x.2 (some100 n))

/-- The conclusion of `C71_index` for a value with these bytes. -/
def indexed (bs : List Byte) (f : HashTy.Idx → Res (List Byte)) : Bool :=
  decide (f .full = .ok bs) && positions.all fun i =>
    (match bs[i]? with
      | some b => decide (f (.at i) = .ok [b])
      | none => decide (f (.at i) = .error .sliceIndex)) &&
    positions.all fun j =>
      decide (f (.range i j) = (if i ≤ j ∧ j ≤ bs.length then .ok (bs.extract i j) else .error .sliceIndex) ∧
        f (.rangeTo j) = f (.range 0 j) ∧ f (.rangeFrom i) = f (.range i bs.length))

def check_C71_index (_ : Unit) : Bool :=
  onTexts fun t _ bs => (ty t).makers.all fun mk => indexed bs ((ty t).index (mk bs))

def check_C72_eq (_ : Unit) : Bool :=
  onTextPairs fun t a b => (ty t).makers.all fun mk => decide ((ty t).eq (mk a) (mk b) = decide (a = b))

def check_C72_order (_ : Unit) : Bool :=
  onTextPairs fun t a b => (ty t).makers.all fun mk =>
    decide ((ty t).cmp (mk a) (mk b) = compare (beNat a) (beNat b) ∧
      (ty t).partialCmp (mk a) (mk b) = some (compare (beNat a) (beNat b)))

def sliceErrors : List Source.Lib.FromSliceError := [⟨32, 7⟩, ⟨7, 32⟩, ⟨32, 33⟩, ⟨20, 7⟩, ⟨0, 18446744073709551615⟩]

def check_C72_errors (_ : Unit) : Bool :=
  forall2 sliceErrors sliceErrors fun a b =>
    Source.Lib.FromSliceError.PartialEq.eq .debug64 a b == decide (a.expected = b.expected ∧ a.got = b.got)

def check_C72_message (_ : Unit) : Bool :=
  sliceErrors.all fun e => [true, false].all fun f =>
    decide (Source.Lib.FromSliceError.Display.fmt .debug64 e ⟨f⟩ =
      ascii ("invalid slice length " ++ toString e.got ++ " (expected " ++ toString e.expected ++ ")"))

def check_C73_format (_ : Unit) : Bool :=
  onTexts fun t n bs => (ty t).makers.all fun mk =>
    okAnd ((ty t).lowerHex (mk bs) ⟨false⟩) fun lo => okAnd ((ty t).upperHex (mk bs) ⟨false⟩) fun up =>
      decide ((ty t).display (mk bs) ⟨false⟩ = .ok lo ∧
        (ty t).lowerHex (mk bs) ⟨true⟩ = .ok (ascii "0x" ++ lo) ∧
        (ty t).display (mk bs) ⟨true⟩ = .ok (ascii "0x" ++ lo) ∧
        (ty t).upperHex (mk bs) ⟨true⟩ = .ok (ascii "0x" ++ up)) &&
      decide ((ty t).debug (mk bs) ⟨false⟩ = .ok (ascii "0x" ++ lo) ∧
        (ty t).debug (mk bs) ⟨true⟩ = .ok (ascii "0x" ++ lo)) &&
      decide (lo.length = 2 * n ∧ (∀ x ∈ lo, IsLowerDigit x) ∧ value16 lo = beNat bs) &&
      decide (up.length = 2 * n ∧ (∀ x ∈ up, IsUpperDigit x) ∧ value16 up = beNat bs)

/-- The conclusion of `C73_parse` and `C73_errors` for the parser of a type with `n` bytes. -/
def parsed (n : Nat) (s : List Byte) (r : Res (Except Hex.Error (List Byte))) : Bool :=
  if s.length ≠ 2 * n then decide (r = .ok (.error (.invalidLength (2 * n) s.length)))
  else match s.findIdx? (fun b => !decide (IsHexDigit b)) with
    | none => okOk r fun bs => decide (bs.length = n ∧ value16 s = beNat bs)
    | some i => match s[i]? with
      | none => true
      | some b => decide (r = .ok (.error (.invalidChar b i)))

def check_C73_parse (_ : Unit) : Bool :=
  types.all fun x => (strings (.hmac x.2)).all fun s => (ty x.1).parsers.all fun parse =>
    parsed x.2 s ((parse s).map (·.map (ty x.1).toByteArray))

def check_C74_provided (_ : Unit) : Bool :=
  forall2 engines chunkings fun x ds =>
    decide (Source.Lib.HashEngine.hash_byte_chunks x.1 (Source.engineOf x.1 x.2) ds =
        .ok (x.2.hashSpec ds.flatten) ∧
      Source.Lib.HashEngine.hash x.1 (Source.engineOf x.1 x.2) ds.flatten = .ok (x.2.hashSpec ds.flatten))

def check_C74_hmac (_ : Unit) : Bool :=
  forall2 [Cfg.debug64, .release64] algs fun c a => forall2 keys inputs3 fun key ds =>
    decide ((do
      let e ← Source.Hmac.Engine.new c (Source.engineOf c a) key
      let e ← (Source.engineOf c (.hmac a)).inputs e ds
      let h ← Source.Hmac.Hash.from_engine c 32 (Source.engineOf c (.hmac a)) e
      pure h.f0) = .ok (hmac a.hashSpec a.blockSize key ds.flatten))

def sameHash {H : Type} (f : H → List Byte) (a b : Res H) : Bool := decide (a.map f = b.map f)

def check_C74_from_engine (_ : Unit) : Bool :=
  forall2 cfgs lengths fun c n =>
    sameHash (·.f0) (Source.Sha1.Engine.input c (Source.Sha1.Hash.engine c) (msg n) >>=
      Source.Sha1.Hash.from_engine c) (Source.Sha1.Hash.hash c (msg n)) &&
    sameHash (·.f0) (Source.Sha256.Engine.input c (Source.Sha256.Hash.engine c) (msg n) >>=
      Source.Sha256.Hash.from_engine c) (Source.Sha256.Hash.hash c (msg n)) &&
    sameHash (·.f0) (Source.Sha384.Engine.input c (Source.Sha384.Hash.engine c) (msg n) >>=
      Source.Sha384.Hash.from_engine c) (Source.Sha384.Hash.hash c (msg n)) &&
    sameHash (·.f0) (Source.Sha512.Engine.input c (Source.Sha512.Hash.engine c) (msg n) >>=
      Source.Sha512.Hash.from_engine c) (Source.Sha512.Hash.hash c (msg n)) &&
    sameHash (·.f0) (Source.Sha512_256.Engine.input c (Source.Sha512_256.Hash.engine c) (msg n) >>=
      Source.Sha512_256.Hash.from_engine c) (Source.Sha512_256.Hash.hash c (msg n)) &&
    sameHash (·.f0) (Source.Ripemd160.Engine.input c (Source.Ripemd160.Hash.engine c) (msg n) >>=
      Source.Ripemd160.Hash.from_engine c) (Source.Ripemd160.Hash.hash c (msg n)) &&
    sameHash (·.f0) ((Source.Siphash24.Engine.input c (Source.Siphash24.Hash.engine c) (msg n)).map
      (Source.Siphash24.Hash.from_engine c)) (Source.Siphash24.Hash.hash c (msg n)) &&
    sameHash (·.f0) (do
        let e ← Source.Sha256t.Hash.engine c (Source.bip340Tag c [1, 2])
        let e ← Source.Sha256t.Engine.input c (Source.bip340Tag c [1, 2]) e (msg n)
        Source.Sha256t.Hash.from_engine c (Source.bip340Tag c [1, 2]) e)
      (Source.Sha256t.Hash.hash c (Source.bip340Tag c [1, 2]) (msg n))

/-- Calls of each kind. -/
def callsOf (ds : List (List Byte)) : List Writer.Op :=
  ds.flatMap (fun d => [.write d, .flush]) ++ .writeAll [] :: ds.map .writeAll

def plainAnswer : Writer.Answer → Option Nat
  | .written (.ok n) => some n
  | .done (.ok ()) => some 1000000
  | _ => none

def wantAnswer : Writer.Op → Option Nat
  | .write buf => some buf.length
  | _ => some 1000000

/-- The conclusion of `C75_digest`. -/
def writesText {c : Cfg} {a : Alg} (w : Writer (Source.engineOf c a).State) (ds : List (List Byte)) : Bool :=
  decide ((do
      let e ← (Source.engineOf c a).new
      let (e, rs) ← w.steps e (callsOf ds)
      let d ← (Source.engineOf c a).finalize e
      pure (rs.map plainAnswer, d)) =
    .ok ((callsOf ds).map wantAnswer, a.hashSpec (ds.flatten ++ ds.flatten)))

def check_C75_digest (_ : Unit) : Bool :=
  forall2 engines chunkings fun x ds =>
    match Source.writer x.1 x.2 with
    | some w => writesText w ds
    | none => true

def check_C75_std (_ : Unit) : Bool :=
  forall2 cfgs [Alg.sha1, .sha256, .sha512] fun c a => chunkings.all fun ds =>
    writesText (a := .hmac a) (Source.stdWriter c a) ds

def check_C75_which (_ : Unit) : Bool :=
  engines.all fun x =>
    (Source.writer x.1 x.2).isNone == (match x.2 with | .sha384 | .sha512_256 => true | _ => false)

def textTypeChecks : List (String × (Unit → Bool)) := [
  ("C71_conversions", check_C71_conversions),
  ("C71_count", check_C71_count),
  ("C71_zeros", check_C71_zeros),
  ("C71_from_slice", check_C71_from_slice),
  ("C71_index", check_C71_index),
  ("C72_eq", check_C72_eq),
  ("C72_order", check_C72_order),
  ("C72_errors", check_C72_errors),
  ("C72_message", check_C72_message),
  ("C73_format", check_C73_format),
  ("C73_parse", check_C73_parse),
  ("C74_provided", check_C74_provided),
  ("C74_hmac", check_C74_hmac),
  ("C74_from_engine", check_C74_from_engine),
  ("C75_digest", check_C75_digest),
  ("C75_std", check_C75_std),
  ("C75_which", check_C75_which)]

end Chf.Check
