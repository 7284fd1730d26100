import Verif.Check.TextHash
import Verif.Check.Work

/-!
# Instances of C98
-/

namespace Chf.Check
open Chf Spec

/-- The writers of the text for an engine type. -/
def writers98 (c : Cfg) : (a : Alg) → List (Writer (Source.engineOf c a).State)
  | .hmac b => (Source.writer c (.hmac b)).toList ++ [Source.stdWriter c b]
  | a => (Source.writer c a).toList

def check_C98_printed (_ : Unit) : Bool :=
  forall2 engines readings fun x r => (writers98 x.1 x.2).all fun w =>
    match (do
        let (n, v) ← Source.hashReader x.1 x.2 w r.1
        let s ← (Source.typeOf x.1 x.2).display v ⟨false⟩
        pure (n, s)) with
    | .ok (.ok n, s) => decide (n = r.2.length ∧ s.length = 2 * (x.2.hashSpec r.2).length ∧
        (∀ b ∈ s, IsLowerDigit b) ∧ value16 s = beNat (x.2.hashSpec r.2))
    | _ => false

def check_C98_check (_ : Unit) : Bool :=
  forall2 engines readings fun x r => (writers98 x.1 x.2).all fun w =>
    forall2 (near 65 (x.2.hashSpec r.2) ++ near 97 (x.2.hashSpec (1 :: r.2)))
      (Source.typeOf x.1 x.2).parsers fun s parse =>
    agrees (Source.typeOf x.1 x.2) ((Source.hashReader x.1 x.2 w r.1).map (·.2)) (parse s) ==
      decide (s.length = 2 * (x.2.hashSpec r.2).length ∧ (∀ b ∈ s, IsHexDigit b) ∧
        value16 s = beNat (x.2.hashSpec r.2))

/-- What a reader gives before it fails, how it fails, and what it would have given after. -/
def failures : List (List Writer.ReadResult × IoError × List Writer.ReadResult) :=
  [([], .other, [.ok (msg 3)]), ([.ok (msg 3), .error .interrupted, .ok (msg 64)], .other, []),
    ([.ok (msg 70)], .writeZero, [.error .other])]

def check_C98_error (_ : Unit) : Bool :=
  forall2 engines failures fun x r => (writers98 x.1 x.2).all fun w =>
    match Source.hashReader x.1 x.2 w (r.1 ++ .error r.2.1 :: r.2.2) with
    | .ok (n, v) => decide (n = .error r.2.1 ∧ (Source.typeOf x.1 x.2).toByteArray v =
        x.2.hashSpec (r.1.map fun y => match y with | .ok bs => bs | .error _ => []).flatten)
    | _ => false

def check_C98_copy (_ : Unit) : Bool :=
  forall2 engines readings fun x r => (writers98 x.1 x.2).all fun w =>
    [[], msg 5, msg 64].all fun d =>
      match (do
          let e ← (Source.engineOf x.1 x.2).new
          (Source.engineOf x.1 x.2).input e d) with
      | .ok e =>
        let show98 (o : Nat × Res (Source.engineOf x.1 x.2).Midstate × Res (List Byte)) :=
          (o.1, o.2.1.map (Source.showMid x.1 x.2), o.2.2)
        decide ((do
          let (e', n) ← w.copy e 0 r.1
          let o ← (Source.engineOf x.1 x.2).observe e' []
          pure (n, show98 o)) = (do
          let o ← (Source.engineOf x.1 x.2).observe e [r.2]
          pure (.ok r.2.length, show98 o)))
      | .error _ => true

def textCopyChecks : List (String × (Unit → Bool)) := [
  ("C98_printed", check_C98_printed),
  ("C98_check", check_C98_check),
  ("C98_error", check_C98_error),
  ("C98_copy", check_C98_copy)]

end Chf.Check
