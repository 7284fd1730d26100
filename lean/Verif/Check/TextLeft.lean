import Verif.Check.States
import Verif.Model.TextLeft

/-!
# Instances of C88
-/

namespace Chf.Check
open Chf Spec

def leftAlgs : List Alg := [.sha1, .sha512, .siphash24, .hmac .sha256]

/-- Engines of the text near the limit of a 16-bit counter. -/
def nearLimit88 (c : Cfg) (a : Alg) : List (Source.engineOf c a).State :=
  [2 ^ 16 - 256, 2 ^ 16 - 128, 2 ^ 16 - 64].filterMap fun n =>
    match Source.make c a (.resume (midOf a) n) with
    | some (.ok e) => ((Source.engineOf c a).input e (msg 30)).toOption
    | _ => none

/-- The same for an engine that is not resumed near it. -/
def farInput88 (c : Cfg) (a : Alg) : List (Source.engineOf c a).State :=
  match Source.make c a .new with
  | some (.ok e) => ((Source.engineOf c a).input e (msg 65300)).toOption.toList
  | _ => []

def limitEngines88 (c : Cfg) (a : Alg) : List (Source.engineOf c a).State :=
  nearLimit88 c a ++ farInput88 c a

/-- What is seen of an engine of the text after the inputs `ds`. -/
def seen88 (c : Cfg) (a : Alg) (e : (Source.engineOf c a).State) (ds : List (List Byte)) :
    Res (Nat × Res MidVal × Res (List Byte)) :=
  ((Source.engineOf c a).observe e ds).map fun x => (x.1, x.2.1.map (Source.showMid c a), x.2.2)

def same88 (c : Cfg) (a : Alg) (e e' : (Source.engineOf c a).State) (ds : List (List Byte)) : Bool :=
  decide (seen88 c a e ds = seen88 c a e' ds)

def check_C88_agrees (_ : Unit) : Bool :=
  forall2 [debug16, release16] leftAlgs fun c a =>
    forall2 (limitEngines88 c a) slices62 fun e d =>
      match Source.inputLeft c a e d, (Source.engineOf c a).input e d with
      | .ok e', .ok e'' => same88 c a e' e'' [msg 3]
      | .error (f, _), .error g => decide (f = g)
      | _, _ => false

def check_C88_left (_ : Unit) : Bool :=
  leftAlgs.all fun a =>
    let E := Source.engineOf debug16 a
    forall2 (limitEngines88 debug16 a) slices62 fun e d =>
      match Source.inputLeft debug16 a e d with
      | .ok _ => true
      | .error (f, e') =>
        decide (f = .overflow) &&
        (List.range d.length).any fun k =>
          match E.input e (d.take k) with
          | .error _ => false
          | .ok e'' => decide (E.nBytesHashed e' = E.nBytesHashed e'') && same88 debug16 a e' e'' [] &&
              same88 debug16 a e' e'' [msg 3] && same88 debug16 a e' e'' [msg 70]

/-- The fields of an engine of the text. -/
def fields88 (e : Source.Siphash24.Engine) : List Nat :=
  [e.k0.toNat, e.k1.toNat, e.length, e.state.v0.toNat, e.state.v1.toNat, e.state.v2.toNat,
    e.state.v3.toNat, e.tail.toNat, e.ntail]

def check_C88_siphash (_ : Unit) : Bool :=
  forall2 (limitEngines88 debug16 .siphash24) slices62 fun e d =>
    match Source.Siphash24.Engine.input_left debug16 e d with
    | .ok _ => true
    | .error (_, e') => decide (fields88 e' = fields88 e)

def check_C88_hmac (_ : Unit) : Bool :=
  forall2 (limitEngines88 debug16 (.hmac .sha256)) slices62 fun e d =>
    match Source.inputLeft debug16 (.hmac .sha256) e d with
    | .ok _ => true
    | .error (_, e') => same88 debug16 .sha256 (Source.Hmac.Engine.oengine (E := Source.engineOf debug16 .sha256) e')
        (Source.Hmac.Engine.oengine (E := Source.engineOf debug16 .sha256) e) [msg 3]

/-- Programs that are stopped by the counter and go on. -/
def programs88 : List (List Call) :=
  quietAlgs.map loud16 ++ [long16 .sha512, long16 .siphash24, long16 (.hmac .sha1)]

def check_C88_programs (_ : Unit) : Bool :=
  forall2 [debug16, release16, other16] programs88 fun c p =>
    decide ((Source.catchText c).answers [] p = (catchLogs c).answers [] p)

def textLeftChecks : List (String × (Unit → Bool)) := [
  ("C88_agrees", check_C88_agrees),
  ("C88_left", check_C88_left),
  ("C88_siphash", check_C88_siphash),
  ("C88_hmac", check_C88_hmac),
  ("C88_programs", check_C88_programs)]

end Chf.Check
