import Verif.Check.States
import Verif.Model.ObserveEngines
import Verif.Spec.Shape

/-!
# Instances of property C66

As in `Check/Instances.lean`.
-/

namespace Chf.Check
open Chf Spec

/-- Pieces of a message given to the observed `input`. -/
def inputsO {E : HashEngine} (O : Observed E) (e : E.State) : List (List Byte) → Obs E.State
  | [] => pure e
  | d :: ds => do
      let e ← O.input e d
      inputsO O e ds

/-- Digest and midstate by the observed methods. -/
def runO (c : Cfg) (a : Alg) (mk : Make) (ds : List (List Byte)) :
    Option (Res (Option MidVal) × Res (List Byte)) :=
  (a.makeO c mk).map fun x =>
    ((do
        let e ← x
        let e ← inputsO (a.observed c) e ds
        let m ← (a.observed c).midstate e
        pure (some (a.showMid c m)) : Obs (Option MidVal)).res,
      (do
        let e ← x
        let e ← inputsO (a.observed c) e ds
        (a.observed c).finalize e : Obs (List Byte)).res)

/-- Digest and midstate by the methods. -/
def runM (c : Cfg) (a : Alg) (mk : Make) (ds : List (List Byte)) :
    Option (Res (Option MidVal) × Res (List Byte)) :=
  (a.make c mk).map fun x =>
    ((do
        let e ← x
        let e ← (a.engine c).inputs e ds
        let m ← (a.engine c).midstate e
        pure (some (a.showMid c m)) : Res (Option MidVal)),
      (do
        let e ← x
        let e ← (a.engine c).inputs e ds
        (a.engine c).finalize e : Res (List Byte)))

def makesO (a : Alg) : List Make :=
  [.new, .default, .sipKeys 0x0123456789abcdef 77, .hmacKey (msg 9), .hmacKey (msg 140), .resume (midOf a) 128,
    .resume (midOf a) 3]

def check_C66_computes (_ : Unit) : Bool :=
  engines.all fun x => (makesO x.2).all fun mk => [[msg 9], [msg 3, msg 130, msg 60]].all fun ds =>
    decide (runO x.1 x.2 mk ds = runM x.1 x.2 mk ds)

/-- Programs with data of both kinds: mostly zeroes and not. -/
def programsO : List (List Call) :=
  programs ++ algs.map fun a =>
    [.make a .new, .input 0 (msg 3), .input 0 (msg 200), .midstate 0, .clone 0, .finalize 0,
      .make a (.hmacKey (msg 100)), .input 0 (msg 17), .input 0 [255, 254, 253], .finalize 0, .input 0 (msg 64),
      .make a (.sipKeys 1 2), .finalize 2]

def check_C66_programs (_ : Unit) : Bool :=
  forall2 cfgs programsO fun c p =>
    decide (Impl.programSeen c [] p = Impl.programSeen c [] (p.map Call.blank))

def check_C55_programs (_ : Unit) : Bool :=
  forall2 cfgs programsO fun c p =>
    decide (((Impl.crate c).answers [] p).map Answer.blank =
      ((Impl.crate c).answers [] (p.map Call.blank)).map Answer.blank)

def observeChecks : List (String × (Unit → Bool)) :=
  [("C66_computes", check_C66_computes),
   ("C66_programs", check_C66_programs),
   ("C55_programs", check_C55_programs)]

end Chf.Check
