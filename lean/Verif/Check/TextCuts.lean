import Verif.Check.TextKept
import Verif.Check.TextMoves
import Verif.Check.TextCopy

/-!
# Instances of C114
-/

namespace Chf.Check
open Chf Spec

/-- What can be compared of an engine: its buffers, its count, its midstate and its digest. -/
def state114 (c : Cfg) (a : Alg) (e : (Source.engineOf c a).State) :=
  ((match a, e with
    | .hmac b, e => let x := Source.hmacBuffers c b e; [x.1, x.2]
    | a, e => [Source.bufferOf c a e]),
    (Source.engineOf c a).nBytesHashed e, ((Source.engineOf c a).midstate e).map (Source.showMid c a),
    (Source.engineOf c a).finalize e)

def algs114 : List Alg :=
  [.sha1, .sha256, .sha384, .sha512, .sha512_256, .ripemd160, .siphash24, .hmac .sha1, .hmac .sha512]

def cuts114 : List (List (List Byte) × List (List Byte)) :=
  [([], [[]]), ([msg 5], [(msg 5).take 1, [], (msg 5).drop 1]), ([msg 128], [msg 1, (msg 128).drop 1]),
    ([msg 64], [(msg 64).take 63, (msg 64).drop 63]), ([msg 128], [(msg 128).take 127, (msg 128).drop 127]),
    ([msg 60, msg 9], [msg 60 ++ msg 9]), ([msg 130, msg 200], [msg 130 ++ (msg 200).take 7, (msg 200).drop 7])]

def check_C114_cuts (_ : Unit) : Bool :=
  forall2 cfgs109 algs114 fun c a => forall2 [Make.new, .default] cuts114 fun how d =>
    match Source.make c a how with
    | some (.ok e) => decide (((Source.engineOf c a).inputs e d.1).map (state114 c a) =
        ((Source.engineOf c a).inputs e d.2).map (state114 c a))
    | _ => true

/-- An engine that has seen some bytes. -/
def check_C114_empty (_ : Unit) : Bool :=
  forall2 cfgs109 algs114 fun c a => ([0, 1, 9, 64, 130] : List Nat).all fun n =>
    match Source.make c a .new with
    | some (.ok e) =>
      match (Source.engineOf c a).inputs e [msg n] with
      | .ok e => decide (((Source.engineOf c a).input e []).map (state114 c a) = .ok (state114 c a e))
      | _ => true
    | _ => true

def check_C114_copy (_ : Unit) : Bool :=
  forall2 engines readings fun x r => (writers98 x.1 x.2).all fun w =>
    [[], msg 5, msg 64].all fun d =>
      match (do
          let e ← (Source.engineOf x.1 x.2).new
          (Source.engineOf x.1 x.2).input e d) with
      | .ok e =>
        match w.copy e 0 r.1, (Source.engineOf x.1 x.2).input e r.2 with
        | .ok y, .ok e' => decide (state114 x.1 x.2 y.1 = state114 x.1 x.2 e') && decide (y.2 = .ok r.2.length)
        | .error f, .error g => decide (f = g)
        | _, _ => false
      | _ => true

def textCutsChecks : List (String × (Unit → Bool)) := [
  ("C114_cuts", check_C114_cuts), ("C114_empty", check_C114_empty), ("C114_copy", check_C114_copy)]

end Chf.Check
