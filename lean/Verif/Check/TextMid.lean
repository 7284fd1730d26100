import Verif.Check.Text
import Verif.Spec.Panics
import Verif.Spec.Shape

/-!
# Instances of C80 - C83
-/

namespace Chf.Check
open Chf Spec

/-- Every panic among the answers is one the call may have. -/
def panicsOk (c : Cfg) : List Call → List Answer → Bool
  | x :: xs, .panic f :: as => decide (mayPanic c x f) && panicsOk c xs as
  | _ :: xs, _ :: as => panicsOk c xs as
  | _, _ => true

def check_C80_panics (_ : Unit) : Bool :=
  forall2 cfgs programs fun c p => panicsOk c p ((Source.text c).answers [] p)

def check_C81_builds (_ : Unit) : Bool :=
  forall2 cfgs programs fun c p => decide ((Source.text c).answers [] p =
    (Source.text { c with shaNi := !c.shaNi, smallHash := !c.smallHash, bigEndian := !c.bigEndian }).answers [] p)

def check_C81_overflow_checks (_ : Unit) : Bool :=
  programs.all fun p =>
    let r := (Source.text .debug64).answers [] p
    decide (.panic .overflow ∈ r) || decide ((Source.text .release64).answers [] p = r)

def check_C81_portable (_ : Unit) : Bool :=
  programs16.all fun p =>
    let r := (Source.text debug16).answers [] p
    decide (.panic .overflow ∈ r) || decide ((Source.text .release64).answers [] p = r)

def check_C81_lengths_decide (_ : Unit) : Bool :=
  forall2 cfgs programs fun c p => decide (((Source.text c).answers [] p).map Answer.blank =
    ((Source.text c).answers [] (p.map Call.blank)).map Answer.blank)

/-- Types of engines with values of their midstates, and whether they keep them. -/
def mids : List (Alg × MidVal × Bool) :=
  [(.sha1, .bytes (msg 20), true), (.sha256, .bytes (msg 32), true), (.sha384, .bytes (msg 64), false),
   (.sha512, .bytes (msg 64), false), (.sha512_256, .bytes (msg 64), false), (.ripemd160, .bytes (msg 20), false),
   (.sha256t (msg 32) 64 (msg 5), .bytes (msg 32), true),
   (.hmac .sha1, .pair (.bytes (msg 20)) (.bytes (List.replicate 20 7)), true),
   (.hmac (.hmac .sha256), .pair (.pair (.bytes (msg 32)) (.bytes (List.replicate 32 7)))
     (.pair (.bytes (List.replicate 32 8)) (.bytes (List.replicate 32 9))), true),
   (.hmac .sha384, .pair (.bytes (msg 64)) (.bytes (List.replicate 64 7)), false)]

/-- Whether `from_midstate` does as C82 says. -/
def fromMidOk (c : Cfg) (a : Alg) (v : MidVal) (n : Nat) (keeps : Bool) : Bool :=
  match Source.make c a (.resume v n), resumePanic a n with
  | some (.error f), some g => decide (f = g)
  | some (.ok e), none => decide ((Source.engineOf c a).nBytesHashed e = n) &&
      (!keeps || decide (((Source.engineOf c a).midstate e).map (Source.showMid c a) = .ok v))
  | _, _ => false

def check_C82_from_midstate (_ : Unit) : Bool :=
  forall2 cfgs mids fun c x => [0, 1, 64, 100, 128, 2 ^ 50, 2 ^ 64 - 64, 2 ^ 64 - 128].all fun n =>
    fromMidOk c x.1 x.2.1 n x.2.2

/-- Whether an engine given `n` bytes resumes and then, given `d`, answers as the engine itself. -/
def resumeOk (c : Cfg) (a : Alg) (how : Make) (n : Nat) (d : List Byte) : Bool :=
  let E := Source.engineOf c a
  match Source.make c a how with
  | some (.ok e) =>
    match E.input e (msg n) with
    | .ok e => !(decide (64 ∣ E.nBytesHashed e)) || match E.midstate e with
      | .ok μ => match E.fromMidstate μ (E.nBytesHashed e) with
        | .ok e' =>
          decide ((E.observe e [d]).map (fun x => (x.1, x.2.1.map (Source.showMid c a), x.2.2)) =
            (E.observe e' [d]).map (fun x => (x.1, x.2.1.map (Source.showMid c a), x.2.2)))
        | .error _ => false
      | .error _ => false
    | .error _ => true
  | _ => true

def check_C82_resume (_ : Unit) : Bool :=
  forall2 cfgs [Alg.sha1, .sha256, .sha256t (msg 32) 64 (msg 5)] fun c a =>
    forall2 [0, 59, 64, 192] [0, 1, 63, 64, 130] fun n k => resumeOk c a .new n (msg k)

/-- Whether `k` more bytes leave the midstate of an engine given `n` bytes as it is, if they complete
no block. -/
def unchangedOk (c : Cfg) (a : Alg) (n k : Nat) : Bool :=
  let E := Source.engineOf c a
  match E.new with
  | .ok e => match E.input e (msg n) with
    | .ok e => match E.input e (msg k) with
      | .ok e' => !(decide (E.nBytesHashed e % a.blockSize + k < a.blockSize)) ||
          decide ((E.midstate e').map (Source.showMid c a) = (E.midstate e).map (Source.showMid c a))
      | .error _ => true
    | .error _ => true
  | .error _ => true

def check_C82_unchanged (_ : Unit) : Bool :=
  forall2 cfgs [Alg.sha1, .sha256, .sha384, .sha512, .sha512_256, .ripemd160] fun c a =>
    forall2 [0, 30, 64, 130] [0, 1, 33] fun n k => unchangedOk c a n k

def check_C83_wrong_digests (_ : Unit) : Bool :=
  [(Alg.ripemd160, 0), (.siphash24, 8)].all fun x =>
    let E := Source.engineOf .debug64 x.1
    decide ((do
      let e ← E.new
      let e ← E.input e (List.replicate x.2 0)
      let μ ← E.midstate e
      let e' ← E.fromMidstate μ (E.nBytesHashed e)
      pure (E.finalize e != E.finalize e')) = Except.ok true)

def textMidChecks : List (String × (Unit → Bool)) := [
  ("C80_panics", check_C80_panics),
  ("C81_builds", check_C81_builds),
  ("C81_overflow_checks", check_C81_overflow_checks),
  ("C81_portable", check_C81_portable),
  ("C81_lengths_decide", check_C81_lengths_decide),
  ("C82_from_midstate", check_C82_from_midstate),
  ("C82_resume", check_C82_resume),
  ("C82_unchanged", check_C82_unchanged),
  ("C83_wrong_digests", check_C83_wrong_digests)]

end Chf.Check
