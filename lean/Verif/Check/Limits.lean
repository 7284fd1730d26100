import Verif.Check.Instances

/-!
# Executable instances of the theorems about limits and stale bytes

As `Verif.Check.Instances`, for C38 - C40 and C50.
-/

namespace Chf.Check
open Spec

/-- 16-bit builds, whose counters wrap soon. -/
def debug16 : Cfg := { Cfg.debug64 with usizeBits := 16 }
def release16 : Cfg := { Cfg.release64 with usizeBits := 16, shaNi := false }

def around16 : List (List (List Byte)) :=
  [[msg 40000, msg 25535], [msg 40000, msg 25536]]

def check_C38_panics (_ : Unit) : Bool :=
  forall2 [Alg.sha256, .sha512] around16 fun a ds =>
    let E := a.engine debug16
    match E.new with
    | .error _ => false
    | .ok e =>
      match E.inputs e ds with
      | .ok _ => decide (ds.flatten.length < 2 ^ 16)
      | .error f => decide (f = .overflow ∧ 2 ^ 16 ≤ ds.flatten.length)

def check_C38_wraps (_ : Unit) : Bool :=
  [Alg.sha256, .sha512, .ripemd160].all fun a =>
    let E := a.engine release16
    let ds := [msg 40000, msg 25606]
    match E.new >>= (E.inputs · ds) with
    | .error _ => false
    | .ok e => decide (E.nBytesHashed e = 70 ∧ E.finalize e = .ok (digestClaiming a ds.flatten 560))

/-- Engines resumed close to the limits, and what is put into them. -/
def atLimits : List (Alg × Nat × List (List Byte)) :=
  [.sha1, .sha256, .ripemd160, .sha256t (msg 32) 64 (msg 5)].flatMap fun a =>
    [(0, [msg 64]), (2 ^ 32 - 64, [msg 70]), (2 ^ 61 - 64, [msg 63]), (2 ^ 61 - 64, [msg 64]),
      (2 ^ 61 - 64, [msg 55]), (2 ^ 61, []), (2 ^ 63, [msg 9]), (2 ^ 64 - 128, [msg 100]),
      (2 ^ 64 - 128, [msg 119]), (2 ^ 64 - 128, [msg 127])].map fun x => (a, x.1, x.2)

def check_C39_finalize_panics_iff (_ : Unit) : Bool :=
  forall2 cfgs atLimits fun c x =>
    let E := x.1.engine c
    match blockAndField x.1, x.1.readMid c (midOf x.1) with
    | some (B, L), some μ =>
      match E.fromMidstate μ x.2.1 >>= (E.inputs · x.2.2) with
      | .error _ => true
      | .ok e =>
        let must := c.overflowChecks && !decide (paddedTo B L (E.nBytesHashed e) < 2 ^ 64 ∧
          8 * E.nBytesHashed e < 2 ^ 64)
        match E.finalize e with
        | .ok _ => !must
        | .error f => must && decide (f = .overflow)
    | _, _ => true

def check_C39_unchecked_never_panics (_ : Unit) : Bool :=
  forall2 [Cfg.release64, { Cfg.release64 with shaNi := false, bigEndian := true }] atLimits fun c x =>
    let E := x.1.engine c
    match x.1.readMid c (midOf x.1) with
    | none => true
    | some μ =>
      match E.fromMidstate μ x.2.1 with
      | .error _ => true
      | .ok e =>
        match E.inputs e x.2.2 with
        | .error _ => false
        | .ok e => isOk (E.midstate e) && isOk (E.finalize e)

/-! ## C40 -/

/-- What an engine shows. -/
def seen (c : Cfg) (a : Alg) (e : (a.engine c).State) (ds : List (List Byte)) :
    Res (Nat × Res MidVal × Res (List Byte)) :=
  ((a.engine c).observe e ds).map fun x => (x.1, x.2.1.map (a.showMid c), x.2.2)

/-- Pending bytes, and slices that follow. -/
def pendings : List (Nat × List (List Byte)) :=
  [0, 1, 3, 55, 56, 63].flatMap fun n => [[], [msg 1], [msg 70], [msg 5, msg 130]].map (n, ·)

/-- Two engines that differ in the rest of the buffer. -/
def stale {H : Type} (B n : Nat) (h : H) (x : Byte) : BlockEngine H :=
  ⟨msg n ++ List.replicate (B - n) x, h, 2 * B + n⟩

def same (c : Cfg) (a : Alg) (e e' : (a.engine c).State) (ds : List (List Byte)) : Bool :=
  decide (seen c a e ds = seen c a e' ds)

def check_C40_stale_buffer (_ : Unit) : Bool :=
  forall2 cfgs pendings fun c p =>
    same c .sha1 (stale 64 p.1 Sha1.iv 0) (stale 64 p.1 Sha1.iv 0xff) p.2 &&
    same c .sha256 (stale 64 p.1 Sha256.iv 0) (stale 64 p.1 Sha256.iv 0xff) p.2 &&
    same c .sha384 (stale 128 p.1 Sha512.iv384 0) (stale 128 p.1 Sha512.iv384 0xff) p.2 &&
    same c .sha512 (stale 128 p.1 Sha512.iv512 0) (stale 128 p.1 Sha512.iv512 0xff) p.2 &&
    same c .sha512_256 (stale 128 p.1 Sha512.iv512 0) (stale 128 p.1 Sha512.iv512 0xff) p.2 &&
    same c .ripemd160 (stale 64 p.1 Ripemd160.iv 0) (stale 64 p.1 Ripemd160.iv 0xff) p.2

/-! ## C50 -/

/-- A program without `from_midstate`. -/
def fromStart (p : List Call) : List Call :=
  p.filter fun | .make _ (.resume _ _) => false | _ => true

def check_C50_overflow_checks (_ : Unit) : Bool :=
  programs.all fun p =>
    decide (.panic .overflow ∉ (Impl.crate .debug64).answers [] p →
      (Impl.crate .release64).answers [] p = (Impl.crate .debug64).answers [] p)

def check_C50_unchecked (_ : Unit) : Bool :=
  programs.all fun p => ((Impl.crate .release64).answers [] (fromStart p)).all fun
    | .panic _ => false
    | _ => true

def limitChecks : List (String × (Unit → Bool)) := [
  ("C38_panics", check_C38_panics),
  ("C38_wraps", check_C38_wraps),
  ("C39_finalize_panics_iff", check_C39_finalize_panics_iff),
  ("C39_unchecked_never_panics", check_C39_unchecked_never_panics),
  ("C40_stale_buffer", check_C40_stale_buffer),
  ("C50_overflow_checks", check_C50_overflow_checks),
  ("C50_unchecked", check_C50_unchecked)]

end Chf.Check
