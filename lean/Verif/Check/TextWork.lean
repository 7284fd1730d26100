import Verif.Check.TextSeen
import Verif.Spec.TextWork

/-!
# Instances of C87
-/

namespace Chf.Check
open Chf Spec Seen

/-- Ways to make each engine. -/
def makes87 : List (Alg × Make) :=
  (seenAlgs.flatMap fun a => [(a, .new), (a, .default)]) ++
  [(.siphash24, .sipKeys 1 2), (.hmac .sha1, .hmacKey (msg 3)), (.hmac .sha1, .hmacKey (msg 65)),
   (.hmac .siphash24, .hmacKey (msg 33)), (.hmac .sha512, .hmacKey (msg 130)),
   (.sha256, .resume (.bytes (msg 32)) 64), (.sha1, .resume (.bytes (msg 20)) 128),
   (.sha512, .resume (.bytes (msg 64)) 128), (.siphash24, .resume (.sip ⟨1, 2, 3, 4⟩) 8)]

def check_C87_make (_ : Unit) : Bool :=
  forall2 cfgs makes87 fun c x =>
    match Source.makeSeen c x.1 x.2 with
    | none => true
    | some y => decide (y.seen.length ≤ makeWork x.1 x.2 + 1)

/-- An engine made by `how` and given the slices, if nothing panics. -/
def fed87 (c : Cfg) (a : Alg) (how : Make) (ds : List (List Byte)) : Option (Source.engineOf c a).State :=
  match Source.make c a how with
  | some (.ok e) =>
    match ds.foldlM (Source.engineOf c a).input e with
    | .ok e => some e
    | .error _ => none
  | _ => none

def check_C87_input (_ : Unit) : Bool :=
  forall2 cfgs makes87 fun c x => forall2 [[], [msg 1], [msg 3, msg 8], [msg 63, msg 1], [msg 127]]
    [msg 0, msg 1, msg 7, msg 8, msg 9, msg 64, msg 65, msg 130] fun ds d =>
    match fed87 c x.1 x.2 ds with
    | none => true
    | some e => decide (((Source.seenOf c x.1).input e d).seen.length ≤
      (workOf x.1).call + (workOf x.1).perBlock *
        (((Source.engineOf c x.1).nBytesHashed e % (workOf x.1).block + d.length) / (workOf x.1).block) + 1)

def check_C87_finalize (_ : Unit) : Bool :=
  forall2 cfgs makes87 fun c x => [[], [msg 1], [msg 55], [msg 56], [msg 63], [msg 64], [msg 111], [msg 112]].all
    fun ds =>
    match fed87 c x.1 x.2 ds with
    | none => true
    | some e => decide (((Source.seenOf c x.1).finalize e).seen.length ≤
      (workOf x.1).finish + (workOf x.1).perBlock *
        (((Source.engineOf c x.1).nBytesHashed e % (workOf x.1).block + (workOf x.1).pad) / (workOf x.1).block + 1) + 1)

def check_C87_midstate (_ : Unit) : Bool :=
  forall2 cfgs makes87 fun c x => [[], [msg 1], [msg 64], [msg 128]].all fun ds =>
    match fed87 c x.1 x.2 ds with
    | none => true
    | some e => decide (((Source.seenOf c x.1).midstate e).seen.length ≤ (workOf x.1).mid + 1)

def check_C87_hash (_ : Unit) : Bool :=
  forall2 cfgs seenAlgs fun c a => [0, 3, 8, 55, 56, 64, 111, 112, 130].all fun n =>
    decide ((Seen.Lib.HashEngine.hash c (Source.engineOf c a) (Source.seenOf c a) (msg n)).seen.length ≤
      (workOf a).hash n + 1)

def check_C87_hash_chunks (_ : Unit) : Bool :=
  forall2 cfgs seenAlgs fun c a => [[], [[]], [msg 3, msg 0, msg 70], [msg 64, msg 1], List.replicate 40 [7]].all fun ds =>
    decide ((Seen.Lib.HashEngine.hash_byte_chunks c (Source.engineOf c a) (Source.seenOf c a) ds).seen.length ≤
      (workOf a).chunks ds.length ds.flatten.length + 1)

def check_C87_const_hash (_ : Unit) : Bool :=
  forall2 cfgs [0, 3, 55, 56, 63, 64, 119, 120, 500] fun c n => [true, false].all fun fin =>
    decide ((Seen.Sha256.Midstate.const_hash c (msg n) fin).seen.length ≤ 637 * ((n + 72) / 64) + 75 ∧
      (Seen.Sha256.Midstate.hash_tag c (msg n)).seen.length ≤ 637 * ((n + 72) / 64) + 1616)

def textWorkChecks : List (String × (Unit → Bool)) := [
  ("C87_make", check_C87_make),
  ("C87_input", check_C87_input),
  ("C87_finalize", check_C87_finalize),
  ("C87_midstate", check_C87_midstate),
  ("C87_hash", check_C87_hash),
  ("C87_hash_chunks", check_C87_hash_chunks),
  ("C87_const_hash", check_C87_const_hash)]

end Chf.Check
