import Verif.Check.Text
import Verif.Model.TextKept
import Verif.Spec.Kept

/-!
# Instances of C106
-/

namespace Chf.Check
open Chf Spec

def blocks106 : List Alg := [.sha1, .sha256, .sha384, .sha512, .sha512_256, .ripemd160]

def inputs106 : List (List (List Byte)) :=
  [[], [msg 5], [msg 64], [msg 60, msg 9], [msg 130, msg 1, msg 0, msg 200], [msg 128, msg 127]]

/-- The text of `from_midstate` for an engine that has seen two blocks, and the other constructors. -/
def makes106 (a : Alg) : List Make :=
  let n := match a with
    | .sha1 | .ripemd160 => 20
    | .sha256 => 32
    | _ => 64
  [.new, .default, .resume (.bytes (msg n)) 256, .resume (.bytes (msg n)) 100]

def check_C106_kept (_ : Unit) : Bool :=
  forall2 cfgs blocks106 fun c a => forall2 (makes106 a) inputs106 fun how ds =>
    match Source.make c a how with
    | some (.ok e) =>
      ds.length < 2 ||
      match (Source.engineOf c a).inputs e (ds.take 1), (Source.engineOf c a).inputs e ds with
      | .ok e1, .ok e' =>
        match (Source.engineOf c a).inputs e1 (ds.drop 1) with
        | .ok e2 => decide (Kept a.blockSize ((Source.engineOf c a).nBytesHashed e1) (Source.bufferOf c a e1)
            (ds.drop 1).flatten (Source.bufferOf c a e2)) &&
            decide (Kept a.blockSize ((Source.engineOf c a).nBytesHashed e) (Source.bufferOf c a e)
            ds.flatten (Source.bufferOf c a e'))
        | _ => true
      | _, _ => true
    | _ => true

def check_C106_clean (_ : Unit) : Bool :=
  forall2 cfgs blocks106 fun c a => (makes106 a).all fun how =>
    match Source.make c a how with
    | some (.ok e) => decide (Source.bufferOf c a e = List.replicate a.blockSize 0 ∧
        (Source.engineOf c a).nBytesHashed e % a.blockSize = 0)
    | _ => true

def check_C106_last (_ : Unit) : Bool :=
  forall2 cfgs blocks106 fun c a => forall2 (makes106 a) inputs106 fun how ds =>
    match Source.make c a how with
    | some (.ok e) =>
      match (Source.engineOf c a).inputs e ds with
      | .ok e' =>
        let m := ds.flatten
        let b := Source.bufferOf c a e'
        decide ((a.blockSize ≤ m.length →
          m.drop (m.length - a.blockSize) = b.drop (m.length % a.blockSize) ++ b.take (m.length % a.blockSize)) ∧
        (m.length ≤ a.blockSize → b = m ++ List.replicate (a.blockSize - m.length) 0))
      | _ => true
    | _ => true

def keys106 : List (List Byte) := [[], msg 20, msg 64, msg 131]

def check_C106_hmac (_ : Unit) : Bool :=
  forall2 cfgs blocks106 fun c a => forall2 keys106 inputs106 fun key ds =>
    match Source.Hmac.Engine.new c (Source.engineOf c a) key, (Source.engineOf c a).hash key with
    | .ok e, .ok d =>
      let k := if key.length > a.blockSize then d else key
      match (Source.engineOf c (.hmac a)).inputs e ds with
      | .ok e' =>
        decide (k.length > a.blockSize) ||
        decide ((Source.hmacBuffers c a e').2 = (k ++ List.replicate (a.blockSize - k.length) 0).map (· ^^^ 0x5c) ∧
          Kept a.blockSize 0 ((k ++ List.replicate (a.blockSize - k.length) 0).map (· ^^^ 0x36)) ds.flatten
            (Source.hmacBuffers c a e').1)
      | _ => true
    | _, _ => true

def check_C106_key (_ : Unit) : Bool :=
  forall2 cfgs blocks106 fun c a => forall2 keys106 inputs106 fun key ds =>
    decide (key.length > a.blockSize) ||
    match Source.Hmac.Engine.new c (Source.engineOf c a) key with
    | .ok e =>
      match (Source.engineOf c (.hmac a)).inputs e ds with
      | .ok e' => decide (((Source.hmacBuffers c a e').2.take key.length).map (· ^^^ 0x5c) = key)
      | _ => true
    | _ => true

def textKeptChecks : List (String × (Unit → Bool)) := [
  ("C106_kept", check_C106_kept), ("C106_clean", check_C106_clean), ("C106_last", check_C106_last),
  ("C106_hmac", check_C106_hmac), ("C106_key", check_C106_key)]

end Chf.Check
