import Verif.Check.TextCollide

/-!
# Instances of C94
-/

namespace Chf.Check
open Chf Spec

/-- Whether an engine resumed from `v` shows `w` after inputting `data`. -/
def textLeads (c : Cfg) (a : Alg) (n : Nat) (data : List Byte) (v w : MidVal) : Bool :=
  match Source.make c a (.resume v n) with
  | some (.ok e) => decide ((do
      let e ← (Source.engineOf c a).input e data
      let μ ← (Source.engineOf c a).midstate e
      pure (Source.showMid c a μ)) = .ok w)
  | _ => false

/-- The bytes `0, 1, …, 63`. -/
def count94 : List Byte := (List.range 64).map (BitVec.ofNat 8)

/-- Fixed points for this block. -/
def fix94 : List (Alg × List Byte) :=
  [(.sha256, [138, 254, 230, 55, 49, 182, 197, 33, 211, 103, 115, 134, 63, 183, 122, 91, 109, 252, 88, 147,
      167, 212, 188, 69, 177, 67, 218, 98, 42, 86, 1, 60]),
    (.sha1, [180, 234, 243, 63, 197, 98, 186, 143, 130, 251, 221, 47, 134, 50, 34, 144, 5, 158, 117, 114])]

def check_C94_fixed (_ : Unit) : Bool :=
  (debug16 :: release16 :: cfgs).all fun c => forall2 fix94 [0, 64, 640] fun x n =>
    textLeads c x.1 n count94 (.bytes x.2) (.bytes x.2) &&
    [List.replicate x.2.length 0, x.2.set 0 1, x.2.set 19 7].all fun y =>
      !textLeads c x.1 n count94 (.bytes y) (.bytes y)

def words94 {w : Nat} (k : Nat) : List (List (BitVec w)) :=
  [List.replicate k 0, List.replicate k 1, (List.range k).map (BitVec.ofNat w),
    (List.range k).map fun i => BitVec.ofNat w (i * i * 7919 + 2 ^ 31)]

/-- Different states are moved by different differences. -/
def moves94 {w : Nat} {E : Type} (k : Nat) (run : List (BitVec w) → Res E) (words : E → List (BitVec w)) : Bool :=
  forall2 (words94 k) (words94 k) fun h h' =>
    match run h, run h' with
    | .ok e, .ok e' => decide (h = h') ||
        decide (List.zipWith (· - ·) (words e) h ≠ List.zipWith (· - ·) (words e') h')
    | _, _ => false

def check_C94_difference (_ : Unit) : Bool :=
  (debug16 :: release16 :: cfgs).all fun c => [(msg 64, msg 128), (List.replicate 64 0, List.replicate 128 0)].all fun b =>
    moves94 8 (fun h => Source.Sha512.Engine.process_block c ⟨h, 128, b.2⟩) (·.h) &&
    moves94 8 (fun h => Source.Sha256.Engine.process_block c ⟨b.1, h, 64⟩) (·.h) &&
    moves94 5 (fun h => Source.Sha1.Engine.process_block c ⟨b.1, h, 64⟩) (·.h)

def sips94 : List Siphash24.State :=
  [{ v0 := 0xf8b0416f29ebe6d5, v2 := 0x6d4af8299cda6bc4, v1 := 0x666a15ab9e7c8fc4, v3 := 0x17ff74fc91fbe1ff },
    ⟨0, 0, 0, 0⟩, ⟨1, 3, 2, 4⟩, { v0 := 0xf8b0416f29ebe6d5, v2 := 0x666a15ab9e7c8fc4, v1 := 0x6d4af8299cda6bc4, v3 := 0x17ff74fc91fbe1ff }]

def check_C94_siphash (_ : Unit) : Bool :=
  forall2 (debug16 :: release16 :: cfgs) [0, 1, 8, 100] fun c n =>
    sips94.map (fun s => textLeads c .siphash24 n (count94.take 21) (.sip s) (.sip ⟨1, 3, 2, 4⟩)) = [true, false, false, false]

def keys94 : List ((BitVec 64 × BitVec 64) × (BitVec 64 × BitVec 64)) :=
  [((0, 0), (0, 1)), ((1, 2), (2, 1)), ((5, 5), (6, 6)), ((1, 1), (1, 1))]

/-- The midstate of an engine with keys. -/
def sipMid94 (c : Cfg) (k : BitVec 64 × BitVec 64) (ds : List (List Byte)) : Res MidVal :=
  match Source.make c .siphash24 (.sipKeys k.1 k.2) with
  | some r => do
    let e ← r
    let e ← (Source.engineOf c .siphash24).inputs e ds
    let μ ← (Source.engineOf c .siphash24).midstate e
    pure (Source.showMid c .siphash24 μ)
  | none => .error .fuel

def check_C94_keys (_ : Unit) : Bool :=
  (debug16 :: release16 :: cfgs).all fun c =>
    forall2 keys94 [[], [msg 3], [msg 5, msg 20]] fun k ds =>
      !isOk (sipMid94 c k.1 ds) || decide (k.1 = k.2) || decide (sipMid94 c k.1 ds ≠ sipMid94 c k.2 ds)

def textPermuteChecks : List (String × (Unit → Bool)) := [
  ("C94_fixed", check_C94_fixed),
  ("C94_difference", check_C94_difference),
  ("C94_siphash", check_C94_siphash),
  ("C94_keys", check_C94_keys)]

end Chf.Check
