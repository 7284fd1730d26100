import Verif.Check.Text

/-!
# Instances of C102
-/

namespace Chf.Check
open Chf Spec Rs

/-- A tag whose engine starts after the bytes `ps`. -/
def after102 (c : Cfg) (ps : List (List Byte)) : Source.Sha256t.Tag := ⟨do
  let e ← (Source.Sha256.engine c).new
  let e ← (Source.Sha256.engine c).inputs e ps
  let μ ← (Source.Sha256.engine c).midstate e
  Source.Sha256t.Engine.from_midstate c ⟨.error .unreachable⟩ μ ((Source.Sha256.engine c).nBytesHashed e)⟩

/-- A tag whose engine resumes and is input slices. -/
def fed102 (c : Cfg) (x : Nat × List (List Byte)) : Source.Sha256t.Tag := ⟨do
  let e ← Source.Sha256t.Engine.from_midstate c ⟨.error .unreachable⟩ ⟨msg 32⟩ x.1
  (Source.Sha256t.engine c ⟨.error .unreachable⟩).inputs e x.2⟩

def feeds102 : List (Nat × List (List Byte)) :=
  [(0, []), (64, []), (128, [msg 10]), (192, [msg 60, [], msg 7]), (5, []), (32, [msg 32])]

def blocks102 : List (List (List Byte)) := [[], [msg 64], [msg 40, msg 24, msg 64], [msg 130, msg 62]]

def parts102 : List (List (List Byte)) := [[msg 1], [msg 32], [msg 64, msg 63], [msg 65], [msg 96]]

/-- The fields of the engine that is returned. -/
def fields102 (r : Res Source.Sha256t.Engine) : Res (List Byte × List (BitVec 32) × Nat) :=
  r.map fun e => (e.f0.buffer, e.f0.h, e.f0.length)

/-- The bytes of the hash that is returned. -/
def bytes102 (r : Res Source.Sha256t.Hash) : Res (List Byte) := r.map (·.f0)

def check_C102_engine (_ : Unit) : Bool :=
  forall2 cfgs feeds102 fun c x =>
    decide (fields102 (Source.Sha256t.engine c (fed102 c x)).new = fields102 (fed102 c x).engine ∧
      fields102 (Source.Sha256t.engine c (fed102 c x)).default = fields102 (fed102 c x).engine ∧
      fields102 (Source.Sha256t.Hash.engine c (fed102 c x)) = fields102 (fed102 c x).engine)

def check_C102_view (_ : Unit) : Bool :=
  forall2 cfgs feeds102 fun c x => chunkings.all fun ds =>
    match (fed102 c x).engine with
    | .error _ => true
    | .ok e => decide (((Source.Sha256t.engine c (fed102 c x)).inputs e ds >>= (Source.Sha256t.engine c (fed102 c x)).finalize) =
        ((Source.Sha256.engine c).inputs e.f0 ds >>= (Source.Sha256.engine c).finalize))

def check_C102_hash (_ : Unit) : Bool :=
  forall2 cfgs feeds102 fun c x => chunkings.all fun ds =>
    decide (bytes102 (Source.Sha256t.Hash.hash c (fed102 c x) ds.flatten) = bytes102 (do
      let e ← Source.Sha256t.Hash.engine c (fed102 c x)
      let e ← (Source.Sha256t.engine c (fed102 c x)).inputs e ds
      Source.Sha256t.Hash.from_engine c (fed102 c x) e))

def check_C102_prefix (_ : Unit) : Bool :=
  forall2 cfgs blocks102 fun c ps => lengths.all fun n =>
    decide (bytes102 (Source.Sha256t.Hash.hash c (after102 c ps) (msg n)) = .ok (sha256 (ps.flatten ++ msg n)))

def check_C102_part (_ : Unit) : Bool :=
  forall2 cfgs parts102 fun c ps =>
    decide (fields102 (after102 c ps).engine = .error .assertion ∧
      bytes102 (Source.Sha256t.Hash.hash c (after102 c ps) (msg 9)) = .error .assertion)

def textTagsChecks : List (String × (Unit → Bool)) := [
  ("C102_engine", check_C102_engine),
  ("C102_view", check_C102_view),
  ("C102_hash", check_C102_hash),
  ("C102_prefix", check_C102_prefix),
  ("C102_part", check_C102_part)]

end Chf.Check
