import Verif.Proofs.ObservePrograms

/-!
# Property C66: branches and memory addresses do not depend on the data
-/

namespace Chf.Props
open Spec

/-- C66: the observed methods of every engine return and panic as the methods do. -/
theorem C66_computes (c : Cfg) (a : Alg) :
    (a.observed c).new.res = (a.engine c).new ∧ (a.observed c).default.res = (a.engine c).default ∧
    (∀ e d, ((a.observed c).input e d).res = (a.engine c).input e d) ∧
    (∀ e, ((a.observed c).finalize e).res = (a.engine c).finalize e) ∧
    (∀ e, ((a.observed c).midstate e).res = (a.engine c).midstate e) ∧
    (∀ μ n, ((a.observed c).fromMidstate μ n).res = (a.engine c).fromMidstate μ n) ∧
    ∀ mk, (a.makeO c mk).map Obs.res = a.make c mk :=
  have h := a.observed_erases c
  ⟨h.new, h.default, h.input, h.finalize, h.midstate, h.fromMidstate, a.makeO_res c⟩

/-- C66: in every build, an observer of branches and addresses sees the same of every call of a program
as of the same program with all keys, midstates and messages replaced by zeroes.  So an observer learns
which calls are made and the lengths of their arguments, and nothing else. -/
theorem C66_programs (c : Cfg) (calls : List Call) :
    Impl.programSeen c [] calls = Impl.programSeen c [] (calls.map Call.blank) :=
  (program_blank c calls PoolLike.nil).1

/-- C66: two programs that differ in the contents of keys, midstates and messages only. -/
theorem C66_pairs (c : Cfg) (calls calls' : List Call) (h : calls.map Call.blank = calls'.map Call.blank) :
    Impl.programSeen c [] calls = Impl.programSeen c [] calls' := by
  rw [C66_programs c calls, C66_programs c calls', h]

/-- Two HMAC computations with different keys and messages of the same lengths. -/
def secrets (k d : Byte) : List Call :=
  [.make (.hmac .sha256) (.hmacKey [k, 2, 3]), .input 0 [d, d], .midstate 0, .finalize 0,
   .make .siphash24 (.sipKeys 5 k.toNat), .input 1 [d, 1, 2, 3, 4, 5, 6, 7, 8], .finalize 1]

set_option maxRecDepth 10000 in
/-- They satisfy the hypothesis and have different digests; of the input the observer sees the copy of
two bytes to place 0 of the buffer. -/
example :
    (secrets 1 2).map Call.blank = (secrets 200 77).map Call.blank ∧
    (Impl.crate .debug64).answers [] (secrets 1 2) ≠ (Impl.crate .debug64).answers [] (secrets 200 77) ∧
    (Impl.programSeen .debug64 [] (secrets 1 2))[1]? = some ([.branch true, .branch true, .branch false,
      .branch true, .branch true, .branch true, .read .data 2 2, .write .buffer 0 2, .branch true,
      .branch false, .branch true, .branch false].map Ev.inner) ∧
    (Impl.programSeen .debug64 [] (secrets 1 2))[5]? = some [.branch true, .branch false, .branch true,
      .branch true, .branch true, .branch true, .branch true, .read .data 0 8, .branch true, .branch false,
      .branch true, .branch false, .branch false, .branch true, .read .data 8 1, .branch true,
      .branch true] := by
  refine ⟨rfl, ?_, ?_, ?_⟩ <;> decide +kernel

/-- What is seen is not always the same: it depends on the length of a message. -/
example : Impl.programSeen .release64 [] [.make .sha1 .new, .input 0 [1]] ≠
    Impl.programSeen .release64 [] [.make .sha1 .new, .input 0 [1, 2]] := by
  decide +kernel

end Chf.Props
