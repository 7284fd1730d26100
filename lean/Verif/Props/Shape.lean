import Verif.Proofs.ObservePrograms

/-!
# Property C55: only lengths decide what a program does
-/

namespace Chf.Props
open Spec

/-- C55: the answers of a program have the same shape as those of the program with all bytes and key
words zero. -/
theorem C55_programs (c : Cfg) (calls : List Call) :
    ((Impl.crate c).answers [] calls).map Answer.blank =
      ((Impl.crate c).answers [] (calls.map Call.blank)).map Answer.blank :=
  (program_blank c calls PoolLike.nil).2

/-- C55: two programs that make the same calls with data and keys of the same lengths, whatever the
bytes are, panic in the same places and for the same reason, count the same bytes and get midstates and
digests of the same lengths. -/
theorem C55_lengths_decide (c : Cfg) (calls calls' : List Call)
    (h : calls.map Call.blank = calls'.map Call.blank) :
    ((Impl.crate c).answers [] calls).map Answer.blank =
      ((Impl.crate c).answers [] calls').map Answer.blank := by
  rw [C55_programs c calls, h, ← C55_programs c calls']

/-- Two programs of the same lengths; the last call of each panics. -/
def shapeA : List Call :=
  [.make (.hmac .sha256) (.hmacKey [1, 2, 3]), .input 0 [4, 5], .midstate 0, .count 0, .finalize 0,
   .make .siphash24 (.sipKeys 7 8), .finalize 1, .make .sha1 (.resume (.bytes (List.replicate 20 9)) 63)]

def shapeB : List Call :=
  [.make (.hmac .sha256) (.hmacKey [0, 0, 9]), .input 0 [7, 7], .midstate 0, .count 0, .finalize 0,
   .make .siphash24 (.sipKeys 1 2), .finalize 1, .make .sha1 (.resume (.bytes (List.replicate 20 1)) 63)]

example : shapeA.map Call.blank = shapeB.map Call.blank := rfl

set_option maxRecDepth 10000 in
/-- Their answers differ, but not in shape. -/
example : (Impl.crate .release32).answers [] shapeA ≠ (Impl.crate .release32).answers [] shapeB ∧
    ((Impl.crate .release32).answers [] shapeA).map Answer.blank =
      [.done, .done, .midstate (.pair (.bytes (List.replicate 32 0)) (.bytes (List.replicate 32 0))),
       .count 66, .digest (List.replicate 32 0), .done, .digest (List.replicate 8 0), .panic .assertion] := by
  decide +kernel

end Chf.Props
