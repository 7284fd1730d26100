import Verif.Proofs.Seen.Basic

/-!
# Steps of the proofs about what is seen
-/

namespace Chf

/-- Values are alike: no relation, an assumption, the same, or each part is. -/
macro "like" : tactic => `(tactic| first
  | exact trivial
  | assumption
  | rfl
  | (repeat' constructor) <;> first | exact trivial | assumption | rfl)

/-- The next operation is the same on both sides, or on arguments that are alike. -/
macro "same_step" : tactic => `(tactic| first
  | with_reducible exact Tr.SameSeen.pure' (by like)
  | with_reducible refine Tr.SameSeen.bind (Tr.SameSeen.index (by like)) fun _ _ _ => ?_
  | with_reducible refine Tr.SameSeen.bind (Tr.SameSeen.indexSet (by like)) fun _ _ _ => ?_
  | with_reducible refine Tr.SameSeen.bindEq fun _ => ?_
  | with_reducible refine Tr.SameSeen.bind (Tr.SameSeen.sliceTo (by like)) fun _ _ _ => ?_
  | with_reducible refine Tr.SameSeen.bind (Tr.SameSeen.sliceFrom (by like)) fun _ _ _ => ?_
  | with_reducible refine Tr.SameSeen.bind (Tr.SameSeen.checkRange (by like)) fun _ _ _ => ?_
  | with_reducible refine Tr.SameSeen.bind (Tr.SameSeen.copyIntoRange (by like) (by like)) fun _ _ _ => ?_
  | with_reducible refine Tr.SameSeen.bind (Tr.SameSeen.copyFromSlice (by like) (by like)) fun _ _ _ => ?_
  | with_reducible refine Tr.SameSeen.bind (Tr.SameSeen.tryInto (by like)) fun _ _ _ => ?_
  | with_reducible refine Tr.SameSeen.bind (Tr.SameSeen.loadu8 (by like)) fun _ _ _ => ?_
  | with_reducible refine Tr.SameSeen.bind (Tr.SameSeen.loadu32 (by like)) fun _ _ _ => ?_
  | with_reducible refine Tr.SameSeen.bind (Tr.SameSeen.storeu32 (by like)) fun _ _ _ => ?_
  | with_reducible refine Tr.SameSeen.bind (Tr.SameSeen.getUnchecked (by like)) fun _ _ _ => ?_
  | with_reducible refine Tr.SameSeen.bind (Tr.SameSeen.copyNonoverlapping (by like)) fun _ _ _ => ?_
  | with_reducible refine Tr.SameSeen.bind Tr.SameSeen.shlU fun _ _ _ => ?_
  | with_reducible refine Tr.SameSeen.testThen (fun _ => ?_) fun _ => ?_
  | with_reducible refine Tr.SameSeen.ite (fun _ => ?_) fun _ => ?_
  | with_reducible exact Tr.SameSeen.fail
  | with_reducible exact Tr.SameSeen.indexSet (by like))

end Chf
