import Verif.Source.Cmp
import Verif.Proofs.Cmp
import Verif.Proofs.Source.Common

/-!
# The translation of `cmp.rs` against the model
-/

namespace Chf.Source.Cmp
open Chf Chf.Rs Chf.Cmp

theorem index_getD (l : List Byte) (i : Nat) (h : i < l.length) : index l i = .ok (l.getD i 0) := by
  unfold index
  rw [List.getElem?_eq_getElem h, List.getD_eq_getElem?_getD, List.getElem?_eq_getElem h]
  rfl

theorem loop_eq (lhs rhs : List Byte) (n : Nat) : ∀ (i : Nat) (r : Byte), i + n ≤ lhs.length →
    i + n ≤ rhs.length →
    (List.range' i n).foldlM (init := r) (fun r i => (do
        let x_3 ← index lhs i
        let x_4 ← index rhs i
        pure (r ||| (x_3 ^^^ x_4)) : Res Byte)) = .ok (diff lhs rhs n i r) := by
  induction n with
  | zero => intro i r _ _; rfl
  | succ n ih =>
    intro i r h1 h2
    rw [List.range'_succ, List.foldlM_cons, index_getD lhs i (by omega), index_getD rhs i (by omega)]
    exact ih (i + 1) _ (by omega) (by omega)

theorem fixed_time_eq_eq (cfg : Cfg) (a b : List Byte) :
    fixed_time_eq cfg a b = Chf.Cmp.fixedTimeEq a b := by
  unfold Chf.Cmp.fixedTimeEq fixed_time_eq
  by_cases h : a.length = b.length
  · rw [run_eq a b h]
    simp only [h, beq_self_eq_true, assertR, if_true, sliceTo, Nat.le_refl, ok_bind, range,
      List.take_length, Nat.sub_zero]
    rw [show a.take b.length = a by rw [← h, List.take_length],
      loop_eq a b b.length 0 0#8 (by omega) (by omega)]
    rfl
  · rw [run_err a b h]
    have h' : (a.length == b.length) = false := by simp [h]
    simp only [h', assertR]
    rfl

end Chf.Source.Cmp
