import Verif.Proofs.Cmp

/-!
# Properties C25, C26: `fixed_time_eq`
-/

namespace Chf.Props
open Cmp

/-- C25: for slices of equal length `fixed_time_eq` returns whether they are equal. -/
theorem C25_equal_lengths (a b : List Byte) (h : a.length = b.length) :
    fixedTimeEq a b = .ok (decide (a = b)) := by
  unfold fixedTimeEq
  rw [run_eq a b h, lowBit_iff]
  simp only [diff_iff a b h]

example : ([1, 2, 0x80] : List Byte).length = [1, 2, 0].length ∧
    fixedTimeEq [1, 2, 0x80] [1, 2, 0] = .ok false ∧ fixedTimeEq [1, 2, 0x80] [1, 2, 0x80] = .ok true := by
  decide +kernel

/-- C25: for slices of different lengths it panics. -/
theorem C25_different_lengths (a b : List Byte) (h : a.length ≠ b.length) :
    fixedTimeEq a b = .error .assertion := by
  unfold fixedTimeEq
  rw [run_err a b h]

example : ([1, 2] : List Byte).length ≠ [1].length ∧ fixedTimeEq [1, 2] [1] = .error .assertion := by
  decide +kernel

/-- C26: what an observer of memory accesses and branches sees depends only on the lengths. -/
theorem C26_constant_time (a b a' b' : List Byte) (ha : a.length = a'.length)
    (hb : b.length = b'.length) : trace a b = trace a' b' := by
  unfold trace
  by_cases h : a.length = b.length
  · rw [run_eq a b h, run_eq a' b' (by omega), ha]
  · rw [run_err a b h, run_err a' b' (by omega)]

example : ([1, 2] : List Byte).length = [3, 2].length ∧ fixedTimeEq [1, 2] [3, 2] ≠ fixedTimeEq [1, 2] [1, 2] ∧
    (trace [1, 2] [3, 2]).length = 25 := by decide +kernel

/-- C26: every byte of both slices is read exactly once, in order, whatever the contents. -/
theorem C26_reads (a b : List Byte) (h : a.length = b.length) :
    (trace a b).filter (fun e => match e with | .read (.lhs _) => true | _ => false) =
      (List.range a.length).map (fun i => .read (.lhs i)) ∧
    (trace a b).filter (fun e => match e with | .read (.rhs _) => true | _ => false) =
      (List.range a.length).map (fun i => .read (.rhs i)) := by
  unfold trace
  rw [run_eq a b h]
  generalize a.length = n
  simp only [events, List.filter_append]
  constructor
  · have : ∀ l : List Nat, (l.flatMap iteration).filter
        (fun e => match e with | .read (.lhs _) => true | _ => false) = l.map (fun i => .read (.lhs i)) := by
      intro l
      induction l with
      | nil => rfl
      | cons i l ih => rw [List.flatMap_cons, List.filter_append, ih]; rfl
    rw [this]
    simp [List.filter]
  · have : ∀ l : List Nat, (l.flatMap iteration).filter
        (fun e => match e with | .read (.rhs _) => true | _ => false) = l.map (fun i => .read (.rhs i)) := by
      intro l
      induction l with
      | nil => rfl
      | cons i l ih => rw [List.flatMap_cons, List.filter_append, ih]; rfl
    rw [this]
    simp [List.filter]

example : ([7, 8, 9] : List Byte).length = [7, 0, 9].length ∧
    (trace [7, 8, 9] [7, 0, 9]).filter (· == .read (.rhs 2)) = [.read (.rhs 2)] := by decide +kernel

end Chf.Props
