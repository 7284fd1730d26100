import Verif.Model.Cmp

/-!
# Lemmas about `fixed_time_eq`
-/

namespace Chf.Cmp

theorem bind_def {α β : Type} (x : M α) (f : α → M β) (m : Mem) :
    (x >>= f) m = match x m with
      | (.ok v, m) => f v m
      | (.error e, m) => (.error e, m) := rfl

theorem pure_def {α : Type} (x : α) (m : Mem) : (pure x : M α) m = (.ok x, m) := rfl

theorem emit_def (e : Event) (m : Mem) : emit e m = (.ok (), { m with trace := m.trace ++ [e] }) := rfl

theorem branch_def (b : Bool) (m : Mem) :
    branch b m = (.ok b, { m with trace := m.trace ++ [.branch b] }) := rfl

theorem readR_def (m : Mem) : readR m = (.ok m.r, { m with trace := m.trace ++ [.read .r] }) := rfl

theorem writeR_def (v : Byte) (m : Mem) :
    writeR v m = (.ok (), { trace := m.trace ++ [.write .r], r := v }) := rfl

theorem load_def (p : Nat → Place) (s : List Byte) (i : Nat) (m : Mem) (h : i < s.length) :
    load p s i m =
      (.ok (s.getD i 0), { m with trace := m.trace ++ [.branch true, .read (p i)] }) := by
  simp [load, bind_def, branch_def, emit_def, pure_def, h]

theorem takeTo_def (s : List Byte) (n : Nat) (m : Mem) (h : n ≤ s.length) :
    takeTo s n m = (.ok (s.take n), { m with trace := m.trace ++ [.branch true] }) := by
  simp [takeTo, bind_def, branch_def, pure_def, h]

theorem fold_def (k : Nat) (m : Mem) :
    fold k m = (.ok (), { trace := m.trace ++ [.read .r, .write .r], r := m.r ||| m.r >>> k }) := by
  simp [fold, bind_def, readR_def, writeR_def]

/-- The events of one iteration. -/
def iteration (i : Nat) : List Event :=
  [.branch true, .read .r, .branch true, .read (.lhs i), .branch true, .read (.rhs i), .write .r]

/-- OR of the differences of the bytes `i`, `i + 1`, ..., `i + n - 1`. -/
def diff (a b : List Byte) : Nat → Nat → Byte → Byte
  | 0, _, r => r
  | n + 1, i, r => diff a b n (i + 1) (r ||| (a.getD i 0 ^^^ b.getD i 0))

theorem loop_def (a b : List Byte) (n : Nat) : ∀ (i : Nat) (m : Mem), i + n = a.length →
    i + n = b.length →
    loop a b n i m = (.ok (),
      { trace := m.trace ++ ((List.range' i n).flatMap iteration ++ [.branch false]),
        r := diff a b n i m.r }) := by
  induction n with
  | zero =>
    intro i m _ _
    simp [loop, bind_def, branch_def, pure_def, diff]
  | succ n ih =>
    intro i m ha hb
    simp only [loop, bind_def, branch_def, readR_def, writeR_def, load_def _ a i _ (by omega),
      load_def _ b i _ (by omega)]
    rw [ih _ _ (by omega) (by omega)]
    simp [diff, iteration, List.range'_succ]

/-- The events for slices of `n` bytes. -/
def events (n : Nat) : List Event :=
  [.branch true, .branch true, .branch true] ++ (List.range n).flatMap iteration ++ [.branch false] ++
    [.read .r, .write .r, .read .r, .write .r, .read .r, .write .r, .read .r]

/-- Folding a byte onto its lowest bit. -/
def lowBit (r : Byte) : Bool :=
  let r := r ||| r >>> 4
  let r := r ||| r >>> 2
  let r := r ||| r >>> 1
  (r &&& 1) == 0

theorem run_eq (a b : List Byte) (h : a.length = b.length) :
    fixedTimeEqM a b ⟨[], 0⟩ =
      (.ok (lowBit (diff a b a.length 0 0)),
        ⟨events a.length, (fixedTimeEqM a b ⟨[], 0⟩).2.r⟩) := by
  have h' : (a.length == b.length) = true := by simp [h]
  simp only [fixedTimeEqM, bind_def, branch_def, h', if_true, takeTo_def a a.length _ (Nat.le_refl _),
    takeTo_def b a.length _ (Nat.le_of_eq h), List.take_length, pure_def, fold_def, readR_def]
  rw [show b.take a.length = b by rw [h, List.take_length], loop_def a b a.length 0 _ (by omega) (by omega)]
  simp [events, List.range_eq_range', lowBit]

theorem run_err (a b : List Byte) (h : a.length ≠ b.length) :
    fixedTimeEqM a b ⟨[], 0⟩ = (.error .assertion, ⟨[.branch false], 0⟩) := by
  have h' : (a.length == b.length) = false := by simp [h]
  simp [fixedTimeEqM, bind_def, branch_def, h', M.throw]

theorem lowBit_iff : ∀ r : Byte, lowBit r = decide (r = 0) := by decide +kernel

theorem or_eq_zero (x y : Byte) : x ||| y = 0 ↔ x = 0 ∧ y = 0 := by
  constructor
  · intro h
    constructor <;> ext i hi
    · have := congrArg (·.getLsbD i) h
      simp at this
      simp [BitVec.getLsbD_eq_getElem hi] at this
      simp [this.1]
    · have := congrArg (·.getLsbD i) h
      simp at this
      simp [BitVec.getLsbD_eq_getElem hi] at this
      simp [this.2]
  · rintro ⟨rfl, rfl⟩
    rfl

theorem diff_eq_zero (a b : List Byte) (n : Nat) : ∀ (i : Nat) (r : Byte),
    diff a b n i r = 0 ↔ r = 0 ∧ ∀ j, i ≤ j → j < i + n → a.getD j 0 = b.getD j 0 := by
  induction n with
  | zero =>
    intro i r
    simp only [diff]
    exact ⟨fun h => ⟨h, fun j _ _ => by omega⟩, fun h => h.1⟩
  | succ n ih =>
    intro i r
    rw [diff, ih, or_eq_zero, show ∀ x y : Byte, x ^^^ y = 0 ↔ x = y from fun _ _ => BitVec.xor_eq_zero_iff]
    constructor
    · rintro ⟨⟨h1, h2⟩, h3⟩
      refine ⟨h1, fun j hj hj' => ?_⟩
      rcases Nat.eq_or_lt_of_le hj with rfl | hlt
      · exact h2
      · exact h3 j hlt (by omega)
    · rintro ⟨h1, h2⟩
      exact ⟨⟨h1, h2 i (Nat.le_refl _) (by omega)⟩, fun j hj hj' => h2 j (by omega) (by omega)⟩

theorem diff_iff (a b : List Byte) (h : a.length = b.length) : diff a b a.length 0 0 = 0 ↔ a = b := by
  rw [diff_eq_zero]
  constructor
  · rintro ⟨-, h2⟩
    refine List.ext_getElem h fun i hi hi' => ?_
    have := h2 i (Nat.zero_le _) (by omega)
    rw [List.getD_eq_getElem?_getD, List.getD_eq_getElem?_getD, List.getElem?_eq_getElem hi,
      List.getElem?_eq_getElem hi'] at this
    exact this
  · rintro rfl
    exact ⟨rfl, fun _ _ _ => rfl⟩

end Chf.Cmp
