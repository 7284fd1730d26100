import Verif.Proofs.Source.Common

/-!
# Unrolled rounds of the translated source

The translated block functions keep the local variables in a tuple and run a list of statements; the
model folds a round function over a list of `RoundLine`s.
-/

namespace Chf.Rs

/-- The local variables `w, a, .., h` of an unrolled block function. -/
abbrev Vars (n : Nat) := List (BitVec n) × BitVec n × BitVec n × BitVec n × BitVec n × BitVec n ×
  BitVec n × BitVec n × BitVec n

/-- The model's local variables as the translated ones. -/
def vars {n : Nat} (s : RoundState n) : Vars n :=
  (s.win.toList, s.regs.x0, s.regs.x1, s.regs.x2, s.regs.x3, s.regs.x4, s.regs.x5, s.regs.x6,
    s.regs.x7)

/-- The statements `fs` do what `line` does on the lines `ls`, one for one. -/
def LinesAre {n : Nat} (line : RoundState n → RoundLine n → RoundState n) :
    List (Vars n → Res (Vars n)) → List (RoundLine n) → Prop
  | [], [] => True
  | f :: fs, l :: ls => (∀ s, f (vars s) = .ok (vars (line s l))) ∧ LinesAre line fs ls
  | _, _ => False

theorem runLines_eq {n : Nat} {line : RoundState n → RoundLine n → RoundState n}
    (fs : List (Vars n → Res (Vars n))) (ls : List (RoundLine n)) (h : LinesAre line fs ls)
    (s : RoundState n) : runLines fs (vars s) = .ok (vars (ls.foldl line s)) := by
  induction fs generalizing ls s with
  | nil =>
    cases ls with
    | nil => rfl
    | cons l ls => exact absurd h id
  | cons f fs ih =>
    cases ls with
    | nil => exact absurd h id
    | cons l ls =>
      obtain ⟨h1, h2⟩ := h
      have := ih ls h2 (line s l)
      unfold runLines at *
      rw [List.foldlM_cons, h1, ok_bind, this, List.foldl_cons]

theorem arr16_toList {α : Type} (l : List α) (h : l.length = 16) :
    ∃ v : Vector α 16, arr16 l = .ok v ∧ v.toList = l := by
  refine ⟨⟨l.toArray, by simpa using h⟩, ?_, rfl⟩
  unfold arr16; rw [dif_pos h]

theorem index_win {α : Type} {n : Nat} (v : Vector α n) (i : Nat) (h : i < n) : index v.toList i = .ok v[i] := by
  unfold index
  simp [h]
theorem indexSet_win {α : Type} {n : Nat} (v : Vector α n) (i : Nat) (x : α) (h : i < n) : indexSet v.toList i x = .ok (v.set i x h).toList := by
  unfold indexSet
  simp [h, Vector.toList_set]
section
variable {α : Type} (x0 x1 x2 x3 x4 x5 x6 x7 v : α)
theorem get_a : (Arr8.mk x0 x1 x2 x3 x4 x5 x6 x7).get .a = x0 := rfl
theorem get_b : (Arr8.mk x0 x1 x2 x3 x4 x5 x6 x7).get .b = x1 := rfl
theorem get_c : (Arr8.mk x0 x1 x2 x3 x4 x5 x6 x7).get .c = x2 := rfl
theorem get_d : (Arr8.mk x0 x1 x2 x3 x4 x5 x6 x7).get .d = x3 := rfl
theorem get_e : (Arr8.mk x0 x1 x2 x3 x4 x5 x6 x7).get .e = x4 := rfl
theorem get_f : (Arr8.mk x0 x1 x2 x3 x4 x5 x6 x7).get .f = x5 := rfl
theorem get_g : (Arr8.mk x0 x1 x2 x3 x4 x5 x6 x7).get .g = x6 := rfl
theorem get_h : (Arr8.mk x0 x1 x2 x3 x4 x5 x6 x7).get .h = x7 := rfl
theorem set_a : (Arr8.mk x0 x1 x2 x3 x4 x5 x6 x7).set .a v = ⟨v, x1, x2, x3, x4, x5, x6, x7⟩ := rfl
theorem set_b : (Arr8.mk x0 x1 x2 x3 x4 x5 x6 x7).set .b v = ⟨x0, v, x2, x3, x4, x5, x6, x7⟩ := rfl
theorem set_c : (Arr8.mk x0 x1 x2 x3 x4 x5 x6 x7).set .c v = ⟨x0, x1, v, x3, x4, x5, x6, x7⟩ := rfl
theorem set_d : (Arr8.mk x0 x1 x2 x3 x4 x5 x6 x7).set .d v = ⟨x0, x1, x2, v, x4, x5, x6, x7⟩ := rfl
theorem set_e : (Arr8.mk x0 x1 x2 x3 x4 x5 x6 x7).set .e v = ⟨x0, x1, x2, x3, v, x5, x6, x7⟩ := rfl
theorem set_f : (Arr8.mk x0 x1 x2 x3 x4 x5 x6 x7).set .f v = ⟨x0, x1, x2, x3, x4, v, x6, x7⟩ := rfl
theorem set_g : (Arr8.mk x0 x1 x2 x3 x4 x5 x6 x7).set .g v = ⟨x0, x1, x2, x3, x4, x5, v, x7⟩ := rfl
theorem set_h : (Arr8.mk x0 x1 x2 x3 x4 x5 x6 x7).set .h v = ⟨x0, x1, x2, x3, x4, x5, x6, v⟩ := rfl
end

end Chf.Rs
