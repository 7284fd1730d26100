import Verif.Proofs.Left.Agree
import Verif.Proofs.Unwind
import Verif.Proofs.Source.Sims

/-!
# The translated `input` of a block engine leaves what the model's leaves
-/

namespace Chf.Left
open Chf

/-- The value of `*self` and the panic, as the model has them. -/
def ofLeaves {σ τ : Type} (emb : τ → σ) : Leaves τ → Left σ σ
  | (e, none) => .ok (emb e)
  | (e, some f) => .error (f, emb e)

theorem ok_bind {σ α β : Type} (a : α) (f : α → Left σ β) : (Except.ok a >>= f) = f a := rfl

theorem keep_ok {σ α : Type} (s : σ) (a : α) : keep s (.ok a) = .ok a := rfl

theorem keep_error {σ α : Type} (s : σ) (f : Fault) : keep s (.error f : Res α) = .error (f, s) := rfl

theorem error_bind {σ α β : Type} (e : Fault × σ) (f : α → Left σ β) :
    ((Except.error e : Left σ α) >>= f) = .error e := rfl

variable {H S : Type} (c : Cfg) (ops : BlockOps H) (f : H → List Byte → H) (emb : BlockEngine H → S)

theorem whileR_inputLoopMut (hB : 0 < ops.B) (hP : ProcessIs ops f) (proc : S → Left S S)
    (hproc : ∀ e, res (proc (emb e)) = (BlockEngine.processBlock ops e).map emb)
    (get : S × List Byte → S) (body : S × List Byte → Left S (S × List Byte))
    (hbody : ∀ e b bs, body (emb e, b :: bs) = (do
      let rem_len ← keep (emb e) (subUsize c ops.B (e.length % ops.B))
      let x_2 ← keep (emb e) (addUsize c (e.length % ops.B) (min rem_len (b :: bs).length))
      keep (emb e) (Rs.checkRange e.buffer (e.length % ops.B) x_2)
      let x_3 ← keep (emb e) (sliceTo (b :: bs) (min rem_len (b :: bs).length))
      let x_4 ← keep (emb e) (copyIntoRange e.buffer (e.length % ops.B) x_2 x_3)
      let x_5 ← keep (emb { buffer := x_4, h := e.h, length := e.length })
        (addUsize c e.length (min rem_len (b :: bs).length))
      let self ←
        if (x_5 % ops.B) == 0 then do
          let self ← proc (emb { buffer := x_4, h := e.h, length := x_5 })
          pure self
        else do
          pure (emb { buffer := x_4, h := e.h, length := x_5 })
      let inp ← keep self (sliceFrom (b :: bs) (min rem_len (b :: bs).length))
      pure (self, inp)))
    (m : Nat) (fuel : Nat) (e : BlockEngine H) (inp : List Byte) (hb : e.buffer.length = ops.B)
    (hm : inp.length ≤ m) (hf : m < fuel) :
    whileR get fuel (fun p => pure (!p.2.isEmpty)) body (emb e, inp) >>= (fun p => pure p.1) =
      ofLeaves emb (BlockEngine.inputLoopMut c ops m e inp) := by
  induction m generalizing fuel e inp with
  | zero =>
    have : inp = [] := List.eq_nil_of_length_eq_zero (by omega)
    subst this
    obtain ⟨f, rfl⟩ : ∃ f, fuel = f + 1 := ⟨fuel - 1, by omega⟩
    rfl
  | succ m ih =>
    obtain ⟨fl, rfl⟩ : ∃ f, fuel = f + 1 := ⟨fuel - 1, by omega⟩
    cases inp with
    | nil => rfl
    | cons b bs =>
      have hw : whileR get (fl + 1) (fun p => pure (!p.2.isEmpty)) body (emb e, b :: bs) =
          body (emb e, b :: bs) >>= whileR get fl (fun p => pure (!p.2.isEmpty)) body := by
        rw [whileR]
        simp only [pure, Except.pure, List.isEmpty_cons, Bool.not_false]
        cases body (emb e, b :: bs) <;> rfl
      rw [hw, hbody, BlockEngine.inputLoopMut]
      have hrem : subUsize c ops.B (e.length % ops.B) = .ok (ops.B - e.length % ops.B) := by
        unfold subUsize
        rw [if_pos (Nat.le_of_lt (Nat.mod_lt _ hB))]
      have hpos : 0 < min (ops.B - e.length % ops.B) (b :: bs).length := by
        have := Nat.mod_lt e.length hB
        simp only [List.length_cons]
        omega
      have hle : min (ops.B - e.length % ops.B) (b :: bs).length ≤ (b :: bs).length :=
        Nat.min_le_right _ _
      simp only [hrem, keep_ok, ok_bind]
      generalize min (ops.B - e.length % ops.B) (b :: bs).length = wl at hpos hle
      have hst : sliceTo (b :: bs) wl = .ok ((b :: bs).take wl) := by
        unfold sliceTo; rw [if_pos hle]
      have hsf : sliceFrom (b :: bs) wl = .ok ((b :: bs).drop wl) := by
        unfold sliceFrom; rw [if_pos hle]
      simp only [hst, hsf, keep_ok, ok_bind]
      cases addUsize c (e.length % ops.B) wl with
      | error x => rfl
      | ok endIdx =>
      simp only [keep_ok, ok_bind]
      unfold Rs.checkRange
      cases hcp : copyIntoRange e.buffer (e.length % ops.B) endIdx ((b :: bs).take wl) with
      | error x =>
        unfold copyIntoRange at hcp
        split at hcp
        · rename_i h
          simp only [if_pos h, keep_ok, ok_bind]
          rfl
        · rename_i h
          cases hcp
          simp only [if_neg h]
          rfl
      | ok buffer =>
      have hbl := (Source.copyIntoRange_length hcp).trans hb
      have hr : e.length % ops.B ≤ endIdx ∧ endIdx ≤ e.buffer.length := by
        unfold copyIntoRange at hcp
        split at hcp
        · assumption
        · cases hcp
      simp only [if_pos hr, keep_ok, ok_bind]
      cases addUsize c e.length wl with
      | error x => rfl
      | ok length =>
      simp only [keep_ok, ok_bind]
      have hdl : ((b :: bs).drop wl).length ≤ m := by
        rw [List.length_drop]
        omega
      by_cases hz : length % ops.B = 0
      · have hp := hP buffer e.h hbl
        have hpr := hproc { buffer := buffer, h := e.h, length := length }
        simp only [BlockEngine.processBlock, hp] at hpr
        have := of_res hpr
        simp only [hz, beq_self_eq_true, if_true, this, BlockEngine.processBlock, hp]
        exact ih fl _ _ hbl hdl (by omega)
      · simp only [beq_eq_false_iff_ne.2 hz, hz, Bool.false_eq_true, if_false]
        exact ih fl _ _ hbl hdl (by omega)

end Chf.Left
