import Verif.Proofs.Left.Engines

/-!
# Programs that catch panics, over the translated engines and over the model's
-/

namespace Chf.Source
open Chf Chf.Left Chf.Spec

theorem ofLeaves_state {σ τ : Type} (emb : τ → σ) (x : Leaves τ) : state (ofLeaves emb x) = emb x.1 := by
  obtain ⟨e, f⟩ := x
  cases f <;> rfl

theorem catch_step_sim {c : Cfg} (hc : c.Valid) {p : (Impl.crate c).Pool} {q : (text c).Pool}
    {l : (logs c).Pool} (h : PoolSim hc p q) (hl : PoolRel hc p l) (x : Call) (hx : CallFits c x) :
    ((CatchImpl.crate c).step p x).2 = ((catchText c).step q x).2 ∧
      PoolSim hc ((CatchImpl.crate c).step p x).1 ((catchText c).step q x).1 := by
  cases x with
  | input i d =>
    have h1 := h.slot i
    have h2 := hl.slot i
    simp only [CatchImpl.step]
    change _ ∧ _
    simp only [CatchImpl.crate, catchText]
    generalize (Impl.crate c).slot p i = x, (text c).slot q i = y, (logs c).slot l i = z at h1 h2 ⊢
    cases h1 with
    | gone => exact ⟨rfl, h⟩
    | live a ha e =>
      cases h2 with
      | live _ ok _ s m R =>
        have hi : (text c).input a ((algSim hc a ha).st e) d = _ := (algSim hc a ha).input e d hx
        simp only [hi, show (Impl.crate c).input a e d = (a.engine c).input e d from rfl]
        cases hr : (a.engine c).input e d with
        | ok e' => exact ⟨rfl, h.set i (.live a ha e')⟩
        | error f =>
          refine ⟨rfl, ?_⟩
          have hacc : (a.log c).accepts s (m.length + d.length) = false := by
            cases hacc : (a.log c).accepts s (m.length + d.length) with
            | false => rfl
            | true =>
              obtain ⟨e', h1, _⟩ := (a.lawful hc ok).input_ok d (a.log_slice hx) R hacc
              rw [h1] at hr
              cases hr
          have hs : (inputLeft c a ((algSim hc a ha).st e) d).state =
              (algSim hc a ha).st (a.inputMut c e d).1 := by
            rw [inputLeft_eq hc a ok ha R d hx hacc, ofLeaves_state]
          simp only [Rs.map_error, hs]
          exact h.set i (.live a ha _)
  | _ => exact step_sim hc h _ hx

theorem catch_answers_sim {c : Cfg} (hc : c.Valid) (xs : List Call) : ∀ {p : (Impl.crate c).Pool}
    {q : (text c).Pool} {l : (logs c).Pool}, PoolSim hc p q → PoolRel hc p l → (∀ x ∈ xs, x.Typed c) →
    (∀ x ∈ xs, CallFits c x) → (CatchImpl.crate c).answers p xs = (catchText c).answers q xs := by
  induction xs with
  | nil => intros; rfl
  | cons x xs ih =>
    intro p q l h hl ht hx
    have h1 := catch_step_sim hc h hl x (hx x (by simp))
    have h2 := catch_step_same hc hl x (ht x (by simp))
    show _ :: _ = _ :: _
    rw [h1.1]
    exact congrArg _ (ih h1.2 h2.2 (fun y hy => ht y (by simp [hy])) fun y hy => hx y (by simp [hy]))

end Chf.Source
