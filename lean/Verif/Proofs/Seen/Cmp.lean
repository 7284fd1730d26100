import Verif.Proofs.Seen.Tactic
import Verif.Proofs.Seen.Erases

/-!
# `fixed_time_eq` of the translated text: what is seen of it
-/

namespace Chf.Seen.Cmp
open Chf Tr

theorem fixed_time_eq_same (c : Cfg) {a a' b b' : List Byte} (ha : Len a a') (hb : Len b b') :
    SameSeen Any (fixed_time_eq c a b) (fixed_time_eq c a' b') := by
  unfold fixed_time_eq
  dsimp only
  rw [ha, hb]
  iterate 3 same_step
  refine SameSeen.bind (R := Any) (SameSeen.each (P := Eq) (fun _ _ i _ _ e => ?_) (SameSeen.Each.eq _) trivial)
    fun _ _ _ => ?_
  · subst e
    repeat same_step
  · repeat same_step

/-- What is seen of a loop whose body never panics and of whose rounds `es` is seen. -/
theorem each_seen {α σ : Type} {f : σ → α → Tr σ} {es : α → List Tr.Ev} : ∀ (xs : List α) (s : σ),
    (∀ x ∈ xs, ∀ s, ∃ s', f s x = ⟨.ok s', es x⟩) →
    ∃ s', each xs f s = ⟨.ok s', xs.flatMap (fun x => Tr.Ev.branch true :: es x) ++ [Tr.Ev.branch false]⟩
  | [], s, _ => ⟨s, rfl⟩
  | x :: xs, s, h => by
      obtain ⟨s', hs⟩ := h x (List.mem_cons_self ..) s
      obtain ⟨t, ht⟩ := each_seen xs s' fun y hy => h y (List.mem_cons_of_mem _ hy)
      refine ⟨t, ?_⟩
      show (test true >>= fun _ => f s x >>= fun s => each xs f s) = _
      rw [hs]
      show (⟨(each xs f s').res, [Tr.Ev.branch true] ++ (es x ++ (each xs f s').seen)⟩ : Tr σ) = _
      rw [ht]
      simp

theorem fixed_time_eq_seen (c : Cfg) {a b : List Byte} (h : a.length = b.length) :
    (fixed_time_eq c a b).seen = .span 0 a.length :: .span 0 a.length ::
      ((List.range a.length).flatMap (fun i => [.branch true, .at i, .at i]) ++ [.branch false]) := by
  unfold fixed_time_eq
  dsimp only
  have h1 : Tr.assertR (a.length == b.length) = pure () := by
    rw [h]; simp only [beq_self_eq_true]; rfl
  have h2 : ∀ s : List Byte, s.length = a.length → Tr.sliceTo s a.length = ⟨.ok s, [.span 0 a.length]⟩ := by
    intro s hs
    unfold Tr.sliceTo Chf.sliceTo
    rw [if_pos (by omega), ← hs, List.take_length]
    rfl
  obtain ⟨s', hs⟩ := each_seen (f := fun r i => (do
      let x ← Tr.index a i
      let y ← Tr.index b i
      pure (r ||| (x ^^^ y)) : Tr Byte)) (es := fun i => [Tr.Ev.at i, Tr.Ev.at i]) (Rs.range 0 a.length) 0#8 (by
    intro i hi s
    have hi : i < a.length := by
      have := List.mem_range'_1.1 hi
      omega
    refine ⟨s ||| (a[i] ^^^ b[i]'(by omega)), ?_⟩
    unfold Tr.index Chf.index
    rw [List.getElem?_eq_getElem hi, List.getElem?_eq_getElem (h ▸ hi)]
    rfl)
  rw [h1, h2 a rfl, h2 b h.symm]
  show [] ++ ([Tr.Ev.span 0 a.length] ++ ([Tr.Ev.span 0 a.length] ++ (Tr.seen _ ++ after _ _))) = _
  rw [hs]
  have hr : Rs.range 0 a.length = List.range a.length := by
    simp [Rs.range, List.range_eq_range']
  rw [hr]
  simp only [after, List.nil_append, List.cons_append, List.append_assoc]
  rfl

end Chf.Seen.Cmp
