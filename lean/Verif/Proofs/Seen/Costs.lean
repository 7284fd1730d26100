import Verif.Proofs.Seen.Basic

/-!
# How much is seen

`Costs n Q x`: of `x` at most `n` things are seen, or one more if it panics, and `Q` holds of its result.
-/

namespace Chf.Tr
open Chf
variable {α β σ : Type}

/-- What has been seen of a computation with this result, given the number seen of one that does not
panic. -/
def room (r : Res α) (n : Nat) : Nat :=
  match r with
  | .ok _ => n
  | .error _ => n + 1

structure Costs (n : Nat) (Q : α → Prop) (x : Tr α) : Prop where
  seen : x.seen.length ≤ room x.res n
  res : ∀ a, x.res = .ok a → Q a

namespace Costs
variable {n m k : Nat} {P Q : α → Prop}

theorem le {x : Tr α} (h : Costs n Q x) : x.seen.length ≤ n + 1 := by
  have := h.seen
  unfold room at this
  split at this <;> omega

theorem mono {x : Tr α} (h : Costs n P x) (hn : n ≤ m) (hq : ∀ a, P a → Q a) : Costs m Q x := by
  refine ⟨Nat.le_trans h.seen ?_, fun a ha => hq a (h.res a ha)⟩
  unfold room
  split <;> omega

theorem pure {a : α} (h : Q a) : Costs n Q (Pure.pure a : Tr α) :=
  ⟨Nat.zero_le _, fun _ e => Except.ok.inj e ▸ h⟩

theorem bind {R : β → Prop} {x : Tr α} {f : α → Tr β} (hx : Costs n P x)
    (hf : ∀ a, P a → Costs m R (f a)) : Costs (n + m) R (x >>= f) := by
  obtain ⟨r, es⟩ := x
  cases r with
  | error e =>
    refine ⟨?_, fun b hb => by cases hb⟩
    have := hx.seen
    show (es ++ []).length ≤ n + m + 1
    simp only [List.append_nil]
    exact Nat.le_trans this (by simp only [room]; omega)
  | ok a =>
    have h1 := hx.seen
    have h2 := hf a (hx.res a rfl)
    refine ⟨?_, fun b hb => h2.res b hb⟩
    have h3 := h2.seen
    show (es ++ (f a).seen).length ≤ room (f a).res (n + m)
    rw [List.length_append]
    simp only [room] at h1 h3 ⊢
    split <;> simp_all <;> omega

/-- The same with the sum written by the caller. -/
theorem bind' {R : β → Prop} {x : Tr α} {f : α → Tr β} (hx : Costs n P x)
    (hf : ∀ a, P a → Costs m R (f a)) (h : n + m ≤ k) : Costs k R (x >>= f) :=
  (bind hx hf).mono h fun _ h => h

theorem op {es : List Ev} {r : Res α} (hn : es.length ≤ n) (h : ∀ a, r = .ok a → Q a) :
    Costs n Q (Tr.op es r) := by
  refine ⟨?_, h⟩
  unfold Tr.op room
  cases r <;> simp <;> omega

theorem test {b : Bool} : Costs 1 (fun x => x = b) (Tr.test b) :=
  ⟨Nat.le_refl _, fun _ e => (Except.ok.inj e).symm⟩

/-- A branch. -/
theorem testThen {b : Bool} {f g : Tr α} (h : b = true → Costs n Q f) (h' : b = false → Costs n Q g) :
    Costs (1 + n) Q (Tr.test b >>= fun b => if b = true then f else g) :=
  bind test fun x hx => by
    subst hx
    cases x
    · exact h' rfl
    · exact h rfl

theorem fail {f : Fault} : Costs n Q (Tr.fail f) := op (Nat.zero_le _) fun _ h => by cases h

theorem ite {p : Prop} [Decidable p] {f g : Tr α} (h : p → Costs n Q f) (h' : ¬ p → Costs n Q g) :
    Costs n Q (if p then f else g) := by
  split
  · exact h ‹_›
  · exact h' ‹_›

theorem of_res {x : Tr α} (h : Costs n P x) (hq : ∀ a, x.res = .ok a → Q a) : Costs n Q x := ⟨h.seen, hq⟩

/-- A loop: `Φ` is what may still be seen, `I` the invariant and `J` holds when the loop ends. -/
theorem whileR {cond : σ → Tr Bool} {body : σ → Tr σ} {I J : σ → Prop} {Φ : σ → Nat}
    (h : ∀ s, I s → ∃ b : Bool, Costs 0 (fun x => x = b) (cond s) ∧ 1 ≤ Φ s ∧ (b = false → J s) ∧
      (b = true → ∃ n, 1 + n ≤ Φ s ∧ Costs n (fun s' => I s' ∧ 1 + n + Φ s' ≤ Φ s) (body s))) :
    ∀ (fuel : Nat) (s : σ), I s → Costs (Φ s) J (Tr.whileR fuel cond body s)
  | 0, _, _ => fail
  | fuel + 1, s, hs => by
      obtain ⟨b, hc, h1, hj, hb⟩ := h s hs
      unfold Tr.whileR
      refine bind' (m := Φ s) hc (fun x hx => ?_) (by omega)
      subst hx
      cases x with
      | false => exact bind' (n := 1) (m := 0) test (fun x hx => by subst hx; exact pure (hj rfl)) (by omega)
      | true =>
        obtain ⟨n, hp, hn⟩ := hb rfl
        refine bind' (n := 1) (m := Φ s - 1) test (fun x hx => ?_) (by omega)
        subst hx
        simp only [if_true]
        cases hr : (body s).res with
        | error f =>
          refine bind' (m := 0) (P := fun _ => False) (hn.of_res fun a ha => ?_) (fun _ h => h.elim) (by omega)
          rw [hr] at ha; cases ha
        | ok s' =>
          have hq := hn.res s' hr
          have h2 : Costs n (fun x => x = s') (body s) := hn.of_res fun a ha => by
            rw [hr] at ha; exact (Except.ok.inj ha).symm
          refine bind' (m := Φ s') h2 (fun x hx => ?_) (by omega)
          subst hx
          exact whileR h fuel x hq.1

/-- A loop over the elements of a list. -/
theorem each {ε : Type} {f : σ → ε → Tr σ} {I : σ → Prop} (h : ∀ s x, I s → Costs n I (f s x)) :
    ∀ (xs : List ε) (s : σ), I s → Costs (1 + (1 + n) * xs.length) I (Tr.each xs f s)
  | [], s, hs => bind' (n := 1) (m := 0) test (fun _ _ => pure hs) (by simp)
  | x :: xs, s, hs => by
      unfold Tr.each
      refine bind' (n := 1) test (fun _ _ => bind (h s x hs) fun s' hs' => each h xs s' hs') ?_
      rw [List.length_cons, Nat.mul_succ]
      omega

theorem zipMut {ε : Type} {f : α → ε → Tr α} (h : ∀ x y, Costs n (fun _ => True) (f x y)) :
    ∀ (xs : List α) (ys : List ε), Costs (1 + (1 + n) * min xs.length ys.length)
      (fun zs => zs.length = xs.length) (Tr.zipMut xs ys f)
  | [], ys => by
      unfold Tr.zipMut
      exact bind' (n := 1) (m := 0) test (fun _ _ => pure rfl) (by omega)
  | x :: xs, [] => by
      unfold Tr.zipMut
      exact bind' (n := 1) (m := 0) test (fun _ _ => pure rfl) (by omega)
  | x :: xs, y :: ys => by
      unfold Tr.zipMut
      refine bind' (n := 1) test (fun _ _ => bind (h x y) fun v _ => bind (m := 0) (zipMut h xs ys) fun zs hz =>
        pure (by rw [List.length_cons, hz, List.length_cons])) ?_
      rw [List.length_cons, List.length_cons, Nat.succ_min_succ, Nat.mul_succ]
      omega

theorem zipChunksMut {ε : Type} {c : Nat} {f : α → List ε → Tr (List ε)}
    (h : ∀ x y, Costs n (fun z => z.length = y.length) (f x y)) :
    ∀ (xs : List α) (ys : List ε), Costs (1 + (1 + n) * xs.length)
      (fun zs => zs.length = ys.length) (Tr.zipChunksMut c xs ys f)
  | [], ys => by
      unfold Tr.zipChunksMut
      exact bind' (n := 1) (m := 0) test (fun _ _ => pure rfl) (by omega)
  | x :: xs, ys => by
      unfold Tr.zipChunksMut
      refine bind' (n := 1) (m := n + (1 + (1 + n) * xs.length)) test (fun b _ => ?_) ?_
      · refine ite (fun _ => pure rfl) fun _ => bind (h x _) fun z hz =>
          bind (m := 0) (zipChunksMut h xs _) fun zs hzs => pure ?_
        rw [List.length_append, hz, hzs, ← List.length_append, List.take_append_drop]
      · rw [List.length_cons, Nat.mul_succ]
        omega

end Costs

end Chf.Tr
