import Verif.Proofs.Seen.Engines
import Verif.Seen.Siphash24

/-!
# SipHash-2-4 of the translated text: what is seen of it
-/

namespace Chf.Seen.Siphash24
open Chf Tr

/-- Engines that cannot be told apart: the same counts. -/
abbrev Alike (e e' : Source.Siphash24.Engine) : Prop := e.length = e'.length ∧ e.ntail = e'.ntail

theorem u8to64_le_same (cfg : Cfg) {d d' : List Byte} (h : Len d d') (i n : Nat) :
    Tr.SameSeen Any (u8to64_le cfg d i n) (u8to64_le cfg d' i n) := by
  unfold u8to64_le
  rw [h]
  dsimp only
  iterate 2 same_step
  refine SameSeen.bind (R := fun p q => p.1 = q.1) (SameSeen.testThen (fun _ => ?_) fun _ => ?_) ?_
  · repeat same_step
  · repeat same_step
  rintro ⟨i, o⟩ ⟨i', o'⟩ hi
  dsimp only at *
  subst hi
  same_step
  refine SameSeen.bind (R := fun p q => p.1 = q.1) (SameSeen.testThen (fun _ => ?_) fun _ => ?_) ?_
  · repeat same_step
  · repeat same_step
  rintro ⟨i, o⟩ ⟨i', o'⟩ hi
  dsimp only at *
  subst hi
  refine SameSeen.bind (R := fun p q => p.1 = q.1) (SameSeen.testThen (fun _ => ?_) fun _ => ?_) ?_
  · repeat same_step
  · repeat same_step
  rintro ⟨i, o⟩ ⟨i', o'⟩ hi
  dsimp only at *
  subst hi
  repeat same_step

/-- The flow of the first part of `input`. -/
abbrev Flows := SameSeen.FlowRel Alike (fun (p q : Source.Siphash24.Engine × Nat) => Alike p.1 q.1 ∧ p.2 = q.2)

theorem input_same (cfg : Cfg) : ∀ {e e'} {d d' : List Byte}, Alike e e' → Len d d' →
    Tr.SameSeen Alike (Engine.input cfg e d) (Engine.input cfg e' d') := by
  rintro ⟨k0, k1, l, s, t, n⟩ ⟨k0', k1', l', s', t', n'⟩ d d' ⟨hl, hn⟩ hd
  unfold Engine.input
  dsimp only at *
  subst hl
  subst hn
  rw [hd]
  same_step
  refine SameSeen.bind (R := Flows) (SameSeen.testThen (fun _ => ?_) fun _ => ?_) ?_
  · same_step
    refine SameSeen.bind (u8to64_le_same cfg hd _ _) fun _ _ _ => ?_
    iterate 2 same_step
    refine SameSeen.bind (R := SameSeen.FlowRel Alike Alike) (SameSeen.testThen (fun _ => ?_) fun _ => ?_) ?_
    · same_step
      exact SameSeen.pure' (by exact ⟨rfl, rfl⟩)
    · exact SameSeen.pure' (by exact ⟨rfl, rfl⟩)
    · intro x y h
      match x, y, h with
      | .ret _, .ret _, h => exact SameSeen.pure' (by exact h)
      | .next _, .next _, h => exact SameSeen.pure' (by exact ⟨h, rfl⟩)
  · exact SameSeen.pure' (by exact ⟨⟨rfl, rfl⟩, rfl⟩)
  · intro x y h
    match x, y, h with
    | .ret _, .ret _, h => exact SameSeen.pure' (by exact h)
    | .next (⟨_, _, l, _, _, n⟩, i), .next (⟨_, _, l', _, _, n'⟩, i'), h =>
      obtain ⟨⟨hl, hn⟩, hi⟩ := h
      dsimp only at *
      subst hl
      subst hn
      subst hi
      same_step
      refine SameSeen.bind (SameSeen.whileR (R := fun p q => Alike p.1 q.1 ∧ p.2 = q.2) ?_ ?_
        ⟨⟨rfl, rfl⟩, rfl⟩) ?_
      · rintro ⟨_, i⟩ ⟨_, i'⟩ ⟨-, hi⟩
        dsimp only at *
        subst hi
        same_step
        exact SameSeen.pure' rfl
      · rintro ⟨⟨_, _, l, _, _, n⟩, i⟩ ⟨⟨_, _, l', _, _, n'⟩, i'⟩ ⟨⟨hl, hn⟩, hi⟩
        dsimp only at *
        subst hl
        subst hn
        subst hi
        iterate 3 same_step
        repeat same_step
      · rintro ⟨⟨_, _, l, _, _, n⟩, i⟩ ⟨⟨_, _, l', _, _, n'⟩, i'⟩ ⟨⟨hl, hn⟩, hi⟩
        dsimp only at *
        subst hl
        subst hn
        subst hi
        refine SameSeen.bind (u8to64_le_same cfg hd _ _) fun _ _ _ => ?_
        exact SameSeen.pure' ⟨rfl, rfl⟩

end Chf.Seen.Siphash24
