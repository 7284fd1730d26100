import Verif.Proofs.Seen.Engines

/-!
# `const_hash` and `hash_tag` of the translated text: what is seen of them
-/

namespace Chf.Seen.Sha256
open Chf Tr

theorem read_u32_same (cfg : Cfg) {d d' : List Byte} (hd : Len d d') (i : Nat) :
    Tr.SameSeen Any (Midstate.read_u32 cfg d i) (Midstate.read_u32 cfg d' i) := by
  unfold Midstate.read_u32
  repeat same_step

theorem copy_w_same (cfg : Cfg) {d d' : List Byte} (hd : Len d d') (i : Nat) :
    Tr.SameSeen Len (Midstate.copy_w cfg d i) (Midstate.copy_w cfg d' i) := by
  unfold Midstate.copy_w
  refine SameSeen.bind (SameSeen.whileR (R := fun p q => Len p.1 q.1 ∧ p.2 = q.2) ?_ ?_ ⟨rfl, rfl⟩)
    fun _ _ h => SameSeen.pure' h.1
  · rintro ⟨_, i⟩ ⟨_, i'⟩ ⟨-, hi⟩
    dsimp only at *
    subst hi
    exact SameSeen.pure' rfl
  · rintro ⟨w, i⟩ ⟨w', i'⟩ ⟨hw, hi⟩
    dsimp only at *
    subst hi
    iterate 2 same_step
    refine SameSeen.bind (read_u32_same cfg hd _) fun _ _ _ => ?_
    repeat same_step

theorem const_hash_fast_same (cfg : Cfg) {d d' : List Byte} (hd : Len d d') (fin : Bool) :
    Tr.SameSeen (fun m m' => Len m.f0 m'.f0) (Midstate.const_hash_fast cfg d fin)
      (Midstate.const_hash_fast cfg d' fin) := by
  unfold Midstate.const_hash_fast
  rw [hd]
  dsimp only
  iterate 2 same_step
  refine SameSeen.bind (SameSeen.whileBreak (R := fun p q => Len p.1 q.1 ∧ p.2 = q.2) ?_ ?_ ⟨rfl, rfl⟩) ?_
  · rintro ⟨_, i⟩ ⟨_, i'⟩ ⟨-, hi⟩
    dsimp only at *
    subst hi
    exact SameSeen.pure' rfl
  · rintro ⟨s, i⟩ ⟨s', i'⟩ ⟨hs, hi⟩
    dsimp only at *
    subst hi
    same_step
    refine SameSeen.bind (R := SameSeen.FlowRel (fun p q => Len p.1 q.1 ∧ p.2 = q.2) Any)
      (SameSeen.testThen (fun _ => SameSeen.pure' (by exact ⟨hs, rfl⟩)) fun _ => SameSeen.pure' (by exact trivial)) ?_
    intro x y h
    match x, y, h with
    | .ret _, .ret _, h => exact SameSeen.pure' (by exact h)
    | .next _, .next _, _ =>
      iterate 2 same_step
      refine SameSeen.bind (R := Len) (SameSeen.testThen (fun _ => ?_) fun _ => ?_) fun _ _ hw => ?_
      · same_step
        exact copy_w_same cfg hd _
      · same_step
        refine SameSeen.bind (SameSeen.whileR (R := fun p q => Len p.1 q.1 ∧ p.2 = q.2) ?_ ?_ ⟨rfl, rfl⟩) ?_
        · rintro ⟨_, i⟩ ⟨_, i'⟩ ⟨-, hi⟩
          dsimp only at *
          subst hi
          same_step
          exact SameSeen.pure' rfl
        · rintro ⟨_, i⟩ ⟨_, i'⟩ ⟨hb, hi⟩
          dsimp only at *
          subst hi
          repeat same_step
        · rintro ⟨_, i⟩ ⟨_, i'⟩ ⟨hb, hi⟩
          dsimp only at *
          subst hi
          same_step
          refine SameSeen.bind (R := Len) (SameSeen.testThen (fun _ => ?_) fun _ => ?_) fun _ _ hb => ?_
          · repeat same_step
          · repeat same_step
          same_step
          refine SameSeen.bind (R := Len) (SameSeen.testThen (fun _ => ?_) fun _ => ?_) fun _ _ hb => ?_
          · repeat same_step
          · repeat same_step
          exact copy_w_same cfg hb _
      iterate 9 same_step
      refine SameSeen.bind (SameSeen.runLines (R := Midstate.const_hash_fast.Alike1)
        (Midstate.const_hash_fast.lines1_same cfg) hw) ?_
      rintro ⟨_, _, _, _, _, _, _, _, _⟩ ⟨_, _, _, _, _, _, _, _, _⟩ h1
      dsimp only at *
      iterate 16 same_step
      refine SameSeen.pure' ?_
      exact ⟨by assumption, rfl⟩
  · rintro ⟨s, i⟩ ⟨s', i'⟩ ⟨hs, -⟩
    dsimp only at *
    refine SameSeen.bind (SameSeen.whileR (R := fun p q => Len p.1 q.1 ∧ p.2 = q.2) ?_ ?_ ⟨rfl, rfl⟩) ?_
    · rintro ⟨_, i⟩ ⟨_, i'⟩ ⟨-, hi⟩
      dsimp only at *
      subst hi
      exact SameSeen.pure' rfl
    · rintro ⟨_, i⟩ ⟨_, i'⟩ ⟨hb, hi⟩
      dsimp only at *
      subst hi
      repeat same_step
    · rintro ⟨_, _⟩ ⟨_, _⟩ ⟨h, -⟩
      exact SameSeen.pure' h

theorem const_hash_small_same (cfg : Cfg) {d d' : List Byte} (hd : Len d d') (fin : Bool) :
    Tr.SameSeen (fun m m' => Len m.f0 m'.f0) (Midstate.const_hash_small cfg d fin)
      (Midstate.const_hash_small cfg d' fin) := by
  unfold Midstate.const_hash_small
  rw [hd]
  dsimp only
  iterate 2 same_step
  refine SameSeen.bind (SameSeen.whileBreak (R := fun p q => Len p.1 q.1 ∧ p.2 = q.2) ?_ ?_ ⟨rfl, rfl⟩) ?_
  · rintro ⟨_, i⟩ ⟨_, i'⟩ ⟨-, hi⟩
    dsimp only at *
    subst hi
    exact SameSeen.pure' rfl
  · rintro ⟨s, i⟩ ⟨s', i'⟩ ⟨hs, hi⟩
    dsimp only at *
    subst hi
    same_step
    refine SameSeen.bind (R := SameSeen.FlowRel (fun p q => Len p.1 q.1 ∧ p.2 = q.2) Any)
      (SameSeen.testThen (fun _ => SameSeen.pure' (by exact ⟨hs, rfl⟩)) fun _ => SameSeen.pure' (by exact trivial)) ?_
    intro x y h
    match x, y, h with
    | .ret _, .ret _, h => exact SameSeen.pure' (by exact h)
    | .next _, .next _, _ =>
      iterate 2 same_step
      refine SameSeen.bind (R := Len) (SameSeen.testThen (fun _ => ?_) fun _ => ?_) fun _ _ hw => ?_
      · same_step
        exact copy_w_same cfg hd _
      · same_step
        refine SameSeen.bind (SameSeen.whileR (R := fun p q => Len p.1 q.1 ∧ p.2 = q.2) ?_ ?_ ⟨rfl, rfl⟩) ?_
        · rintro ⟨_, i⟩ ⟨_, i'⟩ ⟨-, hi⟩
          dsimp only at *
          subst hi
          same_step
          exact SameSeen.pure' rfl
        · rintro ⟨_, i⟩ ⟨_, i'⟩ ⟨hb, hi⟩
          dsimp only at *
          subst hi
          repeat same_step
        · rintro ⟨_, i⟩ ⟨_, i'⟩ ⟨hb, hi⟩
          dsimp only at *
          subst hi
          same_step
          refine SameSeen.bind (R := Len) (SameSeen.testThen (fun _ => ?_) fun _ => ?_) fun _ _ hb => ?_
          · repeat same_step
          · repeat same_step
          same_step
          refine SameSeen.bind (R := Len) (SameSeen.testThen (fun _ => ?_) fun _ => ?_) fun _ _ hb => ?_
          · repeat same_step
          · repeat same_step
          exact copy_w_same cfg hb _
      iterate 9 same_step
      refine SameSeen.bind (SameSeen.runLines (R := Midstate.const_hash_small.Alike1)
        (Midstate.const_hash_small.lines1_same cfg) hw) ?_
      rintro ⟨_, _, _, _, _, _, _, _, _⟩ ⟨_, _, _, _, _, _, _, _, _⟩ h1
      dsimp only at *
      iterate 16 same_step
      refine SameSeen.pure' ?_
      exact ⟨by assumption, rfl⟩
  · rintro ⟨s, i⟩ ⟨s', i'⟩ ⟨hs, -⟩
    dsimp only at *
    refine SameSeen.bind (SameSeen.whileR (R := fun p q => Len p.1 q.1 ∧ p.2 = q.2) ?_ ?_ ⟨rfl, rfl⟩) ?_
    · rintro ⟨_, i⟩ ⟨_, i'⟩ ⟨-, hi⟩
      dsimp only at *
      subst hi
      exact SameSeen.pure' rfl
    · rintro ⟨_, i⟩ ⟨_, i'⟩ ⟨hb, hi⟩
      dsimp only at *
      subst hi
      repeat same_step
    · rintro ⟨_, _⟩ ⟨_, _⟩ ⟨h, -⟩
      exact SameSeen.pure' h

theorem const_hash_same (cfg : Cfg) {d d' : List Byte} (hd : Len d d') (fin : Bool) :
    Tr.SameSeen (fun m m' => Len m.f0 m'.f0) (Midstate.const_hash cfg d fin)
      (Midstate.const_hash cfg d' fin) := by
  unfold Midstate.const_hash
  exact SameSeen.ite (fun _ => const_hash_small_same cfg hd fin) fun _ => const_hash_fast_same cfg hd fin

theorem hash_tag_same (cfg : Cfg) {d d' : List Byte} (hd : Len d d') :
    Tr.SameSeen (fun m m' => Len m.f0 m'.f0) (Midstate.hash_tag cfg d) (Midstate.hash_tag cfg d') := by
  unfold Midstate.hash_tag Hash.const_hash
  refine SameSeen.bind (R := fun m m' => Len m.f0 m'.f0)
    (SameSeen.bind (const_hash_same cfg hd true) fun _ _ h => SameSeen.pure' h) fun m m' hm => ?_
  refine SameSeen.bind (SameSeen.whileR (R := fun p q => Len p.1 q.1 ∧ p.2 = q.2) ?_ ?_ ⟨rfl, rfl⟩)
    fun _ _ h => const_hash_same cfg h.1 false
  · rintro ⟨_, i⟩ ⟨_, i'⟩ ⟨hb, hi⟩
    dsimp only at *
    subst hi
    exact SameSeen.pure' (by rw [hb])
  · rintro ⟨w, i⟩ ⟨w', i'⟩ ⟨hw, hi⟩
    dsimp only at *
    subst hi
    rw [hm]
    repeat same_step

end Chf.Seen.Sha256
