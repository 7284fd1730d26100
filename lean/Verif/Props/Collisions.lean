import Mathlib.Data.Fintype.Pigeonhole
import Verif.Props.Padding
import Verif.Props.Conformance

/-!
# The hypotheses of C49 are met

No colliding messages can be written down for sha256, sha512 and ripemd160, but they exist: there are
more messages of 65 bytes than digests.
-/

namespace Chf.Props
open Spec

/-- Colliding messages of 65 bytes exist for every hash function without a tag or key. -/
theorem collisions_exist {c : Cfg} (h64 : c.usizeBits = 64) (a : Alg) (ha : plain a = true) :
    ∃ m m' d, m ≠ m' ∧ m.length = 65 ∧ m'.length = 65 ∧ (a.engine c).hash m = .ok d ∧
      (a.engine c).hash m' = .ok d := by
  have ok : a.Ok c := by cases a <;> first | (cases ha; done) | trivial
  have hs : a.slack = 0 := by cases a <;> first | (cases ha; done) | rfl
  have hb : a.base = 0 := by cases a <;> first | (cases ha; done) | rfl
  have ho : a.outLen ≤ 64 := by cases a <;> first | (cases ha; done) | decide
  have hash : ∀ m : List Byte, m.length = 65 → (a.engine c).hash m = .ok (a.hashSpec m) := by
    intro m hm
    have := (on64 h64 a ok hs hb [m] (by rw [List.flatten_singleton, hm]; decide)).2
    rwa [List.flatten_singleton] at this
  have hlt : ∀ m, beNat (a.hashSpec m) < 256 ^ 64 := fun m => by
    refine Nat.lt_of_lt_of_le (beNat_lt _) (Nat.pow_le_pow_right (by decide) ?_)
    rw [Alg.hashSpec_length]; exact ho
  obtain ⟨x, y, hxy, he⟩ := Fintype.exists_ne_map_eq_of_card_lt
    (fun i : Fin (256 ^ 65) => (⟨beNat (a.hashSpec (beBytes 65 i.1)), hlt _⟩ : Fin (256 ^ 64)))
    (by rw [Fintype.card_fin, Fintype.card_fin]; exact Nat.pow_lt_pow_right (by decide) (by decide))
  have he : beNat (a.hashSpec (beBytes 65 x.1)) = beNat (a.hashSpec (beBytes 65 y.1)) :=
    congrArg Fin.val he
  have hd : a.hashSpec (beBytes 65 x.1) = a.hashSpec (beBytes 65 y.1) := by
    rw [← beBytes_beNat (a.hashSpec (beBytes 65 x.1)), he, Alg.hashSpec_length,
      ← Alg.hashSpec_length a (beBytes 65 y.1), beBytes_beNat]
  refine ⟨beBytes 65 x.1, beBytes 65 y.1, _, fun h => hxy (Fin.ext (beBytes_inj x.2 y.2 h)),
    length_beBytes _ _, length_beBytes _ _, hash _ (length_beBytes _ _), ?_⟩
  rw [hd]
  exact hash _ (length_beBytes _ _)

/-- So the hypotheses of `C49_collision` can be met. -/
theorem C49_collision_instance (a : Alg) (ha : untruncated a = true) :
    ∃ X m m', a.blockHash .release64 = some X ∧ m ≠ m' ∧ RunsCollide .release64 X [m] [m'] := by
  have hp : plain a = true := by cases a <;> first | (cases ha; done) | rfl
  obtain ⟨X, hX⟩ : ∃ X, a.blockHash .release64 = some X := by
    cases a <;> first | (cases ha; done) | exact ⟨_, rfl⟩
  obtain ⟨m, m', d, hne, hl, hl', hd, hd'⟩ := collisions_exist (c := .release64) rfl a hp
  have f : ∀ x : List Byte, [x].flatten = x := fun _ => List.flatten_singleton
  exact ⟨X, m, m', hX, hne, C49_collision (by decide) a ha X hX [m] [m'] d
    (by rw [f, hl]; decide) (by rw [f, hl']; decide) (by rw [f, hl]; decide) (by rw [f, hl']; decide)
    (by rw [← Lawful.hash_eq_chunks]; exact hd) (by rw [← Lawful.hash_eq_chunks]; exact hd')
    (by rw [f, f]; exact hne)⟩

end Chf.Props
