import Verif.Model.Sha1
import Verif.Spec.Sha1
import Verif.Proofs.Bytes

/-!
# Lemmas: `sha1::process_block` computes the FIPS compression function
-/

namespace Chf.Sha1
open Spec

theorem schedule_length (M : List (BitVec 32)) (k : Nat) :
    (sha1Schedule M k).length = M.length + k := by
  induction k with
  | zero => rfl
  | succ k ih => simp only [sha1Schedule, List.length_append, ih]; simp; omega

/-- The body of the expansion loop, in terms of a prefix of the schedule. -/
theorem expand_step (M : List (BitVec 32)) (hM : M.length = 16) (k : Nat) (hk : k < 64) :
    (do
      let w := sha1Schedule M k ++ List.replicate (64 - k) 0
      let i := k + 16
      let x3 ← index w (i - 3)
      let x8 ← index w (i - 8)
      let x14 ← index w (i - 14)
      let x16 ← index w (i - 16)
      indexSet w i ((x3 ^^^ x8 ^^^ x14 ^^^ x16).rotateLeft 1) : Res (List (BitVec 32))) =
    .ok (sha1Schedule M (k + 1) ++ List.replicate (64 - (k + 1)) 0) := by
  have hl : (sha1Schedule M k).length = k + 16 := by rw [schedule_length]; omega
  have hi : ∀ j, j < k + 16 → index (sha1Schedule M k ++ List.replicate (64 - k) 0) j =
      .ok ((sha1Schedule M k).getD j 0) := by
    intro j hj
    have hj' : j < (sha1Schedule M k).length := by omega
    simp [index, List.getElem?_append_left hj', List.getD_eq_getElem?_getD,
      List.getElem?_eq_getElem hj']
  have hrep : (List.replicate (64 - k) (0 : BitVec 32)) = 0 :: List.replicate (64 - (k + 1)) 0 := by
    rw [← List.replicate_succ]; congr 1; omega
  simp only [show k + 16 - 3 = k + 13 by omega, show k + 16 - 8 = k + 8 by omega,
    show k + 16 - 14 = k + 2 by omega, show k + 16 - 16 = k by omega,
    hi (k + 13) (by omega), hi (k + 8) (by omega), hi (k + 2) (by omega), hi k (by omega),
    bind, Except.bind]
  unfold indexSet
  rw [if_pos (by simp [hl]; omega), hrep, List.set_append_right _ _ (by omega), hl,
    Nat.sub_self, List.set_cons_zero]
  simp [sha1Schedule]

theorem expand_eq (M : List (BitVec 32)) (hM : M.length = 16) :
    expand (M ++ List.replicate 64 0) = .ok (sha1Schedule M 64) := by
  have key : ∀ k, k ≤ 64 →
      ((List.range k).map (· + 16)).foldlM (init := M ++ List.replicate 64 (0 : BitVec 32)) (fun w i => do
        let x3 ← index w (i - 3)
        let x8 ← index w (i - 8)
        let x14 ← index w (i - 14)
        let x16 ← index w (i - 16)
        indexSet w i ((x3 ^^^ x8 ^^^ x14 ^^^ x16).rotateLeft 1)) =
      (.ok (sha1Schedule M k ++ List.replicate (64 - k) 0) : Res (List (BitVec 32))) := by
    intro k
    induction k with
    | zero => intro _; rfl
    | succ k ih =>
      intro hk
      rw [List.range_succ, List.map_append, List.foldlM_append, ih (by omega)]
      simp only [List.map_cons, List.map_nil, List.foldlM_cons, List.foldlM_nil]
      have := expand_step M hM k (by omega)
      simp only [bind_pure]
      exact this
  have := key 64 (Nat.le_refl _)
  rw [Nat.sub_self, List.replicate_zero, List.append_nil] at this
  exact this

theorem fk_eq (i : Nat) (hi : i < 80) (b c d : BitVec 32) :
    fk i b c d = .ok (sha1F i b c d, sha1K i) := by
  have h1 : ∀ x y z : BitVec 32, (x &&& y) ||| (~~~x &&& z) = (x &&& y) ^^^ (~~~x &&& z) := by
    intro x y z
    apply BitVec.eq_of_getLsbD_eq
    intro j hj
    simp only [BitVec.getLsbD_xor, BitVec.getLsbD_and, BitVec.getLsbD_or, BitVec.getLsbD_not, hj,
      decide_true]
    cases x.getLsbD j <;> cases y.getLsbD j <;> cases z.getLsbD j <;> rfl
  have h2 : ∀ x y z : BitVec 32, (x &&& y) ||| (x &&& z) ||| (y &&& z) =
      (x &&& y) ^^^ (x &&& z) ^^^ (y &&& z) := by
    intro x y z
    apply BitVec.eq_of_getLsbD_eq
    intro j hj
    simp only [BitVec.getLsbD_xor, BitVec.getLsbD_and, BitVec.getLsbD_or]
    cases x.getLsbD j <;> cases y.getLsbD j <;> cases z.getLsbD j <;> rfl
  unfold fk sha1F sha1K
  by_cases a1 : i < 20
  · rw [if_pos (by omega), if_pos a1, if_pos a1, h1]
  · rw [if_neg (by omega), if_neg a1, if_neg a1]
    by_cases a2 : i < 40
    · rw [if_pos (by omega), if_pos a2, if_pos a2]
    · rw [if_neg (by omega), if_neg a2, if_neg a2]
      by_cases a3 : i < 60
      · rw [if_pos (by omega), if_pos a3, if_pos a3, h2]
      · rw [if_neg (by omega), if_neg a3, if_neg a3, if_pos (by omega)]

theorem steps_eq (W : List (BitVec 32)) (v : Arr5 (BitVec 32)) (n : Nat) (hn : n ≤ 80)
    (hW : n ≤ W.length) :
    (W.take n).zipIdx.foldlM (fun s wi => step s wi.1 wi.2) v =
      .ok ((List.range n).foldl (fun v t => sha1Round W t v) v) := by
  induction n with
  | zero => rfl
  | succ n ih =>
    have hlt : n < W.length := by omega
    rw [List.take_succ_eq_append_getElem hlt, List.zipIdx_append, List.foldlM_append,
      ih (by omega) (by omega), List.range_succ, List.foldl_append]
    simp only [bind, Except.bind, List.length_take, Nat.min_eq_left (Nat.le_of_lt hlt),
      List.zipIdx_cons, List.zipIdx_nil, List.foldlM_cons, List.foldlM_nil, Nat.zero_add,
      List.foldl_cons, List.foldl_nil, step, fk_eq n (by omega), pure, Except.pure]
    simp [sha1Round, List.getD_eq_getElem?_getD, List.getElem?_eq_getElem hlt]

theorem processBlock_eq (c : Cfg) (buf : List Byte) (h : Arr5 (BitVec 32))
    (hl : buf.length = 64) : processBlock c buf h = .ok (compress1 h buf) := by
  have hw : (beWords 32 buf).length = 16 := by simp [hl]
  have hf := fill_beWords32 (List.replicate 80 0) buf (by simp [hl])
  rw [hl, List.drop_replicate] at hf
  have hd : debugAssert c (buf.length == blockSize) = .ok () := by
    simp [debugAssert, hl, blockSize]
  have hs := steps_eq (sha1Schedule (beWords 32 buf) 64) h 80 (Nat.le_refl _)
    (by rw [schedule_length, hw]; decide)
  rw [List.take_of_length_le (by rw [schedule_length, hw]; decide)] at hs
  unfold processBlock
  rw [hd, hf]
  simp only [bind, Except.bind, expand_eq _ hw, pure, Except.pure]
  rw [hs]
  rfl

end Chf.Sha1
