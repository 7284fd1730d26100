import Verif.Model.Ripemd160
import Verif.Spec.Ripemd160
import Verif.Proofs.Bytes

/-!
# Lemmas: `ripemd160::process_block` computes the RIPEMD-160 compression function
-/

namespace Chf.Ripemd160
open Spec

/-- Array index used in position `k` by step `t`. -/
def pos (t k : Nat) : Fin 5 := Fin.ofNat 5 (k + 4 * (t % 5))

/-- The line expected in step `t` of a line of computation that uses message word `r t`. -/
def pat (r : Nat → Nat) (t : Nat) : RLine where
  i0 := pos t 0
  i1 := pos t 1
  i2 := pos t 2
  i3 := pos t 3
  i4 := pos t 4
  d := Fin.ofNat 16 (r t)
  s := rmdShift (t / 16) (r t)

/-- The variables `A .. E` of the specification, read off the array before step `t`. -/
def view (t : Nat) (b : Arr5 (BitVec 32)) : Arr5 (BitVec 32) :=
  ⟨get b (pos t 0), get b (pos t 1), get b (pos t 2), get b (pos t 3), get b (pos t 4)⟩

theorem view_zero (b : Arr5 (BitVec 32)) : view 0 b = b := rfl

theorem pos_mod (t k : Nat) : pos t k = pos (t % 5) k := by simp [pos]

theorem view_step (c : Cfg) (t : Nat) (b : Arr5 (BitVec 32)) (d : Fin 16) (s : Nat)
    (f : BitVec 32 → BitVec 32 → BitVec 32 → BitVec 32) (x add : BitVec 32) :
    view (t + 1) (round c b ⟨pos t 0, pos t 1, pos t 2, pos t 3, pos t 4, d, s⟩ x add
        (f (get b (pos t 1)) (get b (pos t 2)) (get b (pos t 3)))) =
      rmdStep f x add s (view t b) := by
  have hv : ∀ t b, view t b = view (t % 5) b := by
    intro t b; simp only [view, pos_mod t]
  rw [hv (t + 1), hv t]
  simp only [pos_mod t]
  have h5 : t % 5 < 5 := Nat.mod_lt _ (by omega)
  rw [show (t + 1) % 5 = (t % 5 + 1) % 5 by omega]
  generalize t % 5 = q at h5
  obtain ⟨a0, a1, a2, a3, a4⟩ := b
  unfold round
  cases c.smallHash
  · match q, h5 with
    | 0, _ => rfl
    | 1, _ => rfl
    | 2, _ => rfl
    | 3, _ => rfl
    | 4, _ => rfl
  · match q, h5 with
    | 0, _ => rfl
    | 1, _ => rfl
    | 2, _ => rfl
    | 3, _ => rfl
    | 4, _ => rfl

/-- `n` consecutive steps starting with step `s`. -/
theorem rounds_run (c : Cfg) (w : Vector (BitVec 32) 16) (X : List (BitVec 32))
    (hX : ∀ i : Fin 16, w[i] = X.getD i.val 0) (r : Nat → Nat) (hr : ∀ t, r t < 16)
    (add : BitVec 32) (f : BitVec 32 → BitVec 32 → BitVec 32 → BitVec 32)
    (n s : Nat) (b : Arr5 (BitVec 32)) :
    view (s + n) (rounds c w add f ((List.range' s n).map (pat r)) b) =
      (List.range' s n).foldl
        (fun v t => rmdStep f (X.getD (r t) 0) add (rmdShift (t / 16) (r t)) v) (view s b) := by
  induction n generalizing s b with
  | zero => rfl
  | succ n ih =>
    rw [List.range'_succ, List.map_cons, rounds, List.foldl_cons, List.foldl_cons]
    have := ih (s + 1) (round c b (pat r s) w[(pat r s).d] add
      (f (get b (pat r s).i1) (get b (pat r s).i2) (get b (pat r s).i3)))
    rw [rounds, show s + 1 + n = s + (n + 1) by omega] at this
    rw [this]
    congr 1
    have hd : w[(pat r s).d] = X.getD (r s) 0 := by
      rw [hX]; congr 1; exact Nat.mod_eq_of_lt (hr s)
    rw [hd]
    exact view_step c s b _ _ f _ add

theorem lines_left : round1 = (List.range' 0 16).map (pat rmdR) ∧
    round2 = (List.range' 16 16).map (pat rmdR) ∧ round3 = (List.range' 32 16).map (pat rmdR) ∧
    round4 = (List.range' 48 16).map (pat rmdR) ∧ round5 = (List.range' 64 16).map (pat rmdR) := by
  decide

theorem lines_right : parRound1 = (List.range' 0 16).map (pat rmdR') ∧
    parRound2 = (List.range' 16 16).map (pat rmdR') ∧
    parRound3 = (List.range' 32 16).map (pat rmdR') ∧
    parRound4 = (List.range' 48 16).map (pat rmdR') ∧
    parRound5 = (List.range' 64 16).map (pat rmdR') := by decide

theorem rho_lt (i : Nat) : rmdRho i < 16 := by
  unfold rmdRho
  by_cases h : i < 16
  · revert i; decide
  · rw [List.getD_eq_getElem?_getD, List.getElem?_eq_none (by simpa using h)]; decide

theorem rhoN_lt (n i : Nat) (h : i < 16) : rmdRhoN n i < 16 := by
  cases n with
  | zero => exact h
  | succ n => exact rho_lt _

theorem rmdR_lt (t : Nat) : rmdR t < 16 := rhoN_lt _ _ (Nat.mod_lt _ (by omega))
theorem rmdR'_lt (t : Nat) : rmdR' t < 16 := rhoN_lt _ _ (Nat.mod_lt _ (by omega))

theorem foldl_congr_mem {α β : Type} (l : List α) (g h : β → α → β) (b : β)
    (H : ∀ v t, t ∈ l → g v t = h v t) : l.foldl g b = l.foldl h b := by
  induction l generalizing b with
  | nil => rfl
  | cons a l ih =>
    rw [List.foldl_cons, List.foldl_cons, H _ _ (List.mem_cons_self ..)]
    exact ih _ fun v t ht => H v t (List.mem_cons_of_mem _ ht)

/-- One group of sixteen steps of the left line. -/
theorem left_group (c : Cfg) (w : Vector (BitVec 32) 16) (X : List (BitVec 32))
    (hX : ∀ i : Fin 16, w[i] = X.getD i.val 0) (q : Nat) (b : Arr5 (BitVec 32)) :
    view (16 * q + 16) (rounds c w (rmdK q) (rmdF q) ((List.range' (16 * q) 16).map (pat rmdR)) b) =
      (List.range' (16 * q) 16).foldl (rmdLeft X) (view (16 * q) b) := by
  rw [rounds_run c w X hX rmdR rmdR_lt]
  apply foldl_congr_mem
  intro v t ht
  rw [List.mem_range'_1] at ht
  have : t / 16 = q := by omega
  rw [rmdLeft, this]

theorem right_group (c : Cfg) (w : Vector (BitVec 32) 16) (X : List (BitVec 32))
    (hX : ∀ i : Fin 16, w[i] = X.getD i.val 0) (q : Nat) (b : Arr5 (BitVec 32)) :
    view (16 * q + 16)
        (rounds c w (rmdK' q) (rmdF (4 - q)) ((List.range' (16 * q) 16).map (pat rmdR')) b) =
      (List.range' (16 * q) 16).foldl (rmdRight X) (view (16 * q) b) := by
  rw [rounds_run c w X hX rmdR' rmdR'_lt]
  apply foldl_congr_mem
  intro v t ht
  rw [List.mem_range'_1] at ht
  have : t / 16 = q := by omega
  rw [rmdRight, this]

theorem view80 (b : Arr5 (BitVec 32)) : view 80 b = b := rfl

/-- The first `q` groups of the left line. -/
def leftGroups (c : Cfg) (w : Vector (BitVec 32) 16) (h : Arr5 (BitVec 32)) : Nat → Arr5 (BitVec 32)
  | 0 => h
  | q + 1 => rounds c w (rmdK q) (rmdF q) ((List.range' (16 * q) 16).map (pat rmdR)) (leftGroups c w h q)

/-- The first `q` groups of the right line. -/
def rightGroups (c : Cfg) (w : Vector (BitVec 32) 16) (h : Arr5 (BitVec 32)) : Nat → Arr5 (BitVec 32)
  | 0 => h
  | q + 1 => rounds c w (rmdK' q) (rmdF (4 - q)) ((List.range' (16 * q) 16).map (pat rmdR'))
      (rightGroups c w h q)

theorem leftGroups_eq (c : Cfg) (w : Vector (BitVec 32) 16) (X : List (BitVec 32))
    (hX : ∀ i : Fin 16, w[i] = X.getD i.val 0) (h : Arr5 (BitVec 32)) (q : Nat) :
    view (16 * q) (leftGroups c w h q) = (List.range (16 * q)).foldl (rmdLeft X) h := by
  induction q with
  | zero => rfl
  | succ q ih =>
    rw [leftGroups, Nat.mul_succ, left_group c w X hX q, ih, List.range_eq_range',
      List.range_eq_range', ← List.foldl_append]
    congr 1
    have := List.range'_append (s := 0) (m := 16 * q) (n := 16) (step := 1)
    simpa using this

theorem rightGroups_eq (c : Cfg) (w : Vector (BitVec 32) 16) (X : List (BitVec 32))
    (hX : ∀ i : Fin 16, w[i] = X.getD i.val 0) (h : Arr5 (BitVec 32)) (q : Nat) :
    view (16 * q) (rightGroups c w h q) = (List.range (16 * q)).foldl (rmdRight X) h := by
  induction q with
  | zero => rfl
  | succ q ih =>
    rw [rightGroups, Nat.mul_succ, right_group c w X hX q, ih, List.range_eq_range',
      List.range_eq_range', ← List.foldl_append]
    congr 1
    have := List.range'_append (s := 0) (m := 16 * q) (n := 16) (step := 1)
    simpa using this

theorem rmdF_eq : rmdF 0 = fn1 ∧ rmdF 1 = fn2 ∧ rmdF 2 = fn3 ∧ rmdF 3 = fn4 ∧ rmdF 4 = fn5 :=
  ⟨rfl, rfl, rfl, rfl, rfl⟩

theorem rmdK_eq : rmdK 0 = 0x00000000 ∧ rmdK 1 = 0x5a827999 ∧ rmdK 2 = 0x6ed9eba1 ∧
    rmdK 3 = 0x8f1bbcdc ∧ rmdK 4 = 0xa953fd4e := by decide

theorem rmdK'_eq : rmdK' 0 = 0x50a28be6 ∧ rmdK' 1 = 0x5c4dd124 ∧ rmdK' 2 = 0x6d703ef3 ∧
    rmdK' 3 = 0x7a6d76e9 ∧ rmdK' 4 = 0x00000000 := by decide

theorem processBlockMacro_eq (c : Cfg) (h : Arr5 (BitVec 32)) (w : Vector (BitVec 32) 16)
    (X : List (BitVec 32)) (hX : ∀ i : Fin 16, w[i] = X.getD i.val 0) :
    processBlockMacro c h w =
      (let l := (List.range 80).foldl (rmdLeft X) h
       let r := (List.range 80).foldl (rmdRight X) h
       ⟨h.x1 + l.x2 + r.x3, h.x2 + l.x3 + r.x4, h.x3 + l.x4 + r.x0, h.x4 + l.x0 + r.x1,
        h.x0 + l.x1 + r.x2⟩) := by
  obtain ⟨f0, f1, f2, f3, f4⟩ := rmdF_eq
  obtain ⟨k0, k1, k2, k3, k4⟩ := rmdK_eq
  obtain ⟨q0, q1, q2, q3, q4⟩ := rmdK'_eq
  obtain ⟨e1, e2, e3, e4, e5⟩ := lines_left
  obtain ⟨p1, p2, p3, p4, p5⟩ := lines_right
  have hl : rounds c w 0xa953fd4e fn5 round5 (rounds c w 0x8f1bbcdc fn4 round4
      (rounds c w 0x6ed9eba1 fn3 round3 (rounds c w 0x5a827999 fn2 round2
        (rounds c w 0x00000000 fn1 round1 h)))) = (List.range 80).foldl (rmdLeft X) h := by
    rw [e1, e2, e3, e4, e5]
    have := leftGroups_eq c w X hX h 5
    simp only [leftGroups, k0, k1, k2, k3, k4, f0, f1, f2, f3, f4, Nat.reduceMul, view80] at this
    exact this
  have hr : rounds c w 0x00000000 fn1 parRound5 (rounds c w 0x7a6d76e9 fn2 parRound4
      (rounds c w 0x6d703ef3 fn3 parRound3 (rounds c w 0x5c4dd124 fn4 parRound2
        (rounds c w 0x50a28be6 fn5 parRound1 h)))) = (List.range 80).foldl (rmdRight X) h := by
    rw [p1, p2, p3, p4, p5]
    have := rightGroups_eq c w X hX h 5
    simp only [rightGroups, q0, q1, q2, q3, q4, Nat.reduceSub, f0, f1, f2, f3, f4, Nat.reduceMul,
      view80] at this
    exact this
  unfold processBlockMacro
  simp only [add1, add2, add3, add4, add5, parAdd1, parAdd2, parAdd3, parAdd4, parAdd5, hl, hr]
  generalize (List.range 80).foldl (rmdLeft X) h = l
  generalize (List.range 80).foldl (rmdRight X) h = r
  obtain ⟨h0, h1, h2, h3, h4⟩ := h
  simp only [get, set]
  congr 1
  ac_rfl

theorem processBlock_eq (c : Cfg) (buf : List Byte) (h : Arr5 (BitVec 32))
    (hl : buf.length = 64) : processBlock c buf h = .ok (compressRmd h buf) := by
  have hw : (leWords 32 buf).length = 16 := by simp [hl]
  have hf := fill_leWords32 (List.replicate 16 0) buf (by simp [hl])
  rw [hl, List.drop_replicate, Nat.sub_self, List.replicate_zero, List.append_nil] at hf
  have hd : debugAssert c (buf.length == blockSize) = .ok () := by
    simp [debugAssert, hl, blockSize]
  unfold processBlock
  rw [hd, hf]
  simp only [bind, Except.bind, arr16, dif_pos hw, pure, Except.pure]
  rw [processBlockMacro_eq c h _ (leWords 32 buf), compressRmd]
  intro i
  simp [List.getD_eq_getElem?_getD, List.getElem?_eq_getElem (show i.val < (leWords 32 buf).length by omega)]

end Chf.Ripemd160
