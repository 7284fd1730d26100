import Verif.Proofs.Resume
import Verif.Proofs.Alg

/-!
# Lemmas: the rounds of the hash functions can be undone
-/

namespace Chf.Spec

/-- `f` takes every value exactly once. -/
def Bij {α β : Type} (f : α → β) : Prop := ∀ y, ∃ x, f x = y ∧ ∀ x', f x' = y → x' = x

theorem Bij.of_inv {α β : Type} {f : α → β} (g : β → α) (h1 : ∀ x, g (f x) = x) (h2 : ∀ y, f (g y) = y) :
    Bij f := fun y => ⟨g y, h2 y, fun x' hx => by rw [← hx, h1]⟩

theorem Bij.comp {α β γ : Type} {g : β → γ} {f : α → β} (hg : Bij g) (hf : Bij f) :
    Bij (fun x => g (f x)) := by
  intro z
  obtain ⟨y, hy, uy⟩ := hg z
  obtain ⟨x, hx, ux⟩ := hf y
  exact ⟨x, (by show g (f x) = z; rw [hx, hy]), fun x' h => ux x' (uy _ h)⟩

theorem Bij.inj {α β : Type} {f : α → β} (hf : Bij f) {x y : α} (h : f x = f y) : x = y := by
  obtain ⟨z, -, uz⟩ := hf (f y)
  rw [uz x h, uz y rfl]

theorem Bij.id {α : Type} : Bij (fun x : α => x) := .of_inv (fun x => x) (fun _ => rfl) (fun _ => rfl)

theorem Bij.foldl {α β : Type} {f : α → β → α} (hf : ∀ b, Bij (fun a => f a b)) :
    ∀ l : List β, Bij (fun a => l.foldl f a)
  | [] => .id
  | b :: l => Bij.comp (g := fun a => l.foldl f a) (Bij.foldl hf l) (hf b)

/-! ## SHA-2 -/

namespace Sha2
variable {w : Nat} (S : Sha2 w)

/-- The round backwards. -/
def unround (k wt : BitVec w) (v : Arr8 (BitVec w)) : Arr8 (BitVec w) :=
  let T1 := v.x0 - (S.S0 v.x1 + Maj v.x1 v.x2 v.x3)
  ⟨v.x1, v.x2, v.x3, v.x4 - T1, v.x5, v.x6, v.x7, T1 - (S.S1 v.x5 + Ch v.x5 v.x6 v.x7 + k + wt)⟩

theorem round_bij (k wt : BitVec w) : Bij (S.round k wt) := by
  refine .of_inv (S.unround k wt) (fun v => ?_) (fun v => ?_)
  · obtain ⟨a, b, c, d, e, f, g, h⟩ := v
    simp only [round, unround, Arr8.mk.injEq, true_and]
    constructor <;> grind
  · obtain ⟨a, b, c, d, e, f, g, h⟩ := v
    simp only [round, unround, Arr8.mk.injEq, true_and, and_true]
    constructor <;> grind

theorem roundsN_bij (W : List (BitVec w)) (n : Nat) : Bij (S.roundsN W n) :=
  Bij.foldl (f := fun v t => S.round (S.K.getD t 0) (W.getD t 0) v) (fun _ => S.round_bij _ _) _

theorem add_left_cancel {h a b : Arr8 (BitVec w)} (e : add h a = add h b) : a = b := by
  cases a; cases b
  simpa [add] using e

end Sha2

/-! ## SHA-1 -/

/-- The round backwards. -/
def sha1Unround (W : List (BitVec 32)) (t : Nat) (v : Arr5 (BitVec 32)) : Arr5 (BitVec 32) :=
  ⟨v.x1, v.x2.rotateRight 30, v.x3, v.x4,
   v.x0 - (v.x1.rotateLeft 5 + sha1F t (v.x2.rotateRight 30) v.x3 v.x4 + sha1K t + W.getD t 0)⟩

theorem rotateRight_rotateLeft {w : Nat} (x : BitVec w) (n : Nat) : (x.rotateLeft n).rotateRight n = x := by
  apply BitVec.eq_of_getLsbD_eq
  intro i hi
  have hn : n % w < w := Nat.mod_lt _ (by omega)
  simp only [BitVec.getLsbD_rotateRight, BitVec.getLsbD_rotateLeft, Bool.cond_eq_ite, decide_eq_true_eq]
  split
  · rw [if_neg (by omega)]
    simp only [show n % w + i < w by omega, decide_true, Bool.true_and, Nat.add_sub_cancel_left]
  · simp only [hi, decide_true, Bool.true_and]
    rw [if_pos (by omega)]
    congr 1
    omega

theorem rotateLeft_rotateRight {w : Nat} (x : BitVec w) (n : Nat) : (x.rotateRight n).rotateLeft n = x := by
  apply BitVec.eq_of_getLsbD_eq
  intro i hi
  have hn : n % w < w := Nat.mod_lt _ (by omega)
  simp only [BitVec.getLsbD_rotateRight, BitVec.getLsbD_rotateLeft, Bool.cond_eq_ite, decide_eq_true_eq]
  split
  · rw [if_neg (by omega)]
    simp only [show w - n % w + i < w by omega, decide_true, Bool.true_and, Nat.add_sub_cancel_left]
  · simp only [hi, decide_true, Bool.true_and]
    rw [if_pos (by omega)]
    congr 1
    omega

theorem sha1Round_bij (W : List (BitVec 32)) (t : Nat) : Bij (sha1Round W t) := by
  refine .of_inv (sha1Unround W t) (fun v => ?_) (fun v => ?_)
  · obtain ⟨a, b, c, d, e⟩ := v
    simp only [sha1Round, sha1Unround, Arr5.mk.injEq, true_and, rotateRight_rotateLeft]
    grind
  · obtain ⟨a, b, c, d, e⟩ := v
    simp only [sha1Round, sha1Unround, Arr5.mk.injEq, and_true, rotateLeft_rotateRight]
    grind

/-! ## SipHash -/

theorem xor_bij {w : Nat} (m : BitVec w) (x : BitVec w) : x ^^^ m ^^^ m = x := by
  rw [BitVec.xor_assoc, BitVec.xor_self, BitVec.xor_zero]

/-- The round backwards. -/
def sipUnround (s : Sip) : Sip :=
  let v2 := s.v2.rotateRight 32
  let v3 := (s.v3 ^^^ s.v0).rotateRight 21
  let v1 := (s.v1 ^^^ v2).rotateRight 17
  let v0 := s.v0 - v3
  let v2 := v2 - v1
  let v0 := v0.rotateRight 32
  let v3 := (v3 ^^^ v2).rotateRight 16
  let v1 := (v1 ^^^ v0).rotateRight 13
  ⟨v0 - v1, v1, v2 - v3, v3⟩

theorem sipRound_bij : Bij sipRound := by
  refine .of_inv sipUnround (fun v => ?_) (fun v => ?_)
  · obtain ⟨a, b, c, d⟩ := v
    simp only [sipRound, sipUnround, rotateRight_rotateLeft, xor_bij, BitVec.add_sub_cancel]
  · obtain ⟨a, b, c, d⟩ := v
    simp only [sipRound, sipUnround, rotateLeft_rotateRight, xor_bij, BitVec.sub_add_cancel]

theorem sipAbsorb_bij (m : BitVec 64) : Bij (fun s => sipAbsorb s m) := by
  have h3 : Bij (fun s : Sip => { s with v3 := s.v3 ^^^ m }) :=
    .of_inv (fun s : Sip => { s with v3 := s.v3 ^^^ m }) (fun s => by simp only [xor_bij])
      (fun s => by simp only [xor_bij])
  have h0 : Bij (fun s : Sip => { s with v0 := s.v0 ^^^ m }) :=
    .of_inv (fun s : Sip => { s with v0 := s.v0 ^^^ m }) (fun s => by simp only [xor_bij])
      (fun s => by simp only [xor_bij])
  exact h0.comp (sipRound_bij.comp (sipRound_bij.comp h3))

theorem sipInit_inj {k0 k1 k0' k1' : BitVec 64} (h : sipInit k0 k1 = sipInit k0' k1') :
    k0 = k0' ∧ k1 = k1' := by
  simp only [sipInit, Sip.mk.injEq] at h
  obtain ⟨h0, h1, -, -⟩ := h
  have a := congrArg (· ^^^ (beWords 64 sipAscii).getD 0 0) h0
  have b := congrArg (· ^^^ (beWords 64 sipAscii).getD 1 0) h1
  simp only [xor_bij] at a b
  exact ⟨a, b⟩

end Chf.Spec
