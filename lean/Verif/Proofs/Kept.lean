import Verif.Spec.Kept
import Verif.Proofs.BlockEngine

/-!
# What `input` leaves in the buffer
-/

namespace Chf.Spec
variable {B p q : Nat} {old mid new m n : List Byte}

theorem Kept.nil (B p : Nat) (old : List Byte) : Kept B p old [] old :=
  ⟨rfl, fun _ h => absurd h (Nat.not_lt_zero _), fun _ _ _ => rfl⟩

theorem Kept.mod (h : p % B = q % B) (k : Kept B p old m new) : Kept B q old m new := by
  have e : ∀ j, (p + j) % B = (q + j) % B := fun j => by rw [Nat.add_mod, h, ← Nat.add_mod]
  refine ⟨k.1, fun j hj hb => ?_, fun i hi hn => k.2.2 i hi fun j hj => ?_⟩
  · rw [← e]; exact k.2.1 j hj hb
  · rw [e]; exact hn j hj

theorem mod_ne {a b : Nat} (h1 : a < b) (h2 : b < a + B) : a % B ≠ b % B := by
  intro h
  have h3 : (b - a) % B = 0 := by
    have := Nat.sub_mod_eq_zero_of_mod_eq h.symm
    exact this
  rw [Nat.mod_eq_of_lt (by omega)] at h3
  omega

theorem Kept.append (k : Kept B p old m mid) (k' : Kept B (p + m.length) mid n new) :
    Kept B p old (m ++ n) new := by
  refine ⟨k'.1.trans k.1, fun j hj hb => ?_, fun i hi hn => ?_⟩
  · rw [List.length_append] at hj hb
    by_cases h : j < m.length
    · rw [List.getElem_append_left h, ← k.2.1 j h (by omega)]
      have hB : 0 < B := by
        rcases Nat.eq_zero_or_pos B with rfl | h0
        · omega
        · exact h0
      refine k'.2.2 _ (Nat.mod_lt _ hB) fun j' hj' => ?_
      exact Ne.symm (mod_ne (by omega) (by omega))
    · rw [List.getElem_append_right (by omega), ← k'.2.1 (j - m.length) (by omega) (by omega)]
      congr 2
      omega
  · rw [List.length_append] at hn
    refine (k'.2.2 i hi fun j hj => ?_).trans (k.2.2 i hi fun j hj => hn j (by omega))
    have := hn (m.length + j) (by omega)
    rwa [← Nat.add_assoc] at this

/-- One copy that does not go round. -/
theorem Kept.copy {i : Nat} (hi : p % B = i) (hB : i + m.length ≤ B) (hl : i + m.length ≤ old.length) :
    Kept B p old m (old.take i ++ m ++ old.drop (i + m.length)) := by
  by_cases h0 : m.length = 0
  · have : m = [] := List.length_eq_zero_iff.1 h0
    subst this
    have e : old.take i ++ [] ++ old.drop (i + ([] : List Byte).length) = old := by simp
    rw [e]
    exact Kept.nil B p old
  have at' : ∀ j < m.length, (p + j) % B = i + j := fun j hj => by
    rw [Nat.add_mod, hi]
    have hj' : j % B = j := Nat.mod_eq_of_lt (by omega)
    rw [hj']
    exact Nat.mod_eq_of_lt (by omega)
  refine ⟨by simp; omega, fun j hj _ => ?_, fun k hk hn => ?_⟩
  · rw [at' j hj, List.getElem?_append_left (by simp; omega), List.getElem?_append_right (by simp; omega),
      List.length_take, Nat.min_eq_left (by omega), Nat.add_sub_cancel_left]
    exact List.getElem?_eq_getElem hj
  · by_cases h1 : k < i
    · rw [List.getElem?_append_left (by simp; omega), List.getElem?_append_left (by simp; omega),
        List.getElem?_take_of_lt h1]
    · have h2 : i + m.length ≤ k := by
        refine Nat.le_of_not_lt fun h2 => ?_
        refine hn (k - i) (by omega) ?_
        rw [at' _ (by omega)]
        omega
      rw [List.getElem?_append_right (by simp; omega), List.getElem?_drop]
      congr 1
      simp
      omega

end Chf.Spec

namespace Chf.BlockEngine
open Chf Chf.Spec
variable {H : Type}

theorem okBind {α β : Type} (a : α) (f : α → Res β) : ((Except.ok a : Res α) >>= f) = f a := rfl

theorem bindOk {α β : Type} {x : Res α} {f : α → Res β} {b : β} (h : (x >>= f) = .ok b) :
    ∃ a, x = .ok a ∧ f a = .ok b := by
  cases x with
  | error e => cases h
  | ok a => exact ⟨a, rfl, h⟩

/-- `input` writes to the buffer, round and round, and counts. -/
theorem inputLoop_kept {c : Cfg} {ops : BlockOps H} (h0 : 0 < ops.B) (hd : ops.B ∣ c.usizeMod)
    (hm : ops.B < c.usizeMod) :
    ∀ (fuel : Nat) (e : BlockEngine H) (inp : List Byte) {e' : BlockEngine H},
      inputLoop c ops fuel e inp = .ok e' →
      Kept ops.B e.length e.buffer inp e'.buffer ∧ e'.length % ops.B = (e.length + inp.length) % ops.B := by
  intro fuel
  induction fuel with
  | zero =>
    intro e inp e' h
    cases inp with
    | nil => cases h; exact ⟨Kept.nil _ _ _, rfl⟩
    | cons b bs => cases h
  | succ fuel ih =>
    intro e inp e' h
    cases inp with
    | nil => cases h; exact ⟨Kept.nil _ _ _, rfl⟩
    | cons b bs =>
      have hx : e.length % ops.B < ops.B := Nat.mod_lt _ h0
      obtain ⟨w, hw⟩ : ∃ w, w = min (ops.B - e.length % ops.B) (b :: bs).length := ⟨_, rfl⟩
      have w1 : w ≤ ops.B - e.length % ops.B := by omega
      have w2 : w ≤ (b :: bs).length := by omega
      unfold inputLoop at h
      simp only [subUsize, if_pos (Nat.le_of_lt hx)] at h
      simp only [okBind, ← hw] at h
      rw [addUsize, if_pos (by omega), okBind, sliceTo, if_pos w2, okBind] at h
      obtain ⟨buf, h1, h⟩ := bindOk h
      obtain ⟨len, h2, h⟩ := bindOk h
      obtain ⟨e1, he1, hr⟩ : ∃ e1 : BlockEngine H, (e1.buffer = buf ∧ e1.length = len) ∧
          inputLoop c ops fuel e1 ((b :: bs).drop w) = .ok e' := by
        rw [sliceFrom, if_pos w2] at h
        split at h
        · obtain ⟨e1, h3, h⟩ := bindOk h
          unfold processBlock at h3
          obtain ⟨x, -, h3⟩ := bindOk h3
          cases h3
          exact ⟨_, ⟨rfl, rfl⟩, h⟩
        · exact ⟨_, ⟨rfl, rfl⟩, h⟩
      have lt : ((b :: bs).take w).length = w := by rw [List.length_take]; omega
      unfold copyIntoRange at h1
      by_cases hc : e.length % ops.B ≤ e.length % ops.B + w ∧ e.length % ops.B + w ≤ e.buffer.length
      · rw [if_pos hc, if_pos (by omega)] at h1
        cases h1
        have hl : len % ops.B = (e.length + w) % ops.B := by
          unfold addUsize at h2
          split at h2
          · cases h2; rfl
          · split at h2
            · cases h2
            · cases h2; exact Nat.mod_mod_of_dvd _ hd
        obtain ⟨k, l⟩ := ih _ _ hr
        have k0 := Kept.copy (B := ops.B) (p := e.length) (m := (b :: bs).take w) (old := e.buffer) rfl
          (by rw [lt]; omega) (by rw [lt]; omega)
        rw [lt, ← he1.1] at k0
        rw [he1.2] at k l
        have k1 := k0.append (k.mod (q := e.length + ((b :: bs).take w).length) (by rw [lt]; exact hl))
        rw [List.take_append_drop] at k1
        refine ⟨k1, l.trans ?_⟩
        rw [List.length_drop, Nat.add_mod, hl, ← Nat.add_mod]
        congr 1
        omega
      · rw [if_neg hc] at h1
        cases h1

end Chf.BlockEngine
