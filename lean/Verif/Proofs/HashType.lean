import Verif.Proofs.Hex

/-!
# Lemmas about hash values
-/

namespace Chf
open Spec

namespace HashTy
variable {s : Source}

theorem copyNew_eq {N : Nat} {sl : List Byte} (h : sl.length = N) : copyNew N sl = .ok ⟨sl, h⟩ := by
  simp [copyNew, h]

theorem fromSlice_ok (sl : List Byte) (h : sl.length = s.len) : fromSlice s sl = .ok (.ok ⟨⟨sl, h⟩⟩) := by
  cases s <;> simp only [Source.len] at h <;>
    simp only [fromSlice, h, ne_eq, not_true_eq_false, if_false, copyNew_eq h, bind, Except.bind, pure,
      Except.pure] <;> rfl

theorem fromSlice_err (sl : List Byte) (h : sl.length ≠ s.len) :
    fromSlice s sl = .ok (.error { expected := s.len, got := sl.length }) := by
  cases s <;> simp only [Source.len] at h <;>
    simp only [fromSlice, ne_eq, h, not_false_eq_true, if_true, Source.len]

theorem fmtHex_eq (f : Hex.Flags) (case : Hex.Case) (h : Hash s) :
    fmtHex f case h = .ok (Hex.padIntegral f (Hex.putBytes case h.inner.val)) := by
  have hl := h.inner.property
  cases s <;> simp only [Source.len] at hl <;>
    simp [fmtHex, Hex.fmtHexExact, assertR, hl, Hex.fmtByteSlice_eq, bind, Except.bind, pure, Except.pure]

theorem fromStr_ok (str : List Byte) (bs : Bytes s.len) (h : Hex.fromHex s.len str = .ok (.ok bs)) :
    fromStr s str = .ok (.ok ⟨bs⟩) := by
  cases s <;> (simp only [Source.len] at h; simp only [fromStr, h]; rfl)

theorem fromStr_err (str : List Byte) (e : Hex.Error) (h : Hex.fromHex s.len str = .ok (.error e)) :
    fromStr s str = .ok (.error e) := by
  cases s <;> (simp only [Source.len] at h; simp only [fromStr, h]; rfl)

/-- Parsing is reading a base-16 number. -/
theorem fromStr_iff (str : List Byte) (h : Hash s) :
    fromStr s str = .ok (.ok h) ↔
      str.length = 2 * s.len ∧ (∀ b ∈ str, IsHexDigit b) ∧ value16 str = beNat h.inner.val := by
  constructor
  · intro hp
    by_cases hl : str.length = 2 * s.len
    · by_cases hd : ∀ b ∈ str, IsHexDigit b
      · obtain ⟨bs, h1, h2⟩ := Hex.fromHex_ok s.len str hl hd
        rw [fromStr_ok str bs h1] at hp
        cases hp
        exact ⟨hl, hd, h2.symm⟩
      · obtain ⟨i, hi, hj, hb⟩ := Hex.first_bad str hd
        rw [fromStr_err str _ (Hex.fromHex_char s.len str hl i hi hj hb)] at hp
        cases hp
    · rw [fromStr_err str _ (Hex.fromHex_len s.len str hl)] at hp
      cases hp
  · rintro ⟨hl, hd, hv⟩
    obtain ⟨bs, h1, h2⟩ := Hex.fromHex_ok s.len str hl hd
    rw [fromStr_ok str bs h1]
    have : bs = h.inner := Subtype.ext (beNat_inj (by rw [bs.property, h.inner.property]) (h2.trans hv))
    rw [this]

/-- Parsing never panics. -/
theorem fromStr_total (str : List Byte) : ∃ r, fromStr s str = .ok r := by
  by_cases hl : str.length = 2 * s.len
  · by_cases hd : ∀ b ∈ str, IsHexDigit b
    · obtain ⟨bs, h1, -⟩ := Hex.fromHex_ok s.len str hl hd
      exact ⟨_, fromStr_ok str bs h1⟩
    · obtain ⟨i, hi, hj, hb⟩ := Hex.first_bad str hd
      exact ⟨_, fromStr_err str _ (Hex.fromHex_char s.len str hl i hi hj hb)⟩
  · exact ⟨_, fromStr_err str _ (Hex.fromHex_len s.len str hl)⟩

/-- The ordering of slices of one length is the ordering of numbers. -/
theorem eq_bytes (a b : Hash s) : HashTy.eq a b = (a.inner.val == b.inner.val) := by
  cases s <;> simp [HashTy.eq, derivedEq, fields]

theorem cmp_bytes (a b : Hash s) : cmp a b = cmpSlice a.inner.val b.inner.val := by
  cases s <;> simp only [cmp, derivedCmp, fields]
  all_goals cases cmpSlice a.inner.val b.inner.val <;> rfl

theorem partialCmp_eq (a b : Hash s) : partialCmp a b = some (cmp a b) := by
  rw [cmp_bytes]
  cases s <;> simp only [partialCmp, cmp, derivedPartialCmp, fields]
  all_goals cases cmpSlice a.inner.val b.inner.val <;> rfl

theorem cmpSlice_eq : (a b : List Byte) → a.length = b.length →
    cmpSlice a b = compare (beNat a) (beNat b)
  | [], [], _ => by decide
  | [], _ :: _, h => by simp at h
  | _ :: _, [], h => by simp at h
  | x :: xs, y :: ys, h => by
    have hl : xs.length = ys.length := by simpa using h
    have bx := beNat_lt xs
    have bys := beNat_lt ys
    rw [beNat_cons, beNat_cons, cmpSlice]
    rw [hl] at bx ⊢
    generalize hp : 256 ^ ys.length = p at *
    by_cases h1 : x < y
    · rw [if_pos h1]
      have h1' : x.toNat + 1 ≤ y.toNat := h1
      have h2 := Nat.mul_le_mul_right p h1'
      rw [Nat.add_mul, Nat.one_mul] at h2
      exact (Nat.compare_eq_lt.2 (by omega)).symm
    · rw [if_neg h1]
      by_cases h2 : y < x
      · rw [if_pos h2]
        have h2' : y.toNat + 1 ≤ x.toNat := h2
        have h3 := Nat.mul_le_mul_right p h2'
        rw [Nat.add_mul, Nat.one_mul] at h3
        exact (Nat.compare_eq_gt.2 (by omega)).symm
      · rw [if_neg h2, cmpSlice_eq xs ys hl]
        have h3 : x.toNat = y.toNat := by
          have a1 : ¬ x.toNat < y.toNat := h1
          have a2 : ¬ y.toNat < x.toNat := h2
          omega
        rw [h3]
        simp only [Nat.compare_eq_ite_lt]
        simp

end HashTy
end Chf
