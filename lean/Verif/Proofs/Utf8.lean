import Verif.Model.Serde
import Verif.Spec.Utf8

/-!
# `str::from_utf8` accepts exactly UTF-8
-/

namespace Chf.HashTy
open Spec

theorem byte_le {a b : Byte} : a ≤ b ↔ a.toNat ≤ b.toNat := BitVec.le_def

theorem byte_eq {a : Byte} {n : Nat} (h : a.toNat = n) : a = .ofNat 8 n := by
  subst h; simp

theorem utf8Valid_char (n : Nat) (h : IsScalar n) (rest : List Byte) :
    utf8Valid (utf8Char n ++ rest) = utf8Valid rest := by
  unfold IsScalar at h
  unfold utf8Char
  split
  · rw [List.cons_append, List.nil_append, utf8Valid.eq_def]
    dsimp only
    simp only [byte_le, BitVec.toNat_ofNat, Nat.reducePow, BitVec.reduceToNat]
    rw [if_pos (by omega)]
  split
  · simp only [List.cons_append, List.nil_append]
    rw [utf8Valid.eq_def]
    dsimp only
    simp only [byte_le, BitVec.toNat_ofNat, Nat.reducePow, BitVec.reduceToNat, Bool.and_eq_true, decide_eq_true_eq]
    rw [if_neg (by omega), if_pos (by omega)]
    rw [decide_eq_true (by omega), decide_eq_true (by omega)]
    rfl
  split
  · simp only [List.cons_append, List.nil_append]
    rw [utf8Valid.eq_def]
    dsimp only
    simp only [byte_le, BitVec.toNat_ofNat, Nat.reducePow, BitVec.reduceToNat, Bool.and_eq_true, decide_eq_true_eq]
    rw [if_neg (by omega), if_neg (by omega), if_pos (by omega)]
    rw [decide_eq_true (by omega), decide_eq_true (by omega), decide_eq_true (by omega),
      decide_eq_true (by omega)]
    have e1 : (BitVec.ofNat 8 (0xe0 + n / 4096) == (0xe0 : Byte) &&
        decide ((0x80 + n / 64 % 64) % 256 ≤ 159)) = false := by
      rw [Bool.and_eq_false_iff, beq_eq_false_iff_ne, decide_eq_false_iff_not, ne_eq, ← BitVec.toNat_inj]
      simp only [BitVec.toNat_ofNat, Nat.reducePow, BitVec.reduceToNat]
      omega
    have e2 : (BitVec.ofNat 8 (0xe0 + n / 4096) == (0xed : Byte) &&
        decide (160 ≤ (0x80 + n / 64 % 64) % 256)) = false := by
      rw [Bool.and_eq_false_iff, beq_eq_false_iff_ne, decide_eq_false_iff_not, ne_eq, ← BitVec.toNat_inj]
      simp only [BitVec.toNat_ofNat, Nat.reducePow, BitVec.reduceToNat]
      omega
    rw [e1, e2]
    rfl
  · simp only [List.cons_append, List.nil_append]
    rw [utf8Valid.eq_def]
    dsimp only
    simp only [byte_le, BitVec.toNat_ofNat, Nat.reducePow, BitVec.reduceToNat, Bool.and_eq_true, decide_eq_true_eq]
    rw [if_neg (by omega), if_neg (by omega), if_neg (by omega), if_pos (by omega)]
    rw [decide_eq_true (by omega), decide_eq_true (by omega), decide_eq_true (by omega),
      decide_eq_true (by omega), decide_eq_true (by omega), decide_eq_true (by omega)]
    have e1 : (BitVec.ofNat 8 (0xf0 + n / 262144) == (0xf0 : Byte) &&
        decide ((0x80 + n / 4096 % 64) % 256 ≤ 143)) = false := by
      rw [Bool.and_eq_false_iff, beq_eq_false_iff_ne, decide_eq_false_iff_not, ne_eq, ← BitVec.toNat_inj]
      simp only [BitVec.toNat_ofNat, Nat.reducePow, BitVec.reduceToNat]
      omega
    have e2 : (BitVec.ofNat 8 (0xf0 + n / 262144) == (0xf4 : Byte) &&
        decide (144 ≤ (0x80 + n / 4096 % 64) % 256)) = false := by
      rw [Bool.and_eq_false_iff, beq_eq_false_iff_ne, decide_eq_false_iff_not, ne_eq, ← BitVec.toNat_inj]
      simp only [BitVec.toNat_ofNat, Nat.reducePow, BitVec.reduceToNat]
      omega
    rw [e1, e2]
    rfl

/-- One character at the front. -/
theorem utf8Valid_cons (v : List Byte) (hv : v ≠ []) (h : utf8Valid v = true) :
    ∃ n rest, IsScalar n ∧ v = utf8Char n ++ rest ∧ utf8Valid rest = true := by
  cases v with
  | nil => exact absurd rfl hv
  | cons a rest =>
    have ha := a.isLt
    rw [utf8Valid.eq_def] at h
    dsimp only at h
    simp only [byte_le, BitVec.reduceToNat, Bool.and_eq_true,
      decide_eq_true_eq] at h
    split at h
    · refine ⟨a.toNat, rest, .inl (by omega), ?_, h⟩
      rw [utf8Char, if_pos (by omega), ← byte_eq rfl]; rfl
    split at h
    · cases rest with
      | nil => cases h
      | cons b rest =>
        have hb := b.isLt
        simp only [Bool.and_eq_true, decide_eq_true_eq] at h
        refine ⟨(a.toNat - 0xc0) * 64 + (b.toNat - 0x80), rest, .inl (by omega), ?_, h.2⟩
        rw [utf8Char, if_neg (by omega), if_pos (by omega), ← byte_eq (a := a) (by omega),
          ← byte_eq (a := b) (by omega)]
        rfl
    split at h
    · rcases rest with _ | ⟨b, _ | ⟨c, rest⟩⟩
      · cases h
      · cases h
      · have hb := b.isLt
        have hc := c.isLt
        simp only [Bool.and_eq_true, decide_eq_true_eq, Bool.not_eq_true', Bool.and_eq_false_iff,
          beq_eq_false_iff_ne, decide_eq_false_iff_not, ne_eq, ← BitVec.toNat_inj,
          BitVec.reduceToNat] at h
        obtain ⟨⟨⟨⟨h1, h2⟩, h3⟩, h4⟩, h5⟩ := h
        refine ⟨(a.toNat - 0xe0) * 4096 + (b.toNat - 0x80) * 64 + (c.toNat - 0x80), rest, ?_, ?_, h5⟩
        · unfold IsScalar; omega
        · rw [utf8Char, if_neg (by omega), if_neg (by omega), if_pos (by omega),
            ← byte_eq (a := a) (by omega), ← byte_eq (a := b) (by omega), ← byte_eq (a := c) (by omega)]
          rfl
    split at h
    · rcases rest with _ | ⟨b, _ | ⟨c, _ | ⟨d, rest⟩⟩⟩
      · cases h
      · cases h
      · cases h
      · have hb := b.isLt
        have hc := c.isLt
        have hd := d.isLt
        simp only [Bool.and_eq_true, decide_eq_true_eq, Bool.not_eq_true', Bool.and_eq_false_iff,
          beq_eq_false_iff_ne, decide_eq_false_iff_not, ne_eq, ← BitVec.toNat_inj,
          BitVec.reduceToNat] at h
        obtain ⟨⟨⟨⟨⟨h1, h2⟩, h2'⟩, h3⟩, h4⟩, h5⟩ := h
        refine ⟨(a.toNat - 0xf0) * 262144 + (b.toNat - 0x80) * 4096 + (c.toNat - 0x80) * 64 +
          (d.toNat - 0x80), rest, ?_, ?_, h5⟩
        · unfold IsScalar; omega
        · rw [utf8Char, if_neg (by omega), if_neg (by omega), if_neg (by omega),
            ← byte_eq (a := a) (by omega), ← byte_eq (a := b) (by omega), ← byte_eq (a := c) (by omega),
            ← byte_eq (a := d) (by omega)]
          rfl
    · cases h

theorem utf8Char_ne (n : Nat) : utf8Char n ≠ [] := by
  unfold utf8Char
  repeat' split
  all_goals simp

theorem utf8Valid_iff (v : List Byte) : utf8Valid v = true ↔ IsUtf8 v := by
  constructor
  · intro h
    induction hn : v.length using Nat.strongRecOn generalizing v with
    | _ n ih =>
      by_cases hv : v = []
      · subst hv; exact ⟨[], by simp, rfl⟩
      · obtain ⟨a, rest, ha, rfl, hr⟩ := utf8Valid_cons v hv h
        have := List.length_pos_iff.2 (utf8Char_ne a)
        obtain ⟨cs, hcs, e⟩ := ih rest.length (by rw [← hn, List.length_append]; omega) rest hr rfl
        refine ⟨a :: cs, ?_, by rw [List.flatMap_cons, ← e]⟩
        intro n hn
        rcases List.mem_cons.1 hn with rfl | hn
        · exact ha
        · exact hcs n hn
  · rintro ⟨cs, hcs, rfl⟩
    induction cs with
    | nil => rfl
    | cons a cs ih =>
      rw [List.flatMap_cons, utf8Valid_char a (hcs a (by simp))]
      exact ih fun n hn => hcs n (by simp [hn])

end Chf.HashTy
