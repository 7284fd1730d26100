import Verif.Model.Serde
import Verif.Spec.Hex
import Verif.Proofs.Bytes

/-!
# Lemmas about hexadecimal strings
-/

namespace Chf
open Spec

theorem foldl_value16 (s : List Byte) (a : Nat) :
    s.foldl (fun acc b => acc * 16 + (digitVal b).getD 0) a = a * 16 ^ s.length + value16 s := by
  induction s generalizing a with
  | nil => simp [value16]
  | cons b s ih =>
    simp only [value16, List.foldl_cons, List.length_cons] at ih ⊢
    rw [ih, ih (0 * 16 + _), Nat.pow_succ]
    simp only [Nat.zero_mul, Nat.zero_add, Nat.add_mul]
    rw [Nat.mul_assoc, Nat.mul_comm 16, Nat.add_assoc]

theorem value16_append (a b : List Byte) : value16 (a ++ b) = value16 a * 16 ^ b.length + value16 b := by
  rw [value16, List.foldl_append, foldl_value16]; rfl

theorem value16_pair (x y : Byte) (s : List Byte) :
    value16 (x :: y :: s) =
      ((digitVal x).getD 0 * 16 + (digitVal y).getD 0) * 16 ^ s.length + value16 s := by
  rw [show x :: y :: s = [x, y] ++ s from rfl, value16_append]
  simp [value16]

theorem beNat_cons (b : Byte) (bs : List Byte) :
    beNat (b :: bs) = b.toNat * 256 ^ bs.length + beNat bs := by
  rw [show b :: bs = [b] ++ bs from rfl, beNat_append, beNat_singleton]

theorem beNat_inj {a b : List Byte} (hl : a.length = b.length) (h : beNat a = beNat b) : a = b := by
  rw [← beBytes_beNat a, ← beBytes_beNat b, hl, h]

namespace Hex

theorem forall_byte {P : Byte → Prop} (h : ∀ n, n < 256 → P (BitVec.ofNat 8 n)) : ∀ b, P b := by
  intro b
  have := h b.toNat b.isLt
  rwa [BitVec.ofNat_toNat, BitVec.setWidth_eq] at this

theorem toDigit16_eq (b : Byte) : toDigit16 b = (digitVal b).map (BitVec.ofNat 8) := by
  revert b
  apply forall_byte
  decide +kernel

theorem digitVal_lt {b : Byte} {d : Nat} (h : digitVal b = some d) : d < 16 := by
  unfold digitVal at h
  have e1 : '0'.toNat = 48 := rfl
  have e2 : '9'.toNat = 57 := rfl
  have e3 : 'a'.toNat = 97 := rfl
  have e4 : 'f'.toNat = 102 := rfl
  have e5 : 'A'.toNat = 65 := rfl
  have e6 : 'F'.toNat = 70 := rfl
  rw [e1, e2, e3, e4, e5, e6] at h
  split at h
  · cases h; omega
  · split at h
    · cases h; omega
    · split at h
      · cases h; omega
      · cases h

theorem digit_ok {b : Byte} {d pos : Nat} (h : digitVal b = some d) :
    digit b pos = .ok (BitVec.ofNat 8 d) := by
  simp [digit, toDigit16_eq, h]

theorem digit_err {b : Byte} {pos : Nat} (h : digitVal b = none) :
    digit b pos = .error (.invalidChar b pos) := by
  simp [digit, toDigit16_eq, h]

/-- The value of two digits. -/
theorem pair_toNat (d e : Nat) (hd : d < 16) (he : e < 16) :
    ((BitVec.ofNat 8 d <<< 4) + BitVec.ofNat 8 e).toNat = d * 16 + e := by
  rw [BitVec.toNat_add, BitVec.toNat_shiftLeft, BitVec.toNat_ofNat, BitVec.toNat_ofNat,
    Nat.mod_eq_of_lt (a := d) (by omega), Nat.mod_eq_of_lt (a := e) (by omega), Nat.shiftLeft_eq]
  omega

theorem decode_ok : (s : List Byte) → (pos : Nat) → (n : Nat) → s.length = 2 * n → (∀ b ∈ s, IsHexDigit b) →
    ∃ bs, decode s pos = .ok bs ∧ bs.length = n ∧ beNat bs = value16 s
  | [], pos, n, hl, _ => ⟨[], rfl, by simp at hl; simp; omega, rfl⟩
  | [x], pos, n, hl, _ => by simp at hl; omega
  | x :: y :: s, pos, n, hl, h => by
    obtain ⟨d, hd⟩ := Option.isSome_iff_exists.1 (h x (by simp))
    obtain ⟨e, he⟩ := Option.isSome_iff_exists.1 (h y (by simp))
    have hn : s.length = 2 * (n - 1) := by simp at hl; omega
    obtain ⟨bs, h1, h2, h3⟩ := decode_ok s (pos + 2) (n - 1) hn fun b hb => h b (by simp [hb])
    refine ⟨((BitVec.ofNat 8 d <<< 4) + BitVec.ofNat 8 e) :: bs, ?_, ?_, ?_⟩
    · simp only [decode, digit_ok hd, digit_ok he, h1, bind, Except.bind, pure, Except.pure]
    · simp at hl ⊢; omega
    · rw [beNat_cons, value16_pair, hd, he, pair_toNat d e (digitVal_lt hd) (digitVal_lt he), h3, h2, hn,
        Nat.pow_mul]
      rfl

/-- The first character that is not a digit is reported. -/
theorem decode_err : (s : List Byte) → (pos : Nat) → 2 ∣ s.length → (i : Nat) → (hi : i < s.length) →
    (∀ j, (hj : j < i) → IsHexDigit s[j]) → ¬ IsHexDigit s[i] →
    decode s pos = .error (.invalidChar s[i] (pos + i))
  | [], _, _, i, hi, _, _ => by simp at hi
  | [x], _, h2, _, _, _, _ => by simp at h2
  | x :: y :: s, pos, h2, i, hi, hj, hb => by
    have none_of : ∀ {b}, ¬ IsHexDigit b → digitVal b = none := by
      intro b h
      unfold IsHexDigit at h
      cases hv : digitVal b with
      | none => rfl
      | some d => rw [hv] at h; exact absurd rfl h
    match i with
    | 0 =>
      simp only [List.getElem_cons_zero] at hb
      simp only [decode, digit_err (none_of hb), bind, Except.bind, List.getElem_cons_zero]
      rfl
    | 1 =>
      have h0 := hj 0 (by omega)
      simp only [List.getElem_cons_zero] at h0
      obtain ⟨d, hd⟩ := Option.isSome_iff_exists.1 h0
      simp only [List.getElem_cons_succ, List.getElem_cons_zero] at hb
      simp only [decode, digit_ok hd, digit_err (none_of hb), bind, Except.bind, List.getElem_cons_succ,
        List.getElem_cons_zero]
    | i + 2 =>
      have h0 := hj 0 (by omega)
      have h1 := hj 1 (by omega)
      simp only [List.getElem_cons_succ, List.getElem_cons_zero] at h0 h1
      obtain ⟨d, hd⟩ := Option.isSome_iff_exists.1 h0
      obtain ⟨e, he⟩ := Option.isSome_iff_exists.1 h1
      have hlen : i < s.length := by simp at hi; omega
      have := decode_err s (pos + 2) (by simp at h2; omega) i hlen
        (fun j hj' => by have := hj (j + 2) (by omega); simpa using this) (by simpa using hb)
      simp only [decode, digit_ok hd, digit_ok he, bind, Except.bind, this, List.getElem_cons_succ]
      rw [show pos + 2 + i = pos + (i + 2) by omega]

theorem fromHex_ok (N : Nat) (s : List Byte) (hl : s.length = 2 * N) (hs : ∀ b ∈ s, IsHexDigit b) :
    ∃ bs : Bytes N, fromHex N s = .ok (.ok bs) ∧ beNat bs.val = value16 s := by
  obtain ⟨bs, h1, h2, h3⟩ := decode_ok s 0 N hl hs
  refine ⟨⟨bs, h2⟩, ?_, h3⟩
  simp only [fromHex, if_pos hl, h1, dif_pos h2]

theorem fromHex_len (N : Nat) (s : List Byte) (hl : s.length ≠ 2 * N) :
    fromHex N s = .ok (.error (.invalidLength (2 * N) s.length)) := by
  simp only [fromHex, if_neg hl]

theorem fromHex_char (N : Nat) (s : List Byte) (hl : s.length = 2 * N) (i : Nat) (hi : i < s.length)
    (hj : ∀ j, (hj : j < i) → IsHexDigit s[j]) (hb : ¬ IsHexDigit s[i]) :
    fromHex N s = .ok (.error (.invalidChar s[i] i)) := by
  have := decode_err s 0 ⟨N, hl⟩ i hi hj hb
  rw [Nat.zero_add] at this
  simp only [fromHex, if_pos hl, this]

/-- A string with a character that is not a digit has a first one. -/
theorem first_bad (s : List Byte) (h : ¬ ∀ b ∈ s, IsHexDigit b) :
    ∃ i, ∃ hi : i < s.length, (∀ j, (hj : j < i) → IsHexDigit s[j]) ∧ ¬ IsHexDigit s[i] := by
  induction s with
  | nil => exact absurd (by simp) h
  | cons x s ih =>
    by_cases hx : IsHexDigit x
    · obtain ⟨i, hi, h1, h2⟩ := ih fun hs => h fun b hb => by
        rcases List.mem_cons.1 hb with rfl | hb
        · exact hx
        · exact hs b hb
      refine ⟨i + 1, by simp; omega, fun j hj => ?_, by simpa using h2⟩
      match j with
      | 0 => simpa using hx
      | j + 1 => simpa using h1 j (by omega)
    · exact ⟨0, by simp, fun j hj => by omega, by simpa using hx⟩

/-! ## Encoding -/

/-- The digits of a case. -/
def IsDigitOf : Case → Byte → Prop
  | .lower => IsLowerDigit
  | .upper => IsUpperDigit

theorem table_digit (case : Case) (d : Nat) (hd : d < 16) :
    digitVal ((table case).getD d 0) = some d ∧ IsDigitOf case ((table case).getD d 0) := by
  revert d
  cases case <;> unfold IsDigitOf <;> decide +kernel

theorem IsDigitOf.hex {case : Case} {b : Byte} : IsDigitOf case b → IsHexDigit b := by
  revert b
  cases case
  · exact forall_byte (P := fun b => IsLowerDigit b → IsHexDigit b) (by decide +kernel) _
  · exact forall_byte (P := fun b => IsUpperDigit b → IsHexDigit b) (by decide +kernel) _

theorem encodeByte_eq (case : Case) (b : Byte) :
    encodeByte case b = [(table case).getD (b.toNat / 16) 0, (table case).getD (b.toNat % 16) 0] := by
  unfold encodeByte
  rw [show (b >>> 4).toNat = b.toNat / 16 by simp [Nat.shiftRight_eq_div_pow],
    show (b &&& 0xf).toNat = b.toNat % 16 from by
      rw [BitVec.toNat_and]; exact Nat.and_two_pow_sub_one_eq_mod b.toNat 4]

theorem length_putBytes (case : Case) (bs : List Byte) : (putBytes case bs).length = 2 * bs.length := by
  induction bs with
  | nil => rfl
  | cons b bs ih => rw [putBytes, List.flatMap_cons, List.length_append, ← putBytes, ih]; simp [encodeByte]; omega

theorem putBytes_digits (case : Case) (bs : List Byte) : ∀ x ∈ putBytes case bs, IsDigitOf case x := by
  intro x hx
  obtain ⟨b, -, hb⟩ := List.mem_flatMap.1 hx
  rw [encodeByte_eq] at hb
  have := b.isLt
  simp only [List.mem_cons, List.not_mem_nil, or_false] at hb
  rcases hb with rfl | rfl
  · exact (table_digit case _ (by omega)).2
  · exact (table_digit case _ (by omega)).2

theorem putBytes_getElem (case : Case) : (bs : List Byte) → (i : Nat) → (hi : i < bs.length) →
    ∃ x y, (putBytes case bs)[2 * i]? = some x ∧ (putBytes case bs)[2 * i + 1]? = some y ∧
      digitVal x = some (bs[i].toNat / 16) ∧ digitVal y = some (bs[i].toNat % 16)
  | [], _, hi => by simp at hi
  | b :: bs, 0, _ => by
    have := b.isLt
    refine ⟨_, _, ?_, ?_, (table_digit case (b.toNat / 16) (by omega)).1,
      (table_digit case (b.toNat % 16) (by omega)).1⟩ <;>
      simp [putBytes, encodeByte_eq]
  | b :: bs, i + 1, hi => by
    obtain ⟨x, y, h1, h2, h3, h4⟩ := putBytes_getElem case bs i (by simpa using hi)
    have e : putBytes case (b :: bs) = encodeByte case b ++ putBytes case bs := rfl
    have el : (encodeByte case b).length = 2 := rfl
    refine ⟨x, y, ?_, ?_, by simpa using h3, by simpa using h4⟩
    · rw [e, List.getElem?_append_right (by omega), el, show 2 * (i + 1) - 2 = 2 * i by omega, h1]
    · rw [e, List.getElem?_append_right (by omega), el, show 2 * (i + 1) + 1 - 2 = 2 * i + 1 by omega, h2]

theorem value16_putBytes (case : Case) (bs : List Byte) : value16 (putBytes case bs) = beNat bs := by
  induction bs with
  | nil => rfl
  | cons b bs ih =>
    have := b.isLt
    rw [show putBytes case (b :: bs) = encodeByte case b ++ putBytes case bs from rfl, encodeByte_eq,
      List.cons_append, List.cons_append, List.nil_append, value16_pair,
      (table_digit case (b.toNat / 16) (by omega)).1, (table_digit case (b.toNat % 16) (by omega)).1, ih,
      length_putBytes, beNat_cons, Nat.pow_mul]
    simp only [Option.getD_some]
    rw [show b.toNat / 16 * 16 + b.toNat % 16 = b.toNat by omega]

theorem putBytes_inj {case : Case} {a b : List Byte} (hl : a.length = b.length)
    (h : putBytes case a = putBytes case b) : a = b :=
  beNat_inj hl (by rw [← value16_putBytes case a, ← value16_putBytes case b, h])

theorem fromHex_putBytes (case : Case) {N : Nat} (bs : Bytes N) :
    fromHex N (putBytes case bs.val) = .ok (.ok bs) := by
  obtain ⟨bs', h1, h2⟩ := fromHex_ok N (putBytes case bs.val) (by rw [length_putBytes, bs.property])
    fun b hb => (putBytes_digits case _ b hb).hex
  rw [h1, show bs' = bs from Subtype.ext (beNat_inj (by rw [bs.property, bs'.property])
    (h2.trans (value16_putBytes case _)))]

theorem fmtByteSlice_eq (f : Flags) (bs : List Byte) (case : Case) :
    fmtByteSlice f bs case = padIntegral f (putBytes case bs) := by
  have h : ((chunksExact 512 bs).map (putBytes case)).flatten ++
      putBytes case (bs.drop (bs.length / 512 * 512)) = putBytes case bs := by
    conv => rhs; rw [← (show _ = bs from blocks_flatten_remainder 512 (by omega) bs)]
    rw [chunksExact_eq]
    unfold putBytes
    rw [List.flatMap_append]
    congr 1
    generalize blocks 512 bs = l
    induction l with
    | nil => rfl
    | cons x l ih => rw [List.map_cons, List.flatten_cons, ih, List.flatten_cons, List.flatMap_append]
  unfold fmtByteSlice padIntegral
  rw [List.append_assoc, h]
  split
  · rfl
  · rfl

end Hex
end Chf
