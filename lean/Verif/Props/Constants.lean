import Verif.Spec.Constants
import Verif.Spec.Bytes
import Verif.Spec.Ripemd160
import Verif.Model.Sha256Const
import Verif.Model.Sha256Engine
import Verif.Model.Sha512
import Verif.Model.Sha1
import Verif.Model.Ripemd160

/-!
# Property C48: the constants in the code are the ones the standards derive

The statements are about the literals of the code.  That they are used in the right places is part of
C01 - C07.
-/

namespace Chf.Props
open Spec

/-- Trial division. -/
def isPrime (p : Nat) : Bool := 2 ≤ p && (List.range p).all fun d => d == 0 || d == 1 || p % d != 0

theorem isPrime_iff (p : Nat) : isPrime p = true ↔ IsPrime p := by
  unfold isPrime IsPrime
  simp only [Bool.and_eq_true, decide_eq_true_eq, List.all_eq_true, List.mem_range, Bool.or_eq_true,
    beq_iff_eq, bne_iff_ne]
  refine and_congr_right fun h2 => ⟨fun h d hd => ?_, fun h d hd => ?_⟩
  · have hle := Nat.le_of_dvd (by omega) hd
    rcases Nat.lt_or_ge d p with hlt | hge
    · rcases h d hlt with (h0 | h1) | hm
      · subst h0
        have := Nat.eq_zero_of_zero_dvd hd
        omega
      · exact .inl h1
      · exact absurd (Nat.mod_eq_zero_of_dvd hd) hm
    · exact .inr (by omega)
  · rcases Nat.eq_zero_or_pos d with h0 | hpos
    · exact .inl (.inl h0)
    · by_cases hm : p % d = 0
      · rcases h d (Nat.dvd_of_mod_eq_zero hm) with h1 | h1
        · exact .inl (.inr h1)
        · omega
      · exact .inr hm

theorem firstPrimes80 : FirstPrimes 80 primes80 := by
  have hf : primes80 = (List.range 410).filter isPrime := by decide +kernel
  refine ⟨rfl, ?_, 410, fun p => ?_⟩
  · rw [hf]
    exact List.Pairwise.filter _ List.pairwise_lt_range
  · rw [hf, List.mem_filter, List.mem_range, isPrime_iff, and_comm]

theorem fracRoot_sound {k w n : Nat} {x : BitVec w} (h : fracRoot k w n x = true) :
    IsFracRoot k w n x := by
  unfold fracRoot at h
  rw [List.any_eq_true] at h
  obtain ⟨q, -, h⟩ := h
  rw [Bool.and_eq_true, decide_eq_true_eq, decide_eq_true_eq] at h
  exact ⟨q, h⟩

theorem all_zip {α β : Type} {P : α → β → Prop} {b : α → β → Bool} (hb : ∀ {x y}, b x y = true → P x y)
    {l : List α} {l' : List β} (h : ((l.zip l').all fun p => b p.1 p.2) = true) :
    ∀ p ∈ l.zip l', P p.1 p.2 := fun p hp => hb (List.all_eq_true.1 h p hp)

theorem areFracRoots_of {k w : Nat} {ns : List Nat} {xs : List (BitVec w)}
    (h : (ns.length == xs.length && (ns.zip xs).all fun p => fracRoot k w p.1 p.2) = true) :
    AreFracRoots k w ns xs := by
  rw [Bool.and_eq_true, beq_iff_eq] at h
  exact ⟨h.1, all_zip (b := fun n x => fracRoot k w n x) fracRoot_sound h.2⟩

/-- C48, SHA-256: the round constants in `software_process_block` and in `const_hash` are the first 32
bits of the fractional parts of the cube roots of the first 64 primes; the initial values are those of
the square roots of the first 8 primes. -/
theorem C48_sha256 : ∃ ps, FirstPrimes 80 ps ∧
    AreFracRoots 3 32 (ps.take 64) (Sha256.blockLines.map (·.k)) ∧
    AreFracRoots 3 32 (ps.take 64) (Sha256.constLines.map (·.k)) ∧
    AreFracRoots 2 32 (ps.take 8) Sha256.iv.toList :=
  ⟨primes80, firstPrimes80, areFracRoots_of (by decide +kernel), areFracRoots_of (by decide +kernel),
    areFracRoots_of (by decide +kernel)⟩

/-- C48, SHA-512: the round constants are the first 64 bits of the fractional parts of the cube roots
of the first 80 primes, the initial values those of the square roots of the first 8 primes, those of
SHA-384 of the ninth to sixteenth prime. -/
theorem C48_sha512 : ∃ ps, FirstPrimes 80 ps ∧
    AreFracRoots 3 64 ps (Sha512.blockLines.map (·.k)) ∧
    AreFracRoots 2 64 (ps.take 8) Sha512.iv512.toList ∧
    AreFracRoots 2 64 ((ps.drop 8).take 8) Sha512.iv384.toList :=
  ⟨primes80, firstPrimes80, areFracRoots_of (by decide +kernel), areFracRoots_of (by decide +kernel),
    areFracRoots_of (by decide +kernel)⟩

/-- C48, SHA-1: the constants of the four phases are 2^30 times the square roots of 2, 3, 5 and 10. -/
theorem C48_sha1 (i : Nat) (hi : i < 80) (b c d : BitVec 32) : ∃ f k, Sha1.fk i b c d = .ok (f, k) ∧
    IsScaledRoot 2 30 ([2, 3, 5, 10].getD (i / 20) 0) k.toNat := by
  unfold Sha1.fk
  have h4 : i / 20 = 0 ∨ i / 20 = 1 ∨ i / 20 = 2 ∨ i / 20 = 3 := by omega
  rcases h4 with h | h | h | h <;> rw [h]
  · rw [if_pos (by omega)]
    exact ⟨_, _, rfl, by decide, by decide⟩
  · rw [if_neg (by omega), if_pos (by omega)]
    exact ⟨_, _, rfl, by decide, by decide⟩
  · rw [if_neg (by omega), if_neg (by omega), if_pos (by omega)]
    exact ⟨_, _, rfl, by decide, by decide⟩
  · rw [if_neg (by omega), if_neg (by omega), if_neg (by omega), if_pos (by omega)]
    exact ⟨_, _, rfl, by decide, by decide⟩

/-- C48, RIPEMD-160: the constants of the left line are 0 and 2^30 times the square roots of 2, 3, 5
and 7, those of the right line 2^30 times the cube roots of 2, 3, 5 and 7, and 0. -/
theorem C48_ripemd160 :
    Ripemd160.add1 = 0 ∧ Ripemd160.parAdd5 = 0 ∧
    (∀ p ∈ [2, 3, 5, 7].zip [Ripemd160.add2, Ripemd160.add3, Ripemd160.add4, Ripemd160.add5],
      IsScaledRoot 2 30 p.1 p.2.toNat) ∧
    (∀ p ∈ [2, 3, 5, 7].zip [Ripemd160.parAdd1, Ripemd160.parAdd2, Ripemd160.parAdd3, Ripemd160.parAdd4],
      IsScaledRoot 3 30 p.1 p.2.toNat) := by
  refine ⟨rfl, rfl, fun p hp => ?_, fun p hp => ?_⟩ <;>
    simp only [List.zip_cons_cons, List.zip_nil_right, List.mem_cons, List.not_mem_nil, or_false] at hp <;>
    rcases hp with rfl | rfl | rfl | rfl <;> exact ⟨by decide, by decide⟩

/-- C48: the initial value of SHA-1 and RIPEMD-160 is the hexadecimal digits counted up, down, and
interleaved, read as little-endian words. -/
theorem C48_iv160 :
    Sha1.iv.toList = leWords 32 [0x01, 0x23, 0x45, 0x67, 0x89, 0xab, 0xcd, 0xef, 0xfe, 0xdc, 0xba,
      0x98, 0x76, 0x54, 0x32, 0x10, 0xf0, 0xe1, 0xd2, 0xc3] ∧
    Ripemd160.iv = Sha1.iv := by decide

end Chf.Props
