import Verif.Check.Sound
import Verif.Check.SoundText
import Verif.Check.TextConstants
import Verif.Props.TextConstants

/-!
# The instances of C103 follow from the theorems
-/

namespace Chf.Check
open Chf Spec Props Chf.Rs

theorem scaledRoot_unique {k s n y z : Nat} (h : IsScaledRoot k s n y) (h' : IsScaledRoot k s n z) :
    y = z := by
  rcases Nat.lt_trichotomy y z with hl | hl | hl
  · exact absurd (Nat.lt_of_lt_of_le h.2 (Nat.pow_le_pow_left hl k)) (Nat.not_lt.2 h'.1)
  · exact hl
  · exact absurd (Nat.lt_of_lt_of_le h'.2 (Nat.pow_le_pow_left hl k)) (Nat.not_lt.2 h.1)

theorem fracRoot_unique {k w n : Nat} {x y : BitVec w} (h : IsFracRoot k w n x) (h' : IsFracRoot k w n y) :
    x = y := by
  obtain ⟨q, h⟩ := h
  obtain ⟨r, h'⟩ := h'
  have := congrArg (· % 2 ^ w) (scaledRoot_unique h h')
  simp only [Nat.mul_add_mod_self_right, Nat.mod_eq_of_lt x.isLt, Nat.mod_eq_of_lt y.isLt] at this
  exact BitVec.eq_of_toNat_eq this

theorem areFracRoots_unique {k w : Nat} {ns : List Nat} {xs ys : List (BitVec w)}
    (h : AreFracRoots k w ns xs) (h' : AreFracRoots k w ns ys) : xs = ys := by
  induction ns generalizing xs ys with
  | nil => rw [List.length_eq_zero_iff.1 h.1.symm, List.length_eq_zero_iff.1 h'.1.symm]
  | cons n ns ih =>
    obtain ⟨l, h⟩ := h
    obtain ⟨l', h'⟩ := h'
    match xs, ys, l, l', h, h' with
    | x :: xs, y :: ys, l, l', h, h' =>
      have hx : x = y := fracRoot_unique (h (n, x) (by simp)) (h' (n, y) (by simp))
      have hxs : xs = ys := ih ⟨by simpa using l, fun p hp => h p (by simp [hp])⟩
        ⟨by simpa using l', fun p hp => h' p (by simp [hp])⟩
      rw [hx, hxs]

theorem sound_C103a : check_C103_sha256 () = true := by
  obtain ⟨ps, K, h0, h1, h2⟩ := C103_sha256
  obtain rfl := firstPrimes_unique h0 firstPrimes80
  obtain rfl := areFracRoots_unique h1
    (areFracRoots_of (xs := fracsOf 3 32 (primes80.take 64)) (by decide +kernel))
  refine forall2_true fun c hc h _ => ?_
  obtain ⟨h3, h4⟩ := h2 c (valid hc)
  rw [Bool.and_eq_true]
  refine ⟨decide_eq_true (areFracRoots_unique h3 (areFracRoots_of (by decide +kernel))),
    decide_eq_true ?_⟩
  rw [h4 h (msg 64) 7 (msg_length 64)]
  rfl

theorem sound_C103b : check_C103_sha512 () = true := by
  obtain ⟨ps, K, h0, h1, h2⟩ := C103_sha512
  obtain rfl := firstPrimes_unique h0 firstPrimes80
  obtain rfl := areFracRoots_unique h1 (areFracRoots_of (xs := fracsOf 3 64 primes80) (by decide +kernel))
  refine forall2_true fun c hc h _ => ?_
  obtain ⟨h3, h4, h5⟩ := h2 c
  rw [Bool.and_eq_true, Bool.and_eq_true]
  refine ⟨⟨decide_eq_true (areFracRoots_unique h3 (areFracRoots_of (by decide +kernel))),
    decide_eq_true (areFracRoots_unique h4 (areFracRoots_of (by decide +kernel)))⟩, decide_eq_true ?_⟩
  rw [h5 h (msg 128) 7 (msg_length 128)]
  rfl

theorem sound_C103c : check_C103_sha1 () = true :=
  forall2_true fun c _ h _ => decide_eq_true (by
    rw [C103_sha1.2 c h (msg 64) 7 (msg_length 64)]
    rfl)

theorem sound_C103d : check_C103_ripemd160 () = true :=
  forall2_true fun c _ h _ => decide_eq_true (by
    rw [C103_ripemd160.2.2.2 c h (msg 64) 7 (msg_length 64)]
    rfl)

theorem sound_C103e : check_C103_initial () = true :=
  forall2_true fun c _ k _ => by
    obtain ⟨h1, h2, h3⟩ := C103_initial c
    rw [Bool.and_eq_true, Bool.and_eq_true]
    exact ⟨⟨decide_eq_true h1, decide_eq_true h2⟩, decide_eq_true (h3 k.1 k.2)⟩

theorem sound_C103f : check_C103_from () = true :=
  forall2_true fun c hc n hn => List.all_eq_true.2 fun iv _ => decide_eq_true (by
    have := lengths_le n hn
    exact C103_from (valid hc) iv (msg n) (by rw [msg_length]; omega)
      (by rw [msg_length, cfg64 c hc]; omega))

theorem sound_C103g : check_C103_sha512_256 () = true :=
  List.all_eq_true.2 fun c hc => decide_eq_true (by
    obtain ⟨d, h1, h2⟩ := C103_sha512_256 (valid hc)
    rw [h1]
    exact congrArg _ h2)

end Chf.Check
