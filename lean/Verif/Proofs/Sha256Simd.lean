import Verif.Model.Sha256Engine
import Verif.Proofs.Sha2

/-!
# Lemmas: the SHA-extension block function computes the FIPS compression function
-/

namespace Chf.Sha256.Simd
open Spec

/-! ## Lanes -/

theorem lane0 (a b c d : BitVec 32) : lane (ofLanes d c b a) 0 = a := by
  apply BitVec.eq_of_getLsbD_eq
  intro i hi
  simp only [lane, ofLanes, BitVec.getLsbD_extractLsb', BitVec.getLsbD_append, hi, decide_true]
  simp [show i < 32 by omega]

theorem lane1 (a b c d : BitVec 32) : lane (ofLanes d c b a) 1 = b := by
  apply BitVec.eq_of_getLsbD_eq
  intro i hi
  simp only [lane, ofLanes, BitVec.getLsbD_extractLsb', BitVec.getLsbD_append, hi, decide_true]
  simp [show ¬ 32 + i < 32 by omega, hi]

theorem lane2 (a b c d : BitVec 32) : lane (ofLanes d c b a) 2 = c := by
  apply BitVec.eq_of_getLsbD_eq
  intro i hi
  simp only [lane, ofLanes, BitVec.getLsbD_extractLsb', BitVec.getLsbD_append, hi, decide_true]
  simp [show ¬ 64 + i < 32 by omega, show ¬ 64 + i - 32 < 32 by omega,
    show 64 + i - 32 - 32 = i by omega, hi]

theorem lane3 (a b c d : BitVec 32) : lane (ofLanes d c b a) 3 = d := by
  apply BitVec.eq_of_getLsbD_eq
  intro i hi
  simp only [lane, ofLanes, BitVec.getLsbD_extractLsb', BitVec.getLsbD_append, hi, decide_true]
  simp [show ¬ 96 + i < 32 by omega, show ¬ 96 + i - 32 < 32 by omega,
    show ¬ 96 + i - 32 - 32 < 32 by omega, show 96 + i - 32 - 32 - 32 = i by omega]

theorem ofLanes_lanes (x : M128) : ofLanes (lane x 3) (lane x 2) (lane x 1) (lane x 0) = x := by
  apply BitVec.eq_of_getLsbD_eq
  intro i hi
  simp only [ofLanes, lane, BitVec.getLsbD_append, BitVec.getLsbD_extractLsb']
  by_cases h0 : i < 32
  · simp [h0]
  by_cases h1 : i < 64
  · simp [h0, show i - 32 < 32 by omega, show 32 + (i - 32) = i by omega]
  by_cases h2 : i < 96
  · simp [h0, show ¬ i - 32 < 32 by omega, show i - 32 - 32 < 32 by omega,
      show 64 + (i - 32 - 32) = i by omega]
  · simp [h0, show ¬ i - 32 < 32 by omega, show ¬ i - 32 - 32 < 32 by omega,
      show i - 32 - 32 - 32 < 32 by omega, show 96 + (i - 32 - 32 - 32) = i by omega]

theorem ext_lanes {x y : M128} (h0 : lane x 0 = lane y 0) (h1 : lane x 1 = lane y 1)
    (h2 : lane x 2 = lane y 2) (h3 : lane x 3 = lane y 3) : x = y := by
  rw [← ofLanes_lanes x, ← ofLanes_lanes y, h0, h1, h2, h3]

theorem getLsbD_lane (x : M128) (k i : Nat) : (lane x k).getLsbD i =
    (decide (i < 32) && x.getLsbD (32 * k + i)) := by
  simp [lane, BitVec.getLsbD_extractLsb']

theorem getLsbD_alignr (a b : M128) (n i : Nat) (hi : i < 128) :
    (mm_alignr_epi8 a b n).getLsbD i =
      if 8 * n + i < 128 then b.getLsbD (8 * n + i) else a.getLsbD (8 * n + i - 128) := by
  simp only [mm_alignr_epi8, BitVec.getLsbD_setWidth, hi, decide_true, BitVec.getLsbD_ushiftRight,
    Bool.true_and]
  exact BitVec.getLsbD_append

theorem alignr4 (a0 a1 a2 a3 b0 b1 b2 b3 : BitVec 32) :
    mm_alignr_epi8 (ofLanes a3 a2 a1 a0) (ofLanes b3 b2 b1 b0) 4 = ofLanes a0 b3 b2 b1 := by
  have hb (k : Nat) (hk : k < 3) : lane (mm_alignr_epi8 (ofLanes a3 a2 a1 a0) (ofLanes b3 b2 b1 b0) 4) k =
      lane (ofLanes b3 b2 b1 b0) (k + 1) := by
    apply BitVec.eq_of_getLsbD_eq
    intro i hi
    rw [getLsbD_lane, getLsbD_lane, getLsbD_alignr _ _ _ _ (by omega), if_pos (by omega)]
    congr 2
    omega
  have ha : lane (mm_alignr_epi8 (ofLanes a3 a2 a1 a0) (ofLanes b3 b2 b1 b0) 4) 3 =
      lane (ofLanes a3 a2 a1 a0) 0 := by
    apply BitVec.eq_of_getLsbD_eq
    intro i hi
    rw [getLsbD_lane, getLsbD_lane, getLsbD_alignr _ _ _ _ (by omega), if_neg (by omega),
      show 8 * 4 + (32 * 3 + i) - 128 = 32 * 0 + i by omega]
  apply ext_lanes
  · rw [hb 0 (by omega), lane0, lane1]
  · rw [hb 1 (by omega), lane1, lane2]
  · rw [hb 2 (by omega), lane2, lane3]
  · rw [ha, lane3, lane0]

theorem alignr8 (a0 a1 a2 a3 b0 b1 b2 b3 : BitVec 32) :
    mm_alignr_epi8 (ofLanes a3 a2 a1 a0) (ofLanes b3 b2 b1 b0) 8 = ofLanes a1 a0 b3 b2 := by
  have hb (k : Nat) (hk : k < 2) : lane (mm_alignr_epi8 (ofLanes a3 a2 a1 a0) (ofLanes b3 b2 b1 b0) 8) k =
      lane (ofLanes b3 b2 b1 b0) (k + 2) := by
    apply BitVec.eq_of_getLsbD_eq
    intro i hi
    rw [getLsbD_lane, getLsbD_lane, getLsbD_alignr _ _ _ _ (by omega), if_pos (by omega)]
    congr 2
    omega
  have ha (k : Nat) (hk : k < 2) : lane (mm_alignr_epi8 (ofLanes a3 a2 a1 a0) (ofLanes b3 b2 b1 b0) 8) (k + 2) =
      lane (ofLanes a3 a2 a1 a0) k := by
    apply BitVec.eq_of_getLsbD_eq
    intro i hi
    rw [getLsbD_lane, getLsbD_lane, getLsbD_alignr _ _ _ _ (by omega), if_neg (by omega),
      show 8 * 8 + (32 * (k + 2) + i) - 128 = 32 * k + i by omega]
  apply ext_lanes
  · rw [hb 0 (by omega), lane0, lane2]
  · rw [hb 1 (by omega), lane1, lane3]
  · rw [ha 0 (by omega), lane2, lane0]
  · rw [ha 1 (by omega), lane3, lane1]

theorem ofWords_getLsbD (l : List (BitVec 16)) (i : Nat) (hi : i < 128) :
    (ofWords l).getLsbD i = (l.getD (i / 16) 0).getLsbD (i % 16) := by
  induction l generalizing i with
  | nil => simp [ofWords]
  | cons x xs ih =>
    simp only [ofWords, BitVec.getLsbD_or, BitVec.getLsbD_shiftLeft, BitVec.getLsbD_setWidth, hi,
      decide_true, Bool.true_and]
    by_cases h : i < 16
    · simp [h, Nat.div_eq_of_lt h, Nat.mod_eq_of_lt h]
    · rw [ih (i - 16) (by omega), show i / 16 = (i - 16) / 16 + 1 by omega,
        show i % 16 = (i - 16) % 16 by omega]
      simp [h, BitVec.getLsbD_of_ge x i (by omega)]

theorem ofBytes_getLsbD (l : List Byte) (i : Nat) (hi : i < 128) :
    (ofBytes l).getLsbD i = (l.getD (i / 8) 0).getLsbD (i % 8) := by
  induction l generalizing i with
  | nil => simp [ofBytes]
  | cons x xs ih =>
    simp only [ofBytes, BitVec.getLsbD_or, BitVec.getLsbD_shiftLeft, BitVec.getLsbD_setWidth, hi,
      decide_true, Bool.true_and]
    by_cases h : i < 8
    · simp [h, Nat.div_eq_of_lt h, Nat.mod_eq_of_lt h]
    · rw [ih (i - 8) (by omega), show i / 8 = (i - 8) / 8 + 1 by omega,
        show i % 8 = (i - 8) % 8 by omega]
      simp [h, BitVec.getLsbD_of_ge x i (by omega)]

theorem blendF0 (a0 a1 a2 a3 b0 b1 b2 b3 : BitVec 32) :
    mm_blend_epi16 (ofLanes a3 a2 a1 a0) (ofLanes b3 b2 b1 b0) 0xF0 = ofLanes b3 b2 a1 a0 := by
  have key (x y : M128) (i : Nat) (hi : i < 128) : (mm_blend_epi16 x y 0xF0).getLsbD i =
      if i < 64 then x.getLsbD i else y.getLsbD i := by
    unfold mm_blend_epi16
    rw [ofWords_getLsbD _ _ hi, List.getD_eq_getElem?_getD, List.getElem?_map,
      List.getElem?_range (by omega)]
    have hq : 16 * (i / 16) + i % 16 = i := Nat.div_add_mod i 16
    have hm : i % 16 < 16 := Nat.mod_lt _ (by omega)
    have hb : ∀ q, q < 8 → ((0xF0 / 2 ^ q % 2 = 1) ↔ 4 ≤ q) := by decide
    have := hb (i / 16) (by omega)
    by_cases h : i < 64
    · rw [Option.map_some, Option.getD_some, if_neg (by omega), if_pos h]
      simp [wordOf, hm, hq]
    · rw [Option.map_some, Option.getD_some, if_pos (by omega), if_neg h]
      simp [wordOf, hm, hq]
  have lo (k : Nat) (hk : k < 2) (x y : M128) : lane (mm_blend_epi16 x y 0xF0) k = lane x k := by
    apply BitVec.eq_of_getLsbD_eq
    intro i hi
    rw [getLsbD_lane, getLsbD_lane, key _ _ _ (by omega), if_pos (by omega)]
  have hh (k : Nat) (hk : k < 2) (x y : M128) :
      lane (mm_blend_epi16 x y 0xF0) (k + 2) = lane y (k + 2) := by
    apply BitVec.eq_of_getLsbD_eq
    intro i hi
    rw [getLsbD_lane, getLsbD_lane, key _ _ _ (by omega), if_neg (by omega)]
  apply ext_lanes
  · rw [lo 0 (by omega), lane0, lane0]
  · rw [lo 1 (by omega), lane1, lane1]
  · rw [hh 0 (by omega), lane2, lane2]
  · rw [hh 1 (by omega), lane3, lane3]

/-! ## Vectors of schedule words and of working variables -/

/-- Words `t .. t+3` in lanes `0 .. 3`. -/
def W4 (W : Nat → BitVec 32) (t : Nat) : M128 := ofLanes (W (t + 3)) (W (t + 2)) (W (t + 1)) (W t)

/-- `W_i + σ0(W_{i+1})` for `i = t .. t+3`. -/
def X4 (W : Nat → BitVec 32) (t : Nat) : M128 :=
  ofLanes (W (t + 3) + sha256Fns.s0 (W (t + 4))) (W (t + 2) + sha256Fns.s0 (W (t + 3)))
    (W (t + 1) + sha256Fns.s0 (W (t + 2))) (W t + sha256Fns.s0 (W (t + 1)))

def ABEF (v : Arr8 (BitVec 32)) : M128 := ofLanes v.x0 v.x1 v.x4 v.x5
def CDGH (v : Arr8 (BitVec 32)) : M128 := ofLanes v.x2 v.x3 v.x6 v.x7

theorem rnds2Step_eq (k wt : BitVec 32) (v : Arr8 (BitVec 32)) :
    rnds2Step (wt + k) v = sha256Fns.round k wt v := by
  simp only [rnds2Step, Sha2.round]
  have h1 : iCh v.x4 v.x5 v.x6 + iSigma1 v.x4 + (wt + k) + v.x7 =
      v.x7 + sha256Fns.S1 v.x4 + Ch v.x4 v.x5 v.x6 + k + wt := by
    show Ch v.x4 v.x5 v.x6 + sha256Fns.S1 v.x4 + (wt + k) + v.x7 = _
    ac_rfl
  rw [h1]
  have h2 : iMaj v.x0 v.x1 v.x2 = Maj v.x0 v.x1 v.x2 := rfl
  have h3 : iSigma0 v.x0 = sha256Fns.S0 v.x0 := rfl
  rw [h2, h3]
  congr 1
  · ac_rfl
  · ac_rfl

theorem add4 (a0 a1 a2 a3 b0 b1 b2 b3 : BitVec 32) :
    mm_add_epi32 (ofLanes a3 a2 a1 a0) (ofLanes b3 b2 b1 b0) =
      ofLanes (a3 + b3) (a2 + b2) (a1 + b1) (a0 + b0) := by
  simp only [mm_add_epi32, lane0, lane1, lane2, lane3]

theorem shuffle0E (a0 a1 a2 a3 : BitVec 32) :
    mm_shuffle_epi32 (ofLanes a3 a2 a1 a0) 0x0E = ofLanes a0 a0 a3 a2 := by
  show ofLanes (lane _ 0) (lane _ 0) (lane _ 3) (lane _ 2) = _
  simp only [lane0, lane2, lane3]

theorem shuffleB1 (a0 a1 a2 a3 : BitVec 32) :
    mm_shuffle_epi32 (ofLanes a3 a2 a1 a0) 0xB1 = ofLanes a2 a3 a0 a1 := by
  show ofLanes (lane _ 2) (lane _ 3) (lane _ 0) (lane _ 1) = _
  simp only [lane0, lane1, lane2, lane3]

theorem shuffle1B (a0 a1 a2 a3 : BitVec 32) :
    mm_shuffle_epi32 (ofLanes a3 a2 a1 a0) 0x1B = ofLanes a0 a1 a2 a3 := by
  show ofLanes (lane _ 0) (lane _ 1) (lane _ 2) (lane _ 3) = _
  simp only [lane0, lane1, lane2, lane3]

/-- Two rounds in one instruction. -/
theorem rnds2_eq (k0 k1 w0 w1 x y : BitVec 32) (v : Arr8 (BitVec 32)) :
    mm_sha256rnds2_epu32 (CDGH v) (ABEF v) (ofLanes x y (w1 + k1) (w0 + k0)) =
      ABEF (sha256Fns.round k1 w1 (sha256Fns.round k0 w0 v)) := by
  simp only [mm_sha256rnds2_epu32, CDGH, ABEF, lane0, lane1, lane2, lane3]
  rw [show (⟨v.x0, v.x1, v.x2, v.x3, v.x4, v.x5, v.x6, v.x7⟩ : Arr8 (BitVec 32)) = v from rfl,
    rnds2Step_eq, rnds2Step_eq]

theorem CDGH_two (k0 k1 w0 w1 : BitVec 32) (v : Arr8 (BitVec 32)) :
    CDGH (sha256Fns.round k1 w1 (sha256Fns.round k0 w0 v)) = ABEF v := rfl

/-- The working variables after `t` rounds. -/
def V (W : Nat → BitVec 32) (h : Arr8 (BitVec 32)) : Nat → Arr8 (BitVec 32)
  | 0 => h
  | t + 1 => sha256Fns.round (sha256Fns.K.getD t 0) (W t) (V W h t)

/-- The two SHA256RNDS2 of a group of four rounds. -/
theorem group_state (W : Nat → BitVec 32) (h : Arr8 (BitVec 32)) (t : Nat) :
    mm_sha256rnds2_epu32 (CDGH (V W h t)) (ABEF (V W h t))
        (mm_add_epi32 (W4 W t) (W4 (sha256Fns.K.getD · 0) t)) = CDGH (V W h (t + 4)) ∧
    mm_sha256rnds2_epu32 (ABEF (V W h t)) (CDGH (V W h (t + 4)))
        (mm_shuffle_epi32 (mm_add_epi32 (W4 W t) (W4 (sha256Fns.K.getD · 0) t)) 0x0E) =
      ABEF (V W h (t + 4)) := by
  have e2 : CDGH (V W h (t + 2)) = ABEF (V W h t) := CDGH_two ..
  have e4 : CDGH (V W h (t + 4)) = ABEF (V W h (t + 2)) := CDGH_two ..
  constructor
  · simp only [W4, add4]
    rw [rnds2_eq, e4]
    rfl
  · simp only [W4, add4, shuffle0E]
    rw [e4, ← e2, rnds2_eq]
    rfl

/-- SHA256MSG1. -/
theorem msg1_eq (W : Nat → BitVec 32) (t : Nat) :
    mm_sha256msg1_epu32 (W4 W t) (W4 W (t + 4)) = X4 W t := by
  simp only [mm_sha256msg1_epu32, W4, lane0, lane1, lane2, lane3]
  rfl

/-- The schedule recurrence, up to index `N`. -/
def Rec (W : Nat → BitVec 32) (N : Nat) : Prop :=
  ∀ k, k + 16 < N → W (k + 16) =
    sha256Fns.s1 (W (k + 14)) + W (k + 9) + sha256Fns.s0 (W (k + 1)) + W k

/-- PALIGNR, PADDD, SHA256MSG2. -/
theorem msg2_eq (W : Nat → BitVec 32) (N t : Nat) (hW : Rec W N) (ht : t + 19 < N) :
    mm_sha256msg2_epu32 (mm_add_epi32 (X4 W t) (mm_alignr_epi8 (W4 W (t + 12)) (W4 W (t + 8)) 4))
      (W4 W (t + 12)) = W4 W (t + 16) := by
  have hs1 : isigma1 = sha256Fns.s1 := rfl
  have r0 := hW t (by omega)
  have r1 := hW (t + 1) (by omega)
  have r2 := hW (t + 2) (by omega)
  have r3 := hW (t + 3) (by omega)
  have a0 : W t + sha256Fns.s0 (W (t + 1)) + W (t + 9) + sha256Fns.s1 (W (t + 14)) = W (t + 16) := by
    rw [r0]; ac_rfl
  have a1 : W (t + 1) + sha256Fns.s0 (W (t + 2)) + W (t + 10) + sha256Fns.s1 (W (t + 15)) =
      W (t + 17) := by
    rw [show t + 17 = t + 1 + 16 by omega, r1]
    show _ = sha256Fns.s1 (W (t + 15)) + W (t + 10) + sha256Fns.s0 (W (t + 2)) + W (t + 1)
    ac_rfl
  have a2 : W (t + 2) + sha256Fns.s0 (W (t + 3)) + W (t + 11) + sha256Fns.s1 (W (t + 16)) =
      W (t + 18) := by
    rw [show t + 18 = t + 2 + 16 by omega, r2]
    show _ = sha256Fns.s1 (W (t + 16)) + W (t + 11) + sha256Fns.s0 (W (t + 3)) + W (t + 2)
    ac_rfl
  have a3 : W (t + 3) + sha256Fns.s0 (W (t + 4)) + W (t + 12) + sha256Fns.s1 (W (t + 17)) =
      W (t + 19) := by
    rw [show t + 19 = t + 3 + 16 by omega, r3]
    show _ = sha256Fns.s1 (W (t + 17)) + W (t + 12) + sha256Fns.s0 (W (t + 4)) + W (t + 3)
    ac_rfl
  simp only [W4, X4, alignr4, add4, mm_sha256msg2_epu32, lane0, lane1, lane2, lane3, hs1]
  simp only [show t + 8 + 1 = t + 9 by omega, show t + 8 + 2 = t + 10 by omega,
    show t + 8 + 3 = t + 11 by omega, show t + 12 + 2 = t + 14 by omega,
    show t + 12 + 3 = t + 15 by omega, show t + 16 + 1 = t + 17 by omega,
    show t + 16 + 2 = t + 18 by omega, show t + 16 + 3 = t + 19 by omega]
  rw [a0, a1, a2, a3]

/-! ## The groups -/

theorem k0 : mm_set_epi64x 0xE9B5DBA5B5C0FBCF#64 0x71374491428A2F98#64 = W4 (sha256Fns.K.getD · 0) 0 := by decide
theorem k1 : mm_set_epi64x 0xAB1C5ED5923F82A4#64 0x59F111F13956C25B#64 = W4 (sha256Fns.K.getD · 0) 4 := by decide
theorem k2 : mm_set_epi64x 0x550C7DC3243185BE#64 0x12835B01D807AA98#64 = W4 (sha256Fns.K.getD · 0) 8 := by decide
theorem k3 : mm_set_epi64x 0xC19BF1749BDC06A7#64 0x80DEB1FE72BE5D74#64 = W4 (sha256Fns.K.getD · 0) 12 := by decide
theorem k4 : mm_set_epi64x 0x240CA1CC0FC19DC6#64 0xEFBE4786E49B69C1#64 = W4 (sha256Fns.K.getD · 0) 16 := by decide
theorem k5 : mm_set_epi64x 0x76F988DA5CB0A9DC#64 0x4A7484AA2DE92C6F#64 = W4 (sha256Fns.K.getD · 0) 20 := by decide
theorem k6 : mm_set_epi64x 0xBF597FC7B00327C8#64 0xA831C66D983E5152#64 = W4 (sha256Fns.K.getD · 0) 24 := by decide
theorem k7 : mm_set_epi64x 0x1429296706CA6351#64 0xD5A79147C6E00BF3#64 = W4 (sha256Fns.K.getD · 0) 28 := by decide
theorem k8 : mm_set_epi64x 0x53380D134D2C6DFC#64 0x2E1B213827B70A85#64 = W4 (sha256Fns.K.getD · 0) 32 := by decide
theorem k9 : mm_set_epi64x 0x92722C8581C2C92E#64 0x766A0ABB650A7354#64 = W4 (sha256Fns.K.getD · 0) 36 := by decide
theorem k10 : mm_set_epi64x 0xC76C51A3C24B8B70#64 0xA81A664BA2BFE8A1#64 = W4 (sha256Fns.K.getD · 0) 40 := by decide
theorem k11 : mm_set_epi64x 0x106AA070F40E3585#64 0xD6990624D192E819#64 = W4 (sha256Fns.K.getD · 0) 44 := by decide
theorem k12 : mm_set_epi64x 0x34B0BCB52748774C#64 0x1E376C0819A4C116#64 = W4 (sha256Fns.K.getD · 0) 48 := by decide
theorem k13 : mm_set_epi64x 0x682E6FF35B9CCA4F#64 0x4ED8AA4A391C0CB3#64 = W4 (sha256Fns.K.getD · 0) 52 := by decide
theorem k14 : mm_set_epi64x 0x8CC7020884C87814#64 0x78A5636F748F82EE#64 = W4 (sha256Fns.K.getD · 0) 56 := by decide
theorem k15 : mm_set_epi64x 0xC67178F2BEF9A3F7#64 0xA4506CEB90BEFFFA#64 = W4 (sha256Fns.K.getD · 0) 60 := by decide

/-- Local variables before group 0. -/
def Inv0 (W : Nat → BitVec 32) (h : Arr8 (BitVec 32)) (s : Xmm) : Prop :=
  s.state0 = ABEF (V W h 0) ∧ s.state1 = CDGH (V W h 0)

/-- Local variables before group 1. -/
def Inv1 (W : Nat → BitVec 32) (h : Arr8 (BitVec 32)) (s : Xmm) : Prop :=
  s.state0 = ABEF (V W h 4) ∧ s.state1 = CDGH (V W h 4) ∧ s.msg0 = W4 W 0

/-- Local variables before group 2. -/
def Inv2 (W : Nat → BitVec 32) (h : Arr8 (BitVec 32)) (s : Xmm) : Prop :=
  s.state0 = ABEF (V W h 8) ∧ s.state1 = CDGH (V W h 8) ∧ s.msg0 = X4 W 0 ∧ s.msg1 = W4 W 4

/-- Local variables before group 3. -/
def Inv3 (W : Nat → BitVec 32) (h : Arr8 (BitVec 32)) (s : Xmm) : Prop :=
  s.state0 = ABEF (V W h 12) ∧ s.state1 = CDGH (V W h 12) ∧ s.msg0 = X4 W 0 ∧ s.msg1 = X4 W 4 ∧ s.msg2 = W4 W 8

/-- Local variables before group 4. -/
def Inv4 (W : Nat → BitVec 32) (h : Arr8 (BitVec 32)) (s : Xmm) : Prop :=
  s.state0 = ABEF (V W h 16) ∧ s.state1 = CDGH (V W h 16) ∧ s.msg0 = W4 W 16 ∧ s.msg1 = X4 W 4 ∧ s.msg2 = X4 W 8 ∧ s.msg3 = W4 W 12

/-- Local variables before group 5. -/
def Inv5 (W : Nat → BitVec 32) (h : Arr8 (BitVec 32)) (s : Xmm) : Prop :=
  s.state0 = ABEF (V W h 20) ∧ s.state1 = CDGH (V W h 20) ∧ s.msg0 = W4 W 16 ∧ s.msg1 = W4 W 20 ∧ s.msg2 = X4 W 8 ∧ s.msg3 = X4 W 12

/-- Local variables before group 6. -/
def Inv6 (W : Nat → BitVec 32) (h : Arr8 (BitVec 32)) (s : Xmm) : Prop :=
  s.state0 = ABEF (V W h 24) ∧ s.state1 = CDGH (V W h 24) ∧ s.msg0 = X4 W 16 ∧ s.msg1 = W4 W 20 ∧ s.msg2 = W4 W 24 ∧ s.msg3 = X4 W 12

/-- Local variables before group 7. -/
def Inv7 (W : Nat → BitVec 32) (h : Arr8 (BitVec 32)) (s : Xmm) : Prop :=
  s.state0 = ABEF (V W h 28) ∧ s.state1 = CDGH (V W h 28) ∧ s.msg0 = X4 W 16 ∧ s.msg1 = X4 W 20 ∧ s.msg2 = W4 W 24 ∧ s.msg3 = W4 W 28

/-- Local variables before group 8. -/
def Inv8 (W : Nat → BitVec 32) (h : Arr8 (BitVec 32)) (s : Xmm) : Prop :=
  s.state0 = ABEF (V W h 32) ∧ s.state1 = CDGH (V W h 32) ∧ s.msg0 = W4 W 32 ∧ s.msg1 = X4 W 20 ∧ s.msg2 = X4 W 24 ∧ s.msg3 = W4 W 28

/-- Local variables before group 9. -/
def Inv9 (W : Nat → BitVec 32) (h : Arr8 (BitVec 32)) (s : Xmm) : Prop :=
  s.state0 = ABEF (V W h 36) ∧ s.state1 = CDGH (V W h 36) ∧ s.msg0 = W4 W 32 ∧ s.msg1 = W4 W 36 ∧ s.msg2 = X4 W 24 ∧ s.msg3 = X4 W 28

/-- Local variables before group 10. -/
def Inv10 (W : Nat → BitVec 32) (h : Arr8 (BitVec 32)) (s : Xmm) : Prop :=
  s.state0 = ABEF (V W h 40) ∧ s.state1 = CDGH (V W h 40) ∧ s.msg0 = X4 W 32 ∧ s.msg1 = W4 W 36 ∧ s.msg2 = W4 W 40 ∧ s.msg3 = X4 W 28

/-- Local variables before group 11. -/
def Inv11 (W : Nat → BitVec 32) (h : Arr8 (BitVec 32)) (s : Xmm) : Prop :=
  s.state0 = ABEF (V W h 44) ∧ s.state1 = CDGH (V W h 44) ∧ s.msg0 = X4 W 32 ∧ s.msg1 = X4 W 36 ∧ s.msg2 = W4 W 40 ∧ s.msg3 = W4 W 44

/-- Local variables before group 12. -/
def Inv12 (W : Nat → BitVec 32) (h : Arr8 (BitVec 32)) (s : Xmm) : Prop :=
  s.state0 = ABEF (V W h 48) ∧ s.state1 = CDGH (V W h 48) ∧ s.msg0 = W4 W 48 ∧ s.msg1 = X4 W 36 ∧ s.msg2 = X4 W 40 ∧ s.msg3 = W4 W 44

/-- Local variables before group 13. -/
def Inv13 (W : Nat → BitVec 32) (h : Arr8 (BitVec 32)) (s : Xmm) : Prop :=
  s.state0 = ABEF (V W h 52) ∧ s.state1 = CDGH (V W h 52) ∧ s.msg0 = W4 W 48 ∧ s.msg1 = W4 W 52 ∧ s.msg2 = X4 W 40 ∧ s.msg3 = X4 W 44

/-- Local variables before group 14. -/
def Inv14 (W : Nat → BitVec 32) (h : Arr8 (BitVec 32)) (s : Xmm) : Prop :=
  s.state0 = ABEF (V W h 56) ∧ s.state1 = CDGH (V W h 56) ∧ s.msg1 = W4 W 52 ∧ s.msg2 = W4 W 56 ∧ s.msg3 = X4 W 44

/-- Local variables before group 15. -/
def Inv15 (W : Nat → BitVec 32) (h : Arr8 (BitVec 32)) (s : Xmm) : Prop :=
  s.state0 = ABEF (V W h 60) ∧ s.state1 = CDGH (V W h 60) ∧ s.msg3 = W4 W 60

/-- Local variables before group 16. -/
def Inv16 (W : Nat → BitVec 32) (h : Arr8 (BitVec 32)) (s : Xmm) : Prop :=
  s.state0 = ABEF (V W h 64) ∧ s.state1 = CDGH (V W h 64)

theorem group0 (W : Nat → BitVec 32) (h : Arr8 (BitVec 32)) (buffer : List Byte) (s : Xmm) (hl : ∃ m, loadBytes buffer 0 = .ok m ∧ mm_shuffle_epi8 m mask = W4 W 0)
    (I : Inv0 W h s) : ∃ s', rounds0_3 buffer s = .ok s' ∧ Inv1 W h s' := by
  obtain ⟨m, hb, hl⟩ := hl
  obtain ⟨i0, i1⟩ := I
  have gs := group_state W h 0
  simp only [Nat.reduceAdd] at gs
  refine ⟨_, by simp only [rounds0_3, hb, bind, Except.bind, pure, Except.pure]; rfl, ?_⟩
  simp only [Inv1, i0, i1, k0, gs.1, gs.2, hl, and_self]

theorem group1 (W : Nat → BitVec 32) (h : Arr8 (BitVec 32)) (buffer : List Byte) (s : Xmm) (hl : ∃ m, loadBytes buffer 16 = .ok m ∧ mm_shuffle_epi8 m mask = W4 W 4)
    (I : Inv1 W h s) : ∃ s', rounds4_7 buffer s = .ok s' ∧ Inv2 W h s' := by
  obtain ⟨m, hb, hl⟩ := hl
  obtain ⟨i0, i1, m0⟩ := I
  have gs := group_state W h 4
  have q1 := msg1_eq W 0
  simp only [Nat.reduceAdd] at gs q1
  refine ⟨_, by simp only [rounds4_7, hb, bind, Except.bind, pure, Except.pure]; rfl, ?_⟩
  simp only [Inv2, i0, i1, m0, k1, gs.1, gs.2, hl, q1, and_self]

theorem group2 (W : Nat → BitVec 32) (h : Arr8 (BitVec 32)) (buffer : List Byte) (s : Xmm) (hl : ∃ m, loadBytes buffer 32 = .ok m ∧ mm_shuffle_epi8 m mask = W4 W 8)
    (I : Inv2 W h s) : ∃ s', rounds8_11 buffer s = .ok s' ∧ Inv3 W h s' := by
  obtain ⟨m, hb, hl⟩ := hl
  obtain ⟨i0, i1, m0, m1⟩ := I
  have gs := group_state W h 8
  have q1 := msg1_eq W 4
  simp only [Nat.reduceAdd] at gs q1
  refine ⟨_, by simp only [rounds8_11, hb, bind, Except.bind, pure, Except.pure]; rfl, ?_⟩
  simp only [Inv3, i0, i1, m0, m1, k2, gs.1, gs.2, hl, q1, and_self]

theorem group3 (W : Nat → BitVec 32) (hW : Rec W 64) (h : Arr8 (BitVec 32)) (buffer : List Byte) (s : Xmm) (hl : ∃ m, loadBytes buffer 48 = .ok m ∧ mm_shuffle_epi8 m mask = W4 W 12)
    (I : Inv3 W h s) : ∃ s', rounds12_15 buffer s = .ok s' ∧ Inv4 W h s' := by
  obtain ⟨m, hb, hl⟩ := hl
  obtain ⟨i0, i1, m0, m1, m2⟩ := I
  have gs := group_state W h 12
  have q2 := msg2_eq W 64 0 hW (by omega)
  have q1 := msg1_eq W 8
  simp only [Nat.reduceAdd] at gs q2 q1
  refine ⟨_, by simp only [rounds12_15, hb, bind, Except.bind, pure, Except.pure]; rfl, ?_⟩
  simp only [Inv4, i0, i1, m0, m1, m2, k3, gs.1, gs.2, hl, q2, q1, and_self]

theorem group4 (W : Nat → BitVec 32) (hW : Rec W 64) (h : Arr8 (BitVec 32)) (s : Xmm)
    (I : Inv4 W h s) : Inv5 W h (rounds16_19 s) := by
  obtain ⟨i0, i1, m0, m1, m2, m3⟩ := I
  have gs := group_state W h 16
  have q2 := msg2_eq W 64 4 hW (by omega)
  have q1 := msg1_eq W 12
  simp only [Nat.reduceAdd] at gs q2 q1
  simp only [Inv5, rounds16_19, i0, i1, m0, m1, m2, m3, k4, gs.1, gs.2, q2, q1, and_self]

theorem group5 (W : Nat → BitVec 32) (hW : Rec W 64) (h : Arr8 (BitVec 32)) (s : Xmm)
    (I : Inv5 W h s) : Inv6 W h (rounds20_23 s) := by
  obtain ⟨i0, i1, m0, m1, m2, m3⟩ := I
  have gs := group_state W h 20
  have q2 := msg2_eq W 64 8 hW (by omega)
  have q1 := msg1_eq W 16
  simp only [Nat.reduceAdd] at gs q2 q1
  simp only [Inv6, rounds20_23, i0, i1, m0, m1, m2, m3, k5, gs.1, gs.2, q2, q1, and_self]

theorem group6 (W : Nat → BitVec 32) (hW : Rec W 64) (h : Arr8 (BitVec 32)) (s : Xmm)
    (I : Inv6 W h s) : Inv7 W h (rounds24_27 s) := by
  obtain ⟨i0, i1, m0, m1, m2, m3⟩ := I
  have gs := group_state W h 24
  have q2 := msg2_eq W 64 12 hW (by omega)
  have q1 := msg1_eq W 20
  simp only [Nat.reduceAdd] at gs q2 q1
  simp only [Inv7, rounds24_27, i0, i1, m0, m1, m2, m3, k6, gs.1, gs.2, q2, q1, and_self]

theorem group7 (W : Nat → BitVec 32) (hW : Rec W 64) (h : Arr8 (BitVec 32)) (s : Xmm)
    (I : Inv7 W h s) : Inv8 W h (rounds28_31 s) := by
  obtain ⟨i0, i1, m0, m1, m2, m3⟩ := I
  have gs := group_state W h 28
  have q2 := msg2_eq W 64 16 hW (by omega)
  have q1 := msg1_eq W 24
  simp only [Nat.reduceAdd] at gs q2 q1
  simp only [Inv8, rounds28_31, i0, i1, m0, m1, m2, m3, k7, gs.1, gs.2, q2, q1, and_self]

theorem group8 (W : Nat → BitVec 32) (hW : Rec W 64) (h : Arr8 (BitVec 32)) (s : Xmm)
    (I : Inv8 W h s) : Inv9 W h (rounds32_35 s) := by
  obtain ⟨i0, i1, m0, m1, m2, m3⟩ := I
  have gs := group_state W h 32
  have q2 := msg2_eq W 64 20 hW (by omega)
  have q1 := msg1_eq W 28
  simp only [Nat.reduceAdd] at gs q2 q1
  simp only [Inv9, rounds32_35, i0, i1, m0, m1, m2, m3, k8, gs.1, gs.2, q2, q1, and_self]

theorem group9 (W : Nat → BitVec 32) (hW : Rec W 64) (h : Arr8 (BitVec 32)) (s : Xmm)
    (I : Inv9 W h s) : Inv10 W h (rounds36_39 s) := by
  obtain ⟨i0, i1, m0, m1, m2, m3⟩ := I
  have gs := group_state W h 36
  have q2 := msg2_eq W 64 24 hW (by omega)
  have q1 := msg1_eq W 32
  simp only [Nat.reduceAdd] at gs q2 q1
  simp only [Inv10, rounds36_39, i0, i1, m0, m1, m2, m3, k9, gs.1, gs.2, q2, q1, and_self]

theorem group10 (W : Nat → BitVec 32) (hW : Rec W 64) (h : Arr8 (BitVec 32)) (s : Xmm)
    (I : Inv10 W h s) : Inv11 W h (rounds40_43 s) := by
  obtain ⟨i0, i1, m0, m1, m2, m3⟩ := I
  have gs := group_state W h 40
  have q2 := msg2_eq W 64 28 hW (by omega)
  have q1 := msg1_eq W 36
  simp only [Nat.reduceAdd] at gs q2 q1
  simp only [Inv11, rounds40_43, i0, i1, m0, m1, m2, m3, k10, gs.1, gs.2, q2, q1, and_self]

theorem group11 (W : Nat → BitVec 32) (hW : Rec W 64) (h : Arr8 (BitVec 32)) (s : Xmm)
    (I : Inv11 W h s) : Inv12 W h (rounds44_47 s) := by
  obtain ⟨i0, i1, m0, m1, m2, m3⟩ := I
  have gs := group_state W h 44
  have q2 := msg2_eq W 64 32 hW (by omega)
  have q1 := msg1_eq W 40
  simp only [Nat.reduceAdd] at gs q2 q1
  simp only [Inv12, rounds44_47, i0, i1, m0, m1, m2, m3, k11, gs.1, gs.2, q2, q1, and_self]

theorem group12 (W : Nat → BitVec 32) (hW : Rec W 64) (h : Arr8 (BitVec 32)) (s : Xmm)
    (I : Inv12 W h s) : Inv13 W h (rounds48_51 s) := by
  obtain ⟨i0, i1, m0, m1, m2, m3⟩ := I
  have gs := group_state W h 48
  have q2 := msg2_eq W 64 36 hW (by omega)
  have q1 := msg1_eq W 44
  simp only [Nat.reduceAdd] at gs q2 q1
  simp only [Inv13, rounds48_51, i0, i1, m0, m1, m2, m3, k12, gs.1, gs.2, q2, q1, and_self]

theorem group13 (W : Nat → BitVec 32) (hW : Rec W 64) (h : Arr8 (BitVec 32)) (s : Xmm)
    (I : Inv13 W h s) : Inv14 W h (rounds52_55 s) := by
  obtain ⟨i0, i1, m0, m1, m2, m3⟩ := I
  have gs := group_state W h 52
  have q2 := msg2_eq W 64 40 hW (by omega)
  simp only [Nat.reduceAdd] at gs q2
  simp only [Inv14, rounds52_55, i0, i1, m0, m1, m2, m3, k13, gs.1, gs.2, q2, and_self]

theorem group14 (W : Nat → BitVec 32) (hW : Rec W 64) (h : Arr8 (BitVec 32)) (s : Xmm)
    (I : Inv14 W h s) : Inv15 W h (rounds56_59 s) := by
  obtain ⟨i0, i1, m1, m2, m3⟩ := I
  have gs := group_state W h 56
  have q2 := msg2_eq W 64 44 hW (by omega)
  simp only [Nat.reduceAdd] at gs q2
  simp only [Inv15, rounds56_59, i0, i1, m1, m2, m3, k14, gs.1, gs.2, q2, and_self]

theorem group15 (W : Nat → BitVec 32) (h : Arr8 (BitVec 32)) (s : Xmm)
    (I : Inv15 W h s) : Inv16 W h (rounds60_63 s) := by
  obtain ⟨i0, i1, m3⟩ := I
  have gs := group_state W h 60
  simp only [Nat.reduceAdd] at gs
  simp only [Inv16, rounds60_63, i0, i1, m3, k15, gs.1, gs.2, and_self]

/-! ## Loading the message -/

theorem beNat4 (b0 b1 b2 b3 : Byte) :
    BitVec.ofNat 32 (beNat [b0, b1, b2, b3]) = b0 ++ b1 ++ b2 ++ b3 := by
  apply BitVec.eq_of_toNat_eq
  have h0 := b0.isLt
  have h1 := b1.isLt
  have h2 := b2.isLt
  have h3 := b3.isLt
  rw [BitVec.toNat_append, BitVec.toNat_append, BitVec.toNat_append,
    ← Nat.shiftLeft_add_eq_or_of_lt h1, ← Nat.shiftLeft_add_eq_or_of_lt h2,
    ← Nat.shiftLeft_add_eq_or_of_lt h3]
  simp only [beNat, List.foldl_cons, List.foldl_nil, Nat.shiftLeft_eq, BitVec.toNat_ofNat]
  omega

theorem getLsbD_app4 (b0 b1 b2 b3 : Byte) (i : Nat) (hi : i < 32) :
    (b0 ++ b1 ++ b2 ++ b3).getLsbD i = ([b3, b2, b1, b0].getD (i / 8) 0).getLsbD (i % 8) := by
  simp only [BitVec.getLsbD_append]
  by_cases c0 : i < 8
  · simp [c0, Nat.div_eq_of_lt c0, Nat.mod_eq_of_lt c0]
  by_cases c1 : i < 16
  · simp [c0, show i - 8 < 8 by omega, show i / 8 = 1 by omega, show i % 8 = i - 8 by omega]
  by_cases c2 : i < 24
  · simp [c0, show ¬ i - 8 < 8 by omega, show i - 8 - 8 < 8 by omega, show i / 8 = 2 by omega,
      show i % 8 = i - 8 - 8 by omega]
  · simp [c0, show ¬ i - 8 < 8 by omega, show ¬ i - 8 - 8 < 8 by omega, show i / 8 = 3 by omega,
      show i % 8 = i - 8 - 8 - 8 by omega]

theorem byteOf_ofBytes (l : List Byte) (k : Nat) (hk : k < 16) : byteOf (ofBytes l) k = l.getD k 0 := by
  apply BitVec.eq_of_getLsbD_eq
  intro i hi
  simp only [byteOf, BitVec.getLsbD_extractLsb', hi, decide_true, Bool.true_and]
  rw [ofBytes_getLsbD _ _ (by omega), show (8 * k + i) / 8 = k by omega,
    show (8 * k + i) % 8 = i by omega]

theorem lane_ofBytes (l : List Byte) (k : Nat) (hk : k < 4) :
    lane (ofBytes l) k =
      l.getD (4 * k + 3) 0 ++ l.getD (4 * k + 2) 0 ++ l.getD (4 * k + 1) 0 ++ l.getD (4 * k) 0 := by
  apply BitVec.eq_of_getLsbD_eq
  intro i hi
  rw [getLsbD_lane, getLsbD_app4 _ _ _ _ _ hi, ofBytes_getLsbD _ _ (by omega)]
  simp only [hi, decide_true, Bool.true_and]
  have hq : i / 8 < 4 := by omega
  rw [show (32 * k + i) % 8 = i % 8 by omega, show (32 * k + i) / 8 = 4 * k + i / 8 by omega]
  generalize i / 8 = q at hq
  match q, hq with
  | 0, _ => rfl
  | 1, _ => rfl
  | 2, _ => rfl
  | 3, _ => rfl

theorem maskBytes : (List.range 16).map (byteOf mask) =
    [3, 2, 1, 0, 7, 6, 5, 4, 11, 10, 9, 8, 15, 14, 13, 12] := by decide

theorem shuffle_mask (a : M128) : mm_shuffle_epi8 a mask =
    ofBytes [byteOf a 3, byteOf a 2, byteOf a 1, byteOf a 0, byteOf a 7, byteOf a 6, byteOf a 5,
      byteOf a 4, byteOf a 11, byteOf a 10, byteOf a 9, byteOf a 8, byteOf a 15, byteOf a 14,
      byteOf a 13, byteOf a 12] := by
  have : (List.range 16).map (fun i => if (byteOf mask i).msb then 0 else byteOf a ((byteOf mask i).toNat % 16)) =
      ((List.range 16).map (byteOf mask)).map (fun b => if b.msb then 0 else byteOf a (b.toNat % 16)) := by
    rw [List.map_map]; rfl
  unfold mm_shuffle_epi8
  rw [this, maskBytes]
  rfl

/-- A byte-swapped load gives four schedule words. -/
theorem load_eq (buf : List Byte) (hb : buf.length = 64) (g : Nat) (hg : g < 4) (W : Nat → BitVec 32)
    (hW : ∀ i, i < 16 → W i = (beWords 32 buf).getD i 0) :
    ∃ m, loadBytes buf (16 * g) = .ok m ∧ mm_shuffle_epi8 m mask = W4 W (4 * g) := by
  refine ⟨_, if_pos (by omega), ?_⟩
  rw [shuffle_mask]
  have hget (j : Nat) (hj : j < 16) : byteOf (ofBytes ((buf.drop (16 * g)).take 16)) j = buf.getD (16 * g + j) 0 := by
    rw [byteOf_ofBytes _ _ hj]
    simp [List.getD_eq_getElem?_getD, hj]
  have hword (k : Nat) (hk : k < 16) : W k =
      buf.getD (4 * k) 0 ++ buf.getD (4 * k + 1) 0 ++ buf.getD (4 * k + 2) 0 ++
        buf.getD (4 * k + 3) 0 := by
    rw [hW k hk, ← beNat4]
    have hk' : k < (blocks 4 buf).length := by simp [hb]; omega
    have h4 : (buf.drop (4 * k)).take 4 = [buf.getD (4 * k) 0, buf.getD (4 * k + 1) 0,
        buf.getD (4 * k + 2) 0, buf.getD (4 * k + 3) 0] := by
      apply List.ext_getElem
      · simp [hb]; omega
      · intro n h1 h2
        have hn : n < 4 := by simpa using h2
        simp only [List.getElem_take, List.getElem_drop]
        match n, hn with
        | 0, _ => simp [List.getD_eq_getElem?_getD, hb, show 4 * k < 64 by omega]
        | 1, _ => simp [List.getD_eq_getElem?_getD, hb, show 4 * k + 1 < 64 by omega]
        | 2, _ => simp [List.getD_eq_getElem?_getD, hb, show 4 * k + 2 < 64 by omega]
        | 3, _ => simp [List.getD_eq_getElem?_getD, hb, show 4 * k + 3 < 64 by omega]
    rw [← h4, List.getD_eq_getElem?_getD, List.getElem?_eq_getElem (by simpa [hb] using hk)]
    simp [beWords, blocks]
  apply ext_lanes
  · rw [lane_ofBytes _ _ (by omega), W4, lane0, hword _ (by omega)]
    simp only [Nat.mul_zero, Nat.zero_add, List.getD_cons_zero, List.getD_cons_succ]
    rw [hget 0 (by omega), hget 1 (by omega), hget 2 (by omega), hget 3 (by omega),
      show 4 * (4 * g) = 16 * g by omega, Nat.add_zero (16 * g)]
  · rw [lane_ofBytes _ _ (by omega), W4, lane1, hword _ (by omega)]
    simp only [Nat.mul_one, Nat.reduceAdd, List.getD_cons_zero, List.getD_cons_succ]
    rw [hget 4 (by omega), hget 5 (by omega), hget 6 (by omega), hget 7 (by omega),
      show 4 * (4 * g + 1) = 16 * g + 4 by omega]
  · rw [lane_ofBytes _ _ (by omega), W4, lane2, hword _ (by omega)]
    simp only [Nat.reduceMul, Nat.reduceAdd, List.getD_cons_zero, List.getD_cons_succ]
    rw [hget 8 (by omega), hget 9 (by omega), hget 10 (by omega), hget 11 (by omega),
      show 4 * (4 * g + 2) = 16 * g + 8 by omega]
  · rw [lane_ofBytes _ _ (by omega), W4, lane3, hword _ (by omega)]
    simp only [Nat.reduceMul, Nat.reduceAdd, List.getD_cons_zero, List.getD_cons_succ]
    rw [hget 12 (by omega), hget 13 (by omega), hget 14 (by omega), hget 15 (by omega),
      show 4 * (4 * g + 3) = 16 * g + 12 by omega]

/-! ## Loading and storing the state, and the whole function -/

theorem loadState_eq (h : Arr8 (BitVec 32)) (s : Xmm) :
    ∃ s', loadState h s = .ok s' ∧ s'.state0 = ABEF h ∧ s'.state1 = CDGH h := by
  refine ⟨_, rfl, ?_⟩
  simp only [shuffleB1, shuffle1B, alignr8, blendF0]
  exact ⟨rfl, rfl⟩

theorem storeState_eq (h : Arr8 (BitVec 32)) (s : Xmm) :
    storeState h s = .ok ⟨lane s.state0 0, lane s.state0 1, lane s.state0 2, lane s.state0 3,
      lane s.state1 0, lane s.state1 1, lane s.state1 2, lane s.state1 3⟩ := rfl

theorem V_eq (W : List (BitVec 32)) (h : Arr8 (BitVec 32)) (n : Nat) :
    V (fun t => W.getD t 0) h n = sha256Fns.roundsN W n h := by
  induction n with
  | zero => rfl
  | succ n ih => rw [V, ih, Sha2.roundsN, Sha2.roundsN, List.range_succ, List.foldl_append]; rfl

theorem processBlock_eq (buf : List Byte) (h : Arr8 (BitVec 32)) (hb : buf.length = 64) :
    processBlock buf h = .ok (compress256 h buf) := by
  have hM : (beWords 32 buf).length = 16 := by simp [hb]
  obtain ⟨L, hL⟩ : ∃ L, L = sha256Fns.schedule (beWords 32 buf) 48 := ⟨_, rfl⟩
  obtain ⟨W, hWd⟩ : ∃ W : Nat → BitVec 32, W = fun t => L.getD t 0 := ⟨_, rfl⟩
  have hrec : Rec W 64 := by
    intro k hk
    rw [hWd, hL]
    exact schedule_rec sha256Fns _ hM 48 k (by omega)
  have hfirst : ∀ i, i < 16 → W i = (beWords 32 buf).getD i 0 := by
    intro i hi
    rw [hWd, hL]
    exact schedule_first sha256Fns _ 48 i (by omega)
  obtain ⟨s0, hs0, hld⟩ := loadState_eq h ⟨0, 0, 0, 0, 0, 0, 0, 0⟩
  have I0 : Inv0 W h s0 := hld
  obtain ⟨s1, h1, I1⟩ := group0 W h buf s0 (load_eq buf hb 0 (by omega) W hfirst) I0
  obtain ⟨s2, h2, I2⟩ := group1 W h buf _ (load_eq buf hb 1 (by omega) W hfirst) I1
  obtain ⟨s3, h3, I3⟩ := group2 W h buf _ (load_eq buf hb 2 (by omega) W hfirst) I2
  obtain ⟨s4, h4, I4⟩ := group3 W hrec h buf _ (load_eq buf hb 3 (by omega) W hfirst) I3
  have I5 := group4 W hrec h _ I4
  have I6 := group5 W hrec h _ I5
  have I7 := group6 W hrec h _ I6
  have I8 := group7 W hrec h _ I7
  have I9 := group8 W hrec h _ I8
  have I10 := group9 W hrec h _ I9
  have I11 := group10 W hrec h _ I10
  have I12 := group11 W hrec h _ I11
  have I13 := group12 W hrec h _ I12
  have I14 := group13 W hrec h _ I13
  have I15 := group14 W hrec h _ I14
  have I16 := group15 W h _ I15
  unfold processBlock
  simp only [hs0, h1, h2, h3, h4, bind, Except.bind, storeState_eq]
  generalize rounds60_63 _ = s16 at I16
  obtain ⟨e0, e1⟩ := I16
  have hV : V W h 64 = sha256Fns.roundsN L 64 h := by rw [hWd]; exact V_eq L h 64
  simp only [unpackState, combine, e0, e1, hld.1, hld.2, ABEF, CDGH, add4, shuffle1B, shuffleB1,
    blendF0, alignr8, lane0, lane1, lane2, lane3]
  rw [hV, hL]
  have hc : compress256 h buf = Sha2.add h (sha256Fns.roundsN (sha256Fns.schedule (beWords 32 buf) 48) 64 h) := rfl
  rw [hc]
  generalize sha256Fns.roundsN (sha256Fns.schedule (beWords 32 buf) 48) 64 h = v
  simp only [Sha2.add, BitVec.add_comm]

end Chf.Sha256.Simd

namespace Chf.Sha256
open Spec

/-- Whatever the dispatch decides, the block function is the FIPS compression function. -/
theorem processBlock_eq (c : Cfg) (buf : List Byte) (h : Arr8 (BitVec 32)) (hl : buf.length = 64) :
    processBlock c buf h = .ok (compress256 h buf) := by
  unfold processBlock
  split
  · exact Simd.processBlock_eq buf h hl
  · exact softwareProcessBlock_eq c buf h hl

end Chf.Sha256
