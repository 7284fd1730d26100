import Verif.Model.Sha256
import Verif.Model.Sha512
import Verif.Spec.Sha2
import Verif.Proofs.Bytes

/-!
# Lemmas: the unrolled SHA-2 rounds compute the FIPS compression function
-/

namespace Chf
open Spec

/-! ## Word functions -/

theorem rotateLeft_eq_rotateRight {w : Nat} (x : BitVec w) (n : Nat) (h0 : 0 < n) (hn : n < w) :
    x.rotateLeft (w - n) = x.rotateRight n := by
  rw [BitVec.rotateLeft_def, BitVec.rotateRight_def, Nat.mod_eq_of_lt hn,
    Nat.mod_eq_of_lt (by omega : w - n < w), show w - (w - n) = n by omega, BitVec.or_comm]

theorem ch_eq {w : Nat} (x y z : BitVec w) : z ^^^ (x &&& (y ^^^ z)) = Ch x y z := by
  apply BitVec.eq_of_getLsbD_eq
  intro i hi
  simp only [Ch, BitVec.getLsbD_xor, BitVec.getLsbD_and, BitVec.getLsbD_not, hi, decide_true]
  cases x.getLsbD i <;> cases y.getLsbD i <;> cases z.getLsbD i <;> rfl

theorem maj_eq {w : Nat} (x y z : BitVec w) : (x &&& y) ||| (z &&& (x ||| y)) = Maj x y z := by
  apply BitVec.eq_of_getLsbD_eq
  intro i hi
  simp only [Maj, BitVec.getLsbD_xor, BitVec.getLsbD_and, BitVec.getLsbD_or]
  cases x.getLsbD i <;> cases y.getLsbD i <;> cases z.getLsbD i <;> rfl

/-! ## The generic unrolled round -/

/-- One source line, in terms of the FIPS functions. -/
def gLine {w} (S : Sha2 w) (s : RoundState w) (l : RoundLine w) : RoundState w :=
  let win := match l.later with
    | none => s.win
    | some (i1, i2, i3) =>
        s.win.set l.wi (s.win[l.wi] + S.s1 s.win[i1] + s.win[i2] + S.s0 s.win[i3])
  let r := s.regs
  let t1 := r.get l.rh + S.S1 (r.get l.re) + Ch (r.get l.re) (r.get l.rf) (r.get l.rg) + l.k
    + win[l.wi]
  let t2 := S.S0 (r.get l.ra) + Maj (r.get l.ra) (r.get l.rb) (r.get l.rc)
  { regs := (r.set l.rd (r.get l.rd + t1)).set l.rh (t1 + t2), win := win }

/-- Register used in position `i` by line `t`. -/
def regAt (t i : Nat) : Reg :=
  match (8 - t % 8 + i) % 8 with
  | 0 => .a | 1 => .b | 2 => .c | 3 => .d | 4 => .e | 5 => .f | 6 => .g | _ => .h

/-- The line expected in position `t`. -/
def patLine {w} (S : Sha2 w) (t : Nat) : RoundLine w where
  ra := regAt t 0
  rb := regAt t 1
  rc := regAt t 2
  rd := regAt t 3
  re := regAt t 4
  rf := regAt t 5
  rg := regAt t 6
  rh := regAt t 7
  k := S.K.getD t 0
  wi := Fin.ofNat 16 t
  later := if t < 16 then none else
    some (Fin.ofNat 16 (t + 14), Fin.ofNat 16 (t + 9), Fin.ofNat 16 (t + 1))

/-- The working variables `a .. h` of the standard, read off the registers before line `t`. -/
def view {w} (t : Nat) (r : Arr8 (BitVec w)) : Arr8 (BitVec w) :=
  ⟨r.get (regAt t 0), r.get (regAt t 1), r.get (regAt t 2), r.get (regAt t 3),
   r.get (regAt t 4), r.get (regAt t 5), r.get (regAt t 6), r.get (regAt t 7)⟩

theorem view_zero {w} (r : Arr8 (BitVec w)) : view 0 r = r := rfl

theorem view_mod {w} (t : Nat) (r : Arr8 (BitVec w)) : view t r = view (t % 8) r := by
  simp [view, regAt]

theorem regAt_mod (t i : Nat) : regAt t i = regAt (t % 8) i := by simp [regAt]

/-- Registers after the assignments of line `t`, seen from line `t + 1`. -/
theorem view_step {w} (S : Sha2 w) (t : Nat) (r : Arr8 (BitVec w)) (k wt : BitVec w) :
    view (t + 1) ((r.set (regAt t 3) (r.get (regAt t 3) +
        (r.get (regAt t 7) + S.S1 (r.get (regAt t 4)) +
          Ch (r.get (regAt t 4)) (r.get (regAt t 5)) (r.get (regAt t 6)) + k + wt))).set (regAt t 7)
        (r.get (regAt t 7) + S.S1 (r.get (regAt t 4)) +
          Ch (r.get (regAt t 4)) (r.get (regAt t 5)) (r.get (regAt t 6)) + k + wt +
          (S.S0 (r.get (regAt t 0)) + Maj (r.get (regAt t 0)) (r.get (regAt t 1)) (r.get (regAt t 2))))) =
      S.round k wt (view t r) := by
  rw [view_mod (t + 1), view_mod t]
  simp only [regAt_mod t]
  have h8 : t % 8 < 8 := Nat.mod_lt _ (by omega)
  rw [show (t + 1) % 8 = (t % 8 + 1) % 8 by omega]
  generalize t % 8 = q at h8
  obtain ⟨a, b, c, d, e, f, g, h⟩ := r
  match q, h8 with
  | 0, _ => rfl
  | 1, _ => rfl
  | 2, _ => rfl
  | 3, _ => rfl
  | 4, _ => rfl
  | 5, _ => rfl
  | 6, _ => rfl
  | 7, _ => rfl

/-! ## The schedule -/

theorem schedule_length {w} (S : Sha2 w) (M : List (BitVec w)) (k : Nat) :
    (S.schedule M k).length = M.length + k := by
  induction k with
  | zero => rfl
  | succ k ih => simp only [Sha2.schedule, List.length_append, ih]; simp; omega

theorem schedule_getD_lt {w} (S : Sha2 w) (M : List (BitVec w)) (k n i : Nat)
    (hi : i < M.length + k) (hk : k ≤ n) : (S.schedule M n).getD i 0 = (S.schedule M k).getD i 0 := by
  induction n with
  | zero => rw [Nat.le_zero.mp hk]
  | succ n ih =>
    by_cases h : k = n + 1
    · rw [h]
    · rw [← ih (by omega)]
      simp only [Sha2.schedule, List.getD_eq_getElem?_getD]
      rw [List.getElem?_append_left (by rw [schedule_length]; omega)]

theorem schedule_first {w} (S : Sha2 w) (M : List (BitVec w)) (n i : Nat) (hi : i < M.length) :
    (S.schedule M n).getD i 0 = M.getD i 0 := by
  rw [schedule_getD_lt S M 0 n i (by omega) (by omega)]; rfl

theorem schedule_rec {w} (S : Sha2 w) (M : List (BitVec w)) (hM : M.length = 16) (n k : Nat)
    (hk : k < n) :
    (S.schedule M n).getD (k + 16) 0 =
      S.s1 ((S.schedule M n).getD (k + 14) 0) + (S.schedule M n).getD (k + 9) 0 +
        S.s0 ((S.schedule M n).getD (k + 1) 0) + (S.schedule M n).getD k 0 := by
  rw [schedule_getD_lt S M (k + 1) n (k + 16) (by omega) (by omega),
    schedule_getD_lt S M k n (k + 14) (by omega) (by omega),
    schedule_getD_lt S M k n (k + 9) (by omega) (by omega),
    schedule_getD_lt S M k n (k + 1) (by omega) (by omega),
    schedule_getD_lt S M k n k (by omega) (by omega)]
  have hl : (S.schedule M k).length = k + 16 := by rw [schedule_length]; omega
  simp only [Sha2.schedule, List.getD_eq_getElem?_getD]
  rw [List.getElem?_append_right (by omega), hl]
  simp

/-! ## Running the lines -/

/-- The window before line `t`: the sixteen most recent schedule words, each in its slot. -/
def WinOK {w} (W : List (BitVec w)) (t : Nat) (win : Vector (BitVec w) 16) : Prop :=
  ∀ i : Nat, max t 16 - 16 ≤ i → i < max t 16 → win[Fin.ofNat 16 i] = W.getD i 0

theorem ofNat16_mod (i : Nat) : (Fin.ofNat 16 i).val = i % 16 := rfl

/-- Invariant step: line `t` performs round `t` of the standard. -/
theorem gLine_step {w} (S : Sha2 w) (M : List (BitVec w)) (hM : M.length = 16) (n t : Nat)
    (ht : t < 16 + n) (s : RoundState w) (hw : WinOK (S.schedule M n) t s.win) :
    view (t + 1) (gLine S s (patLine S t)).regs =
        S.round (S.K.getD t 0) ((S.schedule M n).getD t 0) (view t s.regs) ∧
      WinOK (S.schedule M n) (t + 1) (gLine S s (patLine S t)).win := by
  by_cases h16 : t < 16
  · have hwt : s.win[Fin.ofNat 16 t] = (S.schedule M n).getD t 0 := hw t (by omega) (by omega)
    constructor
    · rw [← hwt]
      simp only [gLine, patLine, h16, if_true]
      exact view_step S t s.regs _ _
    · simp only [gLine, patLine, h16, if_true]
      intro i h1 h2
      exact hw i (by omega) (by omega)
  · obtain ⟨k, rfl⟩ : ∃ k, t = k + 16 := ⟨t - 16, by omega⟩
    have e16 : s.win[Fin.ofNat 16 (k + 16)] = (S.schedule M n).getD k 0 := by
      rw [← hw k (by omega) (by omega)]
      congr 1
      apply Fin.ext; simp
    have e14 : s.win[Fin.ofNat 16 (k + 16 + 14)] = (S.schedule M n).getD (k + 14) 0 := by
      rw [← hw (k + 14) (by omega) (by omega)]
      congr 1
      apply Fin.ext; simp only [ofNat16_mod]; omega
    have e9 : s.win[Fin.ofNat 16 (k + 16 + 9)] = (S.schedule M n).getD (k + 9) 0 := by
      rw [← hw (k + 9) (by omega) (by omega)]
      congr 1
      apply Fin.ext; simp only [ofNat16_mod]; omega
    have e1 : s.win[Fin.ofNat 16 (k + 16 + 1)] = (S.schedule M n).getD (k + 1) 0 := by
      rw [← hw (k + 1) (by omega) (by omega)]
      congr 1
      apply Fin.ext; simp only [ofNat16_mod]; omega
    have hnew : s.win[Fin.ofNat 16 (k + 16)] + S.s1 s.win[Fin.ofNat 16 (k + 16 + 14)] +
        s.win[Fin.ofNat 16 (k + 16 + 9)] + S.s0 s.win[Fin.ofNat 16 (k + 16 + 1)] =
        (S.schedule M n).getD (k + 16) 0 := by
      rw [schedule_rec S M hM n k (by omega), e16, e14, e9, e1]
      ac_rfl
    have hget : (s.win.set (Fin.ofNat 16 (k + 16)) ((S.schedule M n).getD (k + 16) 0))[Fin.ofNat 16 (k + 16)] =
        (S.schedule M n).getD (k + 16) 0 := by simp
    constructor
    · simp only [gLine, patLine, h16, if_false, hnew]
      rw [hget]
      exact view_step S (k + 16) s.regs _ _
    · simp only [gLine, patLine, h16, if_false, hnew]
      intro i h1 h2
      by_cases hi : i = k + 16
      · subst hi; exact hget
      · have hne : (Fin.ofNat 16 (k + 16)).val ≠ (Fin.ofNat 16 i).val := by
          simp only [ofNat16_mod]; omega
        rw [← hw i (by omega) (by omega)]
        exact Vector.getElem_set_ne _ _ hne

theorem gLines_run {w} (S : Sha2 w) (M : List (BitVec w)) (hM : M.length = 16) (n t : Nat)
    (ht : t ≤ 16 + n) (s : RoundState w) (hw : WinOK (S.schedule M n) 0 s.win) :
    view t (((List.range t).map (patLine S)).foldl (gLine S) s).regs =
        S.roundsN (S.schedule M n) t s.regs ∧
      WinOK (S.schedule M n) t (((List.range t).map (patLine S)).foldl (gLine S) s).win := by
  induction t with
  | zero => exact ⟨rfl, hw⟩
  | succ t ih =>
    obtain ⟨h1, h2⟩ := ih (by omega)
    obtain ⟨h3, h4⟩ := gLine_step S M hM n t (by omega) _ h2
    simp only [List.range_succ, List.map_append, List.foldl_append, List.map_cons, List.map_nil,
      List.foldl_cons, List.foldl_nil, Sha2.roundsN]
    refine ⟨?_, h4⟩
    rw [h3, h1, Sha2.roundsN]

/-- The unrolled rounds followed by the final addition are the FIPS compression function. -/
theorem gLines_compress {w} (S : Sha2 w) (buf : List Byte) (h : Arr8 (BitVec w))
    (hM : (beWords w buf).length = 16) (n : Nat) (hK : S.K.length = 16 + n) (hn : 8 ∣ n)
    (win : Vector (BitVec w) 16) (hwin : win.toArray = (beWords w buf).toArray)
    (lines : List (RoundLine w)) (hl : lines = (List.range (16 + n)).map (patLine S)) :
    Sha2.add h (lines.foldl (gLine S) { regs := h, win := win }).regs = S.compress h buf := by
  have hw : WinOK (S.schedule (beWords w buf) n) 0 win := by
    intro i h1 h2
    rw [schedule_first _ _ _ _ (by omega)]
    have hi : i < 16 := by omega
    have : (Fin.ofNat 16 i).val = i := by rw [ofNat16_mod]; omega
    show win.toArray[(Fin.ofNat 16 i).val] = _
    simp only [hwin, this, List.getElem_toArray]
    rw [List.getD_eq_getElem?_getD, List.getElem?_eq_getElem (by omega)]; rfl
  have hrun := (gLines_run S (beWords w buf) hM n (16 + n) (Nat.le_refl _)
    { regs := h, win := win } hw).1
  have hv : ∀ r : Arr8 (BitVec w), view (16 + n) r = r := by
    intro r; rw [view_mod]
    obtain ⟨q, rfl⟩ := hn
    rw [show (16 + 8 * q) % 8 = 0 by omega]; rfl
  rw [hv] at hrun
  subst hl
  rw [hrun]
  simp only [Sha2.compress, hK, show 16 + n - 16 = n by omega]

theorem arr16_ok {α} (l : List α) (h : l.length = 16) :
    ∃ v : Vector α 16, arr16 l = .ok v ∧ v.toArray = l.toArray := by
  refine ⟨⟨l.toArray, by simpa using h⟩, ?_, rfl⟩
  unfold arr16; rw [dif_pos h]

/-! ## SHA-256 -/

namespace Sha256

theorem fns : ch = Ch ∧ maj = Maj ∧ bigSigma0 = sha256Fns.S0 ∧ bigSigma1 = sha256Fns.S1 ∧
    sigma0 = sha256Fns.s0 ∧ sigma1 = sha256Fns.s1 := by
  have r : ∀ (x : BitVec 32) (n : Nat), 0 < n → n < 32 → x.rotateLeft (32 - n) = x.rotateRight n :=
    fun x n => rotateLeft_eq_rotateRight x n
  refine ⟨?_, ?_, ?_, ?_, ?_, ?_⟩
  · funext x y z; exact ch_eq x y z
  · funext x y z; exact maj_eq x y z
  · funext x
    simp only [bigSigma0, sha256Fns]
    rw [r x 2 (by omega) (by omega), r x 13 (by omega) (by omega), r x 22 (by omega) (by omega)]
  · funext x
    simp only [bigSigma1, sha256Fns]
    rw [r x 6 (by omega) (by omega), r x 11 (by omega) (by omega), r x 25 (by omega) (by omega)]
  · funext x
    simp only [sigma0, sha256Fns]
    rw [r x 7 (by omega) (by omega), r x 18 (by omega) (by omega)]
  · funext x
    simp only [sigma1, sha256Fns]
    rw [r x 17 (by omega) (by omega), r x 19 (by omega) (by omega)]

theorem fastLine_eq : fastLine = gLine sha256Fns := by
  obtain ⟨h1, h2, h3, h4, h5, h6⟩ := fns
  funext s l
  unfold fastLine fastRound gLine
  rw [h1, h2, h3, h4, h5, h6]
  rcases l.later with _ | ⟨i1, i2, i3⟩ <;> rfl

theorem smallLine_eq : smallLine = gLine sha256Fns := by
  obtain ⟨h1, h2, h3, h4, h5, h6⟩ := fns
  funext s l
  unfold smallLine smallLaterRoundFn smallRoundFn gLine
  rw [h1, h2, h3, h4, h5, h6]
  rcases l.later with _ | ⟨i1, i2, i3⟩
  · rfl
  · simp

theorem line_eq (c : Cfg) : line c = gLine sha256Fns := by
  unfold line; split
  · exact smallLine_eq
  · exact fastLine_eq

theorem blockLines_eq : blockLines = (List.range 64).map (patLine sha256Fns) := by decide

theorem addState_eq (h r : Arr8 (BitVec 32)) : addState h r = Sha2.add h r := rfl

theorem softwareProcessBlock_eq (c : Cfg) (buf : List Byte) (h : Arr8 (BitVec 32))
    (hl : buf.length = 64) : softwareProcessBlock c buf h = .ok (compress256 h buf) := by
  have hw : (beWords 32 buf).length = 16 := by simp [hl]
  obtain ⟨v, hv, hva⟩ := arr16_ok (beWords 32 buf) hw
  have hf := fill_beWords32 (List.replicate 16 0) buf (by simp [hl])
  rw [hl, List.drop_replicate, Nat.sub_self, List.replicate_zero, List.append_nil] at hf
  have hd : debugAssert c (buf.length == blockSize) = .ok () := by
    simp [debugAssert, hl, blockSize]
  unfold softwareProcessBlock
  rw [hd, hf]
  simp only [bind, Except.bind, hv, pure, Except.pure, addState_eq, line_eq]
  have := gLines_compress sha256Fns buf h hw 48 rfl ⟨6, rfl⟩ v hva _ blockLines_eq
  rw [this, compress256]

end Sha256

/-! ## SHA-512 -/

namespace Sha512

theorem fns : ch = Ch ∧ maj = Maj ∧ bigSigma0 = sha512Fns.S0 ∧ bigSigma1 = sha512Fns.S1 ∧
    sigma0 = sha512Fns.s0 ∧ sigma1 = sha512Fns.s1 := by
  have r : ∀ (x : BitVec 64) (n : Nat), 0 < n → n < 64 → x.rotateLeft (64 - n) = x.rotateRight n :=
    fun x n => rotateLeft_eq_rotateRight x n
  refine ⟨?_, ?_, ?_, ?_, ?_, ?_⟩
  · funext x y z; exact ch_eq x y z
  · funext x y z; exact maj_eq x y z
  · funext x
    simp only [bigSigma0, sha512Fns]
    rw [r x 28 (by omega) (by omega), r x 34 (by omega) (by omega), r x 39 (by omega) (by omega)]
  · funext x
    simp only [bigSigma1, sha512Fns]
    rw [r x 14 (by omega) (by omega), r x 18 (by omega) (by omega), r x 41 (by omega) (by omega)]
  · funext x
    simp only [sigma0, sha512Fns]
    rw [r x 1 (by omega) (by omega), r x 8 (by omega) (by omega)]
  · funext x
    simp only [sigma1, sha512Fns]
    rw [r x 19 (by omega) (by omega), r x 61 (by omega) (by omega)]

theorem fastLine_eq : fastLine = gLine sha512Fns := by
  obtain ⟨h1, h2, h3, h4, h5, h6⟩ := fns
  funext s l
  unfold fastLine fastRound gLine
  rw [h1, h2, h3, h4, h5, h6]
  rcases l.later with _ | ⟨i1, i2, i3⟩ <;> rfl

theorem smallLine_eq : smallLine = gLine sha512Fns := by
  obtain ⟨h1, h2, h3, h4, h5, h6⟩ := fns
  funext s l
  unfold smallLine smallLaterRoundFn smallRoundFn gLine
  rw [h1, h2, h3, h4, h5, h6]
  rcases l.later with _ | ⟨i1, i2, i3⟩
  · rfl
  · simp

theorem line_eq (c : Cfg) : line c = gLine sha512Fns := by
  unfold line; split
  · exact smallLine_eq
  · exact fastLine_eq

theorem blockLines_eq : blockLines = (List.range 80).map (patLine sha512Fns) := by decide

theorem addState_eq (h r : Arr8 (BitVec 64)) : addState h r = Sha2.add h r := rfl

theorem processBlock_eq (c : Cfg) (buf : List Byte) (h : Arr8 (BitVec 64))
    (hl : buf.length = 128) : processBlock c buf h = .ok (compress512 h buf) := by
  have hw : (beWords 64 buf).length = 16 := by simp [hl]
  obtain ⟨v, hv, hva⟩ := arr16_ok (beWords 64 buf) hw
  have hf := fill_beWords64 (List.replicate 16 0) buf (by simp [hl])
  rw [hl, List.drop_replicate, Nat.sub_self, List.replicate_zero, List.append_nil] at hf
  have hd : debugAssert c (buf.length == blockSize) = .ok () := by
    simp [debugAssert, hl, blockSize]
  unfold processBlock
  rw [hd, hf]
  simp only [bind, Except.bind, hv, pure, Except.pure, addState_eq, line_eq]
  have := gLines_compress sha512Fns buf h hw 64 rfl ⟨8, rfl⟩ v hva _ blockLines_eq
  rw [this, compress512]

end Sha512

end Chf
