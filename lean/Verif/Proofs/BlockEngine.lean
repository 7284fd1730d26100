import Verif.Model.Engine
import Verif.Proofs.Bytes

/-!
# Lemmas: the buffered block engine refines a message log
-/

namespace Chf
open Spec

/-! ## Padding arithmetic -/

theorem padZeros_lt {B : Nat} (hB : 0 < B) (L n : Nat) : padZeros B L n < B :=
  Nat.mod_lt _ hB

theorem padZeros_fills {B : Nat} (hB : 0 < B) (L n : Nat) : B ∣ n + 1 + padZeros B L n + L := by
  unfold padZeros
  have h1 := Nat.mod_lt (n + 1 + L) hB
  have h2 := Nat.div_add_mod (n + 1 + L) B
  by_cases h : (n + 1 + L) % B = 0
  · rw [h, Nat.sub_zero, Nat.mod_self]
    refine ⟨(n + 1 + L) / B, ?_⟩
    omega
  · rw [Nat.mod_eq_of_lt (by omega : B - (n + 1 + L) % B < B)]
    refine ⟨(n + 1 + L) / B + 1, ?_⟩
    rw [Nat.mul_succ]; omega

/-- `padZeros` is the smallest number of zero bytes that fills the last block. -/
theorem padZeros_smallest {B : Nat} (hB : 0 < B) (L n k : Nat) (hk : B ∣ n + 1 + k + L) :
    padZeros B L n ≤ k := by
  apply Nat.le_of_not_lt
  intro hlt
  have h1 := padZeros_fills hB L n
  have h2 := padZeros_lt hB L n
  have h3 : B ∣ (n + 1 + padZeros B L n + L) - (n + 1 + k + L) := Nat.dvd_sub h1 hk
  have h4 : (n + 1 + padZeros B L n + L) - (n + 1 + k + L) = padZeros B L n - k := by omega
  rw [h4] at h3
  have := Nat.le_of_dvd (by omega) h3
  omega

/-- Number of zeroes in terms of the fill level of the buffer after the marker byte. -/
theorem padZeros_eq {B L n : Nat} (hL0 : 0 < L) (hL : L ≤ B) :
    padZeros B L n =
      if (n + 1) % B ≤ B - L then B - L - (n + 1) % B else B - L + (B - (n + 1) % B) := by
  have hB : 0 < B := by omega
  have h0 := Nat.mod_lt (n + 1) hB
  have h2 := Nat.div_add_mod (n + 1) B
  have hz : ∀ k, k < B → B ∣ n + 1 + k + L → padZeros B L n = k := by
    intro k hk hd
    have ha := padZeros_fills hB L n
    have hb := padZeros_lt hB L n
    have hle := padZeros_smallest hB L n k hd
    have h3 : B ∣ (n + 1 + k + L) - (n + 1 + padZeros B L n + L) := Nat.dvd_sub hd ha
    have h4 : (n + 1 + k + L) - (n + 1 + padZeros B L n + L) = k - padZeros B L n := by omega
    rw [h4] at h3
    by_cases he : k - padZeros B L n = 0
    · omega
    · have := Nat.le_of_dvd (by omega) h3
      omega
  split
  · next h =>
    apply hz _ (by omega)
    exact ⟨(n + 1) / B + 1, by rw [Nat.mul_succ]; omega⟩
  · next h =>
    apply hz
    · omega
    · exact ⟨(n + 1) / B + 2, by rw [Nat.mul_add]; omega⟩

/-! ## The invariant -/

/-- `process` never fails on a full buffer and computes `f`. -/
def ProcessIs {H : Type} (ops : BlockOps H) (f : H → List Byte → H) : Prop :=
  ∀ buf h, buf.length = ops.B → ops.process buf h = .ok (f h buf)

/-- The facts about a configuration and a block size the refinement needs. -/
structure Sized (c : Cfg) (B : Nat) : Prop where
  pos : 0 < B
  dvd : B ∣ c.usizeMod
  lt : 2 * B < c.usizeMod

theorem sized_64 {c : Cfg} (hc : c.Valid) : Sized c 64 := by
  unfold Cfg.Valid at hc
  refine ⟨by omega, ?_, ?_⟩ <;> unfold Cfg.usizeMod <;> rcases hc with h | h | h <;> rw [h] <;> decide

theorem sized_128 {c : Cfg} (hc : c.Valid) : Sized c 128 := by
  unfold Cfg.Valid at hc
  refine ⟨by omega, ?_, ?_⟩ <;> unfold Cfg.usizeMod <;> rcases hc with h | h | h <;> rw [h] <;> decide

/-- Engine state `e` stands for the message `m` absorbed from chaining value `h0` with initial
length counter `L0`. -/
structure Rep {H : Type} (c : Cfg) (B : Nat) (f : H → List Byte → H) (h0 : H) (L0 : Nat)
    (m : List Byte) (e : BlockEngine H) : Prop where
  len : e.length = (L0 + m.length) % c.usizeMod
  nowrap : c.overflowChecks = true → L0 + m.length < c.usizeMod
  buf : e.buffer.length = B
  split : ∃ p r, m = p ++ r ∧ B ∣ p.length ∧ r.length < B ∧ e.h = chain B f h0 p ∧
    e.buffer.take r.length = r

namespace Rep
variable {H : Type} {c : Cfg} {B : Nat} {f : H → List Byte → H} {h0 : H} {L0 : Nat}
  {m : List Byte} {e : BlockEngine H}

theorem h_eq (hB : 0 < B) (R : Rep c B f h0 L0 m e) : e.h = chain B f h0 m := by
  obtain ⟨p, r, rfl, hp, hr, hh, -⟩ := R.split
  rw [hh, chain_append hB _ _ _ _ hp, chain_short _ _ hr]

theorem idx (S : Sized c B) (hL0 : B ∣ L0) (R : Rep c B f h0 L0 m e) :
    e.length % B = m.length % B := by
  rw [R.len, Nat.mod_mod_of_dvd _ S.dvd]
  obtain ⟨k, rfl⟩ := hL0
  rw [Nat.mul_add_mod]

end Rep

theorem mod_add_helper {a n M : Nat} (hn : a % M + n < M) :
    a % M + n = (a + n) % M := by
  rw [Nat.add_mod]
  have h1 : n < M := by omega
  rw [Nat.mod_eq_of_lt h1, Nat.mod_eq_of_lt hn]

namespace BlockEngine
variable {H : Type} {c : Cfg} {ops : BlockOps H} {f : H → List Byte → H} {h0 : H} {L0 : Nat}

/-- `usize` addition in the two build profiles. -/
theorem addUsize_len {c : Cfg} {a n : Nat}
    (hc : c.overflowChecks = true → a + n < c.usizeMod) :
    addUsize c (a % c.usizeMod) n = .ok ((a + n) % c.usizeMod) := by
  unfold addUsize
  split
  · next h => rw [mod_add_helper h]
  · next h =>
    cases hov : c.overflowChecks with
    | true =>
      exfalso; apply h
      have := hc hov
      rw [Nat.mod_eq_of_lt (by omega)]; omega
    | false => simp [Nat.add_mod]

/-- One iteration of the input loop. -/
theorem inputLoop_step (hP : ProcessIs ops f) (S : Sized c ops.B) (hL0 : ops.B ∣ L0)
    {m : List Byte} {e : BlockEngine H} (R : Rep c ops.B f h0 L0 m e)
    (fuel : Nat) (b : Byte) (bs : List Byte) :
    (∃ e' n, 0 < n ∧ n ≤ (b :: bs).length ∧
      Rep c ops.B f h0 L0 (m ++ (b :: bs).take n) e' ∧
      inputLoop c ops (fuel + 1) e (b :: bs) = inputLoop c ops fuel e' ((b :: bs).drop n)) ∨
    (c.overflowChecks = true ∧ c.usizeMod ≤ L0 + m.length + (b :: bs).length ∧
      inputLoop c ops (fuel + 1) e (b :: bs) = .error .overflow) := by
  obtain ⟨p, r, hm, hp, hr, hh, hbuf⟩ := R.split
  have hB := S.pos
  have hidx : e.length % ops.B = r.length := by
    rw [R.idx S hL0, hm, List.length_append]
    obtain ⟨k, hk⟩ := hp
    rw [hk, Nat.mul_add_mod, Nat.mod_eq_of_lt hr]
  generalize hinp : b :: bs = inp
  have hinl : 0 < inp.length := by rw [← hinp]; simp
  obtain ⟨n, hn⟩ : ∃ n, n = min (ops.B - r.length) inp.length := ⟨_, rfl⟩
  have hn0 : 0 < n := by omega
  have hnle : n ≤ inp.length := by omega
  have hsub : subUsize c ops.B r.length = .ok (ops.B - r.length) := by
    unfold subUsize; rw [if_pos (by omega)]
  have hadd : addUsize c r.length n = .ok (r.length + n) := by
    unfold addUsize; rw [if_pos]; have := S.lt; omega
  have hsl : sliceTo inp n = .ok (inp.take n) := by unfold sliceTo; rw [if_pos hnle]
  have hsf : sliceFrom inp n = .ok (inp.drop n) := by unfold sliceFrom; rw [if_pos hnle]
  obtain ⟨buf', hbuf'⟩ : ∃ buf', buf' = e.buffer.take r.length ++ inp.take n ++
    e.buffer.drop (r.length + n) := ⟨_, rfl⟩
  have hcopy : copyIntoRange e.buffer r.length (r.length + n) (inp.take n) = .ok buf' := by
    unfold copyIntoRange
    rw [if_pos ⟨by omega, by rw [R.buf]; omega⟩, if_pos (by rw [List.length_take]; omega), hbuf']
  have hbl : buf'.length = ops.B := by
    rw [hbuf']
    simp only [List.length_append, List.length_take, List.length_drop, R.buf]; omega
  have htk : buf'.take (r.length + n) = r ++ inp.take n := by
    rw [hbuf', hbuf]
    have : (r ++ inp.take n).length = r.length + n := by
      rw [List.length_append, List.length_take]; omega
    rw [← this, List.take_left]
  by_cases hov : c.overflowChecks = true → L0 + m.length + n < c.usizeMod
  · left
    have hlen : addUsize c e.length n = .ok ((L0 + m.length + n) % c.usizeMod) := by
      rw [R.len]; exact addUsize_len hov
    have hmt : (m ++ inp.take n).length = m.length + n := by
      rw [List.length_append, List.length_take]; omega
    have hfull : (L0 + m.length + n) % c.usizeMod % ops.B = (r.length + n) % ops.B := by
      rw [Nat.mod_mod_of_dvd _ S.dvd, hm, List.length_append]
      obtain ⟨k, hk⟩ := hp
      obtain ⟨k', hk'⟩ := hL0
      rw [hk, hk', ← Nat.add_assoc, ← Nat.mul_add, Nat.add_assoc, Nat.mul_add_mod]
    by_cases hz : r.length + n = ops.B
    · -- the buffer is full
      have hall : buf' = r ++ inp.take n := by
        rw [← htk, hz, List.take_of_length_le (by omega)]
      refine ⟨{ buffer := buf', h := f e.h buf', length := (L0 + m.length + n) % c.usizeMod }, n,
        hn0, hnle, ⟨?_, ?_, hbl, ?_⟩, ?_⟩
      · show (L0 + m.length + n) % c.usizeMod = _; rw [hmt, Nat.add_assoc]
      · intro ho; rw [hmt]; have := hov ho; omega
      · refine ⟨m ++ inp.take n, [], by simp, ?_, by simpa using hB, ?_, by simp⟩
        · rw [hm, List.append_assoc, List.length_append, ← hall, hbl]
          exact Nat.dvd_add hp (Nat.dvd_refl _)
        · show f e.h buf' = _
          rw [hm, List.append_assoc, chain_append hB _ _ _ _ hp, ← hall, chain_one hB _ _ hbl, hh]
      · subst hinp
        have hz0 : (L0 + m.length + n) % c.usizeMod % ops.B = 0 := by rw [hfull, hz, Nat.mod_self]
        have hpr := hP buf' e.h hbl
        simp only [inputLoop, hidx, hsub, bind, Except.bind, ← hn, hadd, hsl, hcopy, hlen,
          hz0, if_true, processBlock, hpr, hsf, pure, Except.pure]
    · have hlt : r.length + n < ops.B := by omega
      refine ⟨{ buffer := buf', h := e.h, length := (L0 + m.length + n) % c.usizeMod }, n,
        hn0, hnle, ⟨?_, ?_, hbl, ?_⟩, ?_⟩
      · show (L0 + m.length + n) % c.usizeMod = _; rw [hmt, Nat.add_assoc]
      · intro ho; rw [hmt]; have := hov ho; omega
      · refine ⟨p, r ++ inp.take n, by rw [hm, List.append_assoc], hp, ?_, hh, ?_⟩
        · rw [List.length_append, List.length_take]; omega
        · have : (r ++ inp.take n).length = r.length + n := by
            rw [List.length_append, List.length_take]; omega
          rw [this]; exact htk
      · subst hinp
        have hz0 : ¬ (L0 + m.length + n) % c.usizeMod % ops.B = 0 := by
          rw [hfull, Nat.mod_eq_of_lt hlt]; omega
        simp only [inputLoop, hidx, hsub, bind, Except.bind, ← hn, hadd, hsl, hcopy, hlen,
          hz0, if_false, hsf, pure, Except.pure]
  · right
    have hch : c.overflowChecks = true := Classical.byContradiction fun h => hov fun h' => absurd h' h
    have hge : c.usizeMod ≤ L0 + m.length + n :=
      Nat.le_of_not_lt fun h => hov fun _ => h
    have hnw := R.nowrap hch
    have hlen : addUsize c e.length n = .error .overflow := by
      rw [R.len, Nat.mod_eq_of_lt hnw]
      unfold addUsize
      rw [if_neg (by omega), if_pos hch]
    refine ⟨hch, by omega, ?_⟩
    subst hinp
    simp only [inputLoop, hidx, hsub, bind, Except.bind, ← hn, hadd, hsl, hcopy, hlen]

/-- The input loop appends to the message, or overflows the length counter. -/
theorem inputLoop_rep (hP : ProcessIs ops f) (S : Sized c ops.B) (hL0 : ops.B ∣ L0) (fuel : Nat) :
    ∀ (inp m : List Byte) (e : BlockEngine H), inp.length ≤ fuel → Rep c ops.B f h0 L0 m e →
      ((c.overflowChecks = true → L0 + m.length + inp.length < c.usizeMod) →
        ∃ e', inputLoop c ops fuel e inp = .ok e' ∧ Rep c ops.B f h0 L0 (m ++ inp) e') ∧
      (c.overflowChecks = true → c.usizeMod ≤ L0 + m.length + inp.length →
        inputLoop c ops fuel e inp = .error .overflow) := by
  induction fuel with
  | zero =>
    intro inp m e hl R
    have : inp = [] := List.length_eq_zero_iff.mp (by omega)
    subst this
    refine ⟨fun _ => ⟨e, by simp [inputLoop], by simpa using R⟩, fun ho hge => ?_⟩
    have := R.nowrap ho
    simp at hge; omega
  | succ fuel ih =>
    intro inp m e hl R
    cases inp with
    | nil =>
      refine ⟨fun _ => ⟨e, by simp [inputLoop], by simpa using R⟩, fun ho hge => ?_⟩
      have := R.nowrap ho
      simp at hge; omega
    | cons b bs =>
      rcases inputLoop_step hP S hL0 R fuel b bs with ⟨e', n, hn0, hnle, R', heq⟩ | ⟨ho, hge, heq⟩
      · have hdl : ((b :: bs).drop n).length = (b :: bs).length - n := List.length_drop ..
        have htl : ((b :: bs).take n).length = n := by rw [List.length_take]; omega
        obtain ⟨ih1, ih2⟩ := ih ((b :: bs).drop n) (m ++ (b :: bs).take n) e' (by omega) R'
        rw [List.append_assoc, List.take_append_drop] at ih1
        rw [heq]
        have hsum : L0 + (m ++ (b :: bs).take n).length + ((b :: bs).drop n).length =
            L0 + m.length + (b :: bs).length := by
          rw [List.length_append, htl, hdl]; omega
        rw [hsum] at ih1 ih2
        exact ⟨ih1, ih2⟩
      · exact ⟨fun h => absurd (h ho) (by omega), fun _ _ => heq⟩

theorem input_ok (hP : ProcessIs ops f) (S : Sized c ops.B) (hL0 : ops.B ∣ L0)
    {m inp : List Byte} {e : BlockEngine H} (R : Rep c ops.B f h0 L0 m e)
    (h : c.overflowChecks = true → L0 + m.length + inp.length < c.usizeMod) :
    ∃ e', input c ops e inp = .ok e' ∧ Rep c ops.B f h0 L0 (m ++ inp) e' :=
  (inputLoop_rep hP S hL0 inp.length inp m e (Nat.le_refl _) R).1 h

theorem input_err (hP : ProcessIs ops f) (S : Sized c ops.B) (hL0 : ops.B ∣ L0)
    {m inp : List Byte} {e : BlockEngine H} (R : Rep c ops.B f h0 L0 m e)
    (ho : c.overflowChecks = true) (h : c.usizeMod ≤ L0 + m.length + inp.length) :
    input c ops e inp = .error .overflow :=
  (inputLoop_rep hP S hL0 inp.length inp m e (Nat.le_refl _) R).2 ho h

/-- `x` is a computation that absorbs until the message is `M`: it succeeds with an engine standing
for `M` unless overflow checks are on and the length counter overflows, and then it panics. -/
def Ends (c : Cfg) (B : Nat) (f : H → List Byte → H) (h0 : H) (L0 : Nat) (M : List Byte)
    (x : Res (BlockEngine H)) : Prop :=
  ((c.overflowChecks = true → L0 + M.length < c.usizeMod) → ∃ e', x = .ok e' ∧ Rep c B f h0 L0 M e') ∧
  (c.overflowChecks = true → c.usizeMod ≤ L0 + M.length → x = .error .overflow)

theorem Ends.pure {B : Nat} {m : List Byte} {e : BlockEngine H} (R : Rep c B f h0 L0 m e) :
    Ends c B f h0 L0 m (Except.ok e) :=
  ⟨fun _ => ⟨e, rfl, R⟩, fun ho hge => absurd (R.nowrap ho) (by omega)⟩

theorem Ends.input (hP : ProcessIs ops f) (S : Sized c ops.B) (hL0 : ops.B ∣ L0)
    {m : List Byte} {e : BlockEngine H} (R : Rep c ops.B f h0 L0 m e) (inp : List Byte) :
    Ends c ops.B f h0 L0 (m ++ inp) (BlockEngine.input c ops e inp) := by
  refine ⟨fun h => input_ok hP S hL0 R ?_, fun ho h => input_err hP S hL0 R ho ?_⟩
  · intro ho; have := h ho; rw [List.length_append] at this; omega
  · rw [List.length_append] at h; omega

theorem Ends.bind {B : Nat} {m d : List Byte} {x : Res (BlockEngine H)}
    {k : BlockEngine H → Res (BlockEngine H)} (hx : Ends c B f h0 L0 m x)
    (hk : ∀ e, Rep c B f h0 L0 m e → Ends c B f h0 L0 (m ++ d) (k e)) :
    Ends c B f h0 L0 (m ++ d) (x >>= k) := by
  refine ⟨fun h => ?_, fun ho h => ?_⟩
  · obtain ⟨e, he, R⟩ := hx.1 fun ho => by
      have := h ho; rw [List.length_append] at this; omega
    rw [he]
    exact (hk e R).1 h
  · by_cases h1 : c.usizeMod ≤ L0 + m.length
    · rw [hx.2 ho h1]; rfl
    · obtain ⟨e, he, R⟩ := hx.1 fun _ => by omega
      rw [he]
      exact (hk e R).2 ho h

theorem Ends.foldlM (hP : ProcessIs ops f) (S : Sized c ops.B) (hL0 : ops.B ∣ L0)
    (ds : List (List Byte)) {m : List Byte} {e : BlockEngine H} (R : Rep c ops.B f h0 L0 m e) :
    Ends c ops.B f h0 L0 (m ++ ds.flatten) (ds.foldlM (BlockEngine.input c ops) e) := by
  induction ds generalizing m e with
  | nil => simpa [Pure.pure, Except.pure] using Ends.pure R
  | cons d ds ih =>
    rw [List.foldlM_cons, List.flatten_cons, ← List.append_assoc]
    exact Ends.bind (Ends.input hP S hL0 R d) fun e R' => ih R'

/-- What `finalize` absorbs after the message. -/
def tail (B zlen : Nat) (pre : List (List Byte)) (enc : BitVec 64 → List Byte) (n len : Nat) :
    List Byte :=
  [0x80] ++ List.replicate (padZeros B (B - zlen) n) 0 ++ pre.flatten ++ enc (8 * asU64 len)

/-- The exact behaviour of the padding part of `finalize`: it absorbs `tail`, or panics when overflow
checks are on and either the length counter or the bit length overflows. -/
theorem finalizeBlocks_spec (hP : ProcessIs ops f) (S : Sized c ops.B) (hL0 : ops.B ∣ L0)
    {zlen : Nat} {pre : List (List Byte)} {enc : BitVec 64 → List Byte}
    (henc : ∀ x, (enc x).length = 8) (hz : zlen + pre.flatten.length + 8 = ops.B)
    (hhalf : ops.B ≤ 2 * zlen) (hmod : c.usizeMod ≤ 2 ^ 64)
    {m : List Byte} {e : BlockEngine H} (R : Rep c ops.B f h0 L0 m e) :
    let M := m ++ tail ops.B zlen pre enc m.length e.length
    ((c.overflowChecks = true → L0 + M.length < c.usizeMod ∧ 8 * (L0 + m.length) < 2 ^ 64) →
      ∃ e', finalizeBlocks c ops zlen pre enc e = .ok e' ∧ Rep c ops.B f h0 L0 M e') ∧
    (c.overflowChecks = true → (c.usizeMod ≤ L0 + M.length ∨ 2 ^ 64 ≤ 8 * (L0 + m.length)) →
      finalizeBlocks c ops zlen pre enc e = .error .overflow) := by
  intro M
  have hB := S.pos
  -- up to and including the zeroes
  obtain ⟨k, hk⟩ : ∃ k, k = padZeros ops.B (ops.B - zlen) m.length := ⟨_, rfl⟩
  have hkeq := padZeros_eq (B := ops.B) (L := ops.B - zlen) (n := m.length) (by omega) (by omega)
  rw [show ops.B - (ops.B - zlen) = zlen by omega, ← hk] at hkeq
  have hidx : ∀ {m' : List Byte} {e' : BlockEngine H}, Rep c ops.B f h0 L0 m' e' →
      e'.length % ops.B = m'.length % ops.B := fun R' => R'.idx S hL0
  have hm1 : (m ++ [0x80]).length % ops.B = (m.length + 1) % ops.B := by simp
  have hlt1 := Nat.mod_lt (m.length + 1) hB
  have zeroes : ∀ e1, Rep c ops.B f h0 L0 (m ++ [0x80]) e1 →
      Ends c ops.B f h0 L0 (m ++ [0x80] ++ List.replicate k 0)
        (do
          let e ← if e1.length % ops.B > (List.replicate zlen (0 : Byte)).length
            then BlockEngine.input c ops e1 (List.replicate zlen 0) else Pure.pure e1
          let padLength ← subUsize c (List.replicate zlen (0 : Byte)).length (e.length % ops.B)
          let z ← sliceTo (List.replicate zlen (0 : Byte)) padLength
          let e ← BlockEngine.input c ops e z
          Pure.pure e) := by
    intro e1 R1
    have fill : ∀ {m' : List Byte} {e' : BlockEngine H}, Rep c ops.B f h0 L0 m' e' →
        m'.length % ops.B ≤ zlen →
        Ends c ops.B f h0 L0 (m' ++ List.replicate (zlen - m'.length % ops.B) 0)
          (do
            let padLength ← subUsize c (List.replicate zlen (0 : Byte)).length (e'.length % ops.B)
            let z ← sliceTo (List.replicate zlen (0 : Byte)) padLength
            let e ← BlockEngine.input c ops e' z
            Pure.pure e) := by
      intro m' e' R' hle
      have h1 : subUsize c (List.replicate zlen (0 : Byte)).length (e'.length % ops.B) =
          .ok (zlen - m'.length % ops.B) := by
        rw [hidx R', List.length_replicate]; unfold subUsize; rw [if_pos hle]
      have h2 : sliceTo (List.replicate zlen (0 : Byte)) (zlen - m'.length % ops.B) =
          .ok (List.replicate (zlen - m'.length % ops.B) 0) := by
        unfold sliceTo
        rw [if_pos (by rw [List.length_replicate]; omega), List.take_replicate,
          Nat.min_eq_left (by omega)]
      rw [h1]
      simp only [bind, Except.bind, h2]
      exact Ends.input hP S hL0 R' (List.replicate (zlen - m'.length % ops.B) 0)
    by_cases hc : (m.length + 1) % ops.B ≤ zlen
    · have hno : ¬ e1.length % ops.B > (List.replicate zlen (0 : Byte)).length := by
        rw [hidx R1, hm1, List.length_replicate]; omega
      rw [if_neg hno]
      have := fill R1 (by rw [hm1]; exact hc)
      rw [hm1] at this
      rw [hkeq, if_pos hc]
      exact this
    · have hyes : e1.length % ops.B > (List.replicate zlen (0 : Byte)).length := by
        rw [hidx R1, hm1, List.length_replicate]; omega
      rw [if_pos hyes]
      have hkk : k = zlen + (ops.B - (m.length + 1) % ops.B) := by rw [hkeq, if_neg hc]
      have hrep : (List.replicate k (0 : Byte)) =
          List.replicate zlen 0 ++ List.replicate (ops.B - (m.length + 1) % ops.B) 0 := by
        rw [hkk, List.replicate_append_replicate]
      rw [hrep, ← List.append_assoc]
      refine Ends.bind (Ends.input hP S hL0 R1 _) fun e2 R2 => ?_
      have hl2 : (m ++ [0x80] ++ List.replicate zlen (0 : Byte)).length % ops.B =
          (m.length + 1) % ops.B + zlen - ops.B := by
        simp only [List.length_append, List.length_cons, List.length_nil, List.length_replicate]
        rw [Nat.add_mod, Nat.zero_add, Nat.mod_eq_of_lt (by omega : zlen < ops.B)]
        rw [Nat.mod_eq_sub_mod (by omega), Nat.mod_eq_of_lt (by omega)]
      have := fill R2 (by rw [hl2]; omega)
      rw [hl2, show zlen - ((m.length + 1) % ops.B + zlen - ops.B) =
        ops.B - (m.length + 1) % ops.B by omega] at this
      exact this
  -- lengths and fill levels
  have hM : M = m ++ [0x80] ++ List.replicate k 0 ++ pre.flatten ++ enc (8 * asU64 e.length) := by
    simp only [M, tail, ← hk, List.append_assoc]
  have hfill := padZeros_fills hB (ops.B - zlen) m.length
  rw [← hk] at hfill
  have hl3 : (m ++ [0x80] ++ List.replicate k (0 : Byte)).length = m.length + 1 + k := by
    simp; omega
  have hmod3 : (m.length + 1 + k) % ops.B = zlen := by
    obtain ⟨q, hq⟩ := hfill
    have : m.length + 1 + k + ops.B = ops.B * q + zlen := by omega
    rw [← Nat.add_mod_right, this, Nat.mul_add_mod, Nat.mod_eq_of_lt (by omega)]
  have hMl : M.length = m.length + 1 + k + pre.flatten.length + 8 := by
    rw [hM]; simp only [List.length_append, henc, hl3]
  -- length field
  have hdata : ∀ (ho : c.overflowChecks = true), (8 : BitVec 64).toNat * (asU64 e.length).toNat =
      8 * (L0 + m.length) := by
    intro ho
    have hnw := R.nowrap ho
    rw [R.len, Nat.mod_eq_of_lt hnw, asU64, BitVec.toNat_ofNat, Nat.mod_eq_of_lt (by omega)]
    rfl
  have hda1 : ∀ b : Bool, b = true → debugAssert c b = .ok () := by
    intro b hb; simp [debugAssert, hb]
  have stage : ∀ e3, Rep c ops.B f h0 L0 (m ++ [0x80] ++ List.replicate k 0) e3 →
      debugAssert c (e3.length % ops.B == (List.replicate zlen (0 : Byte)).length) = .ok () := by
    intro e3 R3
    apply hda1
    rw [hidx R3, hl3, hmod3, List.length_replicate]; simp
  -- assemble
  have hunf : finalizeBlocks c ops zlen pre enc e =
      ((BlockEngine.input c ops e [0x80] >>= fun e1 => (do
          let e ← if e1.length % ops.B > (List.replicate zlen (0 : Byte)).length
            then BlockEngine.input c ops e1 (List.replicate zlen 0) else Pure.pure e1
          let padLength ← subUsize c (List.replicate zlen (0 : Byte)).length (e.length % ops.B)
          let z ← sliceTo (List.replicate zlen (0 : Byte)) padLength
          let e ← BlockEngine.input c ops e z
          Pure.pure e)) >>= fun e3 => (do
          debugAssert c (e3.length % ops.B == (List.replicate zlen (0 : Byte)).length)
          pre.foldlM (BlockEngine.input c ops) e3)) >>= fun e4 => (do
          let bits ← mulU64 c 8 (asU64 e.length)
          let e5 ← BlockEngine.input c ops e4 (enc bits)
          debugAssert c (e5.length % ops.B == 0)
          Pure.pure e5) := by
    simp only [finalizeBlocks, bind_assoc, pure_bind]
    congr 1
    funext x
    split <;> simp only [bind_assoc]
  have E3 := Ends.bind (Ends.input hP S hL0 R [0x80]) zeroes
  have E4 := Ends.bind (d := pre.flatten) (k := fun e3 => (do
          debugAssert c (e3.length % ops.B == (List.replicate zlen (0 : Byte)).length)
          pre.foldlM (BlockEngine.input c ops) e3)) E3 fun e3 R3 => by
    show Ends c ops.B f h0 L0 _ (debugAssert c _ >>= fun _ => pre.foldlM (BlockEngine.input c ops) e3)
    rw [stage e3 R3]
    exact Ends.foldlM hP S hL0 pre R3
  have E5 : (mulU64 c 8 (asU64 e.length) = .ok (8 * asU64 e.length)) →
      Ends c ops.B f h0 L0 M (finalizeBlocks c ops zlen pre enc e) := by
    intro hmul
    rw [hunf, hM]
    refine Ends.bind E4 fun e4 R4 => ?_
    rw [hmul]
    show Ends c ops.B f h0 L0 _ (BlockEngine.input c ops e4 (enc (8 * asU64 e.length)) >>= fun e5 =>
      debugAssert c (e5.length % ops.B == 0) >>= fun _ => Except.ok e5)
    have := Ends.bind (d := []) (k := fun e5 =>
      debugAssert c (e5.length % ops.B == 0) >>= fun _ => Except.ok e5)
      (Ends.input hP S hL0 R4 (enc (8 * asU64 e.length))) fun e5 R5 => by
        have hd : debugAssert c (e5.length % ops.B == 0) = .ok () := by
          apply hda1
          rw [hidx R5, ← hM, hMl]
          have : (m.length + 1 + k + pre.flatten.length + 8) % ops.B = 0 := by
            rw [show m.length + 1 + k + pre.flatten.length + 8 =
              (m.length + 1 + k) + (pre.flatten.length + 8) by omega, Nat.add_mod, hmod3,
              Nat.mod_eq_of_lt (a := pre.flatten.length + 8) (by omega)]
            rw [show zlen + (pre.flatten.length + 8) = ops.B by omega, Nat.mod_self]
          rw [this]; rfl
        simp only [hd]
        simpa [Bind.bind, Except.bind] using Ends.pure R5
    simpa using this
  have hmulok : (c.overflowChecks = true → 8 * (L0 + m.length) < 2 ^ 64) →
      mulU64 c 8 (asU64 e.length) = .ok (8 * asU64 e.length) := by
    intro h
    unfold mulU64
    split
    · rfl
    · next hn =>
      cases ho : c.overflowChecks with
      | false => rfl
      | true => exact absurd (by rw [hdata ho]; exact h ho) hn
  refine ⟨fun h => ?_, fun ho h => ?_⟩
  · exact (E5 (hmulok fun ho => (h ho).2)).1 fun ho => (h ho).1
  · by_cases hbig : 8 * (L0 + m.length) < 2 ^ 64
    · rcases h with h | h
      · exact (E5 (hmulok fun _ => hbig)).2 ho h
      · omega
    · have hmul : mulU64 c 8 (asU64 e.length) = .error .overflow := by
        unfold mulU64
        rw [if_neg (by rw [hdata ho]; exact hbig), if_pos ho]
      rw [hunf]
      by_cases h4 : c.usizeMod ≤ L0 + (m ++ [0x80] ++ List.replicate k (0 : Byte) ++ pre.flatten).length
      · rw [E4.2 ho h4]; rfl
      · obtain ⟨e4, he4, -⟩ := E4.1 fun _ => by omega
        rw [he4, hmul]; rfl

end BlockEngine

end Chf
