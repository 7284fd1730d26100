import Verif.Spec.Unwind
import Verif.Proofs.Programs

/-!
# Lemmas: what a panicking `input` leaves behind
-/

namespace Chf
open Spec

/-! ## The two transcriptions of `input` agree -/

theorem BlockEngine.inputLoopMut_agrees {H : Type} (c : Cfg) (ops : BlockOps H) (fuel : Nat) :
    ∀ (e : BlockEngine H) (inp : List Byte),
      (inputLoopMut c ops fuel e inp).toRes = inputLoop c ops fuel e inp := by
  induction fuel with
  | zero => intro e inp; cases inp <;> rfl
  | succ fuel ih =>
    intro e inp
    cases inp with
    | nil => rfl
    | cons b bs =>
      simp only [inputLoopMut, inputLoop, bind, Except.bind]
      cases subUsize c ops.B (e.length % ops.B) with
      | error f => rfl
      | ok remLen =>
      dsimp only
      cases addUsize c (e.length % ops.B) (min remLen (b :: bs).length) with
      | error f => rfl
      | ok endIdx =>
      dsimp only
      cases sliceTo (b :: bs) (min remLen (b :: bs).length) with
      | error f => rfl
      | ok src =>
      dsimp only
      cases copyIntoRange e.buffer (e.length % ops.B) endIdx src with
      | error f => rfl
      | ok buffer =>
      dsimp only
      cases addUsize c e.length (min remLen (b :: bs).length) with
      | error f => rfl
      | ok length =>
      dsimp only
      by_cases hz : length % ops.B = 0
      · simp only [if_pos hz]
        cases processBlock ops { buffer := buffer, h := e.h, length := length } with
        | error f => rfl
        | ok e' =>
        dsimp only
        cases sliceFrom (b :: bs) (min remLen (b :: bs).length) with
        | error f => rfl
        | ok inp => exact ih e' inp
      · simp only [if_neg hz, pure, Except.pure]
        cases sliceFrom (b :: bs) (min remLen (b :: bs).length) with
        | error f => rfl
        | ok inp => exact ih _ inp

namespace Siphash24

theorem wordLoopMut_agrees (c : Cfg) (data : List Byte) (lim fuel : Nat) : ∀ (s : State) (i : Nat),
    wordLoop c data lim fuel s i = match (wordLoopMut c data lim fuel s i).2 with
      | .error f => .error f
      | .ok i' => .ok ((wordLoopMut c data lim fuel s i).1, i') := by
  induction fuel with
  | zero => intro s i; rfl
  | succ fuel ih =>
    intro s i
    simp only [wordLoop, wordLoopMut]
    split
    · simp only [bind, Except.bind]
      cases loadIntLe c data i 8 with
      | error f => rfl
      | ok mi =>
      dsimp only
      cases addUsize c i 8 with
      | error f => rfl
      | ok i' => exact ih _ _
    · rfl

theorem restMut_agrees (c : Cfg) (e : Engine) (data : List Byte) (needed : Nat) :
    (restMut c e data needed).toRes = input.rest c e data needed := by
  unfold restMut input.rest
  simp only [bind, Except.bind]
  cases subUsize c data.length needed with
  | error f => rfl
  | ok len =>
  dsimp only
  cases subUsize c len (len % 8) with
  | error f => rfl
  | ok lim =>
  dsimp only
  rw [wordLoopMut_agrees]
  generalize wordLoopMut c data lim (len / 8 + 1) e.state needed = r
  obtain ⟨s, r⟩ := r
  cases r with
  | error f => rfl
  | ok i =>
  dsimp only
  cases u8to64Le c data i (len % 8) with
  | error f => rfl
  | ok tail => rfl

theorem inputMut_agrees (c : Cfg) (e : Engine) (data : List Byte) :
    (inputMut c e data).toRes = input c e data := by
  unfold inputMut input
  simp only [bind, Except.bind]
  cases addUsize c e.length data.length with
  | error f => rfl
  | ok l =>
  dsimp only
  by_cases h : e.ntail ≠ 0
  · rw [if_pos h, if_pos h]
    cases subUsize c 8 e.ntail with
    | error f => rfl
    | ok needed =>
    dsimp only
    cases u8to64Le c data 0 (min data.length needed) with
    | error f => rfl
    | ok x =>
    dsimp only
    cases mulUsize c 8 e.ntail with
    | error f => rfl
    | ok sh =>
    dsimp only
    cases shlU64 c x sh with
    | error f => rfl
    | ok x =>
    dsimp only
    by_cases h' : data.length < needed
    · rw [if_pos h', if_pos h']
      cases addUsize c e.ntail data.length with
      | error f => rfl
      | ok nt => rfl
    · rw [if_neg h', if_neg h']
      exact restMut_agrees ..
  · rw [if_neg h, if_neg h]
    exact restMut_agrees ..

end Siphash24

theorem Alg.inputMut_agrees (c : Cfg) : (a : Alg) → (e : (a.engine c).State) → (d : List Byte) →
    (a.inputMut c e d).toRes = (a.engine c).input e d
  | .sha1, e, d => BlockEngine.inputLoopMut_agrees c _ _ e d
  | .sha256, e, d => BlockEngine.inputLoopMut_agrees c _ _ e d
  | .sha384, e, d => BlockEngine.inputLoopMut_agrees c _ _ e d
  | .sha512, e, d => BlockEngine.inputLoopMut_agrees c _ _ e d
  | .sha512_256, e, d => BlockEngine.inputLoopMut_agrees c _ _ e d
  | .ripemd160, e, d => BlockEngine.inputLoopMut_agrees c _ _ e d
  | .siphash24, e, d => Siphash24.inputMut_agrees c e d
  | .sha256t _ _ _, e, d => BlockEngine.inputLoopMut_agrees c _ _ e d
  | .hmac a, e, d => by
      have h := a.inputMut_agrees c e.iengine d
      show (Hmac.inputMut (a.inputMut c) e d).toRes =
        (do let i ← (a.engine c).input e.iengine d; pure { e with iengine := i })
      rw [← h]
      unfold Hmac.inputMut
      generalize a.inputMut c e.iengine d = r
      obtain ⟨i, r⟩ := r
      cases r <;> rfl

/-! ## The engine left behind -/

namespace BlockEngine
variable {H : Type} {c : Cfg} {ops : BlockOps H} {f : H → List Byte → H} {h0 : H} {L0 : Nat}

/-- One iteration of the input loop. -/
theorem inputLoopMut_step (hP : ProcessIs ops f) (S : Sized c ops.B) (hL0 : ops.B ∣ L0)
    {m : List Byte} {e : BlockEngine H} (R : Rep c ops.B f h0 L0 m e)
    (fuel : Nat) (b : Byte) (bs : List Byte) :
    ∃ r n : Nat, r < ops.B ∧ ops.B ∣ m.length - r ∧ r ≤ m.length ∧
      n = min (ops.B - r) (b :: bs).length ∧
    ((∃ e', Rep c ops.B f h0 L0 (m ++ (b :: bs).take n) e' ∧
      inputLoopMut c ops (fuel + 1) e (b :: bs) = inputLoopMut c ops fuel e' ((b :: bs).drop n)) ∨
    (c.overflowChecks = true ∧ c.usizeMod ≤ L0 + m.length + n ∧
      ∃ e', Rep c ops.B f h0 L0 m e' ∧
      inputLoopMut c ops (fuel + 1) e (b :: bs) = (e', some .overflow))) := by
  obtain ⟨p, r, hm, hp, hr, hh, hbuf⟩ := R.split
  have hB := S.pos
  have hidx : e.length % ops.B = r.length := by
    rw [R.idx S hL0, hm, List.length_append]
    obtain ⟨k, hk⟩ := hp
    rw [hk, Nat.mul_add_mod, Nat.mod_eq_of_lt hr]
  generalize hinp : b :: bs = inp
  have hinl : 0 < inp.length := by rw [← hinp]; simp
  obtain ⟨n, hn⟩ : ∃ n, n = min (ops.B - r.length) inp.length := ⟨_, rfl⟩
  have hn0 : 0 < n := by omega
  have hnle : n ≤ inp.length := by omega
  have hml : m.length = p.length + r.length := by rw [hm, List.length_append]
  refine ⟨r.length, n, hr, by rw [hml, Nat.add_sub_cancel]; exact hp, by omega, hn, ?_⟩
  have hsub : subUsize c ops.B r.length = .ok (ops.B - r.length) := by
    unfold subUsize; rw [if_pos (by omega)]
  have hadd : addUsize c r.length n = .ok (r.length + n) := by
    unfold addUsize; rw [if_pos]; have := S.lt; omega
  have hsl : sliceTo inp n = .ok (inp.take n) := by unfold sliceTo; rw [if_pos hnle]
  have hsf : sliceFrom inp n = .ok (inp.drop n) := by unfold sliceFrom; rw [if_pos hnle]
  obtain ⟨buf', hbuf'⟩ : ∃ buf', buf' = e.buffer.take r.length ++ inp.take n ++
    e.buffer.drop (r.length + n) := ⟨_, rfl⟩
  have hcopy : copyIntoRange e.buffer r.length (r.length + n) (inp.take n) = .ok buf' := by
    unfold copyIntoRange
    rw [if_pos ⟨by omega, by rw [R.buf]; omega⟩, if_pos (by rw [List.length_take]; omega), hbuf']
  have hbl : buf'.length = ops.B := by
    rw [hbuf']
    simp only [List.length_append, List.length_take, List.length_drop, R.buf]; omega
  have htk : buf'.take (r.length + n) = r ++ inp.take n := by
    rw [hbuf', hbuf]
    have : (r ++ inp.take n).length = r.length + n := by
      rw [List.length_append, List.length_take]; omega
    rw [← this, List.take_left]
  by_cases hov : c.overflowChecks = true → L0 + m.length + n < c.usizeMod
  · left
    have hlen : addUsize c e.length n = .ok ((L0 + m.length + n) % c.usizeMod) := by
      rw [R.len]; exact addUsize_len hov
    have hmt : (m ++ inp.take n).length = m.length + n := by
      rw [List.length_append, List.length_take]; omega
    have hfull : (L0 + m.length + n) % c.usizeMod % ops.B = (r.length + n) % ops.B := by
      rw [Nat.mod_mod_of_dvd _ S.dvd, hm, List.length_append]
      obtain ⟨k, hk⟩ := hp
      obtain ⟨k', hk'⟩ := hL0
      rw [hk, hk', ← Nat.add_assoc, ← Nat.mul_add, Nat.add_assoc, Nat.mul_add_mod]
    by_cases hz : r.length + n = ops.B
    · have hall : buf' = r ++ inp.take n := by
        rw [← htk, hz, List.take_of_length_le (by omega)]
      refine ⟨{ buffer := buf', h := f e.h buf', length := (L0 + m.length + n) % c.usizeMod },
        ⟨?_, ?_, hbl, ?_⟩, ?_⟩
      · show (L0 + m.length + n) % c.usizeMod = _; rw [hmt, Nat.add_assoc]
      · intro ho; rw [hmt]; have := hov ho; omega
      · refine ⟨m ++ inp.take n, [], by simp, ?_, by simpa using hB, ?_, by simp⟩
        · rw [hm, List.append_assoc, List.length_append, ← hall, hbl]
          exact Nat.dvd_add hp (Nat.dvd_refl _)
        · show f e.h buf' = _
          rw [hm, List.append_assoc, chain_append hB _ _ _ _ hp, ← hall, chain_one hB _ _ hbl, hh]
      · subst hinp
        have hz0 : (L0 + m.length + n) % c.usizeMod % ops.B = 0 := by rw [hfull, hz, Nat.mod_self]
        have hpr := hP buf' e.h hbl
        simp only [inputLoopMut, hidx, hsub, ← hn, hadd, hsl, hcopy, hlen,
          hz0, if_true, processBlock, hpr, hsf, bind, Except.bind, pure, Except.pure]
    · have hlt : r.length + n < ops.B := by omega
      refine ⟨{ buffer := buf', h := e.h, length := (L0 + m.length + n) % c.usizeMod },
        ⟨?_, ?_, hbl, ?_⟩, ?_⟩
      · show (L0 + m.length + n) % c.usizeMod = _; rw [hmt, Nat.add_assoc]
      · intro ho; rw [hmt]; have := hov ho; omega
      · refine ⟨p, r ++ inp.take n, by rw [hm, List.append_assoc], hp, ?_, hh, ?_⟩
        · rw [List.length_append, List.length_take]; omega
        · have : (r ++ inp.take n).length = r.length + n := by
            rw [List.length_append, List.length_take]; omega
          rw [this]; exact htk
      · subst hinp
        have hz0 : ¬ (L0 + m.length + n) % c.usizeMod % ops.B = 0 := by
          rw [hfull, Nat.mod_eq_of_lt hlt]; omega
        simp only [inputLoopMut, hidx, hsub, ← hn, hadd, hsl, hcopy, hlen,
          hz0, if_false, hsf, pure, Except.pure]
  · right
    have hch : c.overflowChecks = true := Classical.byContradiction fun h => hov fun h' => absurd h' h
    have hge : c.usizeMod ≤ L0 + m.length + n :=
      Nat.le_of_not_lt fun h => hov fun _ => h
    have hnw := R.nowrap hch
    have hlen : addUsize c e.length n = .error .overflow := by
      rw [R.len, Nat.mod_eq_of_lt hnw]
      unfold addUsize
      rw [if_neg (by omega), if_pos hch]
    refine ⟨hch, hge, { e with buffer := buf' }, ⟨R.len, R.nowrap, hbl, p, r, hm, hp, hr, hh, ?_⟩, ?_⟩
    · have := congrArg (List.take r.length) htk
      rw [List.take_take, Nat.min_eq_left (by omega), List.take_left] at this
      exact this
    · subst hinp
      simp only [inputLoopMut, hidx, hsub, ← hn, hadd, hsl, hcopy, hlen]

/-- The input loop stops at the last block boundary below the limit. -/
theorem inputLoopMut_left (hP : ProcessIs ops f) (S : Sized c ops.B) (hL0 : ops.B ∣ L0) (fuel : Nat) :
    ∀ (inp m : List Byte) (e : BlockEngine H), inp.length ≤ fuel → Rep c ops.B f h0 L0 m e →
      c.overflowChecks = true → c.usizeMod ≤ L0 + m.length + inp.length →
      ∃ e', inputLoopMut c ops fuel e inp = (e', some .overflow) ∧
        Rep c ops.B f h0 L0 (m ++ inp.take (c.usizeMod - ops.B - (L0 + m.length))) e' := by
  induction fuel with
  | zero =>
    intro inp m e hl R ho hge
    have := R.nowrap ho
    omega
  | succ fuel ih =>
    intro inp m e hl R ho hge
    have hnw := R.nowrap ho
    cases inp with
    | nil => simp at hge; omega
    | cons b bs =>
      obtain ⟨r, n, hr, hd, hrm, hn, h⟩ := inputLoopMut_step hP S hL0 R fuel b bs
      generalize b :: bs = inp at *
      have hlt := S.lt
      obtain ⟨x, hx⟩ := hd
      obtain ⟨y, hy⟩ := hL0
      obtain ⟨z, hz⟩ := S.dvd
      have hB := S.pos
      rcases h with ⟨e', R', heq⟩ | ⟨_, hge', e', R', heq⟩
      · have htl : (inp.take n).length = n := by rw [List.length_take]; omega
        have hnw' := R'.nowrap ho
        rw [List.length_append, htl] at hnw'
        have hnr : n = ops.B - r := by omega
        have hle : L0 + m.length + n + ops.B ≤ c.usizeMod := by
          have h1 : L0 + m.length + n = ops.B * (y + x + 1) := by
            rw [Nat.mul_add, Nat.mul_add, ← hx, ← hy]; omega
          have h2 : y + x + 1 < z :=
            Nat.lt_of_mul_lt_mul_left (a := ops.B) (by rw [← h1, ← hz]; omega)
          have h3 := Nat.mul_le_mul_left ops.B (show y + x + 1 + 1 ≤ z from h2)
          rw [Nat.mul_add _ (y + x + 1) 1, ← h1, ← hz] at h3
          omega
        obtain ⟨e'', h1, h2⟩ := ih (inp.drop n) (m ++ inp.take n) e' (by rw [List.length_drop]; omega)
          R' ho (by rw [List.length_append, htl, List.length_drop]; omega)
        refine ⟨e'', by rw [heq, h1], ?_⟩
        rw [List.append_assoc, List.length_append, htl] at h2
        have : inp.take (c.usizeMod - ops.B - (L0 + m.length)) =
            inp.take n ++ (inp.drop n).take (c.usizeMod - ops.B - (L0 + (m.length + n))) := by
          rw [← List.take_add]
          congr 1
          omega
        rw [this]
        exact h2
      · refine ⟨e', heq, ?_⟩
        have : c.usizeMod - ops.B - (L0 + m.length) = 0 := by
          have h1 : L0 + (m.length - r) = ops.B * (y + x) := by rw [Nat.mul_add, ← hx, ← hy]
          have h3 : z ≤ y + x + 1 := by
            refine Nat.le_of_mul_le_mul_left ?_ hB
            rw [← hz, Nat.mul_add, ← h1]
            omega
          have h4 := Nat.mul_le_mul_left ops.B h3
          rw [← hz, Nat.mul_add, ← h1] at h4
          omega
        rw [this, List.take_zero, List.append_nil]
        exact R'

end BlockEngine

variable {H : Type} {c : Cfg} {P : Md H} {ops : BlockOps H} {zlen : Nat} {pre : List (List Byte)}
  {enc : BitVec 64 → List Byte} {start : BlockEngine H} {fin mid : BlockEngine H → Res (List Byte)}
  {from_ : List Byte → Nat → Res (BlockEngine H)}
  {resume : List Byte → Nat → Res H}

/-- A panicking `input` of a block engine. -/
theorem MdFacts.left (F : MdFacts c P ops zlen pre enc start fin mid from_ resume)
    {e : BlockEngine H} {s : H × Nat} {m : List Byte} (R : MdRel c P e s m) (d : List Byte)
    (h : (P.log c resume).accepts s (m.length + d.length) = false) :
    ∃ e', BlockEngine.inputMut c ops e d = (e', some .overflow) ∧
      MdRel c P e' s (m ++ d.take (2 ^ c.usizeBits - P.B - (P.log c resume).count s m.length)) := by
  have S := F.sized
  obtain ⟨hd, R⟩ := R
  rw [← F.B_eq] at hd R
  simp only [Md.log, Bool.or_eq_false_iff, Bool.not_eq_false', decide_eq_false_iff_not] at h
  obtain ⟨e', h1, h2⟩ := BlockEngine.inputLoopMut_left F.process S hd _ d m e (Nat.le_refl _) R h.1 (by
    show 2 ^ _ ≤ _
    omega)
  refine ⟨e', h1, ?_⟩
  have hc : (P.log c resume).count s m.length = s.2 + m.length := by
    simp only [Md.log]
    exact Nat.mod_eq_of_lt (R.nowrap h.1)
  rw [hc]
  rw [F.B_eq] at hd h2
  exact ⟨hd, h2⟩

/-- A panicking `input` of `siphash24::Engine` changes nothing. -/
theorem Siphash24.left {c : Cfg} {e : Engine} {s : SipStart} {m : List Byte} (R : SipRel c e s m)
    (d : List Byte) (ho : c.overflowChecks = true) (h : c.usizeMod ≤ m.length + d.length) :
    inputMut c e d = (e, some .overflow) := by
  have hlen : addUsize c e.length d.length = .error .overflow := by
    rw [R.len, Nat.mod_eq_of_lt (R.nowrap ho)]
    unfold addUsize
    rw [if_neg (by omega), if_pos ho]
  unfold inputMut
  simp only [hlen]

/-- A panicking `input` leaves an engine that stands for a longer log. -/
theorem Alg.left {c : Cfg} (hc : c.Valid) : (a : Alg) → (ok : a.Ok c) → {e : (a.engine c).State} →
    {s : (a.log c).Start} → {m : List Byte} → (a.lawful hc ok).Rel e s m → (d : List Byte) →
    (a.log c).accepts s (m.length + d.length) = false →
    ∃ e', a.inputMut c e d = (e', some .overflow) ∧
      (a.lawful hc ok).Rel e' s (m ++ d.take (kept c a ((a.log c).count s m.length)))
  | .sha1, _, _, _, _, R, d, h => (Sha1.facts hc).left R d h
  | .sha256, _, _, _, _, R, d, h => (Sha256.facts hc).left R d h
  | .sha384, _, _, _, _, R, d, h => (Sha384.facts hc).left R d h
  | .sha512, _, _, _, _, R, d, h => (Sha512.facts hc).left R d h
  | .sha512_256, _, _, _, _, R, d, h => (Sha512_256.facts hc).left R d h
  | .ripemd160, _, _, _, _, R, d, h => (Ripemd160.facts hc).left R d h
  | .siphash24, _, e, s, m, R, d, h => by
      simp only [log, logSip, Bool.or_eq_false_iff, Bool.not_eq_false', decide_eq_false_iff_not] at h
      refine ⟨e, Siphash24.left R d h.1 (Nat.le_of_not_lt h.2), ?_⟩
      rw [kept, List.take_zero, List.append_nil]
      exact R
  | .sha256t _ _ _, _, _, _, _, R, d, h => (Sha256.facts hc).left R d h
  | .hmac a, ok, e, s, m, R, d, h => by
      obtain ⟨i, h1, h2⟩ := a.left hc ok.1 R.1 d (by
        rw [List.length_append, Nat.add_assoc]; exact h)
      refine ⟨{ e with iengine := i }, ?_, ?_, R.2⟩
      · show Hmac.inputMut (a.inputMut c) e d = _
        simp only [Hmac.inputMut, h1]
        rfl
      · rw [List.append_assoc, List.length_append] at h2
        exact h2

/-! ## Programs that catch panics -/

/-- One call answers the same and keeps the pools related. -/
theorem catch_step_same {c : Cfg} (hc : c.Valid) {p : (Impl.crate c).Pool} {q : (logs c).Pool}
    (h : PoolRel hc p q) (x : Call) (hx : x.Typed c) :
    ((CatchImpl.crate c).step p x).2 = ((catchLogs c).step q x).2 ∧
      PoolRel hc ((CatchImpl.crate c).step p x).1 ((catchLogs c).step q x).1 := by
  cases x with
  | input i d =>
    have := h.slot i
    simp only [CatchImpl.step]
    change _ ∧ _
    simp only [CatchImpl.crate, catchLogs]
    generalize (Impl.crate c).slot p i = x, (logs c).slot q i = y at this ⊢
    cases this with
    | gone => exact ⟨rfl, h⟩
    | live a ok e s m R =>
      cases hacc : (a.log c).accepts s (m.length + d.length) with
      | true =>
        obtain ⟨e', h1, R'⟩ := (a.lawful hc ok).input_ok d (a.log_slice hx) R hacc
        simp only [show (Impl.crate c).input a e d = _ from h1,
          show (logs c).input a (s, m) d = .ok (s, m ++ d) by simp only [logs, hacc, if_true]]
        exact ⟨trivial, h.set i (.live a ok _ _ _ R')⟩
      | false =>
        have h1 := (a.lawful hc ok).input_err d (a.log_slice hx) R hacc
        obtain ⟨e', h2, R'⟩ := a.left hc ok R d hacc
        simp only [show (Impl.crate c).input a e d = _ from h1,
          show (logs c).input a (s, m) d = .error .overflow by simp [logs, hacc], h2]
        exact ⟨trivial, h.set i (.live a ok _ _ _ R')⟩
  | _ => exact step_same hc h _ hx

theorem catch_answers_same {c : Cfg} (hc : c.Valid) (xs : List Call) : ∀ {p : (Impl.crate c).Pool}
    {q : (logs c).Pool}, PoolRel hc p q → (∀ x ∈ xs, x.Typed c) →
    (CatchImpl.crate c).answers p xs = (catchLogs c).answers q xs := by
  induction xs with
  | nil => intros; rfl
  | cons x xs ih =>
    intro p q h hx
    have := catch_step_same hc h x (hx x (by simp))
    show _ :: _ = _ :: _
    rw [this.1]
    exact congrArg _ (ih this.2 fun y hy => hx y (by simp [hy]))

end Chf
