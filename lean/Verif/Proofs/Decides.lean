import Verif.Props.State

/-!
# When two logs of a Merkle-Damgård engine have the same observations
-/

namespace Chf
open Spec

/-- The number of bytes that complete a block after `n`. -/
def toBlock (B n : Nat) : Nat := (B - n % B) % B

theorem toBlock_lt {B : Nat} (hB : 0 < B) (n : Nat) : toBlock B n < B := Nat.mod_lt _ hB

theorem toBlock_dvd {B : Nat} (hB : 0 < B) (n : Nat) : B ∣ n + toBlock B n := by
  unfold toBlock
  have h1 := Nat.mod_lt n hB
  have h2 := Nat.div_add_mod n B
  by_cases h : n % B = 0
  · rw [h, Nat.sub_zero, Nat.mod_self, Nat.add_zero]
    exact Nat.dvd_of_mod_eq_zero h
  · rw [Nat.mod_eq_of_lt (by omega)]
    exact ⟨n / B + 1, by rw [Nat.mul_add, Nat.mul_one]; omega⟩

/-- It is the least such number. -/
theorem toBlock_le {B n k : Nat} (hB : 0 < B) (h : B ∣ n + k) : toBlock B n ≤ k := by
  unfold toBlock
  have h1 := Nat.mod_lt n hB
  have h2 := Nat.div_add_mod n B
  by_cases h0 : n % B = 0
  · rw [h0, Nat.sub_zero, Nat.mod_self]; omega
  · rw [Nat.mod_eq_of_lt (by omega)]
    have h3 : (n % B + k) % B = 0 := by
      rw [Nat.mod_add_mod]; exact Nat.mod_eq_zero_of_dvd h
    rcases Nat.lt_or_ge (n % B + k) B with h4 | h4
    · rw [Nat.mod_eq_of_lt h4] at h3; omega
    · omega

theorem toBlock_congr {B n n' : Nat} (h : n % B = n' % B) : toBlock B n = toBlock B n' := by
  unfold toBlock; rw [h]

/-- Fewer bytes do not complete it. -/
theorem toBlock_short {B n k : Nat} (hB : 0 < B) (h : k < toBlock B n) : n % B + k < B := by
  unfold toBlock at h
  have h1 := Nat.mod_lt n hB
  by_cases h0 : n % B = 0
  · rw [h0, Nat.sub_zero, Nat.mod_self] at h; omega
  · rw [Nat.mod_eq_of_lt (by omega)] at h; omega

theorem md_decides {H : Type} (P : Md H) {c : Cfg} {r : List Byte → Nat → Res H} (hB : 0 < P.B)
    (hM : P.B ∣ 2 ^ c.usizeBits) (hw : ∀ {h h'}, P.words h = P.words h' → h = h')
    (henc : ∀ x, (P.enc P.L x).length = P.L)
    {s s' : H × Nat} {m m' : List Byte} (hs : P.B ∣ s.2) (hs' : P.B ∣ s'.2)
    (hacc : (P.log c r).accepts s m.length = true) (hacc' : (P.log c r).accepts s' m'.length = true)
    (he : (P.log c r).count s m.length = (P.log c r).count s' m'.length)
    (hm : (P.log c r).mid s m = (P.log c r).mid s' m')
    (hd : ∀ d : List Byte, d.length < P.B → P.B ∣ (P.log c r).count s m.length + d.length →
      (P.log c r).accepts s (m.length + d.length) = true →
      (P.log c r).mid s (m ++ d) = (P.log c r).mid s' (m' ++ d)) (x : List Byte) :
    (P.log c r).observe s m x = (P.log c r).observe s' m' x := by
  have he' : (s.2 + m.length) % 2 ^ c.usizeBits = (s'.2 + m'.length) % 2 ^ c.usizeBits := he
  have hlen : ∀ n, (s.2 + (m.length + n)) % 2 ^ c.usizeBits = (s'.2 + (m'.length + n)) % 2 ^ c.usizeBits := by
    intro n
    rw [← Nat.add_assoc, ← Nat.add_assoc, ← Nat.mod_add_mod, he', Nat.mod_add_mod]
  have heq : c.overflowChecks = true → s.2 + m.length = s'.2 + m'.length := by
    intro ho
    have a1 : (!c.overflowChecks || decide (s.2 + m.length < 2 ^ c.usizeBits)) = true := hacc
    have a2 : (!c.overflowChecks || decide (s'.2 + m'.length < 2 ^ c.usizeBits)) = true := hacc'
    rw [ho] at a1 a2
    simp only [Bool.not_true, Bool.false_or, decide_eq_true_eq] at a1 a2
    rwa [Nat.mod_eq_of_lt a1, Nat.mod_eq_of_lt a2] at he'
  have hmod : m.length % P.B = m'.length % P.B := by
    have h1 : (s.2 + m.length) % P.B = (s'.2 + m'.length) % P.B := by
      rw [← Nat.mod_mod_of_dvd _ hM, he', Nat.mod_mod_of_dvd _ hM]
    rwa [Nat.add_mod, Nat.mod_eq_zero_of_dvd hs, Nat.zero_add, Nat.mod_mod, Nat.add_mod,
      Nat.mod_eq_zero_of_dvd hs', Nat.zero_add, Nat.mod_mod] at h1
  have hk := toBlock_congr hmod
  have hchain : ∀ y : List Byte, toBlock P.B m.length ≤ y.length →
      (P.log c r).accepts s (m.length + toBlock P.B m.length) = true →
      chain P.B P.compress s.1 (m ++ y) = chain P.B P.compress s'.1 (m' ++ y) := by
    intro y hy ha
    have hl : (y.take (toBlock P.B m.length)).length = toBlock P.B m.length := by
      rw [List.length_take]; omega
    have hdv : P.B ∣ (m ++ y.take (toBlock P.B m.length)).length := by
      rw [List.length_append, hl]; exact toBlock_dvd hB _
    have hdv' : P.B ∣ (m' ++ y.take (toBlock P.B m.length)).length := by
      rw [List.length_append, hl, hk]; exact toBlock_dvd hB _
    have h1 := hd (y.take (toBlock P.B m.length)) (by rw [hl]; exact toBlock_lt hB _) (by
      rw [hl]
      have : P.B ∣ (s.2 + m.length + toBlock P.B m.length) := by
        rw [Nat.add_assoc]; exact Nat.dvd_add hs (toBlock_dvd hB _)
      have h2 : ((s.2 + m.length) % 2 ^ c.usizeBits + toBlock P.B m.length) % P.B = 0 := by
        rw [Nat.add_mod, Nat.mod_mod_of_dvd _ hM, ← Nat.add_mod]
        exact Nat.mod_eq_zero_of_dvd this
      exact Nat.dvd_of_mod_eq_zero h2) (by rw [hl]; exact ha)
    have h2 : chain P.B P.compress s.1 (m ++ y.take (toBlock P.B m.length)) =
        chain P.B P.compress s'.1 (m' ++ y.take (toBlock P.B m.length)) := hw h1
    have h3 : ∀ z : List Byte, z ++ y = (z ++ y.take (toBlock P.B m.length)) ++ y.drop (toBlock P.B m.length) := by
      intro z; rw [List.append_assoc, List.take_append_drop]
    rw [h3 m, h3 m', chain_append hB _ _ _ _ hdv, chain_append hB _ _ _ _ hdv', h2]
  have hshort : ∀ y : List Byte, y.length < toBlock P.B m.length →
      chain P.B P.compress s.1 (m ++ y) = chain P.B P.compress s'.1 (m' ++ y) := by
    intro y hy
    have h1 := toBlock_short hB hy
    rw [chain_stays hB _ _ _ _ h1, chain_stays hB _ _ _ _ (hmod ▸ h1)]
    exact hw hm
  have hao : (P.log c r).accepts s (m.length + x.length) = (P.log c r).accepts s' (m'.length + x.length) := by
    show (!c.overflowChecks || decide (s.2 + (m.length + x.length) < _)) =
      (!c.overflowChecks || decide (s'.2 + (m'.length + x.length) < _))
    cases ho : c.overflowChecks with
    | false => rfl
    | true =>
      have := heq ho
      rw [show s.2 + (m.length + x.length) = s'.2 + (m'.length + x.length) by omega]
  have hcnt : (P.log c r).count s (m.length + x.length) = (P.log c r).count s' (m'.length + x.length) := hlen _
  have haccept : ∀ n, (c.overflowChecks = true → s.2 + n < 2 ^ c.usizeBits) →
      (P.log c r).accepts s n = true := by
    intro n h
    show (!c.overflowChecks || decide (s.2 + n < _)) = true
    cases ho : c.overflowChecks with
    | false => rfl
    | true => simpa using h ho
  unfold LogSpec.observe
  rw [← hao]
  cases ha : (P.log c r).accepts s (m.length + x.length) with
  | false => rfl
  | true =>
    have hfit : c.overflowChecks = true → s.2 + (m.length + x.length) < 2 ^ c.usizeBits := by
      intro ho
      have a1 : (!c.overflowChecks || decide (s.2 + (m.length + x.length) < 2 ^ c.usizeBits)) = true := ha
      rw [ho] at a1
      simpa using a1
    have hmid : (P.log c r).mid s (m ++ x) = (P.log c r).mid s' (m' ++ x) := by
      show P.words _ = P.words _
      rcases Nat.lt_or_ge x.length (toBlock P.B m.length) with h | h
      · rw [hshort x h]
      · rw [hchain x h (haccept _ fun ho => by have := hfit ho; omega)]
    have hdig : (P.log c r).digest s (m ++ x) = (P.log c r).digest s' (m' ++ x) := by
      have hpz : padZeros P.B P.L (m ++ x).length = padZeros P.B P.L (m' ++ x).length := by
        unfold padZeros
        rw [List.length_append, List.length_append, Nat.add_assoc, Nat.add_assoc, Nat.add_assoc, Nat.add_assoc,
          Nat.add_mod, hmod, ← Nat.add_mod]
      have hpl : c.overflowChecks = true →
          s.2 + P.paddedLen (m ++ x).length = s'.2 + P.paddedLen (m' ++ x).length := by
        intro ho
        have := heq ho
        unfold Md.paddedLen
        rw [hpz, List.length_append, List.length_append]
        omega
      have hn : c.overflowChecks = true → s.2 + (m ++ x).length = s'.2 + (m' ++ x).length := by
        intro ho
        have := heq ho
        rw [List.length_append, List.length_append]
        omega
      have hbits : (s.2 + (m ++ x).length) % 2 ^ c.usizeBits = (s'.2 + (m' ++ x).length) % 2 ^ c.usizeBits := by
        rw [List.length_append, List.length_append]; exact hlen _
      have hwith : ∀ bits, (c.overflowChecks = true → s.2 + P.paddedLen (m ++ x).length < 2 ^ c.usizeBits) →
          P.digestWith s.1 (m ++ x) bits = P.digestWith s'.1 (m' ++ x) bits := by
        intro bits h
        have hl : toBlock P.B m.length ≤ (x ++ ([0x80] ++ (List.replicate (padZeros P.B P.L (m' ++ x).length) 0 ++
            P.enc P.L bits))).length := by
          refine toBlock_le hB ?_
          have := padZeros_fills hB P.L (m ++ x).length
          simp only [List.length_append] at hpz
          simp only [List.length_append, List.length_replicate, henc, List.length_cons, List.length_nil] at this ⊢
          rw [← hpz]
          have e : m.length + (x.length + (0 + 1 + (padZeros P.B P.L (m.length + x.length) + P.L))) =
            m.length + x.length + 1 + padZeros P.B P.L (m.length + x.length) + P.L := by omega
          rw [e]; exact this
        unfold Md.digestWith
        rw [hpz]
        simp only [List.append_assoc]
        rw [hchain _ hl (haccept _ fun ho => ?_)]
        have := h ho
        have h2 : toBlock P.B m.length ≤ x.length + 1 + padZeros P.B P.L (m ++ x).length + P.L := by
          refine toBlock_le hB ?_
          have := padZeros_fills hB P.L (m ++ x).length
          rw [List.length_append] at this ⊢
          have e : m.length + (x.length + 1 + padZeros P.B P.L (m.length + x.length) + P.L) =
            m.length + x.length + 1 + padZeros P.B P.L (m.length + x.length) + P.L := by omega
          rw [e]; exact this
        unfold Md.paddedLen at this
        rw [List.length_append] at this h2
        omega
      show (if c.overflowChecks = true ∧ ¬ (s.2 + P.paddedLen (m ++ x).length < 2 ^ c.usizeBits ∧
          8 * (s.2 + (m ++ x).length) < 2 ^ 64) then Except.error Fault.overflow
        else .ok (P.digestWith s.1 (m ++ x) (8 * ((s.2 + (m ++ x).length) % 2 ^ c.usizeBits) % 2 ^ 64))) =
        (if c.overflowChecks = true ∧ ¬ (s'.2 + P.paddedLen (m' ++ x).length < 2 ^ c.usizeBits ∧
          8 * (s'.2 + (m' ++ x).length) < 2 ^ 64) then Except.error Fault.overflow
        else .ok (P.digestWith s'.1 (m' ++ x) (8 * ((s'.2 + (m' ++ x).length) % 2 ^ c.usizeBits) % 2 ^ 64)))
      rw [← hbits]
      cases ho : c.overflowChecks with
      | false =>
        rw [if_neg (by simp), if_neg (by simp), hwith _ (by rw [ho]; intro h; cases h)]
      | true =>
        rw [← hpl ho, ← hn ho]
        split
        · rfl
        · next h =>
          have h' : s.2 + P.paddedLen (m ++ x).length < 2 ^ c.usizeBits := by
            apply Decidable.byContradiction
            intro hx
            exact h ⟨rfl, fun hy => hx hy.1⟩
          rw [hwith _ fun _ => h']
    simp only [if_true]
    rw [hcnt, hmid, hdig]

namespace Props

/-- The block engines' logs are decided by midstates. -/
theorem decides_log {c : Cfg} (hc : c.Valid) (a : Alg) (ok : a.Ok c) {B : Nat} (hB : stride a = some B)
    (hsip : isSip a = false) {e e' : (a.engine c).State} {s m s' m'} (R : (a.lawful hc ok).Rel e s m)
    (R' : (a.lawful hc ok).Rel e' s' m')
    (heq : (a.log c).count s m.length = (a.log c).count s' m'.length)
    (hm : (a.log c).mid s m = (a.log c).mid s' m')
    (hd : ∀ d : List Byte, d.length < B → B ∣ (a.log c).count s m.length + d.length →
      (a.log c).accepts s (m.length + d.length) = true → (a.log c).mid s (m ++ d) = (a.log c).mid s' (m' ++ d))
    (x : List Byte) : (a.log c).observe s m x = (a.log c).observe s' m' x := by
  have acc := (a.lawful hc ok).accepted R
  have acc' := (a.lawful hc ok).accepted R'
  revert x
  cases a <;> cases hB <;> try cases hsip
  · exact md_decides md1 (by decide) (pow_dvd hc).1 words1_inj (length_beBytes _) R.1 R'.1 acc acc' heq hm hd
  · exact md_decides md256 (by decide) (pow_dvd hc).1 words256_inj (length_beBytes _) R.1 R'.1 acc acc' heq hm hd
  · exact md_decides md384 (by decide) (pow_dvd hc).2 words512_inj (length_beBytes _) R.1 R'.1 acc acc' heq hm hd
  · exact md_decides md512 (by decide) (pow_dvd hc).2 words512_inj (length_beBytes _) R.1 R'.1 acc acc' heq hm hd
  · exact md_decides md512_256 (by decide) (pow_dvd hc).2 words512_inj (length_beBytes _) R.1 R'.1 acc acc' heq hm hd
  · exact md_decides mdRmd (by decide) (pow_dvd hc).1 wordsRmd_inj (length_leBytes _) R.1 R'.1 acc acc' heq hm hd
  · exact md_decides md256 (r := fun μ _ => .ok (parse8 μ)) (by decide) (pow_dvd hc).1 words256_inj
      (length_beBytes _) (s := s) (s' := s') R.1 R'.1 acc acc' heq hm hd

/-- What follows for the observers from equal observations after one slice. -/
theorem of_observe {E : HashEngine} {e e' : E.State} {d : List Byte} (h : E.observe e [d] = E.observe e' [d]) :
    (E.input e d >>= E.midstate) = (E.input e' d >>= E.midstate) := by
  have key : ∀ e, (E.observe e [d] >>= fun r => r.2.1) = (E.input e d >>= E.midstate) := by
    intro e
    unfold HashEngine.observe HashEngine.inputs
    cases E.input e d <;> rfl
  rw [← key, ← key, h]

theorem of_observe_nil {E : HashEngine} {e e' : E.State} (h : E.observe e [] = E.observe e' []) :
    E.nBytesHashed e = E.nBytesHashed e' ∧ E.midstate e = E.midstate e' ∧ E.finalize e = E.finalize e' := by
  have h' : (Except.ok (E.nBytesHashed e, E.midstate e, E.finalize e) : Res _) =
      .ok (E.nBytesHashed e', E.midstate e', E.finalize e') := h
  injection h' with h'
  injection h' with h1 h2
  injection h2 with h2 h3
  exact ⟨h1, h2, h3⟩

theorem stride_lt {c : Cfg} (hc : c.Valid) {a : Alg} {B : Nat} (hB : stride a = some B) :
    0 < B ∧ B ≤ 128 ∧ B < c.usizeMod ∧ B ∣ 2 ^ c.usizeBits := by
  have := pow_dvd hc
  have h8 : 8 ∣ 2 ^ c.usizeBits := Nat.dvd_trans (by decide) this.1
  have := usizeMod_ge hc
  cases a <;> cases hB <;> refine ⟨by decide, by decide, by omega, ?_⟩ <;> simp_all

/-- Two engines are the same to every caller exactly if their counts and midstates are, now and after every
slice that completes the block. -/
theorem decides_model {c : Cfg} (hc : c.Valid) (a : Alg) (ok : a.Ok c) {B : Nat} (hB : stride a = some B)
    (hsip : isSip a = false) {e e' : (a.engine c).State} (he : Reachable c a e) (he' : Reachable c a e') :
    ObsEq c (a.engine c) e e' ↔ (a.engine c).nBytesHashed e = (a.engine c).nBytesHashed e' ∧
      (a.engine c).midstate e = (a.engine c).midstate e' ∧
      ∀ d : List Byte, d.length < B → B ∣ (a.engine c).nBytesHashed e + d.length →
        ((a.engine c).input e d >>= (a.engine c).midstate) = ((a.engine c).input e' d >>= (a.engine c).midstate) := by
  have hlt := stride_lt hc hB
  constructor
  · intro h
    have h0 := of_observe_nil (h [] fun _ hd => by cases hd)
    refine ⟨h0.1, h0.2.1, fun d hd _ => of_observe (h [d] ?_)⟩
    intro x hx
    rw [List.mem_singleton.mp hx]
    omega
  · rintro ⟨h1, h2, h3⟩
    obtain ⟨k, h⟩ := he
    obtain ⟨s, m, R, _⟩ := h.rel hc ok
    obtain ⟨k', h'⟩ := he'
    obtain ⟨s', m', R', _⟩ := h'.rel hc ok
    rw [(a.lawful hc ok).count R] at h1 h3
    rw [(a.lawful hc ok).count R'] at h1
    rw [(a.lawful hc ok).mid R, (a.lawful hc ok).mid R'] at h2
    refine obsEq_of hc ok R R' (decides_log hc a ok hB hsip R R' h1 (Except.ok.inj h2) fun d hd hdv hacc => ?_)
    have h4 := h3 d hd hdv
    have hsl := a.log_slice (c := c) (n := d.length) (by omega)
    obtain ⟨f, hf, Rf⟩ := (a.lawful hc ok).input_ok d hsl R hacc
    rw [hf] at h4
    replace h4 : (a.engine c).midstate f = _ := h4
    rw [(a.lawful hc ok).mid Rf] at h4
    cases hacc' : (a.log c).accepts s' (m'.length + d.length) with
    | false =>
      rw [(a.lawful hc ok).input_err d hsl R' hacc'] at h4
      cases h4
    | true =>
      obtain ⟨f', hf', Rf'⟩ := (a.lawful hc ok).input_ok d hsl R' hacc'
      rw [hf'] at h4
      replace h4 : _ = (a.engine c).midstate f' := h4
      rw [(a.lawful hc ok).mid Rf'] at h4
      exact Except.ok.inj h4

theorem accepts_mono {c : Cfg} {a : Alg} {B : Nat} (hB : stride a = some B) {s : (a.log c).Start} {n k : Nat}
    (h : (a.log c).accepts s n = true) (hk : k ≤ n) : (a.log c).accepts s k = true := by
  have key : ∀ p : Nat, (!c.overflowChecks || decide (p + n < 2 ^ c.usizeBits)) = true →
      (!c.overflowChecks || decide (p + k < 2 ^ c.usizeBits)) = true := by
    intro p h
    cases ho : c.overflowChecks with
    | false => rfl
    | true =>
      rw [ho] at h
      simp only [Bool.not_true, Bool.false_or, decide_eq_true_eq] at h ⊢
      omega
  cases a <;> cases hB
  case siphash24 =>
    have := key 0
    simp only [Nat.zero_add] at this
    exact this h
  all_goals exact key _ h

theorem count_mod {c : Cfg} (hc : c.Valid) {a : Alg} {B : Nat} (hB : stride a = some B) {s : (a.log c).Start}
    (n k : Nat) : (a.log c).count s (n + k) % B = ((a.log c).count s n + k) % B := by
  have hM := (stride_lt hc hB).2.2.2
  have key : ∀ p : Nat, (p + (n + k)) % 2 ^ c.usizeBits % B = ((p + n) % 2 ^ c.usizeBits + k) % B := by
    intro p
    rw [Nat.mod_mod_of_dvd _ hM, Nat.add_mod (_ % _) k, Nat.mod_mod_of_dvd _ hM, ← Nat.add_mod, Nat.add_assoc]
  cases a <;> cases hB
  case siphash24 =>
    have := key 0
    simp only [Nat.zero_add] at this
    exact this
  all_goals exact key _

/-- Two engines are the same to every caller exactly if no slice that ends in the current block tells them
apart. -/
theorem one_block {c : Cfg} (hc : c.Valid) (a : Alg) (ok : a.Ok c) {B : Nat} (hB : stride a = some B)
    {e e' : (a.engine c).State} (he : Reachable c a e) (he' : Reachable c a e')
    (hd : ∀ d : List Byte, (a.engine c).nBytesHashed e % B + d.length ≤ B →
      (a.engine c).observe e [d] = (a.engine c).observe e' [d]) : ObsEq c (a.engine c) e e' := by
  have hlt := stride_lt hc hB
  obtain ⟨k, h⟩ := he
  obtain ⟨s, m, R, _⟩ := h.rel hc ok
  obtain ⟨k', h'⟩ := he'
  obtain ⟨s', m', R', _⟩ := h'.rel hc ok
  rw [(a.lawful hc ok).count R] at hd
  have hmod := Nat.mod_lt ((a.log c).count s m.length) hlt.1
  have hd' : ∀ d : List Byte, (a.log c).count s m.length % B + d.length ≤ B →
      (a.log c).observe s m d = (a.log c).observe s' m' d := by
    intro d hl
    have := hd d hl
    have hsl : ∀ x ∈ [d], (a.log c).slice x.length := fun x hx => by
      rw [List.mem_singleton.mp hx]
      exact a.log_slice (by omega)
    rw [(a.lawful hc ok).observe_eq R [d] hsl, (a.lawful hc ok).observe_eq R' [d] hsl] at this
    simpa using this
  refine obsEq_of hc ok R R' fun x => ?_
  rcases Nat.lt_or_ge B ((a.log c).count s m.length % B + x.length) with hx | hx
  · have hl : (x.take (B - (a.log c).count s m.length % B)).length = B - (a.log c).count s m.length % B := by
      rw [List.length_take]; omega
    generalize hy : x.take (B - (a.log c).count s m.length % B) = y at hl
    generalize hz : x.drop (B - (a.log c).count s m.length % B) = z
    have hxyz : x = y ++ z := by rw [← hy, ← hz, List.take_append_drop]
    have hobs := hd' y (by rw [hl]; omega)
    have step : ∀ (s : (a.log c).Start) (m : List Byte),
        (a.log c).observe s m (y ++ z) = (a.log c).observe s (m ++ y) z := by
      intro s m
      unfold LogSpec.observe
      rw [List.length_append, List.length_append, List.append_assoc, Nat.add_assoc]
    have hno : ∀ (s : (a.log c).Start) (m : List Byte), (a.log c).accepts s (m.length + y.length) = false →
        (a.log c).observe s m (y ++ z) = .error .overflow := by
      intro s m h
      unfold LogSpec.observe
      rw [if_neg]
      intro h2
      have := accepts_mono (c := c) (a := a) hB (s := s) h2 (k := m.length + y.length) (by
        rw [List.length_append]; omega)
      rw [h] at this
      cases this
    rw [hxyz]
    have hobs1 := hobs
    unfold LogSpec.observe at hobs1
    cases h1 : (a.log c).accepts s (m.length + y.length) <;>
      cases h2 : (a.log c).accepts s' (m'.length + y.length) <;> rw [h1, h2] at hobs1
    · rw [hno s m h1, hno s' m' h2]
    · cases hobs1
    · cases hobs1
    · simp only [if_true] at hobs1
      have hsl := a.log_slice (c := c) (n := y.length) (by omega)
      obtain ⟨f, hf, Rf⟩ := (a.lawful hc ok).input_ok y hsl R h1
      obtain ⟨f', hf', Rf'⟩ := (a.lawful hc ok).input_ok y hsl R' h2
      injection hobs1 with hobs1
      injection hobs1 with g1 g2
      injection g2 with g2 g3
      rw [step, step]
      refine same_log hc a ok hB Rf Rf' ?_ ?_ (Except.ok.inj g2) z
      · rw [List.length_append]
        refine Nat.dvd_of_mod_eq_zero ?_
        rw [count_mod hc hB, hl, ← Nat.mod_add_mod, Nat.add_sub_cancel' (Nat.le_of_lt hmod)]
        exact Nat.mod_self B
      · rw [List.length_append, List.length_append]; exact g1
  · exact hd' x hx

end Props
end Chf
