import Verif.Props.Padding
import Verif.Props.MidstateBugs

/-!
# Property C61: what an engine remembers
-/

namespace Chf.Props
open Spec

attribute [local irreducible] iv512_256

/-- The number of bytes an engine processes at a time (SipHash takes words, its `BLOCK_SIZE` is 32).
HMAC is left out. -/
def stride : Alg → Option Nat
  | .sha1 | .sha256 | .ripemd160 | .sha256t _ _ _ => some 64
  | .sha384 | .sha512 | .sha512_256 => some 128
  | .siphash24 => some 8
  | .hmac _ => none

/-- Two logs of a Merkle-Damgård engine at a block boundary with the same count and midstate have the
same observations. -/
theorem md_same {H : Type} (P : Md H) {c : Cfg} {r : List Byte → Nat → Res H} (hB : 0 < P.B)
    (hM : P.B ∣ 2 ^ c.usizeBits) (hw : ∀ {h h'}, P.words h = P.words h' → h = h')
    {s s' : H × Nat} {m m' : List Byte} (hs : P.B ∣ s.2) (hs' : P.B ∣ s'.2)
    (hacc : (P.log c r).accepts s m.length = true) (hacc' : (P.log c r).accepts s' m'.length = true)
    (hn : P.B ∣ (P.log c r).count s m.length)
    (he : (P.log c r).count s m.length = (P.log c r).count s' m'.length)
    (hm : (P.log c r).mid s m = (P.log c r).mid s' m') (x : List Byte) :
    (P.log c r).observe s m x = (P.log c r).observe s' m' x := by
  have hm' : P.words (chain P.B P.compress s.1 m) = P.words (chain P.B P.compress s'.1 m') := hm
  have he' : (s.2 + m.length) % 2 ^ c.usizeBits = (s'.2 + m'.length) % 2 ^ c.usizeBits := he
  have hn' : P.B ∣ (s'.2 + m'.length) % 2 ^ c.usizeBits := he' ▸ (hn : P.B ∣ (s.2 + m.length) % 2 ^ c.usizeBits)
  rw [← Md.observe_resume P c r hB s m (log_aligned hM hs hn) hacc,
    ← Md.observe_resume P c r hB s' m' (log_aligned hM hs' hn') hacc', hw hm', he']

/-- The padding of SipHash after complete words. -/
theorem sipPad_append {m x : List Byte} (hm : 8 ∣ m.length) :
    sipPad (m ++ x) = m ++ (x ++ List.replicate (7 - x.length % 8) 0 ++
      [BitVec.ofNat 8 (m.length + x.length)]) := by
  obtain ⟨q, hq⟩ := hm
  have h8 : (m ++ x).length % 8 = x.length % 8 := by
    rw [List.length_append, hq]; omega
  rw [sipPad, h8, List.length_append, List.append_assoc, List.append_assoc, List.append_assoc]

theorem sip_same {c : Cfg} (hc : c.Valid) {s s' : SipStart} {m m' : List Byte}
    (hacc : (Alg.siphash24.log c).accepts s m.length = true)
    (hacc' : (Alg.siphash24.log c).accepts s' m'.length = true)
    (hn : 8 ∣ (Alg.siphash24.log c).count s m.length)
    (he : (Alg.siphash24.log c).count s m.length = (Alg.siphash24.log c).count s' m'.length)
    (hm : (Alg.siphash24.log c).mid s m = (Alg.siphash24.log c).mid s' m') (x : List Byte) :
    (Alg.siphash24.log c).observe s m x = (Alg.siphash24.log c).observe s' m' x := by
  have he' : m.length % 2 ^ c.usizeBits = m'.length % 2 ^ c.usizeBits := he
  have hn1 : 8 ∣ m.length % 2 ^ c.usizeBits := hn
  have hd : 256 ∣ 2 ^ c.usizeBits := by
    unfold Cfg.Valid at hc
    rcases hc with h | h | h <;> rw [h] <;> decide
  have h8 : 8 ∣ 2 ^ c.usizeBits := Nat.dvd_trans (by decide) hd
  have hn2 : 8 ∣ m.length := (Nat.dvd_mod_iff h8).mp hn1
  have hn3 : 8 ∣ m'.length := (Nat.dvd_mod_iff h8).mp (he' ▸ hn1)
  have hv : (leWords 64 m).foldl sipAbsorb s.v = (leWords 64 m').foldl sipAbsorb s'.v := by
    generalize hA : (leWords 64 m).foldl sipAbsorb s.v = A
    generalize hB : (leWords 64 m').foldl sipAbsorb s'.v = B
    have hm1 : ({ v0 := A.v0, v1 := A.v1, v2 := A.v2, v3 := A.v3 } : Siphash24.State) =
        { v0 := B.v0, v1 := B.v1, v2 := B.v2, v3 := B.v3 } := by
      rw [← hA, ← hB]; exact hm
    cases A; cases B
    simp only [Siphash24.State.mk.injEq] at hm1
    obtain ⟨a, b, c, d⟩ := hm1
    rw [a, b, c, d]
  have hlen : ∀ n, (m.length + n) % 2 ^ c.usizeBits = (m'.length + n) % 2 ^ c.usizeBits := fun n => by
    rw [← Nat.mod_add_mod, he', Nat.mod_add_mod]
  have hbyte : BitVec.ofNat 8 (m.length + x.length) = BitVec.ofNat 8 (m'.length + x.length) := by
    apply BitVec.eq_of_toNat_eq
    rw [BitVec.toNat_ofNat, BitVec.toNat_ofNat, ← Nat.mod_mod_of_dvd _ hd, hlen,
      Nat.mod_mod_of_dvd _ hd]
  have hmid : (Alg.siphash24.log c).mid s (m ++ x) = (Alg.siphash24.log c).mid s' (m' ++ x) := by
    simp only [Alg.log, logSip, leWords_append_sip _ _ hn2, leWords_append_sip _ _ hn3,
      List.foldl_append, hv]
    rfl
  have hdig : (Alg.siphash24.log c).digest s (m ++ x) = (Alg.siphash24.log c).digest s' (m' ++ x) := by
    rw [sip_digest, sip_digest, sipFrom, sipFrom, sipPad_append hn2, sipPad_append hn3,
      leWords_append_sip _ _ hn2, leWords_append_sip _ _ hn3, List.foldl_append, List.foldl_append, hv,
      hbyte]
  have hok : (Alg.siphash24.log c).accepts s (m.length + x.length) =
      (Alg.siphash24.log c).accepts s' (m'.length + x.length) := by
    have a1 : (!c.overflowChecks || decide (m.length < 2 ^ c.usizeBits)) = true := hacc
    have a2 : (!c.overflowChecks || decide (m'.length < 2 ^ c.usizeBits)) = true := hacc'
    show (!c.overflowChecks || decide (m.length + x.length < _)) =
      (!c.overflowChecks || decide (m'.length + x.length < _))
    cases ho : c.overflowChecks with
    | false => rfl
    | true =>
      rw [ho] at a1 a2
      simp only [Bool.not_true, Bool.false_or, decide_eq_true_eq] at a1 a2
      rw [Nat.mod_eq_of_lt a1, Nat.mod_eq_of_lt a2] at he'
      rw [he']
  have hcnt : (Alg.siphash24.log c).count s (m.length + x.length) =
      (Alg.siphash24.log c).count s' (m'.length + x.length) := hlen _
  unfold LogSpec.observe
  rw [hmid, hdig, hok, hcnt]

/-- Logs of an engine type at a block boundary with the same count and midstate have the same observations. -/
theorem same_log {c : Cfg} (hc : c.Valid) (a : Alg) (ok : a.Ok c) {B : Nat} (hB : stride a = some B)
    {e e' : (a.engine c).State} {s m s' m'} (R : (a.lawful hc ok).Rel e s m) (R' : (a.lawful hc ok).Rel e' s' m')
    (hn : B ∣ (a.log c).count s m.length) (heq : (a.log c).count s m.length = (a.log c).count s' m'.length)
    (hm : (a.log c).mid s m = (a.log c).mid s' m') (x : List Byte) :
    (a.log c).observe s m x = (a.log c).observe s' m' x := by
  have acc := (a.lawful hc ok).accepted R
  have acc' := (a.lawful hc ok).accepted R'
  revert x
  cases a <;> cases hB
  · exact md_same md1 (by decide) (pow_dvd hc).1 words1_inj R.1 R'.1 acc acc' hn heq hm
  · exact md_same md256 (by decide) (pow_dvd hc).1 words256_inj R.1 R'.1 acc acc' hn heq hm
  · exact md_same md384 (by decide) (pow_dvd hc).2 words512_inj R.1 R'.1 acc acc' hn heq hm
  · exact md_same md512 (by decide) (pow_dvd hc).2 words512_inj R.1 R'.1 acc acc' hn heq hm
  · exact md_same md512_256 (by decide) (pow_dvd hc).2 words512_inj R.1 R'.1 acc acc' hn heq hm
  · exact md_same mdRmd (by decide) (pow_dvd hc).1 wordsRmd_inj R.1 R'.1 acc acc' hn heq hm
  · exact sip_same hc acc acc' hn heq hm
  · exact md_same md256 (r := fun μ _ => .ok (parse8 μ)) (by decide) (pow_dvd hc).1 words256_inj (s := s)
      (s' := s') R.1 R'.1 acc acc' hn heq hm

/-- C61: two engines of the same type that have hashed the same number of bytes, a multiple of the
block size, and have the same midstate cannot be told apart, whatever the calls that led to them. -/
theorem C61_state {c : Cfg} (hc : c.Valid) (a : Alg) (ok : a.Ok c) {B : Nat} (hB : stride a = some B)
    {e e' : (a.engine c).State} (he : Reachable c a e) (he' : Reachable c a e')
    (hn : B ∣ (a.engine c).nBytesHashed e)
    (heq : (a.engine c).nBytesHashed e = (a.engine c).nBytesHashed e')
    (hm : (a.engine c).midstate e = (a.engine c).midstate e') : ObsEq c (a.engine c) e e' := by
  obtain ⟨k, h⟩ := he
  obtain ⟨s, m, R, _⟩ := h.rel hc ok
  obtain ⟨k', h'⟩ := he'
  obtain ⟨s', m', R', _⟩ := h'.rel hc ok
  rw [(a.lawful hc ok).count R] at hn heq
  rw [(a.lawful hc ok).count R'] at heq
  rw [(a.lawful hc ok).mid R, (a.lawful hc ok).mid R'] at hm
  exact obsEq_of hc ok R R' (same_log hc a ok hB R R' hn heq (Except.ok.inj hm))

/-- A new RIPEMD-160 engine after 64 bytes, and the engine taken through its midstate and corrected by
a byte swap. -/
example : Alg.ripemd160.Ok .debug64 ∧ stride .ripemd160 = some 64 ∧
    (do
      let E := Ripemd160.engine .debug64
      let e ← E.new
      let e ← E.input e (List.replicate 64 5)
      let μ : List Byte ← E.midstate e
      let e' ← E.fromMidstate (show List Byte from (blocks 4 μ).flatMap List.reverse) 64
      let μ' : List Byte ← E.midstate e'
      pure (E.nBytesHashed e == 64 && E.nBytesHashed e' == 64 && μ == μ')) = Except.ok true :=
  ⟨trivial, rfl, by decide +kernel⟩

/-- Hashing a message whose beginning is input already. -/
theorem hash_append {c : Cfg} (hc : c.Valid) (a : Alg) (ok : a.Ok c) {m x : List Byte}
    (hl : (m ++ x).length < c.usizeMod) {i e : (a.engine c).State} (hi : (a.engine c).new = .ok i)
    (h : (a.engine c).input i m = .ok e) :
    (a.engine c).hash (m ++ x) = ((a.engine c).input e x >>= (a.engine c).finalize) := by
  have h1 := C08_hash_byte_chunks hc a ok [m, x] (by simpa using hl)
  rw [show ([m, x] : List (List Byte)).flatten = m ++ x by simp] at h1
  rw [← h1]
  simp only [HashEngine.hashByteChunks, HashEngine.inputs, hi, h, bind, Except.bind]
  cases (a.engine c).input e x <;> rfl

/-- C61: two messages of the same length, a multiple of the block size, after which the midstates are
equal, collide with every continuation. -/
theorem C61_extends {c : Cfg} (hc : c.Valid) (a : Alg) (ok : a.Ok c) {B : Nat} (hB : stride a = some B)
    {m m' : List Byte} (hlen : m.length = m'.length) {i e e' : (a.engine c).State}
    (hi : (a.engine c).new = .ok i) (h : (a.engine c).input i m = .ok e)
    (h' : (a.engine c).input i m' = .ok e') (hn : B ∣ (a.engine c).nBytesHashed e)
    (hm : (a.engine c).midstate e = (a.engine c).midstate e') (x : List Byte)
    (hl : (m ++ x).length < c.usizeMod) :
    (a.engine c).hash (m ++ x) = (a.engine c).hash (m' ++ x) := by
  have hl' : (m' ++ x).length < c.usizeMod := by
    rw [List.length_append] at hl ⊢; omega
  have lm : m.length < c.usizeMod := by rw [List.length_append] at hl; omega
  have lx : x.length < c.usizeMod := by rw [List.length_append] at hl; omega
  have hr : Reachable c a e := ⟨_, .input _ (.new hi) lm h⟩
  have hr' : Reachable c a e' := ⟨_, .input _ (.new hi) (hlen ▸ lm) h'⟩
  have hcount : (a.engine c).nBytesHashed e = (a.engine c).nBytesHashed e' := by
    obtain ⟨j, hj, R⟩ := (a.lawful hc ok).new_rel
    have : j = i := Except.ok.inj (hj.symm.trans hi)
    subst this
    have key : ∀ {z f}, z.length < c.usizeMod → (a.engine c).input j z = .ok f →
        (a.engine c).nBytesHashed f =
          (a.log c).count (a.log c).fresh.1 ((a.log c).fresh.2.length + z.length) := by
      intro z f hz hf
      cases hacc : (a.log c).accepts (a.log c).fresh.1 ((a.log c).fresh.2.length + z.length) with
      | false =>
        rw [(a.lawful hc ok).input_err z (a.log_slice hz) R hacc] at hf
        cases hf
      | true =>
        obtain ⟨f', hf', R'⟩ := (a.lawful hc ok).input_ok z (a.log_slice hz) R hacc
        have : f' = f := Except.ok.inj (hf'.symm.trans hf)
        subst this
        rw [(a.lawful hc ok).count R', List.length_append]
    rw [key lm h, key (hlen ▸ lm) h', hlen]
  have hobs := C61_state hc a ok hB hr hr' hn hcount hm [x] (by
    intro d hd
    rw [List.mem_singleton.mp hd]
    exact lx)
  rw [hash_append hc a ok hl hi h, hash_append hc a ok hl' hi h']
  simp only [HashEngine.observe, HashEngine.inputs, bind, Except.bind, pure, Except.pure] at hobs ⊢
  cases h1 : (a.engine c).input e x with
  | error f =>
    cases h2 : (a.engine c).input e' x with
    | error f' => rw [h1, h2] at hobs; cases hobs; rfl
    | ok y => rw [h1, h2] at hobs; cases hobs
  | ok y =>
    cases h2 : (a.engine c).input e' x with
    | error f' => rw [h1, h2] at hobs; cases hobs
    | ok y' =>
      rw [h1, h2] at hobs
      simp only [Except.ok.injEq, Prod.mk.injEq] at hobs
      exact hobs.2.2

/-- HMAC engines whose halves have these equalities cannot be told apart. -/
theorem hmac_same {c : Cfg} (hc : c.Valid) (a : Alg) (ok : a.Ok c) {B : Nat} (hB : stride a = some B)
    {e e' : Hmac.Engine (a.engine c)} (hi : Reachable c a e.iengine) (hi' : Reachable c a e'.iengine)
    (ho : Reachable c a e.oengine) (ho' : Reachable c a e'.oengine)
    (hn : B ∣ (a.engine c).nBytesHashed e.iengine) (hno : B ∣ (a.engine c).nBytesHashed e.oengine)
    (heq : (a.engine c).nBytesHashed e.iengine = (a.engine c).nBytesHashed e'.iengine)
    (heqo : (a.engine c).nBytesHashed e.oengine = (a.engine c).nBytesHashed e'.oengine)
    (hm : (Hmac.engine c (a.engine c)).midstate e = (Hmac.engine c (a.engine c)).midstate e') :
    ObsEq c (Hmac.engine c (a.engine c)) e e' := by
  have hmm : (a.engine c).midstate e.iengine = (a.engine c).midstate e'.iengine ∧
      (a.engine c).midstate e.oengine = (a.engine c).midstate e'.oengine := by
    have mids : ∀ {f}, Reachable c a f → ∃ μ, (a.engine c).midstate f = .ok μ := by
      rintro f ⟨k, h⟩
      obtain ⟨s, m, R, _⟩ := h.rel hc ok
      exact ⟨_, (a.lawful hc ok).mid R⟩
    obtain ⟨μ1, h1⟩ := mids hi
    obtain ⟨μ2, h2⟩ := mids hi'
    obtain ⟨μ3, h3⟩ := mids ho
    obtain ⟨μ4, h4⟩ := mids ho'
    simp only [Hmac.engine, h1, h2, h3, h4, bind, Except.bind, pure, Except.pure, Except.ok.injEq,
      Hmac.Midstate.mk.injEq] at hm
    rw [h1, h2, h3, h4, hm.1, hm.2]
    exact ⟨rfl, rfl⟩
  refine hmac_obsEq ?_ (C61_state hc a ok hB hi hi' hn heq hmm.1)
    (C61_state hc a ok hB ho ho' hno heqo hmm.2)
  intro ds x d hs hx hfin
  obtain ⟨k, hk⟩ := hi
  obtain ⟨s, m, R, _⟩ := (hk.inputs ds hs hx).rel hc ok
  rw [(a.lawful hc ok).digest R] at hfin
  have h7 := (a.lawful hc ok).digest_len hfin
  have h8 := (a.lawful hc ok).out_le
  have h9 := usizeMod_ge hc
  omega

/-- C61: two keyed HMAC engines, possibly with different keys, into which the same number of bytes
has been input, a multiple of the block size, and whose midstates are equal cannot be told apart. -/
theorem C61_hmac {c : Cfg} (hc : c.Valid) (a : Alg) (ok : (Alg.hmac a).Ok c) {B : Nat}
    (hB : stride a = some B) (ha : B ∣ a.base) {key key' : List Byte} {x x' : List Byte}
    (hx : x.length < c.usizeMod) (hx' : x'.length < c.usizeMod)
    {i i' e e' : Hmac.Engine (a.engine c)} (hi : Hmac.new c (a.engine c) key = .ok i)
    (hi' : Hmac.new c (a.engine c) key' = .ok i')
    (he : (Hmac.engine c (a.engine c)).input i x = .ok e)
    (he' : (Hmac.engine c (a.engine c)).input i' x' = .ok e')
    (hn : B ∣ (Hmac.engine c (a.engine c)).nBytesHashed e)
    (heq : (Hmac.engine c (a.engine c)).nBytesHashed e = (Hmac.engine c (a.engine c)).nBytesHashed e')
    (hm : (Hmac.engine c (a.engine c)).midstate e = (Hmac.engine c (a.engine c)).midstate e') :
    ObsEq c (Hmac.engine c (a.engine c)) e e' := by
  have hbs := a.blockSize_eq c
  have hble : (a.engine c).blockSize < c.usizeMod := by
    have := a.blockSize_le
    have := usizeMod_ge hc
    rw [hbs]
    omega
  have hdvd : B ∣ a.blockSize := by
    cases a <;> cases hB <;> first
      | exact ⟨1, rfl⟩
      | exact ⟨4, rfl⟩
  have hpow : B ∣ 2 ^ c.usizeBits := by
    have := (pow_dvd hc).1
    have := (pow_dvd hc).2
    cases a <;> cases hB <;> first
      | assumption
      | exact Nat.dvd_trans (by decide) (pow_dvd hc).1
  have parts : ∀ {key : List Byte} {x : List Byte} {i e : Hmac.Engine (a.engine c)},
      x.length < c.usizeMod → Hmac.new c (a.engine c) key = .ok i →
      (Hmac.engine c (a.engine c)).input i x = .ok e → Reachable c a e.iengine ∧
        Reachable c a e.oengine ∧
        (a.engine c).nBytesHashed e.oengine = (a.base + a.blockSize) % 2 ^ c.usizeBits := by
    intro key x i e hx hi he
    obtain ⟨d, y, z, h1, hy, hz, h2, h3⟩ := hmac_new_parts hi
    obtain ⟨j, hj, he⟩ := bind_ok (show ((a.engine c).input i.iengine x >>= fun j =>
      (pure { i with iengine := j } : Res (Hmac.Engine (a.engine c)))) = .ok e from he)
    cases he
    refine ⟨⟨_, .input _ (.input _ (.default h1) (hy ▸ hble) h2) hx hj⟩,
      ⟨_, .input _ (.default h1) (hz ▸ hble) h3⟩, ?_⟩
    obtain ⟨d', hd', R⟩ := (a.lawful hc ok.1).default_rel
    have : d' = d := Except.ok.inj (hd'.symm.trans h1)
    subst this
    cases hacc : (a.log c).accepts (a.log c).fresh.1 ((a.log c).fresh.2.length + z.length) with
    | false =>
      rw [(a.lawful hc ok.1).input_err z (a.log_slice (hz ▸ hble)) R hacc] at h3
      cases h3
    | true =>
      obtain ⟨f', hf', R'⟩ := (a.lawful hc ok.1).input_ok z (a.log_slice (hz ▸ hble)) R hacc
      have : f' = i.oengine := Except.ok.inj (hf'.symm.trans h3)
      subst this
      show (a.engine c).nBytesHashed i.oengine = _
      rw [(a.lawful hc ok.1).count R', List.length_append, hz, hbs]
      cases a <;> cases hB <;> simp only [Alg.log, log1, log256, log384, log512, log512_256, logRmd, logSip, Md.log,
        Alg.base, List.length_nil, Nat.zero_add, Nat.add_assoc]
  obtain ⟨r1, r2, n1⟩ := parts hx hi he
  obtain ⟨r1', r2', n1'⟩ := parts hx' hi' he'
  refine hmac_same hc a ok.1 hB r1 r1' r2 r2' hn ?_ heq (n1.trans n1'.symm) hm
  rw [n1]
  exact (Nat.dvd_mod_iff hpow).mpr (Nat.dvd_add ha hdvd)

set_option maxRecDepth 10000 in
/-- C61 needs the keyed engines for HMAC: two HMAC-SHA-256 engines reached by public calls, with the
same midstate and the same count, 128, give different digests.  The second is the first taken through
its midstate. -/
theorem C61_hmac_differs :
    (do
      let E := Hmac.engine .debug64 (Sha256.engine .debug64)
      let e ← Hmac.new .debug64 (Sha256.engine .debug64) []
      let e ← E.input e (List.replicate 64 0)
      let μ ← E.midstate e
      let e' ← E.fromMidstate μ 128
      let μ' ← E.midstate e'
      pure (@BEq.beq (List Byte) _ μ.inner μ'.inner && @BEq.beq (List Byte) _ μ.outer μ'.outer && E.nBytesHashed e == 128 &&
        E.nBytesHashed e' == 128 && E.finalize e != E.finalize e')) = Except.ok true := by
  decide +kernel

set_option maxRecDepth 10000 in
/-- Keys that differ in a trailing zero byte, in engines reached by different calls. -/
example : (Alg.hmac .sha1).Ok .debug64 ∧ stride .sha1 = some 64 ∧ 64 ∣ Alg.sha1.base ∧
    (do
      let E := Hmac.engine .debug64 (Sha1.engine .debug64)
      let i ← Hmac.new .debug64 (Sha1.engine .debug64) [1]
      let i' ← Hmac.new .debug64 (Sha1.engine .debug64) [1, 0]
      let e ← E.input i (List.replicate 64 5)
      let e' ← E.input i' (List.replicate 64 5)
      let μ ← E.midstate e
      let μ' ← E.midstate e'
      pure (E.nBytesHashed e == 128 && E.nBytesHashed e' == 128 &&
        @BEq.beq (List Byte) _ μ.inner μ'.inner && @BEq.beq (List Byte) _ μ.outer μ'.outer)) =
      Except.ok true :=
  ⟨⟨trivial, by decide⟩, rfl, ⟨0, rfl⟩, by decide +kernel⟩

end Chf.Props
