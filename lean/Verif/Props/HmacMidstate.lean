import Verif.Props.FromMidstate

/-!
# Property C21, continued: what HMAC engines taken through their midstate compute

`C21_refuted` is one run.  Here: every engine whose halves have counted the same number of bytes
resumes, and for every other engine the digests after the round trip are wrong, unless the block
function has a collision in the blocks named below.
-/

namespace Chf.Props
open Spec

/-- Both halves are reachable, and the outer one is at a block boundary. -/
def HalvesOk (c : Cfg) : (A : Alg) → (A.engine c).State → Prop
  | .hmac a, e => a = .sha1 ∨ a = .sha256 →
      Reachable c a (Hmac.Engine.iengine (E := a.engine c) e) ∧
      Reachable c a (Hmac.Engine.oengine (E := a.engine c) e) ∧
      64 ∣ (a.engine c).nBytesHashed (Hmac.Engine.oengine (E := a.engine c) e)
  | _, _ => True

theorem keyed_halves {c : Cfg} (hc : c.Valid) {a : Alg} {key : List Byte}
    {e : Hmac.Engine (a.engine c)} (h : Hmac.new c (a.engine c) key = .ok e) :
    HalvesOk c (.hmac a) e := by
  intro ha
  have ok : a.Ok c := by rcases ha with rfl | rfl <;> trivial
  have hbs : (a.engine c).blockSize = 64 := by rcases ha with rfl | rfl <;> rfl
  have hlt : 64 < c.usizeMod := by have := usizeMod_ge hc; omega
  obtain ⟨i, x, y, h1, hx, hy, h2, h3⟩ := hmac_new_parts h
  rw [hbs] at hx hy
  refine ⟨⟨_, .input x (.default h1) (by omega) h2⟩, ⟨_, .input y (.default h1) (by omega) h3⟩, ?_⟩
  obtain ⟨i', h1', R⟩ := (a.lawful hc ok).default_rel
  rw [h1] at h1'
  cases h1'
  have hb : a.base = 0 := by rcases ha with rfl | rfl <;> rfl
  obtain ⟨e2, h4, R2⟩ := (a.lawful hc ok).input_ok y (a.log_slice (by omega)) R
    (a.fresh_accepts ok _ (by omega))
  rw [h3] at h4
  cases h4
  rw [(a.lawful hc ok).count R2]
  refine ⟨1, ?_⟩
  rcases ha with rfl | rfl
  · show (0 + ([] ++ y).length) % c.usizeMod = 64
    rw [List.nil_append, hy, Nat.zero_add, Nat.mod_eq_of_lt hlt]
  · show (0 + ([] ++ y).length) % c.usizeMod = 64
    rw [List.nil_append, hy, Nat.zero_add, Nat.mod_eq_of_lt hlt]

theorem history_halves {c : Cfg} (hc : c.Valid) {A : Alg} {k : Nat} {e : (A.engine c).State}
    (h : History c A k e) : HalvesOk c A e := by
  induction h with
  | @new A e h =>
    cases A with
    | hmac a => exact keyed_halves hc h
    | _ => trivial
  | @default A e h =>
    cases A with
    | hmac a => exact keyed_halves hc h
    | _ => trivial
  | sipKeys k0 k1 => trivial
  | hmacKey key _ h => exact keyed_halves hc h
  | @resume A μ n e ht h =>
    cases A with
    | hmac a =>
      intro ha
      have hn : n % 64 = 0 := Classical.byContradiction fun hn => by
        rw [C22_unaligned_panics hc (.hmac a) (by rcases ha with rfl | rfl <;> rfl) ht
          (by rcases ha with rfl | rfl <;> exact hn)] at h
        cases h
      obtain ⟨i, hi, h⟩ := bind_ok (show ((a.engine c).fromMidstate _ n >>= fun i => do
        let o ← (a.engine c).fromMidstate _ n
        pure ({ iengine := i, oengine := o } : Hmac.Engine (a.engine c))) = .ok e from h)
      obtain ⟨o, ho, h⟩ := bind_ok h
      cases h
      refine ⟨⟨_, .resume ht.1 hi⟩, ⟨_, .resume ht.2 ho⟩, ?_⟩
      obtain ⟨o', ho', hcount, _⟩ := C65_read_back hc a (by rcases ha with rfl | rfl <;> rfl) ht.2
        (by rcases ha with rfl | rfl <;> exact hn)
      rw [ho] at ho'
      cases ho'
      show 64 ∣ (a.engine c).nBytesHashed o
      rw [hcount]
      exact Nat.dvd_of_mod_eq_zero hn
    | _ => trivial
  | @input A k e e' d hh hd h ih =>
    cases A with
    | hmac a =>
      intro ha
      obtain ⟨j, hj, h⟩ := bind_ok (show ((a.engine c).input (Hmac.Engine.iengine (E := a.engine c) e) d >>=
        fun j => (pure (⟨j, Hmac.Engine.oengine (E := a.engine c) e⟩ : Hmac.Engine (a.engine c)) :
          Res (Hmac.Engine (a.engine c)))) = .ok e' from h)
      cases h
      obtain ⟨⟨k, h1⟩, h2, h3⟩ := ih ha
      exact ⟨⟨_, .input d h1 hd hj⟩, h2, h3⟩
    | _ => trivial

/-- The halves of a reachable HMAC engine over SHA-1 or SHA-256 are reachable, and the outer one is at
a block boundary. -/
theorem hmac_halves {c : Cfg} (hc : c.Valid) {a : Alg} (ha : a = .sha1 ∨ a = .sha256)
    {e : Hmac.Engine (a.engine c)} (hr : Reachable c (.hmac a) e) :
    Reachable c a e.iengine ∧ Reachable c a e.oengine ∧ 64 ∣ (a.engine c).nBytesHashed e.oengine := by
  obtain ⟨k, h⟩ := hr
  exact history_halves hc h ha

/-- C21: HMAC engines over SHA-1 and SHA-256 at a block boundary whose halves have counted the same
number of bytes resume. -/
theorem C21_same_counts_partial {c : Cfg} (hc : c.Valid) (a : Alg) (ha : a = .sha1 ∨ a = .sha256)
    {e : Hmac.Engine (a.engine c)} (hr : Reachable c (.hmac a) e)
    (hn : (a.engine c).nBytesHashed e.iengine = (a.engine c).nBytesHashed e.oengine) :
    Resumes c (.hmac a) e := by
  obtain ⟨ri, ro, ho⟩ := hmac_halves hc ha hr
  refine C21_resume_partial hc a (by rcases ha with rfl | rfl <;> trivial) ri ?_ ?_ hn
  · rcases ha with rfl | rfl
    · exact C17_sha1_resume hc ri (hn ▸ ho)
    · exact C16_sha256_resume hc ri (hn ▸ ho)
  · rcases ha with rfl | rfl
    · exact C17_sha1_resume hc ro ho
    · exact C16_sha256_resume hc ro ho

/-- A digest over one block. -/
theorem md_outer {H : Type} (P : Md H) {c : Cfg} {r : List Byte → Nat → Res H} (hB : P.B = 64)
    (hL : P.L = 8) (henc : P.enc = beBytes) (hw : ∀ h, (P.words h).length = P.out)
    (hc : c.Valid) {h : H} {n : Nat} (hn : 64 ∣ n) (hn' : n < 2 ^ c.usizeBits) {ih d : List Byte}
    (hi : ih.length ≤ 32) (hd : (P.log c r).digest (h, n) ih = .ok d) :
    d = P.words (P.compress h (outerBlock ih n)) := by
  have hd : (if c.overflowChecks = true ∧
        ¬ (n + P.paddedLen ih.length < 2 ^ c.usizeBits ∧ 8 * (n + ih.length) < 2 ^ 64)
      then Except.error Fault.overflow
      else Except.ok (P.digestWith h ih (8 * ((n + ih.length) % 2 ^ c.usizeBits) % 2 ^ 64))) =
        Except.ok d := hd
  split at hd
  · cases hd
  · have hmod : (n + ih.length) % 2 ^ c.usizeBits = n + ih.length := by
      apply Nat.mod_eq_of_lt
      have h64 : 64 ∣ 2 ^ c.usizeBits := (pow_dvd hc).1
      omega
    rw [hmod] at hd
    have hz : padZeros P.B P.L ih.length = 55 - ih.length := by
      rw [hB, hL, padZeros]
      omega
    have hlen : (outerBlock ih n).length = 64 := by
      simp only [outerBlock, List.length_append, List.length_cons, List.length_nil,
        List.length_replicate, length_beBytes]
      omega
    cases hd
    unfold Md.digestWith
    rw [hz, hL, henc, hB]
    show (P.words (chain 64 P.compress h (outerBlock ih n))).take P.out = _
    have hb : blocks 64 (outerBlock ih n) = [outerBlock ih n] := by
      have := blocks_cons (by decide : 0 < 64) hlen []
      rw [List.append_nil, blocks_nil] at this
      exact this
    rw [chain, hb, List.take_of_length_le (by rw [hw]; exact Nat.le_refl _)]
    rfl

/-- What is computed from the two halves after the round trip, for engines of which the outer half
behaves as `G` says. -/
theorem hmac_parts {c : Cfg} (hc : c.Valid) {a : Alg} (ok : a.Ok c) {e : Hmac.Engine (a.engine c)}
    {ν : (a.engine c).Midstate} {G : List Byte → Nat → List Byte} (hri : Reachable c a e.iengine)
    (hi : Resumes c a e.iengine)
    (hν : (a.engine c).midstate e.oengine = .ok ν)
    (h1 : ∀ ih d, ih.length = (a.log c).outLen →
      ((a.engine c).inputs e.oengine [ih] >>= (a.engine c).finalize) = .ok d →
      d = G ih ((a.engine c).nBytesHashed e.oengine))
    (h2 : ∃ o', (a.engine c).fromMidstate ν ((a.engine c).nBytesHashed e.iengine) = .ok o' ∧
      ∀ ih d, ih.length = (a.log c).outLen →
        ((a.engine c).inputs o' [ih] >>= (a.engine c).finalize) = .ok d →
        d = G ih ((a.engine c).nBytesHashed e.iengine)) :
    ∃ μ e', (Hmac.engine c (a.engine c)).midstate e = .ok μ ∧
      (Hmac.engine c (a.engine c)).fromMidstate μ ((Hmac.engine c (a.engine c)).nBytesHashed e) = .ok e' ∧
      ∀ ds f f' d d', (∀ x ∈ ds, x.length < c.usizeMod) →
        (Hmac.engine c (a.engine c)).inputs e ds = .ok f →
        (Hmac.engine c (a.engine c)).inputs e' ds = .ok f' →
        (Hmac.engine c (a.engine c)).finalize f = .ok d →
        (Hmac.engine c (a.engine c)).finalize f' = .ok d' →
        ∃ ih, (a.engine c).finalize (Hmac.Engine.iengine f) = .ok ih ∧ ih.length = (a.log c).outLen ∧
          d = G ih ((a.engine c).nBytesHashed e.oengine) ∧
          d' = G ih ((a.engine c).nBytesHashed e.iengine) := by
  obtain ⟨μ, i, m1, m2, m3⟩ := hi
  obtain ⟨o, o1, o2⟩ := h2
  refine ⟨({ inner := μ, outer := ν } : Hmac.Midstate (a.engine c)),
    ({ iengine := i, oengine := o } : Hmac.Engine (a.engine c)), ?_, ?_, ?_⟩
  · show (do
      let i ← (a.engine c).midstate e.iengine
      let o ← (a.engine c).midstate e.oengine
      pure { inner := i, outer := o } : Res (Hmac.Midstate (a.engine c))) = _
    rw [m1, hν]
    rfl
  · show (do
      let i ← (a.engine c).fromMidstate μ ((a.engine c).nBytesHashed e.iengine)
      let o ← (a.engine c).fromMidstate ν ((a.engine c).nBytesHashed e.iengine)
      pure { iengine := i, oengine := o } : Res (Hmac.Engine (a.engine c))) = _
    rw [m2, o1]
    rfl
  · intro ds f f' d d' hs hf hf' hd hd'
    rw [hmac_inputs] at hf hf'
    obtain ⟨x, hx, hf⟩ := bind_ok hf
    obtain ⟨x', hx', hf'⟩ := bind_ok hf'
    cases hf
    cases hf'
    have hobs := m3 ds hs
    unfold HashEngine.observe at hobs
    rw [hx, show (a.engine c).inputs i ds = .ok x' from hx'] at hobs
    simp only [bind, Except.bind, pure, Except.pure, Except.ok.injEq, Prod.mk.injEq] at hobs
    have hfin : ∀ {p q : (a.engine c).State} {d}, (Hmac.engine c (a.engine c)).finalize
        (⟨p, q⟩ : Hmac.Engine (a.engine c)) = .ok d → ∃ ih, (a.engine c).finalize p = .ok ih ∧
          ((a.engine c).inputs q [ih] >>= (a.engine c).finalize) = .ok d := by
      intro p q d h
      obtain ⟨ih, h3, h⟩ := bind_ok (show ((a.engine c).finalize p >>= fun ih => do
        let o ← (a.engine c).input q ih
        (a.engine c).finalize o) = .ok d from h)
      obtain ⟨o, h4, h⟩ := bind_ok h
      refine ⟨ih, h3, ?_⟩
      simp only [HashEngine.inputs, bind, Except.bind, h4]
      exact h
    obtain ⟨ih, f1, f2⟩ := hfin hd
    obtain ⟨ih', f3, f4⟩ := hfin hd'
    have : ih' = ih := Except.ok.inj (f3.symm.trans (hobs.2.2.symm.trans f1))
    subst this
    have hlen : ih'.length = (a.log c).outLen := by
      obtain ⟨k, hk⟩ := hri
      obtain ⟨s, m, R, _⟩ := (hk.inputs ds hs hx).rel hc ok
      rw [(a.lawful hc ok).digest R] at f1
      exact (a.lawful hc ok).digest_len f1
    exact ⟨ih', f1, hlen, h1 _ _ hlen f2, o2 _ _ hlen f4⟩

/-- C21 for SHA-256: an HMAC engine at a block boundary and the same engine taken through its midstate,
whatever is input into both: the digest of the first is the chaining value of the outer half after a
block that ends in the outer half's length, that of the second after a block that ends in the inner
half's. -/
theorem C21_digests_sha256 {c : Cfg} (hc : c.Valid) {e : Hmac.Engine (Sha256.engine c)}
    (hr : Reachable c (.hmac .sha256) e) (hn : 64 ∣ (Sha256.engine c).nBytesHashed e.iengine) :
    let E := Hmac.engine c (Sha256.engine c)
    ∃ μ e' h, E.midstate e = .ok μ ∧ E.fromMidstate μ (E.nBytesHashed e) = .ok e' ∧
      (Sha256.engine c).midstate e.oengine = .ok (serialize8 h) ∧
      ∀ ds f f' d d', (∀ x ∈ ds, x.length < c.usizeMod) → E.inputs e ds = .ok f →
        E.inputs e' ds = .ok f' → E.finalize f = .ok d → E.finalize f' = .ok d' →
        ∃ ih, (Sha256.engine c).finalize (Hmac.Engine.iengine f) = .ok ih ∧ ih.length = 32 ∧
          d = serialize8 (compress256 h (outerBlock ih ((Sha256.engine c).nBytesHashed e.oengine))) ∧
          d' = serialize8 (compress256 h (outerBlock ih ((Sha256.engine c).nBytesHashed e.iengine))) := by
  intro E
  obtain ⟨ri, ro, ho⟩ := hmac_halves hc (a := .sha256) (.inr rfl) hr
  have lt : ∀ {x}, Reachable c .sha256 x → (Sha256.engine c).nBytesHashed x < 2 ^ c.usizeBits := by
    rintro x ⟨k, hk⟩
    obtain ⟨s, m, R, _⟩ := hk.rel hc (a := .sha256) trivial
    rw [show (Sha256.engine c).nBytesHashed x = _ from (Alg.sha256.lawful hc trivial).count R]
    exact Nat.mod_lt _ (Nat.two_pow_pos _)
  obtain ⟨ν, o, m1, m2, m3⟩ := C16_sha256_resume hc ro ho
  have hν : List.length (α := Byte) ν = 32 := by
    obtain ⟨k, hk⟩ := ro
    obtain ⟨s, m, R, _⟩ := hk.rel hc (a := .sha256) trivial
    rw [(Alg.sha256.lawful hc trivial).mid R] at m1
    cases m1
    exact length_serialize8_32 _
  have G : ∀ {n}, 64 ∣ n → n < 2 ^ c.usizeBits → ∃ o, (Sha256.engine c).fromMidstate ν n = .ok o ∧
      ∀ ih d, ih.length = (Alg.sha256.log c).outLen →
        ((Sha256.engine c).inputs o [ih] >>= (Sha256.engine c).finalize) = .ok d →
        d = serialize8 (compress256 (parse8 ν) (outerBlock ih n)) := by
    intro n h1 h2
    obtain ⟨o, g1, R⟩ := (Alg.sha256.lawful hc trivial).resume_ok (Alg.sha256.typed_log ⟨hν, h2⟩)
      (C22_aligned_succeeds.md (Nat.mod_eq_zero_of_dvd h1))
    refine ⟨o, g1, fun ih d hl hd => ?_⟩
    rw [show ((Sha256.engine c).inputs o [ih] >>= (Sha256.engine c).finalize) = _ from
      (Alg.sha256.lawful hc trivial).inputs_finalize [ih] (fun _ _ => trivial) R] at hd
    split at hd
    · rw [List.nil_append, List.flatten_singleton] at hd
      exact md_outer md256 (c := c) (r := fun μ _ => .ok (parse8 μ)) rfl rfl rfl
        length_serialize8_32 hc h1 h2 (Nat.le_of_eq hl) hd
    · cases hd
  obtain ⟨o1, g1, g2⟩ := G ho (lt ro)
  have : o1 = o := Except.ok.inj (g1.symm.trans m2)
  subst this
  obtain ⟨μ, e', p1, p2, p3⟩ := hmac_parts hc (a := .sha256) trivial
    (G := fun ih n => serialize8 (compress256 (parse8 ν) (outerBlock ih n)))
    ri (C16_sha256_resume hc ri hn) m1 (by
      intro ih d hl hd
      refine g2 ih d hl ?_
      have := m3 [ih] (by
        intro x hx
        rw [List.mem_singleton.mp hx]
        have : ih.length = 32 := hl
        have := usizeMod_ge hc
        omega)
      unfold HashEngine.observe at this
      obtain ⟨x, hx, hd⟩ := bind_ok hd
      rw [hx] at this
      cases hy : (Alg.sha256.engine c).inputs o1 [ih] with
      | error f => rw [hy] at this; cases this
      | ok y =>
        rw [hy] at this
        simp only [bind, Except.bind, pure, Except.pure, Except.ok.injEq, Prod.mk.injEq] at this
        show ((Alg.sha256.engine c).inputs o1 [ih] >>= (Alg.sha256.engine c).finalize) = _
        rw [hy]
        exact this.2.2.symm.trans hd) (G hn (lt ri))
  exact ⟨μ, e', parse8 ν, p1, p2, m1.trans (congrArg _ (serialize8_parse8 _ hν).symm), p3⟩

/-- C21 for SHA-1. -/
theorem C21_digests_sha1 {c : Cfg} (hc : c.Valid) {e : Hmac.Engine (Sha1.engine c)}
    (hr : Reachable c (.hmac .sha1) e) (hn : 64 ∣ (Sha1.engine c).nBytesHashed e.iengine) :
    let E := Hmac.engine c (Sha1.engine c)
    ∃ μ e' h, E.midstate e = .ok μ ∧ E.fromMidstate μ (E.nBytesHashed e) = .ok e' ∧
      (Sha1.engine c).midstate e.oengine = .ok (serialize5 h) ∧
      ∀ ds f f' d d', (∀ x ∈ ds, x.length < c.usizeMod) → E.inputs e ds = .ok f →
        E.inputs e' ds = .ok f' → E.finalize f = .ok d → E.finalize f' = .ok d' →
        ∃ ih, (Sha1.engine c).finalize (Hmac.Engine.iengine f) = .ok ih ∧ ih.length = 20 ∧
          d = serialize5 (compress1 h (outerBlock ih ((Sha1.engine c).nBytesHashed e.oengine))) ∧
          d' = serialize5 (compress1 h (outerBlock ih ((Sha1.engine c).nBytesHashed e.iengine))) := by
  intro E
  obtain ⟨ri, ro, ho⟩ := hmac_halves hc (a := .sha1) (.inl rfl) hr
  have lt : ∀ {x}, Reachable c .sha1 x → (Sha1.engine c).nBytesHashed x < 2 ^ c.usizeBits := by
    rintro x ⟨k, hk⟩
    obtain ⟨s, m, R, _⟩ := hk.rel hc (a := .sha1) trivial
    rw [show (Sha1.engine c).nBytesHashed x = _ from (Alg.sha1.lawful hc trivial).count R]
    exact Nat.mod_lt _ (Nat.two_pow_pos _)
  obtain ⟨ν, o, m1, m2, m3⟩ := C17_sha1_resume hc ro ho
  have hν : List.length (α := Byte) ν = 20 := by
    obtain ⟨k, hk⟩ := ro
    obtain ⟨s, m, R, _⟩ := hk.rel hc (a := .sha1) trivial
    rw [(Alg.sha1.lawful hc trivial).mid R] at m1
    cases m1
    exact length_serialize5 _
  have G : ∀ {n}, 64 ∣ n → n < 2 ^ c.usizeBits → ∃ o, (Sha1.engine c).fromMidstate ν n = .ok o ∧
      ∀ ih d, ih.length = (Alg.sha1.log c).outLen →
        ((Sha1.engine c).inputs o [ih] >>= (Sha1.engine c).finalize) = .ok d →
        d = serialize5 (compress1 (parse5 ν) (outerBlock ih n)) := by
    intro n h1 h2
    obtain ⟨o, g1, R⟩ := (Alg.sha1.lawful hc trivial).resume_ok (Alg.sha1.typed_log ⟨hν, h2⟩)
      (C22_aligned_succeeds.md (Nat.mod_eq_zero_of_dvd h1))
    refine ⟨o, g1, fun ih d hl hd => ?_⟩
    rw [show ((Sha1.engine c).inputs o [ih] >>= (Sha1.engine c).finalize) = _ from
      (Alg.sha1.lawful hc trivial).inputs_finalize [ih] (fun _ _ => trivial) R] at hd
    split at hd
    · rw [List.nil_append, List.flatten_singleton] at hd
      exact md_outer md1 (c := c) (r := fun μ _ => .ok (parse5 μ)) rfl rfl rfl
        length_serialize5 hc h1 h2 (Nat.le_trans (Nat.le_of_eq hl) (show 20 ≤ 32 by decide)) hd
    · cases hd
  obtain ⟨o1, g1, g2⟩ := G ho (lt ro)
  have : o1 = o := Except.ok.inj (g1.symm.trans m2)
  subst this
  obtain ⟨μ, e', p1, p2, p3⟩ := hmac_parts hc (a := .sha1) trivial
    (G := fun ih n => serialize5 (compress1 (parse5 ν) (outerBlock ih n)))
    ri (C17_sha1_resume hc ri hn) m1 (by
      intro ih d hl hd
      refine g2 ih d hl ?_
      have := m3 [ih] (by
        intro x hx
        rw [List.mem_singleton.mp hx]
        have : ih.length = 20 := hl
        have := usizeMod_ge hc
        omega)
      unfold HashEngine.observe at this
      obtain ⟨x, hx, hd⟩ := bind_ok hd
      rw [hx] at this
      cases hy : (Alg.sha1.engine c).inputs o1 [ih] with
      | error f => rw [hy] at this; cases this
      | ok y =>
        rw [hy] at this
        simp only [bind, Except.bind, pure, Except.pure, Except.ok.injEq, Prod.mk.injEq] at this
        show ((Alg.sha1.engine c).inputs o1 [ih] >>= (Alg.sha1.engine c).finalize) = _
        rw [hy]
        exact this.2.2.symm.trans hd) (G hn (lt ri))
  exact ⟨μ, e', parse5 ν, p1, p2, m1.trans (congrArg _ (serialize5_parse5 _ hν).symm), p3⟩

/-- The blocks differ if the lengths do. -/
theorem outerBlock_inj {ih : List Byte} {n n' : Nat} (h : 8 * n % 2 ^ 64 ≠ 8 * n' % 2 ^ 64) :
    outerBlock ih n ≠ outerBlock ih n' := by
  intro he
  have := beBytes_inj (n := 8) (Nat.mod_lt _ (by decide)) (Nat.mod_lt _ (by decide))
    (List.append_cancel_left he)
  omega

/-- C21: an HMAC-SHA-256 engine at a block boundary whose halves have counted different numbers of bytes
(modulo 2^61) and the same engine taken through its midstate return different digests for every further
input, unless SHA-256's block function maps the two blocks the outer hash ends with to the same value. -/
theorem C21_differs_sha256 {c : Cfg} (hc : c.Valid) {e : Hmac.Engine (Sha256.engine c)}
    (hr : Reachable c (.hmac .sha256) e) (hn : 64 ∣ (Sha256.engine c).nBytesHashed e.iengine)
    (hne : 8 * (Sha256.engine c).nBytesHashed e.iengine % 2 ^ 64 ≠
      8 * (Sha256.engine c).nBytesHashed e.oengine % 2 ^ 64) :
    let E := Hmac.engine c (Sha256.engine c)
    ∃ μ e' h, E.midstate e = .ok μ ∧ E.fromMidstate μ (E.nBytesHashed e) = .ok e' ∧
      (Sha256.engine c).midstate e.oengine = .ok (serialize8 h) ∧
      ∀ ds f f' d, (∀ x ∈ ds, x.length < c.usizeMod) → E.inputs e ds = .ok f →
        E.inputs e' ds = .ok f' → E.finalize f = .ok d → E.finalize f' = .ok d →
        ∃ ih, (Sha256.engine c).finalize (Hmac.Engine.iengine f) = .ok ih ∧
          let b := outerBlock ih ((Sha256.engine c).nBytesHashed e.oengine)
          let b' := outerBlock ih ((Sha256.engine c).nBytesHashed e.iengine)
          b ≠ b' ∧ compress256 h b = compress256 h b' := by
  intro E
  obtain ⟨μ, e', h, h1, h2, h3, h4⟩ := C21_digests_sha256 hc hr hn
  refine ⟨μ, e', h, h1, h2, h3, fun ds f f' d hs hf hf' hd hd' => ?_⟩
  obtain ⟨ih, g1, _, g2, g3⟩ := h4 ds f f' d d hs hf hf' hd hd'
  exact ⟨ih, g1, fun hb => outerBlock_inj hne hb.symm, words256_inj (g2.symm.trans g3)⟩

/-- C21 for SHA-1, the same. -/
theorem C21_differs_sha1 {c : Cfg} (hc : c.Valid) {e : Hmac.Engine (Sha1.engine c)}
    (hr : Reachable c (.hmac .sha1) e) (hn : 64 ∣ (Sha1.engine c).nBytesHashed e.iengine)
    (hne : 8 * (Sha1.engine c).nBytesHashed e.iengine % 2 ^ 64 ≠
      8 * (Sha1.engine c).nBytesHashed e.oengine % 2 ^ 64) :
    let E := Hmac.engine c (Sha1.engine c)
    ∃ μ e' h, E.midstate e = .ok μ ∧ E.fromMidstate μ (E.nBytesHashed e) = .ok e' ∧
      (Sha1.engine c).midstate e.oengine = .ok (serialize5 h) ∧
      ∀ ds f f' d, (∀ x ∈ ds, x.length < c.usizeMod) → E.inputs e ds = .ok f →
        E.inputs e' ds = .ok f' → E.finalize f = .ok d → E.finalize f' = .ok d →
        ∃ ih, (Sha1.engine c).finalize (Hmac.Engine.iengine f) = .ok ih ∧
          let b := outerBlock ih ((Sha1.engine c).nBytesHashed e.oengine)
          let b' := outerBlock ih ((Sha1.engine c).nBytesHashed e.iengine)
          b ≠ b' ∧ compress1 h b = compress1 h b' := by
  intro E
  obtain ⟨μ, e', h, h1, h2, h3, h4⟩ := C21_digests_sha1 hc hr hn
  refine ⟨μ, e', h, h1, h2, h3, fun ds f f' d hs hf hf' hd hd' => ?_⟩
  obtain ⟨ih, g1, _, g2, g3⟩ := h4 ds f f' d d hs hf hf' hd hd'
  exact ⟨ih, g1, fun hb => outerBlock_inj hne hb.symm, words1_inj (g2.symm.trans g3)⟩

/-- A keyed engine after 64 bytes: inner count 128, outer count 64. -/
example : ∃ e : Hmac.Engine (Sha256.engine .debug64), Reachable .debug64 (.hmac .sha256) e ∧
    64 ∣ (Sha256.engine .debug64).nBytesHashed e.iengine ∧
    8 * (Sha256.engine .debug64).nBytesHashed e.iengine % 2 ^ 64 ≠
      8 * (Sha256.engine .debug64).nBytesHashed e.oengine % 2 ^ 64 := by
  obtain ⟨e0, h0, r0⟩ := bind_ok C21_wrong_digest_refuted
  obtain ⟨e, h1, r1⟩ := bind_ok r0
  have hr : Reachable .debug64 (.hmac .sha256) e :=
    ⟨_, .input _ (.hmacKey [] (by decide) h0) (by decide) h1⟩
  obtain ⟨ri, ro, ho⟩ := hmac_halves (by decide) (a := .sha256) (.inr rfl) hr
  have hv : (do
      let E := Hmac.engine .debug64 (Sha256.engine .debug64)
      let e ← Hmac.new .debug64 (Sha256.engine .debug64) []
      let e ← E.input e (List.replicate 64 0)
      pure ((Sha256.engine .debug64).nBytesHashed e.iengine,
        (Sha256.engine .debug64).nBytesHashed e.oengine)) = Except.ok (128, 64) := by
    decide +kernel
  rw [h0] at hv
  simp only [bind, Except.bind] at hv
  rw [show (Hmac.engine .debug64 (Sha256.engine .debug64)).input e0 (List.replicate 64 0) = .ok e from h1] at hv
  simp only [pure, Except.pure, Except.ok.injEq, Prod.mk.injEq] at hv
  refine ⟨e, hr, ?_⟩
  rw [hv.1, hv.2]
  decide

end Chf.Props
