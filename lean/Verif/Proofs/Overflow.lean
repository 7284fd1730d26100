import Verif.Proofs.Programs

/-!
# Lemmas: overflow checks only add panics
-/

namespace Chf
open Spec

/-- `c'` is the build `c` (or one with the same `usize`) without overflow checks. -/
structure Unchecks (c c' : Cfg) : Prop where
  bits : c.usizeBits = c'.usizeBits
  off : c'.overflowChecks = false

/-- The logs of two builds, of which the second has no overflow checks. -/
structure LogLe {M M' : Type} (V : M → MidVal) (V' : M' → MidVal) (S : LogSpec M) (S' : LogSpec M') where
  St : S.Start → S'.Start → Prop
  fresh : St S.fresh.1 S'.fresh.1
  freshLog : S.fresh.2 = S'.fresh.2
  accepts : ∀ s' n, S'.accepts s' n = true
  count : ∀ {s s'} n, St s s' → S.count s n = S'.count s' n
  digest : ∀ {s s'} m, St s s' → (S.digest s m = .error .overflow ∧ ∃ d, S'.digest s' m = .ok d) ∨
    ∃ d, S.digest s m = .ok d ∧ S'.digest s' m = .ok d
  mid : ∀ {s s'} m, St s s' → V (S.mid s m) = V' (S'.mid s' m)
  resume : ∀ {μ μ'} n, V μ = V' μ' →
    (∃ f, S.resume μ n = .error f ∧ S'.resume μ' n = .error f) ∨
    ∃ s s', S.resume μ n = .ok s ∧ S'.resume μ' n = .ok s' ∧ St s s'

def LogLe.md {H : Type} (P : Md H) {c c' : Cfg} (h : Unchecks c c') (r : List Byte → Nat → Res H) :
    LogLe MidVal.bytes MidVal.bytes (P.log c r) (P.log c' r) where
  St := fun s s' : H × Nat => s = s'
  fresh := rfl
  freshLog := rfl
  accepts _ _ := by simp only [Md.log, h.off]; rfl
  count _ e := by cases e; simp only [Md.log, h.bits]
  digest {s s'} m e := by
    cases e
    simp only [Md.log, h.bits, h.off]
    split
    · exact .inl ⟨rfl, _, by rw [if_neg (by simp)]⟩
    · exact .inr ⟨_, rfl, by rw [if_neg (by simp)]⟩
  mid _ e := by cases e; rfl
  resume {μ μ'} n e := by
    cases (show μ = μ' by injection e)
    show (∃ f, (P.log c r).resume μ n = .error f ∧ (P.log c r).resume μ n = .error f) ∨
      ∃ s s', (P.log c r).resume μ n = .ok s ∧ (P.log c r).resume μ n = .ok s' ∧ s = s'
    cases hr : (P.log c r).resume μ n with
    | error f => exact .inl ⟨f, rfl, rfl⟩
    | ok s => exact .inr ⟨s, s, rfl, rfl, rfl⟩

def LogLe.hmac {M M' N N' : Type} {V : M → MidVal} {V' : M' → MidVal} {S : LogSpec M} {S' : LogSpec M'}
    (R : LogLe V V' S S') {B B' : Nat} (hB : B = B') (mk : M → M → N) (mk' : M' → M' → N') (inner outer : N → M)
    (inner' outer' : N' → M') (h1 : ∀ i o, inner (mk i o) = i) (h2 : ∀ i o, outer (mk i o) = o)
    (h1' : ∀ i o, inner' (mk' i o) = i) (h2' : ∀ i o, outer' (mk' i o) = o) :
    LogLe (fun μ => .pair (V (inner μ)) (V (outer μ))) (fun μ => .pair (V' (inner' μ)) (V' (outer' μ)))
      (hmacLog S B mk inner outer) (hmacLog S' B' mk' inner' outer') where
  St s s' := R.St s.inner s'.inner ∧ s.innerLog = s'.innerLog ∧ R.St s.outer s'.outer ∧
    s.outerLog = s'.outerLog
  fresh := ⟨R.fresh, by simp [hmacLog, HmacStart.ofKey, R.freshLog, hB], R.fresh,
    by simp [hmacLog, HmacStart.ofKey, R.freshLog, hB]⟩
  freshLog := rfl
  accepts s n := R.accepts _ _
  count {s s'} n h := by simp only [hmacLog, h.2.1, R.count _ h.1]
  digest {s s'} m h := by
    simp only [hmacLog, h.2.1, h.2.2.2, R.accepts, if_true]
    rcases R.digest (s'.innerLog ++ m) h.1 with ⟨e1, d, e2⟩ | ⟨d, e1, e2⟩
    · left
      rw [e1, e2]
      refine ⟨rfl, ?_⟩
      rcases R.digest (s'.outerLog ++ d) h.2.2.1 with ⟨-, d, g⟩ | ⟨d, -, g⟩ <;> exact ⟨d, g⟩
    · rw [e1, e2]
      simp only [bind, Except.bind]
      split
      · exact R.digest (s'.outerLog ++ d) h.2.2.1
      · left
        refine ⟨rfl, ?_⟩
        rcases R.digest (s'.outerLog ++ d) h.2.2.1 with ⟨-, d, g⟩ | ⟨d, -, g⟩ <;> exact ⟨d, g⟩
  mid {s s'} m h := by simp only [hmacLog, h1, h2, h1', h2', h.2.1, h.2.2.2, R.mid _ h.1, R.mid _ h.2.2.1]
  resume {μ μ'} n h := by
    injection h with hi ho
    simp only [hmacLog]
    rcases R.resume n hi with ⟨f, e1, e2⟩ | ⟨s, s', e1, e2, e3⟩
    · exact .inl ⟨f, by rw [e1]; rfl, by rw [e2]; rfl⟩
    · rcases R.resume n ho with ⟨f, g1, g2⟩ | ⟨t, t', g1, g2, g3⟩
      · exact .inl ⟨f, by rw [e1, g1]; rfl, by rw [e2, g2]; rfl⟩
      · exact .inr ⟨⟨s, [], t, []⟩, ⟨s', [], t', []⟩, by rw [e1, g1]; rfl, by rw [e2, g2]; rfl,
          e3, rfl, g3, rfl⟩

/-- The logs of an engine in two builds. -/
def Alg.logLe {c c' : Cfg} (h : Unchecks c c') : (a : Alg) →
    LogLe (a.showMid c) (a.showMid c') (a.log c) (a.log c')
  | .sha1 => LogLe.md md1 h _
  | .sha256 => LogLe.md md256 h _
  | .sha384 => LogLe.md md384 h _
  | .sha512 => LogLe.md md512 h _
  | .sha512_256 => LogLe.md md512_256 h _
  | .ripemd160 => LogLe.md mdRmd h _
  | .siphash24 =>
    { St := Eq
      fresh := rfl
      freshLog := rfl
      accepts := fun _ _ => by simp only [log, logSip, h.off]; rfl
      count := fun n e => by simp only [log, logSip, h.bits]
      digest := fun m e => by cases e; exact .inr ⟨_, rfl, rfl⟩
      mid := fun m e => by cases e; rfl
      resume := fun {μ μ'} n e => by
        cases (show μ = μ' by injection e)
        exact .inr ⟨_, _, rfl, rfl, rfl⟩ }
  | .sha256t mid len data =>
    let R := LogLe.md md256 h fun μ _ => .ok (parse8 μ)
    { St := R.St
      fresh := rfl
      freshLog := rfl
      accepts := R.accepts
      count := R.count
      digest := R.digest
      mid := R.mid
      resume := R.resume }
  | .hmac a =>
    (a.logLe h).hmac (by rw [blockSize_eq, blockSize_eq])
      (N := Hmac.Midstate (a.engine c)) (N' := Hmac.Midstate (a.engine c'))
      (fun i o => { inner := i, outer := o }) (fun i o => { inner := i, outer := o })
      (·.inner) (·.outer) (·.inner) (·.outer) (fun _ _ => rfl) (fun _ _ => rfl) (fun _ _ => rfl)
      (fun _ _ => rfl)

/-- Related log values. -/
inductive SlotLe {c c' : Cfg} (h : Unchecks c c') : Option ((a : Alg) × (logs c).State a) →
    Option ((a : Alg) × (logs c').State a) → Prop
  | gone : SlotLe h none none
  | live (a : Alg) (s : (a.log c).Start) (s' : (a.log c').Start) (m : List Byte)
      (R : (a.logLe h).St s s') : SlotLe h (some ⟨a, (s, m)⟩) (some ⟨a, (s', m)⟩)

/-- Related pools. -/
structure PoolLe {c c' : Cfg} (h : Unchecks c c') (p : (logs c).Pool) (q : (logs c').Pool) : Prop where
  len : p.length = q.length
  slot : ∀ i, SlotLe h ((logs c).slot p i) ((logs c').slot q i)

namespace PoolLe
variable {c c' : Cfg} {u : Unchecks c c'} {p : (logs c).Pool} {q : (logs c').Pool}

theorem nil : PoolLe u [] [] := ⟨rfl, fun _ => .gone⟩

theorem push (h : PoolLe u p q) {x y} (hx : SlotLe u x y) : PoolLe u (p ++ [x]) (q ++ [y]) := by
  refine ⟨by simp [h.len], fun i => ?_⟩
  have := h.slot i
  simp only [Impl.slot] at *
  rcases Nat.lt_trichotomy i p.length with hi | hi | hi
  · rw [List.getElem?_append_left hi, List.getElem?_append_left (by rw [← h.len]; exact hi)]
    exact this
  · subst hi
    rw [List.getElem?_concat_length, h.len, List.getElem?_concat_length]
    exact hx
  · rw [List.getElem?_eq_none (by simp; omega), List.getElem?_eq_none (by simp [← h.len]; omega)]
    exact .gone

theorem set (h : PoolLe u p q) (i : Nat) {x y} (hx : SlotLe u x y) :
    PoolLe u (p.set i x) (q.set i y) := by
  refine ⟨by simp [h.len], fun j => ?_⟩
  have := h.slot j
  simp only [Impl.slot, List.getElem?_set, h.len] at *
  split
  · split
    · exact hx
    · exact .gone
  · exact this

end PoolLe

/-- Hashing a key: it overflows in the first build, or the results agree. -/
theorem logHash_le {c c' : Cfg} (h : Unchecks c c') (a : Alg) (m : List Byte) :
    (logHash c a m = .error .overflow ∧ ∃ d, logHash c' a m = .ok d) ∨
    ∃ d, logHash c a m = .ok d ∧ logHash c' a m = .ok d := by
  unfold logHash
  simp only [(a.logLe h).accepts, if_true, (a.logLe h).freshLog]
  split
  · exact (a.logLe h).digest _ (a.logLe h).fresh
  · left
    refine ⟨rfl, ?_⟩
    rcases (a.logLe h).digest ((a.log c').fresh.2 ++ m) (a.logLe h).fresh with ⟨-, g⟩ | ⟨d, -, g⟩
    · exact g
    · exact ⟨d, g⟩

theorem shortKey_le {c c' : Cfg} (h : Unchecks c c') (a : Alg) (key : List Byte) :
    (shortKey c a key = .error .overflow ∧ ∃ d, shortKey c' a key = .ok d) ∨
    ∃ d, shortKey c a key = .ok d ∧ shortKey c' a key = .ok d := by
  unfold shortKey
  split
  · exact logHash_le h a key
  · exact .inr ⟨_, rfl, rfl⟩

/-- Making an engine: it overflows in the first build, or the results agree. -/
theorem logMake_le {c c' : Cfg} (h : Unchecks c c') (a : Alg) (how : Make) (ht : how.Typed c) :
    (logMake c a how = none ∧ logMake c' a how = none) ∨
    (logMake c a how = some (.error .overflow) ∧ ∃ e, logMake c' a how = some (.ok e)) ∨
    ((∃ v n, how = .resume v n) ∧ ∃ f, logMake c a how = some (.error f) ∧ logMake c' a how = some (.error f)) ∨
    ∃ s s' m, logMake c a how = some (.ok (s, m)) ∧ logMake c' a how = some (.ok (s', m)) ∧
      (a.logLe h).St s s' := by
  have fresh : ∀ how, (how = .new ∨ how = .default) →
      ∃ s s' m, logMake c a how = some (.ok (s, m)) ∧ logMake c' a how = some (.ok (s', m)) ∧
      (a.logLe h).St s s' := by
    rintro _ (rfl | rfl) <;>
    exact ⟨(a.log c).fresh.1, (a.log c').fresh.1, (a.log c).fresh.2, by simp only [logMake],
      by simp only [logMake, (a.logLe h).freshLog], (a.logLe h).fresh⟩
  cases how with
  | new => exact .inr (.inr (.inr (fresh _ (.inl rfl))))
  | default => exact .inr (.inr (.inr (fresh _ (.inr rfl))))
  | sipKeys k0 k1 =>
    cases a with
    | siphash24 => exact .inr (.inr (.inr ⟨_, _, _, rfl, rfl, rfl⟩))
    | _ => exact .inl ⟨rfl, rfl⟩
  | hmacKey key =>
    cases a with
    | hmac a =>
      rcases shortKey_le h a key with ⟨e1, d, e2⟩ | ⟨d, e1, e2⟩
      · refine .inr (.inl ⟨?_, ?_⟩)
        · simp only [logMake, logHmacKey, e1]; rfl
        · simp only [logMake, logHmacKey, e2]; exact ⟨_, rfl⟩
      · let k := d ++ List.replicate (a.blockSize - d.length) 0
        refine .inr (.inr (.inr ⟨HmacStart.ofKey (a.log c).fresh k, HmacStart.ofKey (a.log c').fresh k, [],
          ?_, ?_, ?_⟩))
        · simp only [logMake, logHmacKey, e1]; rfl
        · simp only [logMake, logHmacKey, e2]; rfl
        · exact ⟨(a.logLe h).fresh, by simp only [HmacStart.ofKey, (a.logLe h).freshLog],
            (a.logLe h).fresh, by simp only [HmacStart.ofKey, (a.logLe h).freshLog]⟩
    | _ => exact .inl ⟨rfl, rfl⟩
  | resume v n =>
    have hlog : ∀ c, logMake c a (.resume v n) = (a.readMid c v).map fun μ => (do
        let s ← (a.log c).resume μ n
        pure (s, [])) := by intro c; cases a <;> rfl
    rw [hlog, hlog]
    rcases a.readMid_same h.bits v n ht with ⟨e1, e2⟩ | ⟨μ, μ', e1, e2, e3, -⟩
    · exact .inl ⟨by rw [e1]; rfl, by rw [e2]; rfl⟩
    · rw [e1, e2]
      simp only [Option.map_some]
      rcases (a.logLe h).resume n e3 with ⟨f, g1, g2⟩ | ⟨s, s', g1, g2, g3⟩
      · exact .inr (.inr (.inl ⟨⟨_, _, rfl⟩, f, by rw [g1]; rfl, by rw [g2]; rfl⟩))
      · exact .inr (.inr (.inr ⟨s, s', [], by rw [g1]; rfl, by rw [g2]; rfl, g3⟩))

/-- One call: it overflows in the first build, or the builds answer alike. -/
theorem step_le {c c' : Cfg} (u : Unchecks c c') {p : (logs c).Pool} {q : (logs c').Pool}
    (h : PoolLe u p q) (x : Call) (hx : x.Typed c) (hp : ((logs c).step p x).2 ≠ .panic .overflow) :
    ((logs c).step p x).2 = ((logs c').step q x).2 ∧
      PoolLe u ((logs c).step p x).1 ((logs c').step q x).1 := by
  cases x with
  | make a how =>
    simp only [Impl.step] at hp ⊢
    rcases logMake_le u a how hx.2 with ⟨e1, e2⟩ | ⟨e1, e, e2⟩ | ⟨-, f, e1, e2⟩ | ⟨s, s', m, e1, e2, R⟩
    · simp only [show (logs c).make a how = _ from e1, show (logs c').make a how = _ from e2]
      exact ⟨trivial, h⟩
    · simp only [show (logs c).make a how = _ from e1] at hp
      exact absurd rfl hp
    · simp only [show (logs c).make a how = _ from e1, show (logs c').make a how = _ from e2]
      exact ⟨trivial, h⟩
    · simp only [show (logs c).make a how = _ from e1, show (logs c').make a how = _ from e2]
      exact ⟨trivial, h.push (.live a s s' m R)⟩
  | clone i =>
    have := h.slot i
    simp only [Impl.step]
    generalize (logs c).slot p i = x, (logs c').slot q i = y at this ⊢
    cases this with
    | gone => exact ⟨rfl, h⟩
    | live a s s' m R => exact ⟨rfl, h.push (.live a s s' m R)⟩
  | input i d =>
    have := h.slot i
    simp only [Impl.step] at hp ⊢
    generalize (logs c).slot p i = x, (logs c').slot q i = y at this hp ⊢
    cases this with
    | gone => exact ⟨rfl, h⟩
    | live a s s' m R =>
      have e2 : (logs c').input a (s', m) d = .ok (s', m ++ d) := by
        simp only [logs, (a.logLe u).accepts, if_true]
      cases hacc : (a.log c).accepts s (m.length + d.length) with
      | true =>
        simp only [e2, show (logs c).input a (s, m) d = .ok (s, m ++ d) by
          simp only [logs, hacc, if_true]]
        exact ⟨trivial, h.set i (.live a _ _ _ R)⟩
      | false =>
        simp only [show (logs c).input a (s, m) d = .error .overflow by simp [logs, hacc]] at hp
        exact absurd rfl hp
  | count i =>
    have := h.slot i
    simp only [Impl.step]
    generalize (logs c).slot p i = x, (logs c').slot q i = y at this ⊢
    cases this with
    | gone => exact ⟨rfl, h⟩
    | live a s s' m R => exact ⟨congrArg Answer.count ((a.logLe u).count _ R), h⟩
  | midstate i =>
    have := h.slot i
    simp only [Impl.step]
    generalize (logs c).slot p i = x, (logs c').slot q i = y at this ⊢
    cases this with
    | gone => exact ⟨rfl, h⟩
    | live a s s' m R => exact ⟨congrArg Answer.midstate ((a.logLe u).mid _ R), h⟩
  | finalize i =>
    have := h.slot i
    simp only [Impl.step] at hp ⊢
    generalize (logs c).slot p i = x, (logs c').slot q i = y at this hp ⊢
    cases this with
    | gone => exact ⟨rfl, h⟩
    | live a s s' m R =>
      rcases (a.logLe u).digest m R with ⟨e1, d, e2⟩ | ⟨d, e1, e2⟩
      · simp only [show (logs c).fin a (s, m) = .error .overflow from e1] at hp
        exact absurd rfl hp
      · simp only [show (logs c).fin a (s, m) = .ok d from e1, show (logs c').fin a (s', m) = .ok d from e2]
        exact ⟨trivial, h.set i .gone⟩

theorem answers_le {c c' : Cfg} (u : Unchecks c c') (xs : List Call) : ∀ {p : (logs c).Pool}
    {q : (logs c').Pool}, PoolLe u p q → (∀ x ∈ xs, x.Typed c) →
    .panic .overflow ∉ (logs c).answers p xs → (logs c).answers p xs = (logs c').answers q xs := by
  induction xs with
  | nil => intros; rfl
  | cons x xs ih =>
    intro p q h hx hp
    rw [Impl.answers, List.mem_cons, not_or] at hp
    have := step_le u h x (hx x (by simp)) (fun e => hp.1 e.symm)
    rw [Impl.answers, Impl.answers, this.1, ih this.2 (fun y hy => hx y (by simp [hy])) hp.2]

theorem Alg.St_refl {c : Cfg} (u : Unchecks c c) : (a : Alg) → (s : (a.log c).Start) →
    (a.logLe u).St s s
  | .sha1, _ | .sha256, _ | .sha384, _ | .sha512, _ | .sha512_256, _ | .ripemd160, _
  | .siphash24, _ => rfl
  | .sha256t _ _ _, _ => rfl
  | .hmac a, s => ⟨St_refl u a (HmacStart.inner s), rfl, St_refl u a (HmacStart.outer s), rfl⟩

/-- Without overflow checks only resuming panics. -/
theorem step_unchecked {c : Cfg} (u : Unchecks c c) {p : (logs c).Pool} {x : Call}
    (hx : x.Typed c) {f : Fault} (hp : ((logs c).step p x).2 = .panic f) :
    ∃ a v n, x = .make a (.resume v n) := by
  have acc : ∀ a s n, (Alg.log c a).accepts s n = true := fun a => (a.logLe u).accepts
  cases x with
  | make a how =>
    simp only [Impl.step] at hp
    rcases logMake_le u a how hx.2 with ⟨e1, -⟩ | ⟨e1, e, e2⟩ | ⟨⟨v, n, rfl⟩, -⟩ | ⟨s, s', m, e1, -, -⟩
    · simp only [show (logs c).make a how = _ from e1] at hp
      cases hp
    · rw [e1] at e2
      cases e2
    · exact ⟨a, v, n, rfl⟩
    · simp only [show (logs c).make a how = _ from e1] at hp
      cases hp
  | clone i =>
    simp only [Impl.step] at hp
    split at hp <;> cases hp
  | input i d =>
    simp only [Impl.step, logs, acc, if_true] at hp
    split at hp <;> cases hp
  | count i =>
    simp only [Impl.step] at hp
    split at hp <;> cases hp
  | midstate i =>
    simp only [Impl.step, logs] at hp
    split at hp <;> cases hp
  | finalize i =>
    simp only [Impl.step] at hp
    split at hp
    · cases hp
    · rename_i a e _
      rcases (a.logLe u).digest e.2 (Alg.St_refl u a e.1) with ⟨h1, d, h2⟩ | ⟨d, h1, -⟩
      · rw [h1] at h2; cases h2
      · simp only [show (logs c).fin a e = .ok d from h1] at hp
        cases hp

end Chf
