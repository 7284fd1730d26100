import Verif.Proofs.Builds
import Verif.Proofs.Unwind

/-!
# Lemmas: builds that agree on `usize` and overflow checks answer every program alike
-/

namespace Chf
open Spec

/-- Related log values. -/
inductive SlotSame {c c' : Cfg} (h : SameArith c c') : Option ((a : Alg) × (logs c).State a) →
    Option ((a : Alg) × (logs c').State a) → Prop
  | gone : SlotSame h none none
  | live (a : Alg) (s : (a.log c).Start) (s' : (a.log c').Start) (m : List Byte)
      (R : (a.logRel h).St s s') : SlotSame h (some ⟨a, (s, m)⟩) (some ⟨a, (s', m)⟩)

/-- Related pools. -/
structure PoolSame {c c' : Cfg} (h : SameArith c c') (p : (logs c).Pool) (q : (logs c').Pool) : Prop where
  len : p.length = q.length
  slot : ∀ i, SlotSame h ((logs c).slot p i) ((logs c').slot q i)

namespace PoolSame
variable {c c' : Cfg} {u : SameArith c c'} {p : (logs c).Pool} {q : (logs c').Pool}

theorem nil : PoolSame u [] [] := ⟨rfl, fun _ => .gone⟩

theorem push (h : PoolSame u p q) {x y} (hx : SlotSame u x y) : PoolSame u (p ++ [x]) (q ++ [y]) := by
  refine ⟨by simp [h.len], fun i => ?_⟩
  have := h.slot i
  simp only [Impl.slot] at *
  rcases Nat.lt_trichotomy i p.length with hi | hi | hi
  · rw [List.getElem?_append_left hi, List.getElem?_append_left (by rw [← h.len]; exact hi)]
    exact this
  · subst hi
    rw [List.getElem?_concat_length, h.len, List.getElem?_concat_length]
    exact hx
  · rw [List.getElem?_eq_none (by simp; omega), List.getElem?_eq_none (by simp [← h.len]; omega)]
    exact .gone

theorem set (h : PoolSame u p q) (i : Nat) {x y} (hx : SlotSame u x y) :
    PoolSame u (p.set i x) (q.set i y) := by
  refine ⟨by simp [h.len], fun j => ?_⟩
  have := h.slot j
  simp only [Impl.slot, List.getElem?_set, h.len] at *
  split
  · split
    · exact hx
    · exact .gone
  · exact this

end PoolSame

theorem logHash_same {c c' : Cfg} (h : SameArith c c') (a : Alg) (m : List Byte) :
    logHash c a m = logHash c' a m := by
  unfold logHash
  dsimp only
  rw [(a.logRel h).freshLog, (a.logRel h).accepts _ (a.logRel h).fresh,
    (a.logRel h).digest _ (a.logRel h).fresh]

theorem shortKey_same {c c' : Cfg} (h : SameArith c c') (a : Alg) (key : List Byte) :
    shortKey c a key = shortKey c' a key := by
  unfold shortKey
  rw [logHash_same h]

/-- Making an engine in two builds. -/
theorem logMake_same {c c' : Cfg} (h : SameArith c c') (a : Alg) (how : Make) (ht : how.Typed c) :
    (logMake c a how = none ∧ logMake c' a how = none) ∨
    (∃ f, logMake c a how = some (.error f) ∧ logMake c' a how = some (.error f)) ∨
    ∃ s s' m, logMake c a how = some (.ok (s, m)) ∧ logMake c' a how = some (.ok (s', m)) ∧
      (a.logRel h).St s s' := by
  have fresh : ∀ how, (how = .new ∨ how = .default) →
      ∃ s s' m, logMake c a how = some (.ok (s, m)) ∧ logMake c' a how = some (.ok (s', m)) ∧
      (a.logRel h).St s s' := by
    rintro _ (rfl | rfl) <;>
    exact ⟨(a.log c).fresh.1, (a.log c').fresh.1, (a.log c).fresh.2, by simp only [logMake],
      by simp only [logMake, (a.logRel h).freshLog], (a.logRel h).fresh⟩
  cases how with
  | new => exact .inr (.inr (fresh _ (.inl rfl)))
  | default => exact .inr (.inr (fresh _ (.inr rfl)))
  | sipKeys k0 k1 =>
    cases a with
    | siphash24 => exact .inr (.inr ⟨_, _, _, rfl, rfl, rfl⟩)
    | _ => exact .inl ⟨rfl, rfl⟩
  | hmacKey key =>
    cases a with
    | hmac a =>
      cases e1 : shortKey c a key with
      | error f =>
        have e2 := e1
        rw [shortKey_same h] at e2
        exact .inr (.inl ⟨f, by simp only [logMake, logHmacKey, e1]; rfl,
          by simp only [logMake, logHmacKey, e2]; rfl⟩)
      | ok d =>
        have e2 := e1
        rw [shortKey_same h] at e2
        let k := d ++ List.replicate (a.blockSize - d.length) 0
        refine .inr (.inr ⟨HmacStart.ofKey (a.log c).fresh k, HmacStart.ofKey (a.log c').fresh k, [],
          ?_, ?_, ?_⟩)
        · simp only [logMake, logHmacKey, e1]; rfl
        · simp only [logMake, logHmacKey, e2]; rfl
        · exact ⟨(a.logRel h).fresh, by simp only [HmacStart.ofKey, (a.logRel h).freshLog],
            (a.logRel h).fresh, by simp only [HmacStart.ofKey, (a.logRel h).freshLog]⟩
    | _ => exact .inl ⟨rfl, rfl⟩
  | resume v n =>
    have hlog : ∀ c, logMake c a (.resume v n) = (a.readMid c v).map fun μ => (do
        let s ← (a.log c).resume μ n
        pure (s, [])) := by intro c; cases a <;> rfl
    rw [hlog, hlog]
    rcases a.readMid_same h.bits v n ht with ⟨e1, e2⟩ | ⟨μ, μ', e1, e2, e3, _, _⟩
    · exact .inl ⟨by rw [e1]; rfl, by rw [e2]; rfl⟩
    · rw [e1, e2]
      simp only [Option.map_some]
      rcases (a.logRel h).resume n e3 with ⟨f, g1, g2⟩ | ⟨s, s', g1, g2, g3⟩
      · exact .inr (.inl ⟨f, by rw [g1]; rfl, by rw [g2]; rfl⟩)
      · exact .inr (.inr ⟨s, s', [], by rw [g1]; rfl, by rw [g2]; rfl, g3⟩)

/-- One call answers alike. -/
theorem step_builds {c c' : Cfg} (u : SameArith c c') {p : (logs c).Pool} {q : (logs c').Pool}
    (h : PoolSame u p q) (x : Call) (hx : x.Typed c) :
    ((logs c).step p x).2 = ((logs c').step q x).2 ∧
      PoolSame u ((logs c).step p x).1 ((logs c').step q x).1 := by
  cases x with
  | make a how =>
    simp only [Impl.step]
    rcases logMake_same u a how hx.2 with ⟨e1, e2⟩ | ⟨f, e1, e2⟩ | ⟨s, s', m, e1, e2, R⟩
    · simp only [show (logs c).make a how = _ from e1, show (logs c').make a how = _ from e2]
      exact ⟨trivial, h⟩
    · simp only [show (logs c).make a how = _ from e1, show (logs c').make a how = _ from e2]
      exact ⟨trivial, h⟩
    · simp only [show (logs c).make a how = _ from e1, show (logs c').make a how = _ from e2]
      exact ⟨trivial, h.push (.live a s s' m R)⟩
  | clone i =>
    have := h.slot i
    simp only [Impl.step]
    generalize (logs c).slot p i = x, (logs c').slot q i = y at this ⊢
    cases this with
    | gone => exact ⟨rfl, h⟩
    | live a s s' m R => exact ⟨rfl, h.push (.live a s s' m R)⟩
  | input i d =>
    have := h.slot i
    simp only [Impl.step]
    generalize (logs c).slot p i = x, (logs c').slot q i = y at this ⊢
    cases this with
    | gone => exact ⟨rfl, h⟩
    | live a s s' m R =>
      have hacc' := (a.logRel u).accepts (m.length + d.length) R
      cases hacc : (a.log c).accepts s (m.length + d.length) with
      | true =>
        rw [hacc] at hacc'
        simp only [show (logs c).input a (s, m) d = .ok (s, m ++ d) by simp only [logs, hacc, if_true],
          show (logs c').input a (s', m) d = .ok (s', m ++ d) by simp only [logs, ← hacc', if_true]]
        exact ⟨trivial, h.set i (.live a _ _ _ R)⟩
      | false =>
        rw [hacc] at hacc'
        simp only [show (logs c).input a (s, m) d = .error .overflow by simp [logs, hacc],
          show (logs c').input a (s', m) d = .error .overflow by simp [logs, ← hacc']]
        exact ⟨trivial, h.set i .gone⟩
  | count i =>
    have := h.slot i
    simp only [Impl.step]
    generalize (logs c).slot p i = x, (logs c').slot q i = y at this ⊢
    cases this with
    | gone => exact ⟨rfl, h⟩
    | live a s s' m R => exact ⟨congrArg Answer.count ((a.logRel u).count _ R), h⟩
  | midstate i =>
    have := h.slot i
    simp only [Impl.step]
    generalize (logs c).slot p i = x, (logs c').slot q i = y at this ⊢
    cases this with
    | gone => exact ⟨rfl, h⟩
    | live a s s' m R => exact ⟨congrArg Answer.midstate ((a.logRel u).mid _ R), h⟩
  | finalize i =>
    have := h.slot i
    simp only [Impl.step]
    generalize (logs c).slot p i = x, (logs c').slot q i = y at this ⊢
    cases this with
    | gone => exact ⟨rfl, h⟩
    | live a s s' m R =>
      have e : (logs c).fin a (s, m) = (logs c').fin a (s', m) := (a.logRel u).digest m R
      simp only [e]
      cases (logs c').fin a (s', m) <;> exact ⟨rfl, h.set i .gone⟩

theorem answers_builds {c c' : Cfg} (u : SameArith c c') (xs : List Call) :
    ∀ {p : (logs c).Pool} {q : (logs c').Pool}, PoolSame u p q → (∀ x ∈ xs, x.Typed c) →
    (logs c).answers p xs = (logs c').answers q xs := by
  induction xs with
  | nil => intros; rfl
  | cons x xs ih =>
    intro p q h hx
    have := step_builds u h x (hx x (by simp))
    rw [Impl.answers, Impl.answers, this.1, ih this.2 (fun y hy => hx y (by simp [hy]))]

theorem kept_same {c c' : Cfg} (u : SameArith c c') : (a : Alg) → ∀ n, kept c a n = kept c' a n
  | .siphash24, _ => rfl
  | .hmac a, n => kept_same u a n
  | .sha1, _ | .sha256, _ | .sha384, _ | .sha512, _ | .sha512_256, _ | .ripemd160, _
  | .sha256t _ _ _, _ => by simp only [kept, u.bits]

/-- One call of a program that catches panics. -/
theorem catch_step_builds {c c' : Cfg} (u : SameArith c c') {p : (logs c).Pool} {q : (logs c').Pool}
    (h : PoolSame u p q) (x : Call) (hx : x.Typed c) :
    ((catchLogs c).step p x).2 = ((catchLogs c').step q x).2 ∧
      PoolSame u ((catchLogs c).step p x).1 ((catchLogs c').step q x).1 := by
  cases x with
  | input i d =>
    have := h.slot i
    show ((catchLogs c).step p (.input i d)).2 = _ ∧ _
    simp only [CatchImpl.step]
    change SlotSame u ((catchLogs c).slot p i) ((catchLogs c').slot q i) at this
    generalize (catchLogs c).slot p i = x, (catchLogs c').slot q i = y at this ⊢
    cases this with
    | gone => exact ⟨rfl, h⟩
    | live a s s' m R =>
      have hacc' := (a.logRel u).accepts (m.length + d.length) R
      cases hacc : (a.log c).accepts s (m.length + d.length) with
      | true =>
        rw [hacc] at hacc'
        simp only [show (catchLogs c).input a (s, m) d = .ok (s, m ++ d) by
            simp only [catchLogs, logs, hacc, if_true],
          show (catchLogs c').input a (s', m) d = .ok (s', m ++ d) by
            simp only [catchLogs, logs, ← hacc', if_true]]
        exact ⟨trivial, h.set i (.live a _ _ _ R)⟩
      | false =>
        rw [hacc] at hacc'
        simp only [show (catchLogs c).input a (s, m) d = .error .overflow by
            simp [catchLogs, logs, hacc],
          show (catchLogs c').input a (s', m) d = .error .overflow by
            simp [catchLogs, logs, ← hacc']]
        refine ⟨trivial, h.set i ?_⟩
        show SlotSame u (some ⟨a, (s, _)⟩) (some ⟨a, (s', _)⟩)
        rw [kept_same u, (a.logRel u).count _ R]
        exact .live a _ _ _ R
  | make a how => exact step_builds u h (.make a how) hx
  | clone i => exact step_builds u h (.clone i) hx
  | count i => exact step_builds u h (.count i) hx
  | midstate i => exact step_builds u h (.midstate i) hx
  | finalize i => exact step_builds u h (.finalize i) hx

theorem catch_answers_builds {c c' : Cfg} (u : SameArith c c') (xs : List Call) :
    ∀ {p : (logs c).Pool} {q : (logs c').Pool}, PoolSame u p q → (∀ x ∈ xs, x.Typed c) →
    (catchLogs c).answers p xs = (catchLogs c').answers q xs := by
  induction xs with
  | nil => intros; rfl
  | cons x xs ih =>
    intro p q h hx
    have := catch_step_builds u h x (hx x (by simp))
    show _ :: _ = _ :: _
    rw [this.1, ih this.2 (fun y hy => hx y (by simp [hy]))]

end Chf
