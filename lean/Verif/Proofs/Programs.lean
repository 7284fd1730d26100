import Verif.Spec.Programs
import Verif.Proofs.Builds

/-!
# Lemmas: programs over the crate's engines and over logs
-/

namespace Chf
open Spec

/-- An engine and the log it stands for. -/
inductive SlotRel {c : Cfg} (hc : c.Valid) : Option ((a : Alg) × (Impl.crate c).State a) →
    Option ((a : Alg) × (logs c).State a) → Prop
  | gone : SlotRel hc none none
  | live (a : Alg) (ok : a.Ok c) (e : (a.engine c).State) (s : (a.log c).Start) (m : List Byte)
      (R : (a.lawful hc ok).Rel e s m) : SlotRel hc (some ⟨a, e⟩) (some ⟨a, (s, m)⟩)

/-- Related pools. -/
structure PoolRel {c : Cfg} (hc : c.Valid) (p : (Impl.crate c).Pool) (q : (logs c).Pool) : Prop where
  len : p.length = q.length
  slot : ∀ i, SlotRel hc ((Impl.crate c).slot p i) ((logs c).slot q i)

namespace PoolRel
variable {c : Cfg} {hc : c.Valid} {p : (Impl.crate c).Pool} {q : (logs c).Pool}

theorem nil : PoolRel hc [] [] := ⟨rfl, fun _ => .gone⟩

theorem push (h : PoolRel hc p q) {x y} (hx : SlotRel hc x y) : PoolRel hc (p ++ [x]) (q ++ [y]) := by
  refine ⟨by simp [h.len], fun i => ?_⟩
  have := h.slot i
  simp only [Impl.slot] at *
  rcases Nat.lt_trichotomy i p.length with hi | hi | hi
  · rw [List.getElem?_append_left hi, List.getElem?_append_left (by rw [← h.len]; exact hi)]
    exact this
  · subst hi
    rw [List.getElem?_concat_length, h.len, List.getElem?_concat_length]
    exact hx
  · rw [List.getElem?_eq_none (by simp; omega), List.getElem?_eq_none (by simp [← h.len]; omega)]
    exact .gone

theorem set (h : PoolRel hc p q) (i : Nat) {x y} (hx : SlotRel hc x y) :
    PoolRel hc (p.set i x) (q.set i y) := by
  refine ⟨by simp [h.len], fun j => ?_⟩
  have := h.slot j
  simp only [Impl.slot, List.getElem?_set, h.len] at *
  split
  · split
    · exact hx
    · exact .gone
  · exact this

end PoolRel

theorem logHash_eq {c : Cfg} (hc : c.Valid) (a : Alg) (ok : a.Ok c) (m : List Byte)
    (hm : m.length < c.usizeMod) : (a.engine c).hash m = logHash c a m :=
  (a.lawful hc ok).hash m (a.log_slice hm)

/-- Making an engine and making its log. -/
theorem make_logs {c : Cfg} (hc : c.Valid) (a : Alg) (ok : a.Ok c) (mk : Make) (ht : mk.Typed c) :
    (a.make c mk = none ∧ logMake c a mk = none) ∨
    (∃ f, a.make c mk = some (.error f) ∧ logMake c a mk = some (.error f)) ∨
    ∃ e s m, a.make c mk = some (.ok e) ∧ logMake c a mk = some (.ok (s, m)) ∧
      (a.lawful hc ok).Rel e s m := by
  cases mk with
  | new =>
    obtain ⟨e, h, R⟩ := (a.lawful hc ok).new_rel
    exact .inr (.inr ⟨e, _, _, by simp only [Alg.make, h], by simp only [logMake], R⟩)
  | default =>
    obtain ⟨e, h, R⟩ := (a.lawful hc ok).default_rel
    exact .inr (.inr ⟨e, _, _, by simp only [Alg.make, h], by simp only [logMake], R⟩)
  | sipKeys k0 k1 =>
    cases a with
    | siphash24 => exact .inr (.inr ⟨_, _, _, rfl, rfl, Siphash24.withKeys_rel hc k0 k1⟩)
    | _ => exact .inl ⟨rfl, rfl⟩
  | hmacKey key =>
    cases a with
    | hmac a =>
      have hk : key.length < c.usizeMod := ht
      have hB : (a.engine c).blockSize ≤ 128 := by rw [Alg.blockSize_eq]; exact a.blockSize_le
      have hacc := a.fresh_accepts ok.1 _ ok.2
      rw [← Alg.blockSize_eq c] at hacc
      have good : ∀ k, (if key.length > a.blockSize then (a.engine c).hash key else .ok key) = .ok k →
          k.length ≤ a.blockSize →
          ∃ e s m, (Alg.hmac a).make c (.hmacKey key) = some (.ok e) ∧
            logMake c (.hmac a) (.hmacKey key) = some (.ok (s, m)) ∧
            ((Alg.hmac a).lawful hc ok).Rel e s m := by
        intro k hk1 hk2
        have hk3 := hk1
        rw [logHash_eq hc a ok.1 key hk] at hk3
        rw [← Alg.blockSize_eq c] at hk1 hk2
        obtain ⟨e, e1, e2⟩ := Hmac.new_of_key (c := c) (a.lawful hc ok.1) hB hacc hk2 hk1
        rw [Alg.blockSize_eq] at e2
        refine ⟨e, _, _, by simp only [Alg.make, e1]; rfl, ?_, e2⟩
        simp only [logMake, logHmacKey, show shortKey c a key = .ok k from hk3]
        rfl
      by_cases hgt : key.length > a.blockSize
      · cases hh : (a.engine c).hash key with
        | error f =>
          have hh' := hh
          rw [logHash_eq hc a ok.1 key hk] at hh'
          refine .inr (.inl ⟨f, ?_, ?_⟩)
          · simp only [Alg.make]
            rw [Hmac.new_err (a.lawful hc ok.1) hB (by rw [Alg.blockSize_eq]; exact hgt) hh]
            rfl
          · simp only [logMake, logHmacKey, shortKey, if_pos hgt, hh']
            rfl
        | ok k =>
          have hkl : k.length ≤ a.blockSize := by
            have := (a.lawful hc ok.1).hash key (a.log_slice hk)
            rw [hh] at this
            split at this
            · rw [(a.lawful hc ok.1).digest_len this.symm, Alg.log_outLen]; exact a.outLen_le
            · cases this
          exact .inr (.inr (good k (by rw [if_pos hgt]; exact hh) hkl))
      · exact .inr (.inr (good key (by rw [if_neg hgt]) (by omega)))
    | _ => exact .inl ⟨rfl, rfl⟩
  | resume v n =>
    have hmk : a.make c (.resume v n) =
        (a.readMid c v).map fun μ => (a.engine c).fromMidstate μ n := by cases a <;> rfl
    have hlog : logMake c a (.resume v n) = (a.readMid c v).map fun μ => (do
        let s ← (a.log c).resume μ n
        pure (s, [])) := by cases a <;> rfl
    rw [hmk, hlog]
    rcases a.readMid_same (c := c) (c' := c) rfl v n ht with ⟨e1, _⟩ | ⟨μ, _, e1, _, _, e4, _⟩
    · exact .inl ⟨by rw [e1]; rfl, by rw [e1]; rfl⟩
    · rw [e1]
      simp only [Option.map_some]
      cases hr : (a.log c).resume μ n with
      | error f =>
        exact .inr (.inl ⟨f, by rw [(a.lawful hc ok).resume_err (a.typed_log e4) hr], rfl⟩)
      | ok s =>
        obtain ⟨e, h1, h2⟩ := (a.lawful hc ok).resume_ok (a.typed_log e4) hr
        exact .inr (.inr ⟨e, s, [], by rw [h1], rfl, h2⟩)

/-- One call answers the same and keeps the pools related. -/
theorem step_same {c : Cfg} (hc : c.Valid) {p : (Impl.crate c).Pool} {q : (logs c).Pool}
    (h : PoolRel hc p q) (x : Call) (hx : x.Typed c) :
    ((Impl.crate c).step p x).2 = ((logs c).step q x).2 ∧
      PoolRel hc ((Impl.crate c).step p x).1 ((logs c).step q x).1 := by
  cases x with
  | make a mk =>
    rcases make_logs hc a hx.1 mk hx.2 with ⟨e1, e2⟩ | ⟨f, e1, e2⟩ | ⟨e, s, m, e1, e2, R⟩
    · simp only [Impl.step, show (Impl.crate c).make a mk = _ from e1, show (logs c).make a mk = _ from e2]
      exact ⟨trivial, h⟩
    · simp only [Impl.step, show (Impl.crate c).make a mk = _ from e1, show (logs c).make a mk = _ from e2]
      exact ⟨trivial, h⟩
    · simp only [Impl.step, show (Impl.crate c).make a mk = _ from e1, show (logs c).make a mk = _ from e2]
      exact ⟨trivial, h.push (.live a hx.1 e s m R)⟩
  | clone i =>
    have := h.slot i
    simp only [Impl.step]
    generalize (Impl.crate c).slot p i = x, (logs c).slot q i = y at this ⊢
    cases this with
    | gone => exact ⟨rfl, h⟩
    | live a ok e s m R => exact ⟨rfl, h.push (.live a ok e s m R)⟩
  | input i d =>
    have := h.slot i
    simp only [Impl.step]
    generalize (Impl.crate c).slot p i = x, (logs c).slot q i = y at this ⊢
    cases this with
    | gone => exact ⟨rfl, h⟩
    | live a ok e s m R =>
      cases hacc : (a.log c).accepts s (m.length + d.length) with
      | true =>
        obtain ⟨e', h1, R'⟩ := (a.lawful hc ok).input_ok d (a.log_slice hx) R hacc
        simp only [show (Impl.crate c).input a e d = _ from h1,
          show (logs c).input a (s, m) d = .ok (s, m ++ d) by simp only [logs, hacc, if_true]]
        exact ⟨trivial, h.set i (.live a ok _ _ _ R')⟩
      | false =>
        have h1 := (a.lawful hc ok).input_err d (a.log_slice hx) R hacc
        simp only [show (Impl.crate c).input a e d = _ from h1,
          show (logs c).input a (s, m) d = .error .overflow by simp [logs, hacc]]
        exact ⟨trivial, h.set i .gone⟩
  | count i =>
    have := h.slot i
    simp only [Impl.step]
    generalize (Impl.crate c).slot p i = x, (logs c).slot q i = y at this ⊢
    cases this with
    | gone => exact ⟨rfl, h⟩
    | live a ok e s m R => exact ⟨congrArg Answer.count ((a.lawful hc ok).count R), h⟩
  | midstate i =>
    have := h.slot i
    simp only [Impl.step]
    generalize (Impl.crate c).slot p i = x, (logs c).slot q i = y at this ⊢
    cases this with
    | gone => exact ⟨rfl, h⟩
    | live a ok e s m R =>
      simp only [show (Impl.crate c).mid a e = .ok (a.showMid c ((a.log c).mid s m)) by
        simp only [Impl.crate, (a.lawful hc ok).mid R]; rfl]
      exact ⟨rfl, h⟩
  | finalize i =>
    have := h.slot i
    simp only [Impl.step]
    generalize (Impl.crate c).slot p i = x, (logs c).slot q i = y at this ⊢
    cases this with
    | gone => exact ⟨rfl, h⟩
    | live a ok e s m R =>
      simp only [show (Impl.crate c).fin a e = (a.log c).digest s m from (a.lawful hc ok).digest R,
        show (logs c).fin a (s, m) = (a.log c).digest s m from rfl]
      cases (a.log c).digest s m with
      | error f => exact ⟨rfl, h.set i .gone⟩
      | ok d => exact ⟨rfl, h.set i .gone⟩

theorem answers_same {c : Cfg} (hc : c.Valid) (xs : List Call) : ∀ {p : (Impl.crate c).Pool}
    {q : (logs c).Pool}, PoolRel hc p q → (∀ x ∈ xs, x.Typed c) →
    (Impl.crate c).answers p xs = (logs c).answers q xs := by
  induction xs with
  | nil => intros; rfl
  | cons x xs ih =>
    intro p q h hx
    have := step_same hc h x (hx x (by simp))
    rw [Impl.answers, Impl.answers, this.1, ih this.2 fun y hy => hx y (by simp [hy])]

end Chf
