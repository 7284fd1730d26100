import Verif.Proofs.Programs

/-!
# Lemmas: a program that no overflow check stops runs alike on every target with as wide a `usize`
-/

namespace Chf
open Spec

/-- `c` has overflow checks, and `c'` is a build for a target whose `usize` is at least as wide. -/
structure Widens (c c' : Cfg) : Prop where
  on : c.overflowChecks = true
  bits : c.usizeBits ≤ c'.usizeBits

theorem Widens.le {c c' : Cfg} (h : Widens c c') {n : Nat} (hn : n < 2 ^ c.usizeBits) :
    n < 2 ^ c'.usizeBits :=
  Nat.lt_of_lt_of_le hn (Nat.pow_le_pow_right (by omega) h.bits)

/-- The logs of two builds, of which the second is for a wider target. -/
structure LogWide {M M' : Type} (V : M → MidVal) (V' : M' → MidVal) (lim : Nat) (S : LogSpec M)
    (S' : LogSpec M') where
  St : S.Start → S'.Start → Prop
  fresh : St S.fresh.1 S'.fresh.1
  freshLog : S.fresh.2 = S'.fresh.2
  accepts : ∀ {s s' n}, St s s' → S.accepts s n = true → S'.accepts s' n = true
  count : ∀ {s s' n}, St s s' → S.accepts s n = true → S.count s n = S'.count s' n
  digest : ∀ {s s' m}, St s s' → S.accepts s m.length = true → S.digest s m = .error .overflow ∨
    ∃ d, S.digest s m = .ok d ∧ S'.digest s' m = .ok d
  mid : ∀ {s s'} m, St s s' → V (S.mid s m) = V' (S'.mid s' m)
  resume : ∀ {μ μ'} n, V μ = V' μ' → n < lim →
    (∃ f, S.resume μ n = .error f ∧ S'.resume μ' n = .error f) ∨
    ∃ s s', S.resume μ n = .ok s ∧ S'.resume μ' n = .ok s' ∧ St s s' ∧ S.accepts s 0 = true

def LogWide.md {H : Type} (P : Md H) {c c' : Cfg} (h : Widens c c') (r : List Byte → Nat → Res H) :
    LogWide MidVal.bytes MidVal.bytes (2 ^ c.usizeBits) (P.log c r) (P.log c' r) where
  St := fun s s' : H × Nat => s = s'
  fresh := rfl
  freshLog := rfl
  accepts {s s' n} e ha := by
    cases e
    simp only [Md.log, h.on, Bool.not_true, Bool.false_or, decide_eq_true_eq, Bool.or_eq_true] at ha ⊢
    exact .inr (h.le ha)
  count {s s' n} e ha := by
    cases e
    simp only [Md.log, h.on, Bool.not_true, Bool.false_or, decide_eq_true_eq] at ha ⊢
    rw [Nat.mod_eq_of_lt ha, Nat.mod_eq_of_lt (h.le ha)]
  digest {s s' m} e ha := by
    cases e
    simp only [Md.log, h.on, Bool.not_true, Bool.false_or, decide_eq_true_eq, true_and] at ha ⊢
    by_cases hf : s.2 + P.paddedLen m.length < 2 ^ c.usizeBits ∧ 8 * (s.2 + m.length) < 2 ^ 64
    · refine .inr ⟨_, if_neg (not_not_intro hf), ?_⟩
      rw [if_neg fun g => g.2 ⟨h.le hf.1, hf.2⟩, Nat.mod_eq_of_lt ha, Nat.mod_eq_of_lt (h.le ha)]
    · exact .inl (if_pos hf)
  mid _ e := by cases e; rfl
  resume {μ μ'} n e hn := by
    cases (show μ = μ' by injection e)
    show (∃ f, (P.log c r).resume μ n = .error f ∧ (P.log c r).resume μ n = .error f) ∨
      ∃ s s', (P.log c r).resume μ n = .ok s ∧ (P.log c r).resume μ n = .ok s' ∧ s = s' ∧ _
    cases hr : (P.log c r).resume μ n with
    | error f => exact .inl ⟨f, rfl, rfl⟩
    | ok s =>
      refine .inr ⟨s, s, rfl, rfl, rfl, ?_⟩
      have hs : s.2 = n := by
        simp only [Md.log, bind, Except.bind] at hr
        by_cases hB : n % P.B = 0
        · rw [if_pos hB] at hr
          cases hq : r μ n with
          | error f => rw [hq] at hr; cases hr
          | ok v => rw [hq] at hr; injection hr with hr; rw [← hr]
        · rw [if_neg hB] at hr; cases hr
      simp only [Md.log, h.on, Bool.not_true, Bool.false_or, decide_eq_true_eq, hs, Nat.add_zero]
      exact hn

def LogWide.hmac {M M' N N' : Type} {V : M → MidVal} {V' : M' → MidVal} {lim : Nat} {S : LogSpec M}
    {S' : LogSpec M'} (R : LogWide V V' lim S S') {B B' : Nat} (hB : B = B') (mk : M → M → N)
    (mk' : M' → M' → N') (inner outer : N → M)
    (inner' outer' : N' → M') (h1 : ∀ i o, inner (mk i o) = i) (h2 : ∀ i o, outer (mk i o) = o)
    (h1' : ∀ i o, inner' (mk' i o) = i) (h2' : ∀ i o, outer' (mk' i o) = o) :
    LogWide (fun μ => .pair (V (inner μ)) (V (outer μ))) (fun μ => .pair (V' (inner' μ)) (V' (outer' μ)))
      lim (hmacLog S B mk inner outer) (hmacLog S' B' mk' inner' outer') where
  St s s' := R.St s.inner s'.inner ∧ s.innerLog = s'.innerLog ∧ R.St s.outer s'.outer ∧
    s.outerLog = s'.outerLog
  fresh := ⟨R.fresh, by simp [hmacLog, HmacStart.ofKey, R.freshLog, hB], R.fresh,
    by simp [hmacLog, HmacStart.ofKey, R.freshLog, hB]⟩
  freshLog := rfl
  accepts {s s' n} h ha := by
    simp only [hmacLog, ← h.2.1] at ha ⊢
    exact R.accepts h.1 ha
  count {s s' n} h ha := by
    simp only [hmacLog, ← h.2.1] at ha ⊢
    exact R.count h.1 ha
  digest {s s' m} h ha := by
    simp only [hmacLog, ← h.2.1, ← h.2.2.2] at ha ⊢
    rcases R.digest (m := s.innerLog ++ m) h.1 (by rw [List.length_append]; exact ha) with
      e1 | ⟨d, e1, e2⟩
    · exact .inl (by rw [e1]; rfl)
    · rw [e1, e2]
      simp only [bind, Except.bind]
      cases hacc : S.accepts s.outer (s.outerLog.length + d.length) with
      | false => exact .inl rfl
      | true =>
        simp only [R.accepts h.2.2.1 hacc, if_true]
        exact R.digest h.2.2.1 (by rw [List.length_append]; exact hacc)
  mid {s s'} m h := by
    simp only [hmacLog, h1, h2, h1', h2', h.2.1, h.2.2.2, R.mid _ h.1, R.mid _ h.2.2.1]
  resume {μ μ'} n h hn := by
    injection h with hi ho
    simp only [hmacLog]
    rcases R.resume n hi hn with ⟨f, e1, e2⟩ | ⟨s, s', e1, e2, e3, e4⟩
    · exact .inl ⟨f, by rw [e1]; rfl, by rw [e2]; rfl⟩
    · rcases R.resume n ho hn with ⟨f, g1, g2⟩ | ⟨t, t', g1, g2, g3, -⟩
      · exact .inl ⟨f, by rw [e1, g1]; rfl, by rw [e2, g2]; rfl⟩
      · exact .inr ⟨⟨s, [], t, []⟩, ⟨s', [], t', []⟩, by rw [e1, g1]; rfl, by rw [e2, g2]; rfl,
          ⟨e3, rfl, g3, rfl⟩, e4⟩

namespace Alg

/-- The logs of an engine in two builds. -/
def logWide {c c' : Cfg} (h : Widens c c') : (a : Alg) →
    LogWide (a.showMid c) (a.showMid c') (2 ^ c.usizeBits) (a.log c) (a.log c')
  | .sha1 => LogWide.md md1 h _
  | .sha256 => LogWide.md md256 h _
  | .sha384 => LogWide.md md384 h _
  | .sha512 => LogWide.md md512 h _
  | .sha512_256 => LogWide.md md512_256 h _
  | .ripemd160 => LogWide.md mdRmd h _
  | .siphash24 =>
    { St := Eq
      fresh := rfl
      freshLog := rfl
      accepts := fun {s s' n} e ha => by
        simp only [log, logSip, h.on, Bool.not_true, Bool.false_or, decide_eq_true_eq,
          Bool.or_eq_true] at ha ⊢
        exact .inr (h.le ha)
      count := fun {s s' n} e ha => by
        simp only [log, logSip, h.on, Bool.not_true, Bool.false_or, decide_eq_true_eq] at ha ⊢
        rw [Nat.mod_eq_of_lt ha, Nat.mod_eq_of_lt (h.le ha)]
      digest := fun e _ => by cases e; exact .inr ⟨_, rfl, rfl⟩
      mid := fun m e => by cases e; rfl
      resume := fun {μ μ'} n e hn => by
        cases (show μ = μ' by injection e)
        refine .inr ⟨_, _, rfl, rfl, rfl, ?_⟩
        simp only [log, logSip, h.on, Bool.not_true, Bool.false_or, decide_eq_true_eq]
        omega }
  | .sha256t mid len data =>
    let R := LogWide.md md256 h fun μ _ => .ok (parse8 μ)
    { St := R.St
      fresh := rfl
      freshLog := rfl
      accepts := R.accepts
      count := R.count
      digest := R.digest
      mid := R.mid
      resume := R.resume }
  | .hmac a =>
    (a.logWide h).hmac (by rw [blockSize_eq, blockSize_eq])
      (N := Hmac.Midstate (a.engine c)) (N' := Hmac.Midstate (a.engine c'))
      (fun i o => { inner := i, outer := o }) (fun i o => { inner := i, outer := o })
      (·.inner) (·.outer) (·.inner) (·.outer) (fun _ _ => rfl) (fun _ _ => rfl) (fun _ _ => rfl)
      (fun _ _ => rfl)

/-- A value is a midstate in every build or in none, and the same one. -/
theorem readMid_any (c c' : Cfg) : (a : Alg) → (v : MidVal) →
    (a.readMid c v = none ∧ a.readMid c' v = none) ∨
    ∃ μ μ', a.readMid c v = some μ ∧ a.readMid c' v = some μ' ∧ a.showMid c μ = a.showMid c' μ'
  | .sha1, .bytes bs => md bs 20
  | .sha256, .bytes bs => md bs 32
  | .sha384, .bytes bs => md bs 64
  | .sha512, .bytes bs => md bs 64
  | .sha512_256, .bytes bs => md bs 64
  | .ripemd160, .bytes bs => md bs 20
  | .sha256t _ _ _, .bytes bs => md bs 32
  | .siphash24, .sip s => .inr ⟨s, s, rfl, rfl, rfl⟩
  | .hmac a, .pair i o => by
      rcases a.readMid_any c c' i with ⟨e1, e2⟩ | ⟨μ, μ', e1, e2, e3⟩
      · exact .inl ⟨by simp only [readMid, e1], by simp only [readMid, e2]⟩
      · rcases a.readMid_any c c' o with ⟨f1, f2⟩ | ⟨ν, ν', f1, f2, f3⟩
        · exact .inl ⟨by simp only [readMid, e1, f1], by simp only [readMid, e2, f2]⟩
        · exact .inr ⟨_, _, by simp only [readMid, e1, f1]; rfl, by simp only [readMid, e2, f2]; rfl,
            by simp only [showMid, e3, f3]⟩
  | .sha1, .sip _ | .sha1, .pair _ _ | .sha256, .sip _ | .sha256, .pair _ _
  | .sha384, .sip _ | .sha384, .pair _ _ | .sha512, .sip _
  | .sha512, .pair _ _ | .sha512_256, .sip _ | .sha512_256, .pair _ _
  | .ripemd160, .sip _ | .ripemd160, .pair _ _ | .siphash24, .bytes _
  | .siphash24, .pair _ _ => .inl ⟨rfl, rfl⟩
  | .sha256t _ _ _, .sip _ => .inl ⟨rfl, rfl⟩
  | .sha256t _ _ _, .pair _ _ => .inl ⟨rfl, rfl⟩
  | .hmac _, .bytes _ => .inl ⟨rfl, rfl⟩
  | .hmac _, .sip _ => .inl ⟨rfl, rfl⟩
where
  md (bs : List Byte) (k : Nat) :
      ((if bs.length = k then some bs else none) = none ∧
        (if bs.length = k then some bs else none) = none) ∨
      ∃ μ μ', (if bs.length = k then some bs else none) = some μ ∧
        (if bs.length = k then some bs else none) = some μ' ∧ MidVal.bytes μ = MidVal.bytes μ' := by
    by_cases hb : bs.length = k
    · exact .inr ⟨bs, bs, if_pos hb, if_pos hb, rfl⟩
    · exact .inl ⟨if_neg hb, if_neg hb⟩

theorem Ok.wide {c c' : Cfg} (h : c.usizeBits ≤ c'.usizeBits) : (a : Alg) → a.Ok c → a.Ok c'
  | .sha1, _ | .sha256, _ | .sha384, _ | .sha512, _ | .sha512_256, _ | .ripemd160, _
  | .siphash24, _ => trivial
  | .sha256t _ _ _, ⟨h1, h2, h3⟩ =>
      ⟨h1, h2, Nat.lt_of_lt_of_le h3 (Nat.pow_le_pow_right (by omega) h)⟩
  | .hmac a, ⟨h1, h2⟩ =>
      ⟨Ok.wide h a h1, Nat.lt_of_lt_of_le h2 (Nat.pow_le_pow_right (by omega) h)⟩

theorem base_lt {c : Cfg} : (a : Alg) → a.Ok c → a.base < c.usizeMod
  | .sha1, _ | .sha256, _ | .sha384, _ | .sha512, _ | .sha512_256, _ | .ripemd160, _
  | .siphash24, _ => Nat.pow_pos (by omega)
  | .sha256t _ _ _, ⟨_, _, h3⟩ => h3
  | .hmac a, ⟨_, h2⟩ => h2

end Alg

theorem Call.Typed.wide {c c' : Cfg} (h : c.usizeBits ≤ c'.usizeBits) {x : Call} (hx : x.Typed c) :
    x.Typed c' := by
  have le : ∀ {n}, n < c.usizeMod → n < c'.usizeMod := fun hn =>
    Nat.lt_of_lt_of_le hn (Nat.pow_le_pow_right (by omega) h)
  cases x with
  | make a how =>
    refine ⟨Alg.Ok.wide h a hx.1, ?_⟩
    cases how with
    | hmacKey key => exact le hx.2
    | resume v n => exact le hx.2
    | _ => trivial
  | input i d => exact le hx
  | _ => trivial

/-- Related log values, of which the first has not overflowed. -/
inductive SlotWide {c c' : Cfg} (h : Widens c c') : Option ((a : Alg) × (logs c).State a) →
    Option ((a : Alg) × (logs c').State a) → Prop
  | gone : SlotWide h none none
  | live (a : Alg) (s : (a.log c).Start) (s' : (a.log c').Start) (m : List Byte)
      (R : (a.logWide h).St s s') (acc : (a.log c).accepts s m.length = true) :
      SlotWide h (some ⟨a, (s, m)⟩) (some ⟨a, (s', m)⟩)

/-- Related pools. -/
structure PoolWide {c c' : Cfg} (h : Widens c c') (p : (logs c).Pool) (q : (logs c').Pool) : Prop where
  len : p.length = q.length
  slot : ∀ i, SlotWide h ((logs c).slot p i) ((logs c').slot q i)

namespace PoolWide
variable {c c' : Cfg} {u : Widens c c'} {p : (logs c).Pool} {q : (logs c').Pool}

theorem nil : PoolWide u [] [] := ⟨rfl, fun _ => .gone⟩

theorem push (h : PoolWide u p q) {x y} (hx : SlotWide u x y) : PoolWide u (p ++ [x]) (q ++ [y]) := by
  refine ⟨by simp [h.len], fun i => ?_⟩
  have := h.slot i
  simp only [Impl.slot] at *
  rcases Nat.lt_trichotomy i p.length with hi | hi | hi
  · rw [List.getElem?_append_left hi, List.getElem?_append_left (by rw [← h.len]; exact hi)]
    exact this
  · subst hi
    rw [List.getElem?_concat_length, h.len, List.getElem?_concat_length]
    exact hx
  · rw [List.getElem?_eq_none (by simp; omega), List.getElem?_eq_none (by simp [← h.len]; omega)]
    exact .gone

theorem set (h : PoolWide u p q) (i : Nat) {x y} (hx : SlotWide u x y) :
    PoolWide u (p.set i x) (q.set i y) := by
  refine ⟨by simp [h.len], fun j => ?_⟩
  have := h.slot j
  simp only [Impl.slot, List.getElem?_set, h.len] at *
  split
  · split
    · exact hx
    · exact .gone
  · exact this

end PoolWide

/-- Hashing a key: it overflows in the first build, or the results agree. -/
theorem logHash_wide {c c' : Cfg} (h : Widens c c') (a : Alg) (m : List Byte) :
    logHash c a m = .error .overflow ∨ ∃ d, logHash c a m = .ok d ∧ logHash c' a m = .ok d := by
  unfold logHash
  dsimp only
  cases hacc : (a.log c).accepts (a.log c).fresh.1 ((a.log c).fresh.2.length + m.length) with
  | false => exact .inl (if_neg (by simp))
  | true =>
    have h2 := (a.logWide h).accepts (a.logWide h).fresh hacc
    rw [← (a.logWide h).freshLog]
    simp only [h2, if_true]
    exact (a.logWide h).digest (a.logWide h).fresh (by rw [List.length_append]; exact hacc)

theorem shortKey_wide {c c' : Cfg} (h : Widens c c') (a : Alg) (key : List Byte) :
    shortKey c a key = .error .overflow ∨ ∃ d, shortKey c a key = .ok d ∧ shortKey c' a key = .ok d := by
  unfold shortKey
  split
  · exact logHash_wide h a key
  · exact .inr ⟨_, rfl, rfl⟩

/-- Making an engine: it overflows in the first build, or the results agree. -/
theorem logMake_wide {c c' : Cfg} (h : Widens c c') (hc : c.Valid) (a : Alg) (ok : a.Ok c) (how : Make)
    (ht : how.Typed c) :
    (logMake c a how = none ∧ logMake c' a how = none) ∨
    logMake c a how = some (.error .overflow) ∨
    (∃ f, logMake c a how = some (.error f) ∧ logMake c' a how = some (.error f)) ∨
    ∃ s s' m, logMake c a how = some (.ok (s, m)) ∧ logMake c' a how = some (.ok (s', m)) ∧
      (a.logWide h).St s s' ∧ (a.log c).accepts s m.length = true := by
  have fresh : ∀ how, (how = .new ∨ how = .default) →
      ∃ s s' m, logMake c a how = some (.ok (s, m)) ∧ logMake c' a how = some (.ok (s', m)) ∧
      (a.logWide h).St s s' ∧ (a.log c).accepts s m.length = true := by
    rintro _ (rfl | rfl) <;>
    exact ⟨(a.log c).fresh.1, (a.log c').fresh.1, (a.log c).fresh.2, by simp only [logMake],
      by simp only [logMake, (a.logWide h).freshLog], (a.logWide h).fresh,
      a.fresh_accepts ok 0 (a.base_lt ok)⟩
  cases how with
  | new => exact .inr (.inr (.inr (fresh _ (.inl rfl))))
  | default => exact .inr (.inr (.inr (fresh _ (.inr rfl))))
  | sipKeys k0 k1 =>
    cases a with
    | siphash24 =>
      refine .inr (.inr (.inr ⟨_, _, _, rfl, rfl, rfl, ?_⟩))
      have : 0 < 2 ^ c.usizeBits := Nat.pow_pos (by omega)
      simp only [Alg.log, logSip, h.on, Bool.not_true, Bool.false_or, decide_eq_true_eq, List.length_nil]
      exact this
    | _ => exact .inl ⟨rfl, rfl⟩
  | hmacKey key =>
    cases a with
    | hmac a =>
      rcases shortKey_wide h a key with e1 | ⟨d, e1, e2⟩
      · refine .inr (.inl ?_)
        simp only [logMake, logHmacKey, e1]; rfl
      · let k := d ++ List.replicate (a.blockSize - d.length) 0
        have hk : k.length = a.blockSize := by
          have hd : d.length ≤ a.blockSize := by
            unfold shortKey at e1
            split at e1
            · have e3 := e1
              unfold logHash at e3
              dsimp only at e3
              split at e3
              · rw [(a.lawful hc ok.1).digest_len e3, Alg.log_outLen]; exact a.outLen_le
              · cases e3
            · injection e1 with e1; rw [← e1]; omega
          simp only [k, List.length_append, List.length_replicate]; omega
        refine .inr (.inr (.inr ⟨HmacStart.ofKey (a.log c).fresh k, HmacStart.ofKey (a.log c').fresh k, [],
          ?_, ?_, ?_, ?_⟩))
        · simp only [logMake, logHmacKey, e1]; rfl
        · simp only [logMake, logHmacKey, e2]; rfl
        · exact ⟨(a.logWide h).fresh, by simp only [HmacStart.ofKey, (a.logWide h).freshLog],
            (a.logWide h).fresh, by simp only [HmacStart.ofKey, (a.logWide h).freshLog]⟩
        · have := a.fresh_accepts ok.1 _ ok.2
          simp only [Alg.log, hmacLog, HmacStart.ofKey, List.length_append, List.length_map, hk,
            List.length_nil, Nat.add_zero]
          exact this
    | _ => exact .inl ⟨rfl, rfl⟩
  | resume v n =>
    have hlog : ∀ c, logMake c a (.resume v n) = (a.readMid c v).map fun μ => (do
        let s ← (a.log c).resume μ n
        pure (s, [])) := by intro c; cases a <;> rfl
    rw [hlog, hlog]
    rcases a.readMid_any c c' v with ⟨e1, e2⟩ | ⟨μ, μ', e1, e2, e3⟩
    · exact .inl ⟨by rw [e1]; rfl, by rw [e2]; rfl⟩
    · rw [e1, e2]
      simp only [Option.map_some]
      rcases (a.logWide h).resume n e3 ht with ⟨f, g1, g2⟩ | ⟨s, s', g1, g2, g3, g4⟩
      · exact .inr (.inr (.inl ⟨f, by rw [g1]; rfl, by rw [g2]; rfl⟩))
      · exact .inr (.inr (.inr ⟨s, s', [], by rw [g1]; rfl, by rw [g2]; rfl, g3, g4⟩))

/-- One call: it overflows in the first build, or the builds answer alike. -/
theorem step_wide {c c' : Cfg} (u : Widens c c') (hc : c.Valid) {p : (logs c).Pool}
    {q : (logs c').Pool} (h : PoolWide u p q) (x : Call) (hx : x.Typed c)
    (hp : ((logs c).step p x).2 ≠ .panic .overflow) :
    ((logs c).step p x).2 = ((logs c').step q x).2 ∧
      PoolWide u ((logs c).step p x).1 ((logs c').step q x).1 := by
  cases x with
  | make a how =>
    simp only [Impl.step] at hp ⊢
    rcases logMake_wide u hc a hx.1 how hx.2 with ⟨e1, e2⟩ | e1 | ⟨f, e1, e2⟩ | ⟨s, s', m, e1, e2, R, acc⟩
    · simp only [show (logs c).make a how = _ from e1, show (logs c').make a how = _ from e2]
      exact ⟨trivial, h⟩
    · simp only [show (logs c).make a how = _ from e1] at hp
      exact absurd rfl hp
    · simp only [show (logs c).make a how = _ from e1, show (logs c').make a how = _ from e2]
      exact ⟨trivial, h⟩
    · simp only [show (logs c).make a how = _ from e1, show (logs c').make a how = _ from e2]
      exact ⟨trivial, h.push (.live a s s' m R acc)⟩
  | clone i =>
    have := h.slot i
    simp only [Impl.step]
    generalize (logs c).slot p i = x, (logs c').slot q i = y at this ⊢
    cases this with
    | gone => exact ⟨rfl, h⟩
    | live a s s' m R acc => exact ⟨rfl, h.push (.live a s s' m R acc)⟩
  | input i d =>
    have := h.slot i
    simp only [Impl.step] at hp ⊢
    generalize (logs c).slot p i = x, (logs c').slot q i = y at this hp ⊢
    cases this with
    | gone => exact ⟨rfl, h⟩
    | live a s s' m R _ =>
      cases hacc : (a.log c).accepts s (m.length + d.length) with
      | true =>
        have e2 : (logs c').input a (s', m) d = .ok (s', m ++ d) := by
          simp only [logs, (a.logWide u).accepts R hacc, if_true]
        simp only [e2, show (logs c).input a (s, m) d = .ok (s, m ++ d) by
          simp only [logs, hacc, if_true]]
        exact ⟨trivial, h.set i (.live a _ _ _ R (by rw [List.length_append]; exact hacc))⟩
      | false =>
        simp only [show (logs c).input a (s, m) d = .error .overflow by simp [logs, hacc]] at hp
        exact absurd rfl hp
  | count i =>
    have := h.slot i
    simp only [Impl.step]
    generalize (logs c).slot p i = x, (logs c').slot q i = y at this ⊢
    cases this with
    | gone => exact ⟨rfl, h⟩
    | live a s s' m R acc => exact ⟨congrArg Answer.count ((a.logWide u).count R acc), h⟩
  | midstate i =>
    have := h.slot i
    simp only [Impl.step]
    generalize (logs c).slot p i = x, (logs c').slot q i = y at this ⊢
    cases this with
    | gone => exact ⟨rfl, h⟩
    | live a s s' m R _ => exact ⟨congrArg Answer.midstate ((a.logWide u).mid _ R), h⟩
  | finalize i =>
    have := h.slot i
    simp only [Impl.step] at hp ⊢
    generalize (logs c).slot p i = x, (logs c').slot q i = y at this hp ⊢
    cases this with
    | gone => exact ⟨rfl, h⟩
    | live a s s' m R acc =>
      rcases (a.logWide u).digest R acc with e1 | ⟨d, e1, e2⟩
      · simp only [show (logs c).fin a (s, m) = .error .overflow from e1] at hp
        exact absurd rfl hp
      · simp only [show (logs c).fin a (s, m) = .ok d from e1, show (logs c').fin a (s', m) = .ok d from e2]
        exact ⟨trivial, h.set i .gone⟩

theorem answers_wide {c c' : Cfg} (u : Widens c c') (hc : c.Valid) (xs : List Call) :
    ∀ {p : (logs c).Pool} {q : (logs c').Pool}, PoolWide u p q → (∀ x ∈ xs, x.Typed c) →
    .panic .overflow ∉ (logs c).answers p xs → (logs c).answers p xs = (logs c').answers q xs := by
  induction xs with
  | nil => intros; rfl
  | cons x xs ih =>
    intro p q h hx hp
    rw [Impl.answers, List.mem_cons, not_or] at hp
    have := step_wide u hc h x (hx x (by simp)) (fun e => hp.1 e.symm)
    rw [Impl.answers, Impl.answers, this.1, ih this.2 (fun y hy => hx y (by simp [hy])) hp.2]

end Chf
