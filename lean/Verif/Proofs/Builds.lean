import Verif.Model.Run
import Verif.Proofs.History

/-!
# Lemmas: builds that agree on `usize` and overflow checks run programs alike
-/

namespace Chf
open Spec

/-- The two builds have the same integer arithmetic. -/
structure SameArith (c c' : Cfg) : Prop where
  bits : c.usizeBits = c'.usizeBits
  checks : c.overflowChecks = c'.overflowChecks

/-- Two log specifications with the same observations. -/
structure LogRel {M M' : Type} (V : M → MidVal) (V' : M' → MidVal) (S : LogSpec M) (S' : LogSpec M') where
  St : S.Start → S'.Start → Prop
  fresh : St S.fresh.1 S'.fresh.1
  freshLog : S.fresh.2 = S'.fresh.2
  accepts : ∀ {s s'} n, St s s' → S.accepts s n = S'.accepts s' n
  count : ∀ {s s'} n, St s s' → S.count s n = S'.count s' n
  digest : ∀ {s s'} m, St s s' → S.digest s m = S'.digest s' m
  mid : ∀ {s s'} m, St s s' → V (S.mid s m) = V' (S'.mid s' m)
  resume : ∀ {μ μ'} n, V μ = V' μ' →
    (∃ f, S.resume μ n = .error f ∧ S'.resume μ' n = .error f) ∨
    ∃ s s', S.resume μ n = .ok s ∧ S'.resume μ' n = .ok s' ∧ St s s'

/-- The relation for Merkle-Damgård engines. -/
def LogRel.md {H : Type} (P : Md H) {c c' : Cfg} (h : SameArith c c') (r : List Byte → Nat → Res H) :
    LogRel MidVal.bytes MidVal.bytes (P.log c r) (P.log c' r) where
  St := fun s s' : H × Nat => s = s'
  fresh := rfl
  freshLog := rfl
  accepts _ e := by cases e; simp only [Md.log, h.bits, h.checks]
  count _ e := by cases e; simp only [Md.log, h.bits]
  digest _ e := by cases e; simp only [Md.log, h.bits, h.checks]
  mid _ e := by cases e; rfl
  resume {μ μ'} n e := by
    cases (show μ = μ' by injection e)
    show (∃ f, (P.log c r).resume μ n = .error f ∧ (P.log c r).resume μ n = .error f) ∨
      ∃ s s', (P.log c r).resume μ n = .ok s ∧ (P.log c r).resume μ n = .ok s' ∧ s = s'
    cases hr : (P.log c r).resume μ n with
    | error f => exact .inl ⟨f, rfl, rfl⟩
    | ok s => exact .inr ⟨s, s, rfl, rfl, rfl⟩

/-- HMAC preserves the relation. -/
def LogRel.hmac {M M' N N' : Type} {V : M → MidVal} {V' : M' → MidVal} {S : LogSpec M} {S' : LogSpec M'}
    (R : LogRel V V' S S') {B B' : Nat} (hB : B = B') (mk : M → M → N) (mk' : M' → M' → N') (inner outer : N → M)
    (inner' outer' : N' → M') (h1 : ∀ i o, inner (mk i o) = i) (h2 : ∀ i o, outer (mk i o) = o)
    (h1' : ∀ i o, inner' (mk' i o) = i) (h2' : ∀ i o, outer' (mk' i o) = o) :
    LogRel (fun μ => .pair (V (inner μ)) (V (outer μ))) (fun μ => .pair (V' (inner' μ)) (V' (outer' μ)))
      (hmacLog S B mk inner outer) (hmacLog S' B' mk' inner' outer') where
  St s s' := R.St s.inner s'.inner ∧ s.innerLog = s'.innerLog ∧ R.St s.outer s'.outer ∧
    s.outerLog = s'.outerLog
  fresh := ⟨R.fresh, by simp [hmacLog, HmacStart.ofKey, R.freshLog, hB], R.fresh,
    by simp [hmacLog, HmacStart.ofKey, R.freshLog, hB]⟩
  freshLog := rfl
  accepts {s s'} n h := by simp only [hmacLog, h.2.1, R.accepts _ h.1]
  count {s s'} n h := by simp only [hmacLog, h.2.1, R.count _ h.1]
  digest {s s'} n h := by
    simp only [hmacLog, h.2.1, h.2.2.2, R.digest _ h.1, R.digest _ h.2.2.1, R.accepts _ h.2.2.1]
  mid {s s'} m h := by simp only [hmacLog, h1, h2, h1', h2', h.2.1, h.2.2.2, R.mid _ h.1, R.mid _ h.2.2.1]
  resume {μ μ'} n h := by
    injection h with hi ho
    simp only [hmacLog]
    rcases R.resume n hi with ⟨f, e1, e2⟩ | ⟨s, s', e1, e2, e3⟩
    · exact .inl ⟨f, by rw [e1]; rfl, by rw [e2]; rfl⟩
    · rcases R.resume n ho with ⟨f, g1, g2⟩ | ⟨t, t', g1, g2, g3⟩
      · exact .inl ⟨f, by rw [e1, g1]; rfl, by rw [e2, g2]; rfl⟩
      · exact .inr ⟨⟨s, [], t, []⟩, ⟨s', [], t', []⟩, by rw [e1, g1]; rfl, by rw [e2, g2]; rfl,
          e3, rfl, g3, rfl⟩

namespace Alg

/-- The logs of an engine in two builds. -/
def logRel {c c' : Cfg} (h : SameArith c c') : (a : Alg) →
    LogRel (a.showMid c) (a.showMid c') (a.log c) (a.log c')
  | .sha1 => LogRel.md md1 h _
  | .sha256 => LogRel.md md256 h _
  | .sha384 => LogRel.md md384 h _
  | .sha512 => LogRel.md md512 h _
  | .sha512_256 => LogRel.md md512_256 h _
  | .ripemd160 => LogRel.md mdRmd h _
  | .siphash24 =>
    { St := Eq
      fresh := rfl
      freshLog := rfl
      accepts := fun n e => by simp only [log, logSip, h.bits, h.checks]
      count := fun n e => by simp only [log, logSip, h.bits]
      digest := fun m e => by cases e; rfl
      mid := fun m e => by cases e; rfl
      resume := fun {μ μ'} n e => by
        cases (show μ = μ' by injection e)
        exact .inr ⟨_, _, rfl, rfl, rfl⟩ }
  | .sha256t mid len data =>
    let R := LogRel.md md256 h fun μ _ => .ok (parse8 μ)
    { St := R.St
      fresh := rfl
      freshLog := rfl
      accepts := R.accepts
      count := R.count
      digest := R.digest
      mid := R.mid
      resume := R.resume }
  | .hmac a =>
    (a.logRel h).hmac (by rw [blockSize_eq, blockSize_eq])
      (N := Hmac.Midstate (a.engine c)) (N' := Hmac.Midstate (a.engine c'))
      (fun i o => { inner := i, outer := o }) (fun i o => { inner := i, outer := o })
      (·.inner) (·.outer) (·.inner) (·.outer) (fun _ _ => rfl) (fun _ _ => rfl) (fun _ _ => rfl)
      (fun _ _ => rfl)

theorem readMid_same {c c' : Cfg} (h : c.usizeBits = c'.usizeBits) : (a : Alg) → (v : MidVal) → ∀ n, n < c.usizeMod →
    (a.readMid c v = none ∧ a.readMid c' v = none) ∨
    ∃ μ μ', a.readMid c v = some μ ∧ a.readMid c' v = some μ' ∧ a.showMid c μ = a.showMid c' μ' ∧
      a.Typed c μ n ∧ a.Typed c' μ' n
  | .sha1, .bytes bs, n, hn => md h bs 20 n hn
  | .sha256, .bytes bs, n, hn => md h bs 32 n hn
  | .sha384, .bytes bs, n, hn => md h bs 64 n hn
  | .sha512, .bytes bs, n, hn => md h bs 64 n hn
  | .sha512_256, .bytes bs, n, hn => md h bs 64 n hn
  | .ripemd160, .bytes bs, n, hn => md h bs 20 n hn
  | .sha256t _ _ _, .bytes bs, n, hn => md h bs 32 n hn
  | .siphash24, .sip s, n, hn => .inr ⟨s, s, rfl, rfl, rfl, hn, by
      simp only [Typed, Cfg.usizeMod] at *; rw [← h]; exact hn⟩
  | .hmac a, .pair i o, n, hn => by
      rcases a.readMid_same h i n hn with ⟨e1, e2⟩ | ⟨μ, μ', e1, e2, e3, e4, e5⟩
      · exact .inl ⟨by simp only [readMid, e1], by simp only [readMid, e2]⟩
      · rcases a.readMid_same h o n hn with ⟨f1, f2⟩ | ⟨ν, ν', f1, f2, f3, f4, f5⟩
        · exact .inl ⟨by simp only [readMid, e1, f1], by simp only [readMid, e2, f2]⟩
        · exact .inr ⟨_, _, by simp only [readMid, e1, f1]; rfl, by simp only [readMid, e2, f2]; rfl,
            by simp only [showMid, e3, f3], ⟨e4, f4⟩, ⟨e5, f5⟩⟩
  | .sha1, .sip _, _, _ | .sha1, .pair _ _, _, _ | .sha256, .sip _, _, _ | .sha256, .pair _ _, _, _
  | .sha384, .sip _, _, _ | .sha384, .pair _ _, _, _ | .sha512, .sip _, _, _
  | .sha512, .pair _ _, _, _ | .sha512_256, .sip _, _, _ | .sha512_256, .pair _ _, _, _
  | .ripemd160, .sip _, _, _ | .ripemd160, .pair _ _, _, _ | .siphash24, .bytes _, _, _
  | .siphash24, .pair _ _, _, _ => .inl ⟨rfl, rfl⟩
  | .sha256t _ _ _, .sip _, _, _ => .inl ⟨rfl, rfl⟩
  | .sha256t _ _ _, .pair _ _, _, _ => .inl ⟨rfl, rfl⟩
  | .hmac _, .bytes _, _, _ => .inl ⟨rfl, rfl⟩
  | .hmac _, .sip _, _, _ => .inl ⟨rfl, rfl⟩
where
  md {c c' : Cfg} (h : c.usizeBits = c'.usizeBits) (bs : List Byte) (k n : Nat) (hn : n < c.usizeMod) :
      ((if bs.length = k then some bs else none) = none ∧
        (if bs.length = k then some bs else none) = none) ∨
      ∃ μ μ', (if bs.length = k then some bs else none) = some μ ∧
        (if bs.length = k then some bs else none) = some μ' ∧ MidVal.bytes μ = MidVal.bytes μ' ∧
        (μ.length = k ∧ n < c.usizeMod) ∧ (μ'.length = k ∧ n < c'.usizeMod) := by
    by_cases hb : bs.length = k
    · exact .inr ⟨bs, bs, if_pos hb, if_pos hb, rfl, ⟨hb, hn⟩, hb, by
        simp only [Cfg.usizeMod] at *; rw [← h]; exact hn⟩
    · exact .inl ⟨if_neg hb, if_neg hb⟩

theorem Ok.same {c c' : Cfg} (h : c.usizeBits = c'.usizeBits) : (a : Alg) → a.Ok c → a.Ok c'
  | .sha1, _ | .sha256, _ | .sha384, _ | .sha512, _ | .sha512_256, _ | .ripemd160, _
  | .siphash24, _ => trivial
  | .sha256t _ _ _, ⟨h1, h2, h3⟩ => ⟨h1, h2, by simp only [Cfg.usizeMod] at *; rw [← h]; exact h3⟩
  | .hmac a, ⟨h1, h2⟩ => ⟨Ok.same h a h1, by simp only [Cfg.usizeMod] at *; rw [← h]; exact h2⟩

/-- Hashing in two builds. -/
theorem hash_same {c c' : Cfg} (h : SameArith c c') (hc : c.Valid) (hc' : c'.Valid) (a : Alg)
    (ok : a.Ok c) (m : List Byte) (hm : m.length < c.usizeMod) :
    (a.engine c).hash m = (a.engine c').hash m := by
  have hm' : m.length < c'.usizeMod := by simp only [Cfg.usizeMod] at *; rw [← h.bits]; exact hm
  rw [(a.lawful hc ok).hash m (a.log_slice hm), (a.lawful hc' (Ok.same h.bits a ok)).hash m (a.log_slice hm'),
    (a.logRel h).freshLog, (a.logRel h).accepts _ (a.logRel h).fresh,
    (a.logRel h).digest _ (a.logRel h).fresh]

/-- The engines that a program makes in two builds: both make none, both panic with the same fault,
or they stand for related logs. -/
theorem make_same {c c' : Cfg} (h : SameArith c c') (hc : c.Valid) (hc' : c'.Valid) (a : Alg)
    (ok : a.Ok c) (mk : Make) (ht : mk.Typed c) :
    (a.make c mk = none ∧ a.make c' mk = none) ∨
    (∃ f, a.make c mk = some (.error f) ∧ a.make c' mk = some (.error f)) ∨
    ∃ e e' s s' m, a.make c mk = some (.ok e) ∧ a.make c' mk = some (.ok e') ∧
      (a.logRel h).St s s' ∧ (a.lawful hc ok).Rel e s m ∧
      (a.lawful hc' (Ok.same h.bits a ok)).Rel e' s' m := by
  cases mk with
  | new =>
    obtain ⟨e, e1, e2⟩ := (a.lawful hc ok).new_rel
    obtain ⟨e', e1', e2'⟩ := (a.lawful hc' (Ok.same h.bits a ok)).new_rel
    refine .inr (.inr ⟨e, e', _, _, _, by simp only [make, e1], by simp only [make, e1'],
      (a.logRel h).fresh, e2, ?_⟩)
    rw [(a.logRel h).freshLog]
    exact e2'
  | default =>
    obtain ⟨e, e1, e2⟩ := (a.lawful hc ok).default_rel
    obtain ⟨e', e1', e2'⟩ := (a.lawful hc' (Ok.same h.bits a ok)).default_rel
    refine .inr (.inr ⟨e, e', _, _, _, by simp only [make, e1], by simp only [make, e1'],
      (a.logRel h).fresh, e2, ?_⟩)
    rw [(a.logRel h).freshLog]
    exact e2'
  | sipKeys k0 k1 =>
    cases a with
    | siphash24 =>
      exact .inr (.inr ⟨_, _, _, _, _, rfl, rfl, rfl, Siphash24.withKeys_rel hc k0 k1,
        Siphash24.withKeys_rel hc' k0 k1⟩)
    | _ => exact .inl ⟨rfl, rfl⟩
  | hmacKey key =>
    cases a with
    | hmac a =>
      have hk : key.length < c.usizeMod := ht
      have hk' : key.length < c'.usizeMod := by
        simp only [Cfg.usizeMod] at *; rw [← h.bits]; exact hk
      have ok' := Ok.same h.bits (.hmac a) ok
      have hB : (a.engine c).blockSize ≤ 128 := by rw [blockSize_eq]; exact a.blockSize_le
      have hB' : (a.engine c').blockSize ≤ 128 := by rw [blockSize_eq]; exact a.blockSize_le
      have good : ∀ k, (if key.length > a.blockSize then (a.engine c).hash key else .ok key) = .ok k →
          k.length ≤ a.blockSize →
          ∃ e e' s s' m, (Alg.hmac a).make c (.hmacKey key) = some (.ok e) ∧
            (Alg.hmac a).make c' (.hmacKey key) = some (.ok e') ∧
            ((Alg.hmac a).logRel h).St s s' ∧ ((Alg.hmac a).lawful hc ok).Rel e s m ∧
            ((Alg.hmac a).lawful hc' ok').Rel e' s' m := by
        intro k hk1 hk2
        have hk3 := hk1
        rw [hash_same h hc hc' a ok.1 key hk] at hk3
        have hacc := a.fresh_accepts ok.1 _ ok.2
        have hacc' := a.fresh_accepts ok'.1 _ ok'.2
        rw [← blockSize_eq c] at hk1 hacc
        rw [← blockSize_eq c'] at hk3 hacc'
        obtain ⟨e, e1, e2⟩ := Hmac.new_of_key (c := c) (a.lawful hc ok.1) hB hacc
          (by rw [blockSize_eq]; exact hk2) hk1
        obtain ⟨e', e1', e2'⟩ := Hmac.new_of_key (c := c') (a.lawful hc' ok'.1) hB' hacc'
          (by rw [blockSize_eq]; exact hk2) hk3
        refine ⟨e, e', _, _, _, by simp only [make, e1]; rfl, by simp only [make, e1']; rfl, ?_, e2, e2'⟩
        refine ⟨(a.logRel h).fresh, ?_, (a.logRel h).fresh, ?_⟩ <;>
          simp only [HmacStart.ofKey, (a.logRel h).freshLog, blockSize_eq]
      by_cases hgt : key.length > a.blockSize
      · cases hh : (a.engine c).hash key with
        | error f =>
          have hh' := hh
          rw [hash_same h hc hc' a ok.1 key hk] at hh'
          refine .inr (.inl ⟨f, ?_, ?_⟩)
          · simp only [make]
            rw [Hmac.new_err (a.lawful hc ok.1) hB (by rw [blockSize_eq]; exact hgt) hh]
            rfl
          · simp only [make]
            rw [Hmac.new_err (a.lawful hc' ok'.1) hB' (by rw [blockSize_eq]; exact hgt) hh']
            rfl
        | ok k =>
          have hkl : k.length ≤ a.blockSize := by
            have := (a.lawful hc ok.1).hash key (a.log_slice hk)
            rw [hh] at this
            split at this
            · rw [(a.lawful hc ok.1).digest_len this.symm, log_outLen]; exact a.outLen_le
            · cases this
          exact .inr (.inr (good k (by rw [if_pos hgt]; exact hh) hkl))
      · exact .inr (.inr (good key (by rw [if_neg hgt]) (by omega)))
    | _ => exact .inl ⟨rfl, rfl⟩
  | resume v n =>
    have hmk : ∀ c'', a.make c'' (.resume v n) =
        (a.readMid c'' v).map fun μ => (a.engine c'').fromMidstate μ n := by
      intro c''; cases a <;> rfl
    rw [hmk, hmk]
    rcases a.readMid_same h.bits v n ht with ⟨e1, e2⟩ | ⟨μ, μ', e1, e2, e3, e4, e5⟩
    · exact .inl ⟨by rw [e1]; rfl, by rw [e2]; rfl⟩
    · rw [e1, e2]
      simp only [Option.map_some]
      rcases (a.logRel h).resume n e3 with ⟨f, g1, g2⟩ | ⟨s, s', g1, g2, g3⟩
      · refine .inr (.inl ⟨f, ?_, ?_⟩)
        · rw [(a.lawful hc ok).resume_err (a.typed_log e4) g1]
        · rw [(a.lawful hc' (Ok.same h.bits a ok)).resume_err (a.typed_log e5) g2]
      · obtain ⟨e, h1, h2⟩ := (a.lawful hc ok).resume_ok (a.typed_log e4) g1
        obtain ⟨e', h1', h2'⟩ := (a.lawful hc' (Ok.same h.bits a ok)).resume_ok (a.typed_log e5) g2
        exact .inr (.inr ⟨e, e', s, s', [], by rw [h1], by rw [h1'], g3, h2, h2'⟩)

/-- Programs run alike in two builds. -/
theorem run_same {c c' : Cfg} (h : SameArith c c') (hc : c.Valid) (hc' : c'.Valid) (a : Alg)
    (ok : a.Ok c) (mk : Make) (ht : mk.Typed c) (ds : List (List Byte))
    (hs : ∀ d ∈ ds, d.length < c.usizeMod) : a.run c mk ds = a.run c' mk ds := by
  have hs' : ∀ d ∈ ds, d.length < c'.usizeMod := by
    intro d hd; have := hs d hd; simp only [Cfg.usizeMod] at *; rw [← h.bits]; exact this
  unfold run
  rcases make_same h hc hc' a ok mk ht with ⟨e1, e2⟩ | ⟨f, e1, e2⟩ | ⟨e, e', s, s', m, e1, e2, St, R, R'⟩
  · rw [e1, e2]; rfl
  · rw [e1, e2]; rfl
  · rw [e1, e2]
    simp only [Option.map_some, bind, Except.bind]
    rw [(a.lawful hc ok).observe_eq R ds fun d hd => a.log_slice (hs d hd),
      (a.lawful hc' (Ok.same h.bits a ok)).observe_eq R' ds fun d hd => a.log_slice (hs' d hd)]
    unfold LogSpec.observe
    rw [(a.logRel h).accepts _ St]
    cases (a.log c').accepts s' (m.length + ds.flatten.length) with
    | false => rfl
    | true =>
      simp only [if_true, Except.map, (a.logRel h).count _ St, (a.logRel h).digest _ St,
        (a.logRel h).mid _ St]

end Alg
end Chf
