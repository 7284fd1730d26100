import Verif.Proofs.AlgHash

/-!
# Lemmas: reachable engines stand for logs, and observations in terms of logs
-/

namespace Chf
open Spec

/-- What can be observed of a log after further bytes `x`. -/
def _root_.Chf.Spec.LogSpec.observe {Mid : Type} (S : LogSpec Mid) (s : S.Start) (m x : List Byte) :
    Res (Nat × Res Mid × Res (List Byte)) :=
  if S.accepts s (m.length + x.length) then
    .ok (S.count s (m.length + x.length), .ok (S.mid s (m ++ x)), S.digest s (m ++ x))
  else .error .overflow

theorem Lawful.observe_eq {E : HashEngine} {S : LogSpec E.Midstate} (W : Lawful E S) {e s m}
    (R : W.Rel e s m) (ds : List (List Byte)) (hs : ∀ d ∈ ds, S.slice d.length) :
    E.observe e ds = S.observe s m ds.flatten := by
  unfold HashEngine.observe LogSpec.observe
  cases h : S.accepts s (m.length + ds.flatten.length) with
  | true =>
    obtain ⟨e', h1, R'⟩ := W.inputs_ok ds hs R h
    have h2 := W.count R'
    rw [List.length_append] at h2
    simp only [h1, bind, Except.bind, pure, Except.pure, h2, W.mid R', W.digest R', if_true]
  | false =>
    simp only [W.inputs_err ds hs R h, bind, Except.bind]
    rfl

namespace Alg

theorem typed_log {c : Cfg} : (a : Alg) → ∀ {μ n}, a.Typed c μ n → (a.log c).typed μ n
  | .sha1, _, _, h => ⟨by rw [show (md1.words md1.iv).length = 20 from rfl]; exact h.1, h.2⟩
  | .sha256, _, _, h => ⟨by rw [show (md256.words md256.iv).length = 32 from rfl]; exact h.1, h.2⟩
  | .sha384, _, _, h => ⟨by
      rw [show (md384.words md384.iv).length = 64 from length_serialize8_64 _]; exact h.1, h.2⟩
  | .sha512, _, _, h => ⟨by
      rw [show (md512.words md512.iv).length = 64 from length_serialize8_64 _]; exact h.1, h.2⟩
  | .sha512_256, _, _, h => ⟨by
      rw [show (md512_256.words md512_256.iv).length = 64 from length_serialize8_64 _]
      exact h.1, h.2⟩
  | .ripemd160, _, _, h => ⟨by rw [show (mdRmd.words mdRmd.iv).length = 20 from rfl]; exact h.1, h.2⟩
  | .siphash24, _, _, h => h
  | .sha256t _ _ _, _, _, h =>
      ⟨by rw [show (md256.words md256.iv).length = 32 from rfl]; exact h.1, h.2⟩
  | .hmac a, _, _, h => ⟨a.typed_log h.1, a.typed_log h.2⟩

theorem resume_bound {c : Cfg} : (a : Alg) → ∀ {μ n s}, (a.log c).resume μ n = .ok s →
    a.Bound c s 0 n
  | .sha1, μ, n, s, h => md h
  | .sha256, μ, n, s, h => md h
  | .sha384, μ, n, s, h => md h
  | .sha512, μ, n, s, h => md h
  | .sha512_256, μ, n, s, h => md h
  | .ripemd160, μ, n, s, h => md h
  | .siphash24, μ, n, s, h => Nat.zero_le _
  | .sha256t _ _ _, μ, n, s, h => md (c := c) (r := fun μ _ => .ok (parse8 μ)) h
  | .hmac a, μ, n, s, h => by
      have h' : (do
        let i ← (a.log c).resume (Hmac.Midstate.inner (E := a.engine c) μ) n
        let o ← (a.log c).resume (Hmac.Midstate.outer (E := a.engine c) μ) n
        pure ⟨i, [], o, []⟩ : Res (HmacStart (a.log c).Start)) = .ok s := h
      cases hi : (a.log c).resume (Hmac.Midstate.inner (E := a.engine c) μ) n with
      | error f => rw [hi] at h'; cases h'
      | ok i =>
        cases ho : (a.log c).resume (Hmac.Midstate.outer (E := a.engine c) μ) n with
        | error f => rw [hi, ho] at h'; cases h'
        | ok o =>
          rw [hi, ho] at h'
          cases h'
          exact ⟨a.resume_bound hi, a.resume_bound ho⟩
where
  md {H : Type} {P : Md H} {c : Cfg} {r : List Byte → Nat → Res H} {μ : List Byte} {n : Nat}
      {s : H × Nat} (h : (P.log c r).resume μ n = .ok s) : s.2 + 0 ≤ n := by
    simp only [Md.log] at h
    by_cases hn : n % P.B = 0
    · rw [if_pos hn] at h
      cases hr : r μ n with
      | error f => rw [hr] at h; cases h
      | ok y => rw [hr] at h; cases h; exact Nat.le_refl _
    · rw [if_neg hn] at h; cases h

/-- An HMAC engine made from a key stands for the log of its key block. -/
theorem hmacNew_rel {c : Cfg} (hc : c.Valid) (a : Alg) (ok : (Alg.hmac a).Ok c) {key : List Byte}
    {e : Hmac.Engine (a.engine c)} (hkey : key.length < c.usizeMod)
    (h : Hmac.new c (a.engine c) key = .ok e) :
    ∃ k, (if key.length > a.blockSize then (a.engine c).hash key else .ok key) = .ok k ∧
      k.length ≤ a.blockSize ∧
      ((Alg.hmac a).lawful hc ok).Rel e
        (.ofKey (a.log c).fresh (k ++ List.replicate (a.blockSize - k.length) 0)) [] := by
  have W := a.lawful hc ok.1
  have hB : (a.engine c).blockSize ≤ 128 := by rw [blockSize_eq]; exact a.blockSize_le
  have hacc := a.fresh_accepts ok.1 _ ok.2
  have key_ok : ∀ k, k.length ≤ a.blockSize →
      (if key.length > a.blockSize then (a.engine c).hash key else .ok key) = .ok k →
      ((Alg.hmac a).lawful hc ok).Rel e
        (.ofKey (a.log c).fresh (k ++ List.replicate (a.blockSize - k.length) 0)) [] := by
    intro k hkl hk
    rw [← blockSize_eq c] at hkl hk hacc
    obtain ⟨e', h', R⟩ := Hmac.new_of_key (c := c) (a.lawful hc ok.1) hB hacc hkl hk
    rw [h] at h'
    cases h'
    rw [blockSize_eq] at R
    exact R
  by_cases hgt : key.length > a.blockSize
  · rw [if_pos hgt]
    rw [← blockSize_eq c] at hgt
    cases hh : (a.engine c).hash key with
    | error f =>
      rw [Hmac.new_err W hB hgt hh] at h
      cases h
    | ok k =>
      have hkl : k.length ≤ a.blockSize := by
        have := W.hash key (a.log_slice hkey)
        rw [hh] at this
        split at this
        · rw [W.digest_len this.symm, log_outLen]; exact a.outLen_le
        · cases this
      refine ⟨k, rfl, hkl, key_ok k hkl ?_⟩
      rw [blockSize_eq] at hgt
      rw [if_pos hgt]
      exact hh
  · rw [if_neg hgt]
    exact ⟨key, rfl, by omega, key_ok key (by omega) (by rw [if_neg hgt])⟩

end Alg

/-- Every reachable engine stands for a log, whose counters are bounded by the history's length. -/
theorem History.rel {c : Cfg} (hc : c.Valid) {a : Alg} {k : Nat} {e : (a.engine c).State}
    (h : History c a k e) (ok : a.Ok c) :
    ∃ s m, (a.lawful hc ok).Rel e s m ∧ a.Bound c s m.length k := by
  induction h with
  | @new a e h =>
    obtain ⟨e', h', R⟩ := (a.lawful hc ok).new_rel
    rw [h] at h'; cases h'
    exact ⟨_, _, R, a.fresh_bound c⟩
  | @default a e h =>
    obtain ⟨e', h', R⟩ := (a.lawful hc ok).default_rel
    rw [h] at h'; cases h'
    exact ⟨_, _, R, a.fresh_bound c⟩
  | sipKeys k0 k1 => exact ⟨_, _, Siphash24.withKeys_rel hc k0 k1, Nat.le_refl _⟩
  | @hmacKey a e key hk h =>
    obtain ⟨k, _, hkl, R⟩ := a.hmacNew_rel hc ok hk h
    exact ⟨_, _, R, Alg.ofKey_bound c a _ (by simp; omega)⟩
  | @resume a μ n e ht h =>
    cases hr : (a.log c).resume μ n with
    | error f =>
      rw [(a.lawful hc ok).resume_err (a.typed_log ht) hr] at h
      cases h
    | ok s =>
      obtain ⟨e', h', R⟩ := (a.lawful hc ok).resume_ok (a.typed_log ht) hr
      rw [h] at h'; cases h'
      exact ⟨_, _, R, a.resume_bound hr⟩
  | @input a k e e' d _ hd h ih =>
    obtain ⟨s, m, R, B⟩ := ih ok
    cases hacc : (a.log c).accepts s (m.length + d.length) with
    | true =>
      obtain ⟨e'', h', R'⟩ := (a.lawful hc ok).input_ok d (a.log_slice hd) R hacc
      rw [h] at h'; cases h'
      refine ⟨_, _, R', ?_⟩
      rw [List.length_append]
      exact Alg.Bound.grow a _ B
    | false =>
      rw [(a.lawful hc ok).input_err d (a.log_slice hd) R hacc] at h
      cases h

theorem History.inputs {c : Cfg} {a : Alg} {k : Nat} {e e' : (a.engine c).State} (h : History c a k e)
    (ds : List (List Byte)) (hs : ∀ d ∈ ds, d.length < c.usizeMod)
    (hi : (a.engine c).inputs e ds = .ok e') : History c a (k + ds.flatten.length) e' := by
  induction ds generalizing e k with
  | nil => cases hi; exact h
  | cons d ds ih =>
    simp only [HashEngine.inputs] at hi
    cases hd : (a.engine c).input e d with
    | error f => rw [hd] at hi; cases hi
    | ok e1 =>
      rw [hd] at hi
      have := ih (History.input d h (hs d (by simp)) hd) (fun d hd => hs d (by simp [hd])) hi
      rw [List.flatten_cons, List.length_append, ← Nat.add_assoc]
      exact this

/-- Two engines that stand for logs with the same observations are indistinguishable. -/
theorem obsEq_of {c : Cfg} (hc : c.Valid) {a : Alg} (ok : a.Ok c) {e e' : (a.engine c).State}
    {s m s' m'} (R : (a.lawful hc ok).Rel e s m) (R' : (a.lawful hc ok).Rel e' s' m')
    (h : ∀ x, (a.log c).observe s m x = (a.log c).observe s' m' x) : ObsEq c (a.engine c) e e' := by
  intro ds hs
  rw [(a.lawful hc ok).observe_eq R ds fun d hd => a.log_slice (hs d hd),
    (a.lawful hc ok).observe_eq R' ds fun d hd => a.log_slice (hs d hd), h]

end Chf
