import Verif.Proofs.Alg

/-!
# Lemmas: digests of every engine within the length limits
-/

namespace Chf
open Spec

/-- A message of `k` bytes is within the limits: its bit count fits 64 bits, and with the padding
(at most 144 bytes) it fits the byte counter.  On a 64-bit target this is `k < 2 ^ 61`. -/
def Fits (c : Cfg) (k : Nat) : Prop := 8 * k < 2 ^ 64 ∧ k + 144 < c.usizeMod

theorem fits_64 {c : Cfg} (h : c.usizeBits = 64) {k : Nat} (hk : k < 2 ^ 61) : Fits c k := by
  refine ⟨by omega, ?_⟩
  rw [Cfg.usizeMod, h]
  omega

theorem Fits.mono {c : Cfg} {a b : Nat} (h : Fits c b) (hab : a ≤ b) : Fits c a := by
  unfold Fits at *; omega

theorem paddedLen_le {H : Type} {P : Md H} (hB : P.B = 64 ∨ P.B = 128) (hL0 : 8 ≤ P.L) (hL2 : 8 * P.L ≤ P.B) (n : Nat) : P.paddedLen n ≤ n + 144 := by
  have h0 : 0 < P.B := by omega
  have := padZeros_lt h0 P.L n
  unfold Md.paddedLen
  omega

/-- Within the limits a Merkle-Damgård log has the expected digest. -/
theorem Md.digest_fits {H : Type} {P : Md H} {c : Cfg} {r : List Byte → Nat → Res H}
    (hB : P.B = 64 ∨ P.B = 128) (hL0 : 8 ≤ P.L) (hL2 : 8 * P.L ≤ P.B)
    {s : H × Nat} {m : List Byte} {k : Nat} (hk : s.2 + m.length ≤ k) (hf : Fits c k) :
    (P.log c r).digest s m = .ok (P.digestWith s.1 m (8 * (s.2 + m.length))) := by
  obtain ⟨h1, h2⟩ := hf
  have hp := paddedLen_le hB hL0 hL2 m.length
  simp only [Md.log, Cfg.usizeMod] at *
  rw [if_neg (by intro h; omega), Nat.mod_eq_of_lt (by omega : s.2 + m.length < 2 ^ c.usizeBits),
    Nat.mod_eq_of_lt (by omega)]

theorem digestWith_256 (m : List Byte) : md256.digestWith iv256 m (8 * m.length) = sha256 m := by
  show (serialize8 _).take 32 = _
  rw [List.take_of_length_le (by simp)]
  rfl

theorem digestWith_1 (m : List Byte) : md1.digestWith iv1 m (8 * m.length) = sha1 m := by
  show (serialize5 _).take 20 = _
  rw [List.take_of_length_le (by simp)]
  rfl

theorem digestWith_512 (m : List Byte) : md512.digestWith iv512 m (8 * m.length) = sha512 m := by
  show (serialize8 _).take 64 = _
  rw [List.take_of_length_le (by simp)]
  rfl

theorem digestWith_384 (m : List Byte) : md384.digestWith iv384 m (8 * m.length) = sha384 m := rfl

theorem digestWith_512_256 (m : List Byte) :
    md512_256.digestWith iv512_256 m (8 * m.length) = sha512_256 m := rfl

theorem digestWith_Rmd (m : List Byte) : mdRmd.digestWith ivRmd m (8 * m.length) = ripemd160 m := by
  show (serializeRmd _).take 20 = _
  rw [List.take_of_length_le (by simp)]
  rfl

namespace Alg

/-- Room for the inner digests that HMAC feeds to its outer engine. -/
def slack : Alg → Nat
  | .hmac a => a.slack + 64
  | _ => 0

/-- The byte counters of an engine with log length `n` are at most `k`. -/
def Bound (c : Cfg) : (a : Alg) → (a.log c).Start → Nat → Nat → Prop
  | .sha1, s, n, k => Prod.snd (α := Arr5 (BitVec 32)) s + n ≤ k
  | .sha256, s, n, k => Prod.snd (α := Arr8 (BitVec 32)) s + n ≤ k
  | .sha384, s, n, k => Prod.snd (α := Arr8 (BitVec 64)) s + n ≤ k
  | .sha512, s, n, k => Prod.snd (α := Arr8 (BitVec 64)) s + n ≤ k
  | .sha512_256, s, n, k => Prod.snd (α := Arr8 (BitVec 64)) s + n ≤ k
  | .ripemd160, s, n, k => Prod.snd (α := Arr5 (BitVec 32)) s + n ≤ k
  | .siphash24, _, n, k => n ≤ k
  | .sha256t _ _ _, s, n, k => Prod.snd (α := Arr8 (BitVec 32)) s + n ≤ k
  | .hmac a, s, n, k =>
      a.Bound c (HmacStart.inner (Start := (a.log c).Start) s)
        ((HmacStart.innerLog (Start := (a.log c).Start) s).length + n) k ∧
      a.Bound c (HmacStart.outer (Start := (a.log c).Start) s)
        (HmacStart.outerLog (Start := (a.log c).Start) s).length k

theorem Bound.grow {c : Cfg} : (a : Alg) → ∀ {s n k} j, a.Bound c s n k → a.Bound c s (n + j) (k + j)
  | .sha1, _, _, _, _, h => by simp only [Bound] at *; omega
  | .sha256, _, _, _, _, h => by simp only [Bound] at *; omega
  | .sha384, _, _, _, _, h => by simp only [Bound] at *; omega
  | .sha512, _, _, _, _, h => by simp only [Bound] at *; omega
  | .sha512_256, _, _, _, _, h => by simp only [Bound] at *; omega
  | .ripemd160, _, _, _, _, h => by simp only [Bound] at *; omega
  | .siphash24, _, _, _, _, h => by simp only [Bound] at *; omega
  | .sha256t _ _ _, _, _, _, _, h => by simp only [Bound] at *; omega
  | .hmac a, s, n, k, j, h => by
      refine ⟨?_, mono a (Nat.le_add_right k j) h.2⟩
      have := Bound.grow a j h.1
      rw [Nat.add_assoc] at this
      exact this
where
  mono {c : Cfg} : (a : Alg) → ∀ {s n k k'}, k ≤ k' → a.Bound c s n k → a.Bound c s n k'
  | .sha1, _, _, _, _, hk, h => Nat.le_trans h hk
  | .sha256, _, _, _, _, hk, h => Nat.le_trans h hk
  | .sha384, _, _, _, _, hk, h => Nat.le_trans h hk
  | .sha512, _, _, _, _, hk, h => Nat.le_trans h hk
  | .sha512_256, _, _, _, _, hk, h => Nat.le_trans h hk
  | .ripemd160, _, _, _, _, hk, h => Nat.le_trans h hk
  | .siphash24, _, _, _, _, hk, h => Nat.le_trans h hk
  | .sha256t _ _ _, _, _, _, _, hk, h => Nat.le_trans h hk
  | .hmac a, _, _, _, _, hk, h => ⟨mono a hk h.1, mono a hk h.2⟩

theorem Bound.accepts {c : Cfg} : (a : Alg) → ∀ {s n k}, a.Bound c s n k → k < c.usizeMod →
    (a.log c).accepts s n = true
  | .sha1, _, _, _, h, hk => md h hk
  | .sha256, _, _, _, h, hk => md h hk
  | .sha384, _, _, _, h, hk => md h hk
  | .sha512, _, _, _, h, hk => md h hk
  | .sha512_256, _, _, _, h, hk => md h hk
  | .ripemd160, _, _, _, h, hk => md h hk
  | .siphash24, _, _, _, h, hk => by
      simp only [log, logSip, Bool.or_eq_true, decide_eq_true_eq]
      right; simp only [Bound, Cfg.usizeMod] at *; omega
  | .sha256t _ _ _, _, _, _, h, hk => md h hk
  | .hmac a, _, _, _, h, hk => Bound.accepts a h.1 hk
where
  md {c : Cfg} {a n k : Nat} (h : a + n ≤ k) (hk : k < c.usizeMod) :
      (!c.overflowChecks || decide (a + n < 2 ^ c.usizeBits)) = true := by
    simp only [Bool.or_eq_true, decide_eq_true_eq]
    right; simp only [Cfg.usizeMod] at *; omega

theorem Bound.digest {c : Cfg} (hc : c.Valid) : (a : Alg) → a.Ok c → ∀ {s m k},
    a.Bound c s (List.length m) k → Fits c (k + a.slack) → ∃ d, (a.log c).digest s m = .ok d
  | .sha1, _, _, _, _, h, hf => ⟨_, Md.digest_fits (.inl rfl) (by decide) (by decide) h hf⟩
  | .sha256, _, _, _, _, h, hf => ⟨_, Md.digest_fits (.inl rfl) (by decide) (by decide) h hf⟩
  | .sha384, _, _, _, _, h, hf => ⟨_, Md.digest_fits (.inr rfl) (by decide) (by decide) h hf⟩
  | .sha512, _, _, _, _, h, hf => ⟨_, Md.digest_fits (.inr rfl) (by decide) (by decide) h hf⟩
  | .sha512_256, _, _, _, _, h, hf => ⟨_, Md.digest_fits (.inr rfl) (by decide) (by decide) h hf⟩
  | .ripemd160, _, _, _, _, h, hf => ⟨_, Md.digest_fits (.inl rfl) (by decide) (by decide) h hf⟩
  | .siphash24, _, _, _, _, _, _ => ⟨_, rfl⟩
  | .sha256t _ _ _, _, _, _, _, h, hf => ⟨_, Md.digest_fits (r := fun μ _ => .ok (parse8 μ)) (.inl rfl) (by decide) (by decide) h hf⟩
  | .hmac a, ok, s, m, k, h, hf => by
      have hf : Fits c (k + (a.slack + 64)) := hf
      obtain ⟨h1, h2⟩ := h
      rw [← List.length_append] at h1
      obtain ⟨ih, hih⟩ := Bound.digest hc a ok.1 h1 (hf.mono (by omega))
      have hl : ih.length = a.outLen := by
        rw [← a.log_outLen c]; exact (a.lawful hc ok.1).digest_len hih
      have hl64 : ih.length ≤ 64 := by
        have := (a.lawful hc ok.1).out_le
        rw [log_outLen] at this; omega
      have h3 := Bound.grow a ih.length h2
      have hacc := Bound.accepts a h3 (by have := hf.2; omega)
      rw [← List.length_append] at h3
      obtain ⟨d, hd⟩ := Bound.digest hc a ok.1 h3 (hf.mono (by omega))
      refine ⟨d, ?_⟩
      simp only [log, hmacLog, hih, bind, Except.bind, hacc, if_true]
      exact hd

theorem fresh_bound (c : Cfg) : (a : Alg) →
    a.Bound c (a.log c).fresh.1 (a.log c).fresh.2.length a.base
  | .sha1 | .sha256 | .sha384 | .sha512 | .sha512_256 | .ripemd160 | .siphash24 => Nat.le_refl _
  | .sha256t _ _ _ => Nat.le_refl _
  | .hmac a => by
      have := Bound.grow a a.blockSize (a.fresh_bound c)
      simp only [Bound, log, hmacLog, HmacStart.ofKey, List.length_append, List.length_map,
        List.length_replicate, blockSize_eq, List.length_nil, Nat.add_zero, base]
      exact ⟨this, this⟩

/-- The start of HMAC for a key block. -/
theorem ofKey_bound (c : Cfg) (a : Alg) (kb : List Byte) (hk : kb.length = a.blockSize) :
    (Alg.hmac a).Bound c (HmacStart.ofKey (a.log c).fresh kb) 0 (a.base + a.blockSize) := by
  have := Bound.grow a a.blockSize (a.fresh_bound c)
  simp only [Bound, HmacStart.ofKey, List.length_append, List.length_map, hk, Nat.add_zero]
  exact ⟨this, this⟩

/-- HMAC of a log, given the digests of the underlying engine's logs. -/
theorem hmac_digest {c : Cfg} (a : Alg) (H : List Byte → List Byte)
    (hH : ∀ x, Fits c (a.base + x.length + a.slack) →
      (a.log c).digest (a.log c).fresh.1 ((a.log c).fresh.2 ++ x) = .ok (H x))
    (hlen : ∀ x, (H x).length ≤ 64) (kb : List Byte) (hk : kb.length = a.blockSize) (x : List Byte)
    (hf : Fits c (a.base + a.blockSize + x.length + (a.slack + 64))) :
    ((Alg.hmac a).log c).digest (HmacStart.ofKey (a.log c).fresh kb) x =
      .ok (H (kb.map (· ^^^ 0x5c) ++ H (kb.map (· ^^^ 0x36) ++ x))) := by
  simp only [log, hmacLog, HmacStart.ofKey]
  have h1 := hH (kb.map (· ^^^ 0x36) ++ x) (hf.mono (by
    simp only [List.length_append, List.length_map, hk]
    omega))
  rw [← List.append_assoc] at h1
  rw [h1]
  simp only [bind, Except.bind]
  have hl := hlen (kb.map (· ^^^ 0x36) ++ x)
  have h2 := hH (kb.map (· ^^^ 0x5c) ++ H (kb.map (· ^^^ 0x36) ++ x)) (hf.mono (by
    simp only [List.length_append, List.length_map, hk]
    omega))
  rw [if_pos, List.append_assoc]
  · exact h2
  · have h3 := Bound.grow a (a.blockSize + (H (kb.map (· ^^^ 0x36) ++ x)).length) (a.fresh_bound c)
    have h4 := Bound.accepts a h3 (by have := hf.2; omega)
    simp only [List.length_append, List.length_map, hk, Nat.add_assoc] at h4 ⊢
    exact h4

/-- Every hash function has digests of the advertised length. -/
theorem hashSpec_length : (a : Alg) → ∀ m, (a.hashSpec m).length = a.outLen
  | .sha1, m => by show (serialize5 _).length = 20; simp
  | .sha256, m => by show (serialize8 _).length = 32; simp
  | .sha384, m => by
      show ((serialize8 (w := 64) _).take 48).length = 48
      rw [List.length_take]; simp
  | .sha512, m => by show (serialize8 (w := 64) _).length = 64; simp
  | .sha512_256, m => by
      show ((serialize8 (w := 64) _).take 32).length = 32
      rw [List.length_take]; simp
  | .ripemd160, m => by show (serializeRmd _).length = 20; simp
  | .siphash24, m => by show (leBytes 8 _).length = 8; simp
  | .sha256t _ _ _, m => by
      show ((serialize8 (w := 32) _).take 32).length = 32
      rw [List.length_take]; simp
  | .hmac a, m => a.hashSpec_length _

/-- The digest of what is input into a new engine. -/
theorem fresh_digest {c : Cfg} (hc : c.Valid) : (a : Alg) → a.Ok c → ∀ x,
    Fits c (a.base + List.length x + a.slack) →
    (a.log c).digest (a.log c).fresh.1 ((a.log c).fresh.2 ++ x) = .ok (a.hashSpec x)
  | .sha1, _, x, hf => by
      rw [hashSpec, ← digestWith_1 x]
      have := Md.digest_fits (P := md1) (r := fun μ _ => .ok (parse5 μ)) (s := (iv1, 0)) (m := x)
        (.inl rfl) (by decide) (by decide) (Nat.le_refl _) (hf.mono (by simp [base, slack]))
      rw [Nat.zero_add] at this
      exact this
  | .sha256, _, x, hf => by
      rw [hashSpec, ← digestWith_256 x]
      have := Md.digest_fits (P := md256) (r := fun μ _ => .ok (parse8 μ)) (s := (iv256, 0)) (m := x)
        (.inl rfl) (by decide) (by decide) (Nat.le_refl _) (hf.mono (by simp [base, slack]))
      rw [Nat.zero_add] at this
      exact this
  | .sha384, _, x, hf => by
      rw [hashSpec, ← digestWith_384 x]
      have := Md.digest_fits (P := md384) (r := fun _ _ => .error .expect) (s := (iv384, 0)) (m := x)
        (.inr rfl) (by decide) (by decide) (Nat.le_refl _) (hf.mono (by simp [base, slack]))
      rw [Nat.zero_add] at this
      exact this
  | .sha512, _, x, hf => by
      rw [hashSpec, ← digestWith_512 x]
      have := Md.digest_fits (P := md512) (r := fun _ _ => .error .expect) (s := (iv512, 0)) (m := x)
        (.inr rfl) (by decide) (by decide) (Nat.le_refl _) (hf.mono (by simp [base, slack]))
      rw [Nat.zero_add] at this
      exact this
  | .sha512_256, _, x, hf => by
      rw [hashSpec, ← digestWith_512_256 x]
      have := Md.digest_fits (P := md512_256) (r := fun _ _ => .error .expect) (s := (iv512_256, 0))
        (m := x) (.inr rfl) (by decide) (by decide) (Nat.le_refl _) (hf.mono (by simp [base, slack]))
      rw [Nat.zero_add] at this
      rw [log, log512_256]
      show (md512_256.log c _).digest (md512_256.iv, 0) x = _
      rw [show md512_256.iv = iv512_256 by rw [md512_256]]
      dsimp only at this
      exact this
  | .ripemd160, _, x, hf => by
      rw [hashSpec, ← digestWith_Rmd x]
      have := Md.digest_fits (P := mdRmd) (r := fun μ _ => .ok (parse5 μ)) (s := (ivRmd, 0)) (m := x)
        (.inl rfl) (by decide) (by decide) (Nat.le_refl _) (hf.mono (by simp [base, slack]))
      rw [Nat.zero_add] at this
      exact this
  | .siphash24, _, _, _ => rfl
  | .sha256t mid len data, _, x, hf => by
      have := Md.digest_fits (P := md256) (r := fun μ _ => .ok (parse8 μ)) (s := (parse8 mid, len))
        (m := data ++ x) (.inl rfl) (by decide) (by decide) (Nat.le_refl _)
        (hf.mono (by simp [base, slack]; omega))
      rw [List.length_append] at this
      exact this
  | .hmac a, ok, x, hf => by
      have := hmac_digest a a.hashSpec (a.fresh_digest hc ok.1)
        (fun m => by
          rw [hashSpec_length]
          have := (a.lawful hc ok.1).out_le
          rwa [log_outLen] at this)
        (List.replicate a.blockSize 0) (by simp) x (by simpa [base, slack] using hf)
      rw [← blockSize_eq c] at this
      simp only [hashSpec, Spec.hmac, hmacKey, List.length_nil, Nat.not_lt_zero, gt_iff_lt,
        if_false, List.nil_append, Nat.sub_zero, ← blockSize_eq c]
      exact this

/-- `hash_byte_chunks` of every engine. -/
theorem hashByteChunks_eq {c : Cfg} (hc : c.Valid) (a : Alg) (ok : a.Ok c) (ds : List (List Byte))
    (hs : ∀ d ∈ ds, d.length < c.usizeMod)
    (hf : Fits c (a.base + ds.flatten.length + a.slack)) :
    (a.engine c).hashByteChunks ds = .ok (a.hashSpec ds.flatten) := by
  rw [(a.lawful hc ok).hashByteChunks ds (fun d hd => a.log_slice (hs d hd)), if_pos]
  · exact a.fresh_digest hc ok _ hf
  · exact a.fresh_accepts ok _ (by have := hf.2; omega)

end Alg

theorem length_le_flatten {α} {ds : List (List α)} {d : List α} (h : d ∈ ds) :
    d.length ≤ ds.flatten.length := by
  induction ds with
  | nil => cases h
  | cons x xs ih =>
    rw [List.flatten_cons, List.length_append]
    rcases List.mem_cons.1 h with rfl | h
    · omega
    · have := ih h; omega

end Chf
