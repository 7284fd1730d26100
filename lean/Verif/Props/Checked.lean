import Verif.Props.Hmac
import Verif.Props.Limits
import Verif.Proofs.Programs

/-!
# Property C64: with overflow checks there are no wrong digests
-/

namespace Chf.Props
open Spec

attribute [local irreducible] iv512_256

/-- A digest, or the panic of an overflow check. -/
def OkOrOverflow (r : Res (List Byte)) (d : List Byte) : Prop := r = .ok d ∨ r = .error .overflow

theorem ite_or {b : Bool} {r : Res (List Byte)} {d : List Byte} (h : OkOrOverflow r d) :
    OkOrOverflow (if b = true then r else .error .overflow) d := by
  cases b with
  | true => exact h
  | false => exact .inr rfl

/-- A Merkle-Damgård log with overflow checks. -/
theorem md_checked {H : Type} (P : Md H) {c : Cfg} (r : List Byte → Nat → Res H)
    (ho : c.overflowChecks = true) (s : H × Nat) (m : List Byte) :
    (P.log c r).digest s m =
      if s.2 + P.paddedLen m.length < 2 ^ c.usizeBits ∧ 8 * (s.2 + m.length) < 2 ^ 64
      then .ok (P.digestWith s.1 m (8 * (s.2 + m.length))) else .error .overflow := by
  show (if c.overflowChecks = true ∧
      ¬ (s.2 + P.paddedLen m.length < 2 ^ c.usizeBits ∧ 8 * (s.2 + m.length) < 2 ^ 64)
    then Except.error Fault.overflow
    else Except.ok (P.digestWith s.1 m (8 * ((s.2 + m.length) % 2 ^ c.usizeBits) % 2 ^ 64))) = _
  by_cases h : s.2 + P.paddedLen m.length < 2 ^ c.usizeBits ∧ 8 * (s.2 + m.length) < 2 ^ 64
  · rw [if_neg (by simp [h]), if_pos h]
    have : m.length ≤ P.paddedLen m.length := by unfold Md.paddedLen; omega
    rw [Nat.mod_eq_of_lt (by omega : s.2 + m.length < _), Nat.mod_eq_of_lt h.2]
  · rw [if_pos ⟨ho, h⟩, if_neg h]

theorem md_or {H : Type} (P : Md H) {c : Cfg} (r : List Byte → Nat → Res H)
    (ho : c.overflowChecks = true) (s : H × Nat) (m : List Byte) :
    OkOrOverflow ((P.log c r).digest s m) (P.digestWith s.1 m (8 * (s.2 + m.length))) := by
  rw [md_checked P r ho]
  split
  · exact .inl rfl
  · exact .inr rfl

/-- HMAC of a log, given the underlying engine's. -/
theorem hmac_or {c : Cfg} (a : Alg) (H : List Byte → List Byte)
    (hH : ∀ x, OkOrOverflow ((a.log c).digest (a.log c).fresh.1 ((a.log c).fresh.2 ++ x)) (H x))
    (kb x : List Byte) :
    OkOrOverflow (((Alg.hmac a).log c).digest (HmacStart.ofKey (a.log c).fresh kb) x)
      (H (kb.map (· ^^^ 0x5c) ++ H (kb.map (· ^^^ 0x36) ++ x))) := by
  have h1 := hH (kb.map (· ^^^ 0x36) ++ x)
  rw [← List.append_assoc] at h1
  have h2 := hH (kb.map (· ^^^ 0x5c) ++ H (kb.map (· ^^^ 0x36) ++ x))
  rw [← List.append_assoc] at h2
  simp only [Alg.log, hmacLog, HmacStart.ofKey]
  rcases h1 with h1 | h1
  · rw [h1]
    simp only [bind, Except.bind]
    split
    · exact h2
    · exact .inr rfl
  · rw [h1]
    exact .inr rfl

/-- With overflow checks, a log of a new engine has the right digest or none. -/
theorem fresh_or {c : Cfg} (ho : c.overflowChecks = true) : (a : Alg) → ∀ x,
    OkOrOverflow ((a.log c).digest (a.log c).fresh.1 ((a.log c).fresh.2 ++ x)) (a.hashSpec x)
  | .sha1, x => by
      rw [Alg.hashSpec, ← digestWith_1 x]
      have := md_or md1 (fun μ _ => .ok (parse5 μ)) ho (iv1, 0) x
      rw [Nat.zero_add] at this
      exact this
  | .sha256, x => by
      rw [Alg.hashSpec, ← digestWith_256 x]
      have := md_or md256 (fun μ _ => .ok (parse8 μ)) ho (iv256, 0) x
      rw [Nat.zero_add] at this
      exact this
  | .sha384, x => by
      rw [Alg.hashSpec, ← digestWith_384 x]
      have := md_or md384 (fun _ _ => .error .expect) ho (iv384, 0) x
      rw [Nat.zero_add] at this
      exact this
  | .sha512, x => by
      rw [Alg.hashSpec, ← digestWith_512 x]
      have := md_or md512 (fun _ _ => .error .expect) ho (iv512, 0) x
      rw [Nat.zero_add] at this
      exact this
  | .sha512_256, x => by
      rw [Alg.hashSpec, ← digestWith_512_256 x]
      have := md_or md512_256 (fun _ _ => .error .expect) ho (iv512_256, 0) x
      rw [Nat.zero_add] at this
      rw [Alg.log, log512_256]
      show OkOrOverflow ((md512_256.log c _).digest (md512_256.iv, 0) x) _
      rw [show md512_256.iv = iv512_256 by rw [md512_256]]
      exact this
  | .ripemd160, x => by
      rw [Alg.hashSpec, ← digestWith_Rmd x]
      have := md_or mdRmd (fun μ _ => .ok (parse5 μ)) ho (ivRmd, 0) x
      rw [Nat.zero_add] at this
      exact this
  | .siphash24, _ => .inl rfl
  | .sha256t mid len data, x => by
      have := md_or md256 (fun μ _ => .ok (parse8 μ)) ho (parse8 mid, len) (data ++ x)
      rw [List.length_append] at this
      exact this
  | .hmac a, x => by
      have := hmac_or a a.hashSpec (fresh_or ho a) (List.replicate a.blockSize 0) x
      rw [← Alg.blockSize_eq c] at this
      simp only [Alg.hashSpec, Spec.hmac, hmacKey, List.length_nil, Nat.not_lt_zero, gt_iff_lt,
        if_false, List.nil_append, Nat.sub_zero, ← Alg.blockSize_eq c]
      exact this

/-- C64: in a build with overflow checks, on any target, hashing any message in any pieces with any
engine type returns the digest of the specification or panics on an overflow check. -/
theorem C64_right_or_panic {c : Cfg} (hc : c.Valid) (ho : c.overflowChecks = true) (a : Alg)
    (ok : a.Ok c) (ds : List (List Byte)) (hs : ∀ d ∈ ds, d.length < c.usizeMod) :
    (a.engine c).hashByteChunks ds = .ok (a.hashSpec ds.flatten) ∨
    (a.engine c).hashByteChunks ds = .error .overflow := by
  rw [(a.lawful hc ok).hashByteChunks ds (fun d hd => a.log_slice (hs d hd))]
  split
  · exact fresh_or ho a _
  · exact .inr rfl

/-- C64 for HMAC with any key. -/
theorem C64_hmac {c : Cfg} (hc : c.Valid) (ho : c.overflowChecks = true) (a : Alg)
    (ok : (Alg.hmac a).Ok c) (key : List Byte) (hk : key.length < c.usizeMod)
    (ds : List (List Byte)) (hs : ∀ d ∈ ds, d.length < c.usizeMod) :
    let r := (do
      let e ← Hmac.new c (a.engine c) key
      let e ← (Hmac.engine c (a.engine c)).inputs e ds
      (Hmac.engine c (a.engine c)).finalize e)
    r = .ok (hmac a.hashSpec a.blockSize key ds.flatten) ∨ r = .error .overflow := by
  have hkey : OkOrOverflow (shortKey c a key)
      (if key.length > a.blockSize then a.hashSpec key else key) := by
    unfold shortKey
    by_cases hgt : key.length > a.blockSize
    · rw [if_pos hgt, if_pos hgt, logHash]
      split
      · exact fresh_or ho a key
      · exact .inr rfl
    · rw [if_neg hgt, if_neg hgt]
      exact .inl rfl
  have hmake : (Alg.hmac a).make c (.hmacKey key) = some (Hmac.new c (a.engine c) key) := rfl
  rcases make_logs hc (.hmac a) ok (.hmacKey key) hk with ⟨h, _⟩ | ⟨f, h1, h2⟩ | ⟨e, s, m, h1, h2, R⟩
  · rw [hmake] at h; cases h
  · rw [hmake] at h1
    simp only [logMake, logHmacKey] at h2
    right
    rw [Option.some.inj h1]
    rcases hkey with hkey | hkey
    · rw [hkey] at h2; cases h2
    · rw [hkey] at h2; cases h2; rfl
  · rw [hmake] at h1
    simp only [logMake, logHmacKey] at h2
    rw [Option.some.inj h1]
    rcases hkey with hkey | hkey
    · rw [hkey] at h2
      cases h2
      have := ((Alg.hmac a).lawful hc ok).inputs_finalize ds
        (fun d hd => (Alg.hmac a).log_slice (hs d hd)) R
      show ((Hmac.engine c (a.engine c)).inputs e ds >>= (Hmac.engine c (a.engine c)).finalize) = _ ∨
        ((Hmac.engine c (a.engine c)).inputs e ds >>= (Hmac.engine c (a.engine c)).finalize) = _
      rw [show ((Hmac.engine c (a.engine c)).inputs e ds >>=
        (Hmac.engine c (a.engine c)).finalize) = _ from this]
      exact ite_or (hmac_or a a.hashSpec (fresh_or ho a) _ _)
    · rw [hkey] at h2; cases h2

/-- C64, which of the two, for the plain hash functions: the digest exactly if the padded message fits
the byte counter and the number of bits fits 64 bits. -/
theorem C64_exact {c : Cfg} (hc : c.Valid) (ho : c.overflowChecks = true) (a : Alg)
    (ha : plain a = true) {B L : Nat} (hBL : blockAndField a = some (B, L)) (ds : List (List Byte))
    (hs : ∀ d ∈ ds, d.length < c.usizeMod) :
    (a.engine c).hashByteChunks ds =
      if paddedTo B L ds.flatten.length < 2 ^ c.usizeBits ∧ 8 * ds.flatten.length < 2 ^ 64
      then .ok (a.hashSpec ds.flatten) else .error .overflow := by
  have key : ∀ {H : Type} (P : Md H) (r : List Byte → Nat → Res H), 0 < P.B → P.B = B → P.L = L →
      (a.engine c).hashByteChunks ds =
        (if (P.log c r).accepts (P.iv, 0) (0 + ds.flatten.length) then
          (P.log c r).digest (P.iv, 0) ds.flatten else .error .overflow) →
      P.digestWith P.iv ds.flatten (8 * ds.flatten.length) = a.hashSpec ds.flatten →
      (a.engine c).hashByteChunks ds =
        if paddedTo B L ds.flatten.length < 2 ^ c.usizeBits ∧ 8 * ds.flatten.length < 2 ^ 64
        then .ok (a.hashSpec ds.flatten) else .error .overflow := by
    intro H P r h0 hB hL hh hd
    rw [hh, md_checked P r ho]
    subst hB hL
    rw [← paddedTo_eq h0, ← hd]
    simp only [Nat.zero_add]
    show (if (!c.overflowChecks || decide (0 + ds.flatten.length < 2 ^ c.usizeBits)) = true then
      if P.paddedLen ds.flatten.length < _ ∧ _ then _ else _ else _) = _
    by_cases h : P.paddedLen ds.flatten.length < 2 ^ c.usizeBits ∧ 8 * ds.flatten.length < 2 ^ 64
    · have : ds.flatten.length ≤ P.paddedLen ds.flatten.length := by unfold Md.paddedLen; omega
      rw [if_pos (by
        rw [Bool.or_eq_true, decide_eq_true_eq]
        right; omega), if_pos h]
      exact (if_pos h).symm
    · rw [if_neg h]
      simp only [ite_self]
      exact (if_neg h).symm
  have hc' : ∀ ok : a.Ok c, _ := fun ok =>
    (a.lawful hc ok).hashByteChunks ds (fun d hd => a.log_slice (hs d hd))
  cases a with
  | sha1 => cases hBL; exact key md1 _ (by decide) rfl rfl (hc' trivial) (digestWith_1 _)
  | sha256 => cases hBL; exact key md256 _ (by decide) rfl rfl (hc' trivial) (digestWith_256 _)
  | sha384 => cases hBL; exact key md384 _ (by decide) rfl rfl (hc' trivial) (digestWith_384 _)
  | sha512 => cases hBL; exact key md512 _ (by decide) rfl rfl (hc' trivial) (digestWith_512 _)
  | sha512_256 =>
    cases hBL
    refine key md512_256 (fun _ _ => .error .expect) (by decide) rfl rfl (hc' trivial) ?_
    rw [show md512_256.iv = iv512_256 by rw [md512_256]]
    exact digestWith_512_256 _
  | ripemd160 => cases hBL; exact key mdRmd _ (by decide) rfl rfl (hc' trivial) (digestWith_Rmd _)
  | siphash24 | sha256t _ _ _ | hmac _ => cases ha

/-- Both cases occur: on a 32-bit debug build a message of a megabyte has a digest, one of four slices
of a gibibyte does not. -/
example : let c := { Cfg.release32 with overflowChecks := true }
    c.Valid ∧ c.overflowChecks = true ∧
    (paddedTo 64 8 [List.replicate 1000000 (0 : Byte)].flatten.length < 2 ^ c.usizeBits ∧
      8 * [List.replicate 1000000 (0 : Byte)].flatten.length < 2 ^ 64) ∧
    (∀ d ∈ List.replicate 4 (List.replicate (2 ^ 30) (0 : Byte)), d.length < c.usizeMod) ∧
    ¬ (paddedTo 64 8 (List.replicate 4 (List.replicate (2 ^ 30) (0 : Byte))).flatten.length
      < 2 ^ c.usizeBits) := by
  refine ⟨by decide, rfl, ?_, ?_, ?_⟩
  · simp only [List.flatten_cons, List.flatten_nil, List.append_nil, List.length_replicate]
    decide
  · intro d hd
    rw [(List.mem_replicate.1 hd).2, List.length_replicate]
    decide
  · simp only [List.length_flatten, List.map_replicate, List.length_replicate, List.sum_replicate_nat]
    decide

end Chf.Props
