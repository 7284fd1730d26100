import Verif.Spec.AlgLog
import Verif.Proofs.MdEngine
import Verif.Proofs.Siphash
import Verif.Proofs.Hmac

/-!
# Lemmas: every engine of the crate simulates its log
-/

namespace Chf
open Spec

theorem usizeMod_ge {c : Cfg} (hc : c.Valid) : 65536 ≤ c.usizeMod := by
  unfold Cfg.Valid at hc
  unfold Cfg.usizeMod
  rcases hc with h | h | h <;> rw [h] <;> decide

namespace Alg

theorem blockSize_eq (c : Cfg) : (a : Alg) → (a.engine c).blockSize = a.blockSize
  | .sha1 | .sha256 | .sha384 | .sha512 | .sha512_256 | .ripemd160 | .siphash24 => rfl
  | .sha256t _ _ _ => rfl
  | .hmac a => a.blockSize_eq c

theorem blockSize_le : (a : Alg) → a.blockSize ≤ 128
  | .sha1 | .sha256 | .sha384 | .sha512 | .sha512_256 | .ripemd160 | .siphash24 => by decide
  | .sha256t _ _ _ => by show 64 ≤ 128; decide
  | .hmac a => a.blockSize_le

theorem outLen_le : (a : Alg) → a.outLen ≤ a.blockSize
  | .sha1 | .sha256 | .sha384 | .sha512 | .sha512_256 | .ripemd160 | .siphash24 => by decide
  | .sha256t _ _ _ => by show 32 ≤ 64; decide
  | .hmac a => a.outLen_le

theorem log_outLen (c : Cfg) : (a : Alg) → (a.log c).outLen = a.outLen
  | .sha1 | .sha256 | .sha384 | .sha512 | .sha512_256 | .ripemd160 | .siphash24 => rfl
  | .sha256t _ _ _ => rfl
  | .hmac a => a.log_outLen c

theorem log_slice {c : Cfg} {n : Nat} (hn : n < c.usizeMod) : (a : Alg) → (a.log c).slice n
  | .sha1 | .sha256 | .sha384 | .sha512 | .sha512_256 | .ripemd160 => trivial
  | .siphash24 => hn
  | .sha256t _ _ _ => trivial
  | .hmac a => a.log_slice hn

/-- What `new()` inputs is accepted. -/
theorem fresh_accepts {c : Cfg} : (a : Alg) → a.Ok c → ∀ j, a.base + j < c.usizeMod →
    (a.log c).accepts (a.log c).fresh.1 ((a.log c).fresh.2.length + j) = true
  | .sha1, _, j, h => by
      simp only [base, Nat.zero_add] at h
      simp [log, log1, Md.log]; right; simpa [Cfg.usizeMod] using h
  | .sha256, _, j, h => by
      simp only [base, Nat.zero_add] at h
      simp [log, log256, Md.log]; right; simpa [Cfg.usizeMod] using h
  | .sha384, _, j, h => by
      simp only [base, Nat.zero_add] at h
      simp [log, log384, Md.log]; right; simpa [Cfg.usizeMod] using h
  | .sha512, _, j, h => by
      simp only [base, Nat.zero_add] at h
      simp [log, log512, Md.log]; right; simpa [Cfg.usizeMod] using h
  | .sha512_256, _, j, h => by
      simp only [base, Nat.zero_add] at h
      simp [log, log512_256, Md.log]; right; simpa [Cfg.usizeMod] using h
  | .ripemd160, _, j, h => by
      simp only [base, Nat.zero_add] at h
      simp [log, logRmd, Md.log]; right; simpa [Cfg.usizeMod] using h
  | .siphash24, _, j, h => by
      simp only [base, Nat.zero_add] at h
      simp [log, logSip]; right; simpa [Cfg.usizeMod] using h
  | .sha256t mid len data, _, j, h => by
      simp only [base] at h
      simp [log, log256, Md.log]; right
      rw [← Nat.add_assoc]; simpa [Cfg.usizeMod] using h
  | .hmac a, ok, j, h => by
      have := a.fresh_accepts ok.1 (a.blockSize + j) (by simp only [base] at h; omega)
      simp only [log, hmacLog, HmacStart.ofKey, List.length_append, List.length_map,
        List.length_replicate, List.length_nil, Nat.zero_add, blockSize_eq]
      rw [Nat.add_assoc]
      exact this

/-- The tagged engine simulates the sha256 log from another start. -/
def lawfulTagged {c : Cfg} (hc : c.Valid) (mid : List Byte) (len : Nat) (data : List Byte)
    (ok : (Alg.sha256t mid len data).Ok c) :
    Lawful (Sha256t.engine c (.ofMidstate c mid len data)) ((Alg.sha256t mid len data).log c) :=
  let W := Sha256.lawful hc
  have fresh : ∃ e, (Sha256t.Tag.ofMidstate c mid len data).engine = .ok e ∧
      W.Rel e (parse8 mid, len) data := by
    obtain ⟨hm, hl, hn⟩ := ok
    have hlen : len < 2 ^ c.usizeBits := by simp only [Cfg.usizeMod] at hn; omega
    obtain ⟨e, he, R⟩ := W.resume_ok (μ := mid) (n := len) (s := (parse8 mid, len))
      ⟨by simpa [md256] using hm, hlen⟩
      (by simp only [log256, Md.log, md256, Nat.mod_eq_zero_of_dvd hl, if_true]; rfl)
    obtain ⟨e', he', R'⟩ := W.input_ok data trivial R (by
      simp only [log256, Md.log, Bool.or_eq_true, decide_eq_true_eq]
      right; simpa [Cfg.usizeMod] using hn)
    refine ⟨e', ?_, R'⟩
    show (Sha256.fromMidstate mid len >>= fun e => (Sha256.engine c).input e data) = _
    rw [show Sha256.fromMidstate mid len = .ok e from he]
    exact he'
  { Rel := W.Rel
    accepted := W.accepted
    new_rel := fresh
    default_rel := fresh
    input_ok := W.input_ok
    input_err := W.input_err
    count := W.count
    digest := W.digest
    mid := W.mid
    resume_ok := W.resume_ok
    resume_err := W.resume_err
    digest_len := W.digest_len
    out_le := W.out_le
    small := W.small
    mono := W.mono }

/-- Every engine simulates its log. -/
def lawful {c : Cfg} (hc : c.Valid) : (a : Alg) → a.Ok c → Lawful (a.engine c) (a.log c)
  | .sha1, _ => Sha1.lawful hc
  | .sha256, _ => Sha256.lawful hc
  | .sha384, _ => Sha384.lawful hc
  | .sha512, _ => Sha512.lawful hc
  | .sha512_256, _ => Sha512_256.lawful hc
  | .ripemd160, _ => Ripemd160.lawful hc
  | .siphash24, _ => Siphash24.lawful hc
  | .sha256t mid len data, ok => lawfulTagged hc mid len data ok
  | .hmac a, ok =>
    Hmac.lawful (a.lawful hc ok.1) (by rw [blockSize_eq]; exact a.blockSize_le)
      (by rw [blockSize_eq]; exact a.fresh_accepts ok.1 _ ok.2)

end Alg
end Chf
