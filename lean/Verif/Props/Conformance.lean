import Verif.Proofs.History
import Verif.Proofs.Sha256Const

/-!
# Properties C01 - C07, C11: the hash functions conform to their standards

Each theorem is about the transcribed engines (`Verif.Model`), the right-hand sides are the
specifications of `Verif.Spec`.  `hashByteChunks chunks` is `new()`, one `input` per chunk,
`finalize()`; `hash m` is the same with one chunk (`lib.rs` 171-188, and `Hash::hash`).
-/

namespace Chf.Props
open Spec

/-- All engines at once: on any target, within the limits of the byte and bit counters. -/
theorem conformance_any_width {c : Cfg} (hc : c.Valid) (a : Alg) (ok : a.Ok c)
    (chunks : List (List Byte)) (hbits : 8 * (a.base + chunks.flatten.length + a.slack) < 2 ^ 64)
    (hbytes : a.base + chunks.flatten.length + a.slack + 144 < 2 ^ c.usizeBits) :
    (a.engine c).hashByteChunks chunks = .ok (a.hashSpec chunks.flatten) := by
  refine a.hashByteChunks_eq hc ok chunks (fun d hd => ?_) ⟨hbits, hbytes⟩
  have := length_le_flatten hd
  show _ < 2 ^ c.usizeBits
  omega

/-- A 32-bit debug build meets the hypotheses with a one-megabyte message. -/
example : let c := { Cfg.release32 with overflowChecks := true }
    c.Valid ∧ 8 * (Alg.sha512.base + ([List.replicate 1000000 (0 : Byte)]).flatten.length +
      Alg.sha512.slack) < 2 ^ 64 ∧
    Alg.sha512.base + ([List.replicate 1000000 (0 : Byte)]).flatten.length + Alg.sha512.slack + 144
      < 2 ^ c.usizeBits := by
  simp only [List.flatten_cons, List.flatten_nil, List.append_nil, List.length_replicate]
  decide

theorem on64 {c : Cfg} (h64 : c.usizeBits = 64) (a : Alg) (ok : a.Ok c) (hs : a.slack = 0)
    (hb : a.base = 0) (chunks : List (List Byte)) (hlen : chunks.flatten.length < 2 ^ 61) :
    (a.engine c).hashByteChunks chunks = .ok (a.hashSpec chunks.flatten) ∧
    (a.engine c).hash chunks.flatten = .ok (a.hashSpec chunks.flatten) := by
  have hc : c.Valid := .inr (.inr h64)
  have h1 := conformance_any_width hc a ok chunks (by omega) (by rw [h64]; omega)
  have h2 := conformance_any_width hc a ok [chunks.flatten]
    (by rw [List.flatten_singleton]; omega) (by rw [h64, List.flatten_singleton]; omega)
  rw [List.flatten_singleton] at h2
  rw [Lawful.hash_eq_chunks]
  exact ⟨h1, h2⟩

/-- C01: `sha256` computes FIPS 180-4 SHA-256, in every build configuration. -/
theorem C01_sha256 {c : Cfg} (h64 : c.usizeBits = 64) (chunks : List (List Byte))
    (hlen : chunks.flatten.length < 2 ^ 61) :
    (Sha256.engine c).hashByteChunks chunks = .ok (sha256 chunks.flatten) ∧
    (Sha256.engine c).hash chunks.flatten = .ok (sha256 chunks.flatten) :=
  on64 h64 .sha256 trivial rfl rfl chunks hlen

/-- "abc" in two chunks. -/
example : Cfg.release64.usizeBits = 64 ∧
    ([[0x61], [0x62, 0x63]] : List (List Byte)).flatten.length < 2 ^ 61 := by decide

/-- C02: `sha1` computes FIPS 180-4 SHA-1. -/
theorem C02_sha1 {c : Cfg} (h64 : c.usizeBits = 64) (chunks : List (List Byte))
    (hlen : chunks.flatten.length < 2 ^ 61) :
    (Sha1.engine c).hashByteChunks chunks = .ok (sha1 chunks.flatten) ∧
    (Sha1.engine c).hash chunks.flatten = .ok (sha1 chunks.flatten) :=
  on64 h64 .sha1 trivial rfl rfl chunks hlen

example : Cfg.debug64.usizeBits = 64 ∧
    ([List.replicate 200 0x61, [], [0x62]] : List (List Byte)).flatten.length < 2 ^ 61 := by decide +kernel

/-- The full C03: SHA-512 of every message the standard allows. -/
def C03_statement : Prop :=
  ∀ c : Cfg, c.usizeBits = 64 → ∀ chunks : List (List Byte), 8 * chunks.flatten.length < 2 ^ 128 →
    (Sha512.engine c).hashByteChunks chunks = .ok (sha512 chunks.flatten)

/-- C03 for messages of fewer than 2^61 bytes. -/
theorem C03_sha512_partial {c : Cfg} (h64 : c.usizeBits = 64) (chunks : List (List Byte))
    (hlen : chunks.flatten.length < 2 ^ 61) :
    (Sha512.engine c).hashByteChunks chunks = .ok (sha512 chunks.flatten) ∧
    (Sha512.engine c).hash chunks.flatten = .ok (sha512 chunks.flatten) :=
  on64 h64 .sha512 trivial rfl rfl chunks hlen

example : Cfg.release64.usizeBits = 64 ∧
    ([[], List.replicate 128 0xff] : List (List Byte)).flatten.length < 2 ^ 61 := by decide +kernel

/-- The exact result of the sha512 engine for one slice of any length: from 2^61 bytes on it panics
if overflow checks are on, and else writes the bit count modulo 2^64 in the 128-bit length field. -/
theorem C03_sha512_exact {c : Cfg} (h64 : c.usizeBits = 64) (m : List Byte)
    (hlen : m.length + 144 < 2 ^ 64) :
    (Sha512.engine c).hash m =
      if c.overflowChecks = true ∧ 2 ^ 61 ≤ m.length then .error .overflow
      else .ok (serialize8 (chain 128 compress512 iv512
        (m ++ [0x80] ++ List.replicate (padZeros 128 16 m.length) 0 ++
          beBytes 16 (8 * m.length % 2 ^ 64)))) := by
  have hc : c.Valid := .inr (.inr h64)
  have h := (Sha512.lawful hc).hash m trivial
  have hp := paddedLen_le (P := md512) (.inr rfl) (by decide) (by decide) m.length
  have hacc : (log512 c).accepts (log512 c).fresh.1 ((log512 c).fresh.2.length + m.length) = true := by
    simp only [log512, Md.log, Bool.or_eq_true, decide_eq_true_eq, List.length_nil, Nat.zero_add, h64]
    right; omega
  rw [h, if_pos hacc]
  simp only [log512, Md.log, h64, Nat.zero_add, List.nil_append,
    Nat.mod_eq_of_lt (show m.length < 2 ^ 64 by omega)]
  by_cases hov : c.overflowChecks = true ∧ 2 ^ 61 ≤ m.length
  · rw [if_pos hov, if_pos ⟨hov.1, by omega⟩]
  · rw [if_neg hov, if_neg (by rintro ⟨h1, h2⟩; exact hov ⟨h1, by omega⟩)]
    show Except.ok ((serialize8 _).take 64) = _
    rw [List.take_of_length_le (by simp)]
    rfl

example : (List.replicate (2 ^ 61) (0 : Byte)).length + 144 < 2 ^ 64 := by
  rw [List.length_replicate]; decide

/-- What is compressed from 2^61 bytes on is not the padded message of the standard. -/
theorem C03_sha512_wrong_padding (m : List Byte) (h1 : 2 ^ 61 ≤ m.length) (h2 : m.length < 2 ^ 64) :
    m ++ [0x80] ++ List.replicate (padZeros 128 16 m.length) 0 ++ beBytes 16 (8 * m.length % 2 ^ 64)
      ≠ pad 128 16 beBytes m := by
  intro h
  have h := List.append_cancel_left h
  have := beBytes_inj (n := 16) (by omega) (by omega) h
  omega

example : 2 ^ 61 ≤ (List.replicate (2 ^ 61) (0 : Byte)).length ∧
    (List.replicate (2 ^ 61) (0 : Byte)).length < 2 ^ 64 := by
  rw [List.length_replicate]; decide

/-- C03 fails: with overflow checks on, a message of 2^61 bytes panics. -/
theorem C03_sha512_refuted : ¬ C03_statement := by
  intro h
  have h := h .debug64 rfl [List.replicate (2 ^ 61) 0] (by
    rw [List.flatten_singleton, List.length_replicate]; decide)
  rw [← Lawful.hash_eq_chunks, C03_sha512_exact rfl _ (by rw [List.length_replicate]; decide),
    if_pos ⟨rfl, by rw [List.length_replicate]; exact Nat.le_refl _⟩] at h
  cases h

/-- C04: `sha384` computes FIPS 180-4 SHA-384. -/
theorem C04_sha384 {c : Cfg} (h64 : c.usizeBits = 64) (chunks : List (List Byte))
    (hlen : chunks.flatten.length < 2 ^ 61) :
    (Sha384.engine c).hashByteChunks chunks = .ok (sha384 chunks.flatten) ∧
    (Sha384.engine c).hash chunks.flatten = .ok (sha384 chunks.flatten) :=
  on64 h64 .sha384 trivial rfl rfl chunks hlen

example : Cfg.debug64.usizeBits = 64 ∧ ([] : List (List Byte)).flatten.length < 2 ^ 61 := by decide

/-- C05: `sha512_256` computes FIPS 180-4 SHA-512/256, with the standard's generated initial value. -/
theorem C05_sha512_256 {c : Cfg} (h64 : c.usizeBits = 64) (chunks : List (List Byte))
    (hlen : chunks.flatten.length < 2 ^ 61) :
    (Sha512_256.engine c).hashByteChunks chunks = .ok (sha512_256 chunks.flatten) ∧
    (Sha512_256.engine c).hash chunks.flatten = .ok (sha512_256 chunks.flatten) :=
  on64 h64 .sha512_256 trivial rfl rfl chunks hlen

example : Cfg.release64.usizeBits = 64 ∧
    ([[1], [2], [3]] : List (List Byte)).flatten.length < 2 ^ 61 := by decide

/-- C06: `ripemd160` computes RIPEMD-160. -/
theorem C06_ripemd160 {c : Cfg} (h64 : c.usizeBits = 64) (chunks : List (List Byte))
    (hlen : chunks.flatten.length < 2 ^ 61) :
    (Ripemd160.engine c).hashByteChunks chunks = .ok (ripemd160 chunks.flatten) ∧
    (Ripemd160.engine c).hash chunks.flatten = .ok (ripemd160 chunks.flatten) :=
  on64 h64 .ripemd160 trivial rfl rfl chunks hlen

example : Cfg.release64.usizeBits = 64 ∧
    ([List.replicate 64 7] : List (List Byte)).flatten.length < 2 ^ 61 := by decide

/-- C07: for all keys, `siphash24` computes SipHash-2-4.  Without overflow checks there is no limit
on the message; with them its length has to fit `usize`.  (A slice is shorter than `2 ^ usizeBits`.) -/
theorem C07_siphash24 {c : Cfg} (hc : c.Valid) (k0 k1 : BitVec 64) (chunks : List (List Byte))
    (hs : ∀ d ∈ chunks, d.length < 2 ^ c.usizeBits)
    (hlen : c.overflowChecks = true → chunks.flatten.length < 2 ^ c.usizeBits) :
    ((Siphash24.engine c).inputs (Siphash24.withKeys k0 k1) chunks >>= (Siphash24.engine c).finalize) =
      .ok (leBytes 8 (siphash24 k0 k1 chunks.flatten).toNat) := by
  have h := (Siphash24.lawful hc).inputs_finalize chunks hs (Siphash24.withKeys_rel hc k0 k1)
  rw [h, if_pos]
  · simp only [List.nil_append]
    rfl
  · simp only [logSip, List.length_nil, Nat.zero_add, Bool.or_eq_true, Bool.not_eq_true',
      decide_eq_true_eq]
    cases ho : c.overflowChecks with
    | false => exact .inl rfl
    | true => exact .inr (hlen ho)

example : Cfg.debug64.Valid ∧ (∀ d ∈ ([[1, 2, 3], List.replicate 9 4] : List (List Byte)),
    d.length < 2 ^ Cfg.debug64.usizeBits) ∧
    ([[1, 2, 3], List.replicate 9 4] : List (List Byte)).flatten.length
      < 2 ^ Cfg.debug64.usizeBits := by decide

/-- C07 for `Hash::hash_with_keys`. -/
theorem C07_hash_with_keys {c : Cfg} (hc : c.Valid) (k0 k1 : BitVec 64) (m : List Byte)
    (hlen : m.length < 2 ^ c.usizeBits) :
    Siphash24.hashWithKeys c k0 k1 m = .ok (leBytes 8 (siphash24 k0 k1 m).toNat) := by
  have h := C07_siphash24 hc k0 k1 [m] (by simpa using hlen) (by simpa using fun _ => hlen)
  rw [List.flatten_singleton] at h
  rw [← h]
  simp only [HashEngine.inputs, bind_assoc]
  rfl

example : Cfg.release32.Valid ∧ (List.replicate 100 (0 : Byte)).length < 2 ^ Cfg.release32.usizeBits := by
  decide

/-- C07 for `Hash::hash` and `hash_byte_chunks`: the keys are zero. -/
theorem C07_hash {c : Cfg} (hc : c.Valid) (chunks : List (List Byte))
    (hlen : chunks.flatten.length < 2 ^ c.usizeBits) :
    (Siphash24.engine c).hashByteChunks chunks =
      .ok (leBytes 8 (siphash24 0 0 chunks.flatten).toNat) := by
  have h := C07_siphash24 hc 0 0 chunks
    (fun d hd => Nat.lt_of_le_of_lt (length_le_flatten hd) hlen) (fun _ => hlen)
  rw [← h]
  rfl

example : Cfg.release32.Valid ∧
    ([[1, 2], [3]] : List (List Byte)).flatten.length < 2 ^ Cfg.release32.usizeBits := by decide

/-- C11: every digest of a reachable engine has the advertised number of bytes. -/
theorem C11_digest_length {c : Cfg} (hc : c.Valid) (a : Alg) (ok : a.Ok c)
    {e : (a.engine c).State} (he : Reachable c a e) {d : List Byte}
    (h : (a.engine c).finalize e = .ok d) : d.length = a.outLen := by
  obtain ⟨k, he⟩ := he
  obtain ⟨s, m, R, _⟩ := he.rel hc ok
  rw [(a.lawful hc ok).digest R] at h
  rw [← a.log_outLen c]
  exact (a.lawful hc ok).digest_len h

/-- The advertised numbers. -/
theorem C11_lengths :
    Alg.sha1.outLen = 20 ∧ Alg.ripemd160.outLen = 20 ∧ Alg.sha256.outLen = 32 ∧
    Alg.sha512_256.outLen = 32 ∧ (∀ m n d, (Alg.sha256t m n d).outLen = 32) ∧
    Alg.sha384.outLen = 48 ∧ Alg.sha512.outLen = 64 ∧ Alg.siphash24.outLen = 8 ∧
    ∀ a : Alg, (Alg.hmac a).outLen = a.outLen :=
  ⟨rfl, rfl, rfl, rfl, fun _ _ _ => rfl, rfl, rfl, rfl, fun _ => rfl⟩

example : Cfg.debug64.Valid ∧ (Alg.hmac .sha512).Ok .debug64 ∧
    Reachable .debug64 .sha256 Sha256.Engine.default ∧
    ∃ d, (Sha256.engine .debug64).finalize Sha256.Engine.default = .ok d := by
  refine ⟨by decide, ⟨trivial, by decide⟩, ⟨_, .new rfl⟩, sha256 [], ?_⟩
  have := (C01_sha256 (c := .debug64) rfl [] (by decide)).1
  exact this

end Chf.Props
