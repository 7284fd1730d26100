import Verif.Props.TextPermutations
import Verif.Props.Constants

/-!
# Property C103: the translated text uses the constants that the standards derive

C48 is about the literals of the model.  Here the numbers are those of the translated text: the initial
values as its constructors leave them in the engine, the round constants by what its block functions
compute on every state and every block, and the initial value of SHA-512/256 by running the translated
SHA-512 as FIPS 180-4 5.3.6 prescribes.
-/

namespace Chf.Props
open Spec

/-- C103, SHA-256: there is a table of the first 32 bits of the fractional parts of the cube roots of
the first 64 primes such that the block function of the translated text, in every configuration (also
the one with SHA instructions), is the compression function of FIPS 180-4 with that table.  New engines
start from the square roots of the first 8 primes. -/
theorem C103_sha256 : ∃ ps K, FirstPrimes 80 ps ∧ AreFracRoots 3 32 (ps.take 64) K ∧
    ∀ c : Cfg, c.Valid →
      AreFracRoots 2 32 (ps.take 8) (Source.Sha256.Engine.default c).h ∧
      ∀ (h : Arr8 (BitVec 32)) (buffer : List Byte) (n : Nat), buffer.length = 64 →
        Source.Sha256.Engine.process_block c ⟨buffer, h.toList, n⟩ =
          .ok ⟨buffer, ({ sha256Fns with K := K }.compress h buffer).toList, n⟩ := by
  refine ⟨primes80, sha256Fns.K, firstPrimes80, areFracRoots_of (by decide +kernel), fun c hc =>
    ⟨areFracRoots_of ?_, fun h buffer n hb => ?_⟩⟩
  · show (_ == List.length [_, _, _, _, _, _, _, _] && _) = true
    unfold Source.Sha256.Engine.default
    decide +kernel
  · refine (Source.Sha256.process_block_eq c hc ⟨buffer, h, n⟩).trans ?_
    simp only [BlockEngine.processBlock, Chf.Sha256.ops]
    rw [Chf.Sha256.processBlock_eq c buffer h hb]
    rfl

/-- C103, SHA-512: the same with 64 bits and 80 primes; the engines of SHA-384 start from the square
roots of the ninth to sixteenth prime. -/
theorem C103_sha512 : ∃ ps K, FirstPrimes 80 ps ∧ AreFracRoots 3 64 ps K ∧
    ∀ c : Cfg,
      AreFracRoots 2 64 (ps.take 8) (Source.Sha512.Engine.default c).h ∧
      AreFracRoots 2 64 ((ps.drop 8).take 8) (Source.Sha384.Engine.default c).f0.h ∧
      ∀ (h : Arr8 (BitVec 64)) (buffer : List Byte) (n : Nat), buffer.length = 128 →
        Source.Sha512.Engine.process_block c ⟨h.toList, n, buffer⟩ =
          .ok ⟨({ sha512Fns with K := K }.compress h buffer).toList, n, buffer⟩ := by
  refine ⟨primes80, sha512Fns.K, firstPrimes80, areFracRoots_of (by decide +kernel), fun c =>
    ⟨areFracRoots_of ?_, areFracRoots_of ?_, fun h buffer n hb => ?_⟩⟩
  · unfold Source.Sha512.Engine.default
    decide +kernel
  · unfold Source.Sha384.Engine.default Source.Sha512.Engine.sha384
    decide +kernel
  · refine (Source.Sha512.process_block_eq c ⟨buffer, h, n⟩).trans ?_
    simp only [BlockEngine.processBlock, Chf.Sha512.ops]
    rw [Chf.Sha512.processBlock_eq c buffer h hb]
    rfl

/-- C103, SHA-1: the constants of the four phases are 2^30 times the square roots of 2, 3, 5 and 10,
and the block function is the one of FIPS 180-4 with them. -/
theorem C103_sha1 : (∀ t, t < 80 → IsScaledRoot 2 30 ([2, 3, 5, 10].getD (t / 20) 0) (sha1K t).toNat) ∧
    ∀ (c : Cfg) (h : Arr5 (BitVec 32)) (buffer : List Byte) (n : Nat), buffer.length = 64 →
      Source.Sha1.Engine.process_block c ⟨buffer, h.toList, n⟩ =
        .ok ⟨buffer, (compress1 h buffer).toList, n⟩ := by
  refine ⟨fun t ht => ?_, fun c h buffer n hb => ?_⟩
  · have h : ∀ t ∈ List.range 80, (sha1K t).toNat ^ 2 ≤ ([2, 3, 5, 10].getD (t / 20) 0) * 2 ^ (2 * 30) ∧
        ([2, 3, 5, 10].getD (t / 20) 0) * 2 ^ (2 * 30) < ((sha1K t).toNat + 1) ^ 2 := by decide +kernel
    exact h t (List.mem_range.2 ht)
  · refine (Source.Sha1.process_block_eq c ⟨buffer, h, n⟩).trans ?_
    simp only [BlockEngine.processBlock, Chf.Sha1.ops]
    rw [Chf.Sha1.processBlock_eq c buffer h hb]
    rfl

/-- C103, RIPEMD-160: the constants of the left line are 0 and 2^30 times the square roots of 2, 3, 5
and 7, those of the right line 2^30 times the cube roots and 0, and the block function is the one of
the paper with them. -/
theorem C103_ripemd160 : rmdK 0 = 0 ∧ rmdK' 4 = 0 ∧
    (∀ r, r < 4 → IsScaledRoot 2 30 ([2, 3, 5, 7].getD r 0) (rmdK (r + 1)).toNat ∧
      IsScaledRoot 3 30 ([2, 3, 5, 7].getD r 0) (rmdK' r).toNat) ∧
    ∀ (c : Cfg) (h : Arr5 (BitVec 32)) (buffer : List Byte) (n : Nat), buffer.length = 64 →
      Source.Ripemd160.Engine.process_block c ⟨buffer, h.toList, n⟩ =
        .ok ⟨buffer, (compressRmd h buffer).toList, n⟩ := by
  refine ⟨rfl, rfl, fun r hr => ?_, fun c h buffer n hb => ?_⟩
  · have h : ∀ r ∈ List.range 4, ((rmdK (r + 1)).toNat ^ 2 ≤ ([2, 3, 5, 7].getD r 0) * 2 ^ (2 * 30) ∧
        ([2, 3, 5, 7].getD r 0) * 2 ^ (2 * 30) < ((rmdK (r + 1)).toNat + 1) ^ 2) ∧
        (rmdK' r).toNat ^ 3 ≤ ([2, 3, 5, 7].getD r 0) * 2 ^ (3 * 30) ∧
        ([2, 3, 5, 7].getD r 0) * 2 ^ (3 * 30) < ((rmdK' r).toNat + 1) ^ 3 := by decide +kernel
    exact h r (List.mem_range.2 hr)
  · refine (Source.Ripemd160.process_block_eq c ⟨buffer, h, n⟩).trans ?_
    simp only [BlockEngine.processBlock, Chf.Ripemd160.ops]
    rw [Chf.Ripemd160.processBlock_eq c buffer h hb]
    rfl

/-- C103: new SHA-1 and RIPEMD-160 engines start from the bytes 01 23 .. ef fe dc .. 10 f0 e1 d2 c3,
and SipHash engines from the ASCII bytes "somepseudorandomlygeneratedbytes" XORed with the keys. -/
theorem C103_initial (c : Cfg) :
    (Source.Sha1.Engine.default c).h = leWords 32 [0x01, 0x23, 0x45, 0x67, 0x89, 0xab, 0xcd, 0xef,
      0xfe, 0xdc, 0xba, 0x98, 0x76, 0x54, 0x32, 0x10, 0xf0, 0xe1, 0xd2, 0xc3] ∧
    (Source.Ripemd160.Engine.default c).h = (Source.Sha1.Engine.default c).h ∧
    ∀ k0 k1, let s := (Source.Siphash24.Engine.with_keys c k0 k1).state
      [s.v0 ^^^ k0, s.v1 ^^^ k1, s.v2 ^^^ k0, s.v3 ^^^ k1] =
        beWords 64 ("somepseudorandomlygeneratedbytes".toUTF8.toList.map (·.toBitVec)) := by
  refine ⟨?_, rfl, fun k0 k1 => ?_⟩
  · unfold Source.Sha1.Engine.default
    decide +kernel
  · have h : beWords 64 ("somepseudorandomlygeneratedbytes".toUTF8.toList.map (·.toBitVec)) =
        [0x736f6d6570736575#64, 0x646f72616e646f6d#64, 0x6c7967656e657261#64, 0x7465646279746573#64] := by
      decide +kernel
    rw [h]
    have x : ∀ a b : BitVec 64, (a ^^^ b) ^^^ a = b := fun a b => by
      rw [BitVec.xor_comm a b, BitVec.xor_assoc, BitVec.xor_self, BitVec.xor_zero]
    simp only [Source.Siphash24.Engine.with_keys, x]

/-- C103: the translated SHA-512 engine with any initial value computes SHA-512 from that value. -/
theorem C103_from {c : Cfg} (hc : c.Valid) (iv : Arr8 (BitVec 64)) (m : List Byte)
    (hbits : 8 * m.length < 2 ^ 64) (hbytes : m.length + 144 < 2 ^ c.usizeBits) :
    (Source.Sha512.Engine.input c { Source.Sha512.Engine.default c with h := iv.toList } m >>=
      Source.Sha512.Engine.finalize c) = .ok (sha512From iv m) := by
  have hin : Source.Sha512.Engine.input c { Source.Sha512.Engine.default c with h := iv.toList } m = _ :=
    Source.Sha512.input_eq c ⟨List.replicate 128 0, iv, 0⟩ m (by rw [Cfg.usizeMod]; omega)
  have R : (Sha512.lawful hc).Rel ⟨List.replicate 128 0, iv, 0⟩ (iv, 0) [] :=
    ⟨⟨0, rfl⟩, Rep.zero (by decide) (Nat.two_pow_pos _)⟩
  obtain ⟨e, he, R⟩ := (Sha512.lawful hc).input_ok m trivial R (by
    simp only [log512, Md.log, Bool.or_eq_true, decide_eq_true_eq, List.length_nil]
    exact .inr (by omega))
  replace he : BlockEngine.input c (Sha512.ops c) ⟨List.replicate 128 0, iv, 0⟩ m = .ok e := he
  have hd : Sha512.finalize c e = _ := (Sha512.lawful hc).digest R
  rw [hin, he]
  refine (Source.Sha512.finalize_eq c hc e).trans (hd.trans ?_)
  have := Md.digest_fits (P := md512) (c := c) (r := fun _ _ => .error .expect) (s := (iv, 0)) (m := m)
    (.inr rfl) (by decide) (by decide) (k := m.length) (by omega) ⟨hbits, hbytes⟩
  rw [Nat.zero_add] at this
  refine this.trans (congrArg _ ?_)
  show (serialize8 _).take 64 = _
  rw [List.take_of_length_le (by simp)]
  rfl

/- A case: the initial value of SHA-384 and no input gives SHA-384 of the empty message and the 16 bytes
that SHA-384 leaves out. -/
example : (sha512From iv384 []).take 48 = sha384 [] ∧ Cfg.debug64.Valid ∧
    8 * ([] : List Byte).length < 2 ^ 64 ∧ ([] : List Byte).length + 144 < 2 ^ Cfg.debug64.usizeBits := by
  refine ⟨rfl, by decide, by decide, by decide⟩

/-- C103: the initial value of SHA-512/256 in the translated text is what FIPS 180-4 5.3.6 prescribes:
the words of the digest that the translated SHA-512 gives for "SHA-512/256" when it starts from its
own initial value with every word XORed with a5a5a5a5a5a5a5a5. -/
theorem C103_sha512_256 {c : Cfg} (hc : c.Valid) :
    ∃ d, (Source.Sha512.Engine.input c
        { Source.Sha512.Engine.default c with
          h := (Source.Sha512.Engine.default c).h.map (· ^^^ 0xa5a5a5a5a5a5a5a5) }
        ("SHA-512/256".toUTF8.toList.map (·.toBitVec)) >>= Source.Sha512.Engine.finalize c) = .ok d ∧
      beWords 64 d = (Source.Sha512_256.Engine.default c).f0.h := by
  have hM := usizeMod_ge hc
  rw [Cfg.usizeMod] at hM
  have hn : "SHA-512/256".toUTF8.toList.map (·.toBitVec) =
      [0x53#8, 0x48#8, 0x41#8, 0x2d#8, 0x35#8, 0x31#8, 0x32#8, 0x2f#8, 0x32#8, 0x35#8, 0x36#8] := by
    decide +kernel
  rw [hn]
  refine ⟨_, C103_from hc ⟨_, _, _, _, _, _, _, _⟩ _ (by decide) (by simp; omega), ?_⟩
  unfold Source.Sha512_256.Engine.default Source.Sha512.Engine.sha512_256
  decide +kernel

/- A case: the first words. -/
example : ((Source.Sha512_256.Engine.default .debug64).f0.h.take 1,
    (Source.Sha256.Engine.default .debug64).h.take 1, sha256Fns.K.take 1, primes80.take 4) =
    ([0x22312194fc2bf72c], [0x6a09e667], [0x428a2f98], [2, 3, 5, 7]) := by decide +kernel

end Chf.Props
