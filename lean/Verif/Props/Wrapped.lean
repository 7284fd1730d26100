import Verif.Props.Padding
import Verif.Props.Limits

/-!
# Property C38, continued: digests of messages whose length is not recorded

`C38_wraps` says what a build without overflow checks returns for a message too long for its counters.
Here: it is not the standard's digest, unless the block function has a collision in the last block.
-/

namespace Chf.Props
open Spec

attribute [local irreducible] iv512_256

/-- Two messages of whole blocks that differ only in the last `L` bytes: everything before the last
block is shared. -/
theorem last_blocks {B L : Nat} (hL : L ≤ B) {p x x' : List Byte} (hx : x.length = L)
    (hx' : x'.length = L) (hd : B ∣ (p ++ x).length) (h0 : 0 < (p ++ x).length) (hne : x ≠ x') :
    ∃ q b b', p ++ x = q ++ b ∧ p ++ x' = q ++ b' ∧ B ∣ q.length ∧ b.length = B ∧ b'.length = B ∧
      b ≠ b' := by
  obtain ⟨k, hk⟩ := hd
  rw [List.length_append, hx] at hk h0
  have hk0 : 0 < k := Nat.pos_of_ne_zero fun h => by rw [h] at hk; omega
  obtain ⟨j, rfl⟩ : ∃ j, k = j + 1 := ⟨k - 1, by omega⟩
  rw [Nat.mul_succ] at hk
  have hj : B * j ≤ p.length := by omega
  refine ⟨p.take (B * j), p.drop (B * j) ++ x, p.drop (B * j) ++ x', ?_, ?_, ?_, ?_, ?_, ?_⟩
  · rw [← List.append_assoc, List.take_append_drop]
  · rw [← List.append_assoc, List.take_append_drop]
  · rw [List.length_take, Nat.min_eq_left hj]
    exact Nat.dvd_mul_right _ _
  · rw [List.length_append, List.length_drop, hx]; omega
  · rw [List.length_append, List.length_drop, hx']; omega
  · intro h
    exact hne (List.append_cancel_left h)

/-- C38: a build without overflow checks that has to record a length it cannot record (the number of
bytes is `2 ^ w` or more, or the number of bits is 2^64 or more) does not return the standard's digest,
unless the block function maps the last block it is given and the last block of the standard's padding
to the same value. -/
theorem C38_not_standard {c : Cfg} (hc : c.Valid) (ho : c.overflowChecks = false) (a : Alg)
    (ha : untruncated a = true) (X : BlockHash) (hX : a.blockHash c = some X) {B L : Nat}
    (hBL : blockAndField a = some (B, L)) (ds : List (List Byte))
    (hfield : 8 * ds.flatten.length < 256 ^ L)
    (hlong : 2 ^ c.usizeBits ≤ ds.flatten.length ∨ 2 ^ 64 ≤ 8 * ds.flatten.length) :
    ∃ d r, (a.engine c).hashByteChunks ds = .ok d ∧ X.calls c ds = .ok r ∧
      (d = a.hashSpec ds.flatten → ∃ h b b', r.2.getLast? = some (h, b) ∧
        (standardBlocks a ds.flatten).getLast? = some b' ∧ b ≠ b' ∧
        X.ops.process b h = X.ops.process b' h) := by
  have key : ∀ {P : Md X.H}, TraceFacts c a X P → (∀ h h', P.words h = P.words h' → h = h') →
      (∀ h, (P.words h).length = P.out) →
      (∀ x y, x < 256 ^ P.L → y < 256 ^ P.L → P.enc P.L x = P.enc P.L y → x = y) →
      P.L = L → 8 ≤ P.L →
      (∀ m, P.digestWith P.iv m (8 * List.length m) = a.hashSpec m) →
      (∀ m, standardBlocks a m = blocks P.B (P.padWith m (8 * List.length m))) →
      ∃ d r, (a.engine c).hashByteChunks ds = .ok d ∧ X.calls c ds = .ok r ∧
      (d = a.hashSpec ds.flatten → ∃ h b b', r.2.getLast? = some (h, b) ∧
        (standardBlocks a ds.flatten).getLast? = some b' ∧ b ≠ b' ∧
        X.ops.process b h = X.ops.process b' h) := by
    intro P T inj hlen einj hPL h8 hspec hstd
    subst hPL
    have hpos : 0 < P.B := by have := T.B_ok; omega
    have hfit : 8 * (ds.flatten.length % 2 ^ c.usizeBits) % 2 ^ 64 < 256 ^ P.L :=
      Nat.lt_of_lt_of_le (Nat.mod_lt _ (by decide)) (two64_le h8)
    have hdiff : 8 * (ds.flatten.length % 2 ^ c.usizeBits) % 2 ^ 64 ≠ 8 * ds.flatten.length := by
      have h1 : 8 * (ds.flatten.length % 2 ^ c.usizeBits) % 2 ^ 64 < 2 ^ 64 := Nat.mod_lt _ (by decide)
      have h2 : 8 * (ds.flatten.length % 2 ^ c.usizeBits) % 2 ^ 64 ≤
        8 * (ds.flatten.length % 2 ^ c.usizeBits) := Nat.mod_le _ _
      have h3 : ds.flatten.length % 2 ^ c.usizeBits < 2 ^ c.usizeBits :=
        Nat.mod_lt _ (Nat.two_pow_pos _)
      omega
    obtain ⟨q, b, b', e1, e2, hq, hb, hb', hbne⟩ := last_blocks T.L_le
      (p := ds.flatten ++ [0x80] ++ List.replicate (padZeros P.B P.L ds.flatten.length) 0)
      (T.enc.len (8 * (ds.flatten.length % 2 ^ c.usizeBits) % 2 ^ 64))
      (T.enc.len (8 * ds.flatten.length)) (Md.padWith_dvd hpos T.enc _ _)
      (by simp only [List.length_append, List.length_cons]; omega)
      (fun h => hdiff (einj _ _ hfit hfield h))
    have e1 : P.padWith ds.flatten (8 * (ds.flatten.length % 2 ^ c.usizeBits) % 2 ^ 64) = q ++ b := e1
    have e2 : P.padWith ds.flatten (8 * ds.flatten.length) = q ++ b' := e2
    have hch : ∀ {b}, b.length = P.B → chain P.B P.compress P.iv (q ++ b) =
        P.compress (chain P.B P.compress P.iv q) b := by
      intro b hb
      rw [chain, blocks_last hpos hq hb, List.foldl_append]
      rfl
    rw [T.hash, T.calls, if_neg (by simp [ho]), if_neg (by simp [ho])]
    refine ⟨_, _, rfl, rfl, ?_⟩
    · intro hd
      rw [← hspec] at hd
      have hd : (P.words (chain P.B P.compress P.iv (P.padWith ds.flatten
          (8 * (ds.flatten.length % 2 ^ c.usizeBits) % 2 ^ 64)))).take P.out =
        (P.words (chain P.B P.compress P.iv (P.padWith ds.flatten (8 * ds.flatten.length)))).take P.out :=
          hd
      rw [List.take_of_length_le (Nat.le_of_eq (hlen _)),
        List.take_of_length_le (Nat.le_of_eq (hlen _)), e1, e2, hch hb, hch hb'] at hd
      refine ⟨chain P.B P.compress P.iv q, b, b', ?_, ?_, hbne, ?_⟩
      · rw [e1, blocks_last hpos hq hb, steps_append]
        simp [steps, chain]
      · rw [hstd, e2, blocks_last hpos hq hb']
        simp
      · rw [T.process _ _ (by rw [T.B_eq]; exact hb), T.process _ _ (by rw [T.B_eq]; exact hb'),
          inj _ _ hd]
  cases a with
  | sha1 =>
    cases hX; cases hBL
    exact key (Sha1.traceFacts hc) (fun _ _ => words1_inj) length_serialize5
      (fun _ _ h h' => beBytes_inj h h') rfl (Nat.le_refl 8) digestWith_1 (fun _ => rfl)
  | sha256 =>
    cases hX; cases hBL
    exact key (Sha256.traceFacts hc) (fun _ _ => words256_inj) length_serialize8_32
      (fun _ _ h h' => beBytes_inj h h') rfl (Nat.le_refl 8) digestWith_256 (fun _ => rfl)
  | sha512 =>
    cases hX; cases hBL
    exact key (Sha512.traceFacts hc) (fun _ _ => words512_inj) length_serialize8_64
      (fun _ _ h h' => beBytes_inj h h') rfl (show 8 ≤ 16 by decide) digestWith_512 (fun _ => rfl)
  | ripemd160 =>
    cases hX; cases hBL
    exact key (Ripemd160.traceFacts hc) (fun _ _ => wordsRmd_inj) length_serializeRmd
      (fun _ _ h h' => leBytes_inj h h') rfl (Nat.le_refl 8) digestWith_Rmd (fun _ => rfl)
  | sha384 | sha512_256 | siphash24 | sha256t _ _ _ | hmac _ => cases ha

/-- Four slices of a gibibyte on a 32-bit release build; eight slices of 2^58 bytes for sha512 on a
64-bit one. -/
example :
    (Cfg.release32.Valid ∧ Cfg.release32.overflowChecks = false ∧
      8 * (List.replicate 4 (List.replicate (2 ^ 30) (0 : Byte))).flatten.length < 256 ^ 8 ∧
      2 ^ Cfg.release32.usizeBits ≤
        (List.replicate 4 (List.replicate (2 ^ 30) (0 : Byte))).flatten.length) ∧
    Cfg.release64.Valid ∧ Cfg.release64.overflowChecks = false ∧
      8 * (List.replicate 8 (List.replicate (2 ^ 58) (0 : Byte))).flatten.length < 256 ^ 16 ∧
      2 ^ 64 ≤ 8 * (List.replicate 8 (List.replicate (2 ^ 58) (0 : Byte))).flatten.length := by
  simp only [List.length_flatten, List.map_replicate, List.length_replicate, List.sum_replicate_nat]
  decide

end Chf.Props
