import Verif.Props.Padding

/-!
# Property C56: how often the block function is called
-/

namespace Chf.Props
open Spec

attribute [local irreducible] iv512_256

theorem traceFacts_sized {c : Cfg} (hc : c.Valid) (a : Alg) {X : BlockHash} (hX : a.blockHash c = some X)
    {B L : Nat} (hBL : blockAndField a = some (B, L)) :
    ∃ P, TraceFacts c a X P ∧ P.B = B ∧ P.L = L := by
  cases a with
  | sha1 => cases hX; cases hBL; exact ⟨_, Sha1.traceFacts hc, rfl, rfl⟩
  | sha256 => cases hX; cases hBL; exact ⟨_, Sha256.traceFacts hc, rfl, rfl⟩
  | sha384 => cases hX; cases hBL; exact ⟨_, Sha384.traceFacts hc, rfl, rfl⟩
  | sha512 => cases hX; cases hBL; exact ⟨_, Sha512.traceFacts hc, rfl, rfl⟩
  | sha512_256 => cases hX; cases hBL; exact ⟨_, Sha512_256.traceFacts hc, rfl, rfl⟩
  | ripemd160 => cases hX; cases hBL; exact ⟨_, Ripemd160.traceFacts hc, rfl, rfl⟩
  | siphash24 => cases hX
  | sha256t mid len data => cases hX
  | hmac a => cases hX

/-- C56: after any inputs of `n` bytes in total, the block function has been called once for each of the
`n / B` complete blocks, in order, however the bytes were cut: no block waits, none is done twice. -/
theorem C56_streaming {c : Cfg} (hc : c.Valid) (a : Alg) (X : BlockHash) (hX : a.blockHash c = some X)
    {B L : Nat} (hBL : blockAndField a = some (B, L)) (ds : List (List Byte)) {h : X.H}
    {bs : List (List Byte)} (hr : X.traceInputs c ds = .ok (h, bs)) :
    bs.length = ds.flatten.length / B ∧ (∀ b ∈ bs, b.length = B) ∧
      bs.flatten = ds.flatten.take (ds.flatten.length / B * B) := by
  obtain ⟨P, T, rfl, rfl⟩ := traceFacts_sized hc a hX hBL
  have hpos : 0 < P.B := by have := T.B_ok; omega
  rw [T.inputs] at hr
  split at hr
  · cases hr
  · cases hr
    refine ⟨length_blocks _ _, fun b hb => mem_blocks_length hb, ?_⟩
    have := blocks_flatten_remainder P.B hpos ds.flatten
    rw [remainder] at this
    have h2 := List.take_append_drop (ds.flatten.length / P.B * P.B) ds.flatten
    have h3 : (blocks P.B ds.flatten).flatten.length =
        (ds.flatten.take (ds.flatten.length / P.B * P.B)).length := by
      have h4 := congrArg List.length (this.trans h2.symm)
      simp only [List.length_append] at h4
      omega
    exact (List.append_inj (this.trans h2.symm) h3).1

/-- C56: hashing `n` bytes calls the block function `(n + L) / B + 1` times, where `L` is the size of the
length field, in any chunking and whatever the bytes are.  This includes messages so long that the
counters wrap. -/
theorem C56_total {c : Cfg} (hc : c.Valid) (a : Alg) (X : BlockHash) (hX : a.blockHash c = some X)
    {B L : Nat} (hBL : blockAndField a = some (B, L)) (ds : List (List Byte)) {h : X.H}
    {bs : List (List Byte)} (hr : X.trace c ds = .ok (h, bs)) :
    bs.length = (ds.flatten.length + L) / B + 1 := by
  obtain ⟨P, T, rfl, rfl⟩ := traceFacts_sized hc a hX hBL
  have hB := T.B_ok
  have hpos : 0 < P.B := by omega
  rw [T.trace] at hr
  split at hr
  · cases hr
  · cases hr
    rw [length_blocks]
    obtain ⟨k, hk⟩ := Md.padWith_dvd (P := P) hpos T.enc ds.flatten
      (8 * (ds.flatten.length % 2 ^ c.usizeBits) % 2 ^ 64)
    have hz := padZeros_lt hpos P.L ds.flatten.length
    have hl : (P.padWith ds.flatten (8 * (ds.flatten.length % 2 ^ c.usizeBits) % 2 ^ 64)).length =
        ds.flatten.length + 1 + padZeros P.B P.L ds.flatten.length + P.L := by
      simp only [Md.padWith, List.length_append, List.length_cons, List.length_nil,
        List.length_replicate, T.enc.len, Nat.zero_add]
    rw [hk] at hl ⊢
    rw [Nat.mul_div_cancel_left k hpos]
    generalize ds.flatten.length = n at *
    generalize padZeros P.B P.L n = z at *
    rcases hB with hB | hB <;> rw [hB] at hl hz ⊢ <;> omega

/-- C56: so `finalize` calls it once or twice: twice exactly if the last, incomplete block has no room
for the marker byte and the length field. -/
theorem C56_finalize {c : Cfg} (hc : c.Valid) (a : Alg) (X : BlockHash) (hX : a.blockHash c = some X)
    {B L : Nat} (hBL : blockAndField a = some (B, L)) (ds : List (List Byte)) {h h' : X.H}
    {bs bs' : List (List Byte)} (hr : X.traceInputs c ds = .ok (h, bs))
    (hr' : X.trace c ds = .ok (h', bs')) :
    bs'.length = bs.length + if ds.flatten.length % B + 1 + L ≤ B then 1 else 2 := by
  rw [C56_total hc a X hX hBL ds hr', (C56_streaming hc a X hX hBL ds hr).1]
  generalize ds.flatten.length = n
  have : (B = 64 ∧ L = 8) ∨ (B = 128 ∧ L = 16) := by
    cases a <;> first | (cases hBL; simp; done) | (cases hX; done)
  rcases this with ⟨rfl, rfl⟩ | ⟨rfl, rfl⟩ <;> split <;> omega

/-- The numbers of calls after the inputs and in all. -/
def callCounts (c : Cfg) (a : Alg) (ds : List (List Byte)) : Option (Res Nat × Res Nat) :=
  (a.blockHash c).map fun X =>
    ((X.traceInputs c ds).map (·.2.length), (X.trace c ds).map (·.2.length))

/-- 56 bytes are too many for one SHA-256 block, 55 are not. -/
example : blockAndField .sha256 = some (64, 8) ∧
    callCounts .debug64 .sha256 [List.replicate 50 1, List.replicate 6 2] = some (.ok 0, .ok 2) ∧
    callCounts .debug64 .sha256 [List.replicate 50 1, List.replicate 5 2] = some (.ok 0, .ok 1) ∧
    callCounts .release32 .sha512 [List.replicate 250 1, [], List.replicate 6 2] = some (.ok 2, .ok 3) := by
  decide +kernel

end Chf.Props
