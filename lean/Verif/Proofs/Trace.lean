import Verif.Model.Trace
import Verif.Proofs.Padding

/-!
# Lemmas: which blocks an engine compresses
-/

namespace Chf
open Spec

variable {H : Type} {c : Cfg} {P : Md H} {ops : BlockOps H} {zlen : Nat} {pre : List (List Byte)}
  {enc : BitVec 64 → List Byte} {start : BlockEngine H} {fin mid : BlockEngine H → Res (List Byte)}
  {from_ : List Byte → Nat → Res (BlockEngine H)} {resume : List Byte → Nat → Res H}

theorem foldl_traced (f : H → List Byte → H) (bs : List (List Byte)) (h : H)
    (tr : List (H × List Byte)) :
    bs.foldl (fun (x : H × List (H × List Byte)) b => (f x.1 b, x.2 ++ [(x.1, b)])) (h, tr) =
      (bs.foldl f h, tr ++ steps f h bs) := by
  induction bs generalizing h tr with
  | nil => simp [steps]
  | cons b bs ih => rw [List.foldl_cons, ih]; simp [steps]

theorem chain_traced (B : Nat) (f : H → List Byte → H) (h : H) (m : List Byte) :
    chain B (fun (x : H × List (H × List Byte)) b => (f x.1 b, x.2 ++ [(x.1, b)])) (h, []) m =
      (chain B f h m, steps f h (blocks B m)) := by
  rw [chain, foldl_traced, List.nil_append]; rfl

theorem ProcessIs.traced {f : H → List Byte → H} (h : ProcessIs ops f) :
    ProcessIs ops.traced (fun (x : H × List (H × List Byte)) b => (f x.1 b, x.2 ++ [(x.1, b)])) := by
  intro buf x hb
  show (ops.process buf x.1 >>= _) = _
  rw [h buf x.1 hb]
  rfl

/-- The exact trace of an engine. -/
theorem MdFacts.calls_eq (F : MdFacts c P ops zlen pre enc start fin mid from_ resume)
    (out : BlockEngine H → Res (List Byte)) (ds : List (List Byte)) :
    BlockHash.calls c ⟨H, ops, zlen, pre, enc, start, out⟩ ds =
      if c.overflowChecks = true ∧ ¬ (P.paddedLen ds.flatten.length < 2 ^ c.usizeBits ∧
          8 * ds.flatten.length < 2 ^ 64)
      then .error .overflow
      else
        let M := P.padWith ds.flatten (8 * (ds.flatten.length % 2 ^ c.usizeBits) % 2 ^ 64)
        .ok (chain P.B P.compress P.iv M, steps P.compress P.iv (blocks P.B M)) := by
  have S := F.sized
  have hm := valid_mod_le F.valid
  have h1 := F.zlen_eq
  have h2 := F.L_eq
  have h3 := F.L_le
  have hB := F.B_eq
  have hP := F.process.traced
  obtain ⟨m, hmd⟩ : ∃ m, m = ds.flatten := ⟨_, rfl⟩
  rw [← hmd]
  have R0 : Rep c ops.traced.B (fun (x : H × List (H × List Byte)) b => (P.compress x.1 b, x.2 ++ [(x.1, b)]))
      (P.iv, []) 0 [] ⟨start.buffer, (start.h, []), start.length⟩ := by
    rw [F.start_eq]
    show Rep c ops.B _ _ _ _ _
    rw [hB]
    rw [hB] at S
    exact Rep.zero S.pos (Nat.lt_of_le_of_lt (Nat.zero_le _) S.lt)
  have E := BlockEngine.Ends.foldlM hP S (Nat.dvd_zero _) ds R0
  rw [List.nil_append, ← hmd] at E
  have hpl : ∀ n, P.paddedLen n = n + 1 + padZeros P.B P.L n + P.L := fun _ => rfl
  have key : ∀ e, Rep c ops.traced.B
      (fun (x : H × List (H × List Byte)) b => (P.compress x.1 b, x.2 ++ [(x.1, b)])) (P.iv, []) 0 m e →
      (do
        let e ← BlockEngine.finalizeBlocks c ops.traced zlen pre enc e
        pure e.h) =
      if c.overflowChecks = true ∧ ¬ (P.paddedLen m.length < 2 ^ c.usizeBits ∧
          8 * m.length < 2 ^ 64)
      then .error .overflow
      else
        .ok (chain P.B P.compress P.iv (P.padWith m (8 * (m.length % 2 ^ c.usizeBits) % 2 ^ 64)),
          steps P.compress P.iv
            (blocks P.B (P.padWith m (8 * (m.length % 2 ^ c.usizeBits) % 2 ^ 64)))) := by
    intro e R
    have spec := BlockEngine.finalizeBlocks_spec (zlen := zlen) (pre := pre) (enc := enc) hP S (Nat.dvd_zero _)
      F.enc_len (by show _ = ops.B; rw [F.B_eq]; omega) (by show ops.B ≤ _; rw [F.B_eq]; omega) hm R
    have hL : ops.traced.B - zlen = P.L := by show ops.B - zlen = _; rw [F.B_eq]; omega
    have hbits : (8 * asU64 e.length).toNat = 8 * (m.length % 2 ^ c.usizeBits) % 2 ^ 64 := by
      rw [R.len, asU64, BitVec.toNat_mul, BitVec.toNat_ofNat, Cfg.usizeMod, Nat.zero_add]
      show 8 * _ % _ = _
      rw [Nat.mul_mod 8 (_ % 2 ^ 64) _, Nat.mod_mod, ← Nat.mul_mod]
    have htail : m ++ BlockEngine.tail ops.traced.B zlen pre enc m.length e.length =
        P.padWith m (8 * (m.length % 2 ^ c.usizeBits) % 2 ^ 64) := by
      rw [← hbits, Md.padWith, ← F.enc_eq, BlockEngine.tail, hL, show ops.traced.B = P.B from hB]
      simp only [List.append_assoc]
    have hlen : (m ++ BlockEngine.tail ops.traced.B zlen pre enc m.length e.length).length =
        P.paddedLen m.length := by
      rw [htail]
      simp only [Md.padWith, List.length_append, List.length_cons, List.length_nil,
        List.length_replicate, F.encL, Md.paddedLen]
    simp only [] at spec
    rw [hlen, htail, Nat.zero_add, Nat.zero_add] at spec
    split
    · next h =>
      rw [spec.2 h.1 (by
        rcases Nat.lt_or_ge (P.paddedLen m.length) c.usizeMod with h' | h'
        · right
          exact Nat.le_of_not_lt fun h'' => h.2 ⟨h', h''⟩
        · left; exact h')]
      rfl
    · next h =>
      obtain ⟨e', he', R'⟩ := spec.1 fun ho => Classical.byContradiction fun hn => h ⟨ho, hn⟩
      rw [he']
      show Except.ok e'.h = _
      rw [R'.h_eq S.pos, chain_traced]
      show Except.ok (chain ops.B _ _ _, steps _ _ (blocks ops.B _)) = _
      rw [hB]
  show (ds.foldlM (BlockEngine.input c ops.traced) ⟨start.buffer, (start.h, []), start.length⟩ >>=
    fun e => (do
        let e ← BlockEngine.finalizeBlocks c ops.traced zlen pre enc e
        pure e.h)) = _
  by_cases hov : c.overflowChecks = true ∧ c.usizeMod ≤ m.length
  · rw [E.2 hov.1 (by omega), if_pos ⟨hov.1, fun h => by
      have h4 := h.1
      rw [hpl] at h4
      have h5 := hov.2
      rw [Cfg.usizeMod] at h5
      omega⟩]
    rfl
  · obtain ⟨e, he, R⟩ := E.1 fun ho => by
      have : ¬ c.usizeMod ≤ m.length := fun h => hov ⟨ho, h⟩
      omega
    rw [he]
    exact key e R

/-- The exact trace of the inputs. -/
theorem MdFacts.callsInputs_eq (F : MdFacts c P ops zlen pre enc start fin mid from_ resume)
    (out : BlockEngine H → Res (List Byte)) (ds : List (List Byte)) :
    BlockHash.callsInputs c ⟨H, ops, zlen, pre, enc, start, out⟩ ds =
      if c.overflowChecks = true ∧ 2 ^ c.usizeBits ≤ ds.flatten.length then .error .overflow
      else .ok (chain P.B P.compress P.iv ds.flatten, steps P.compress P.iv (blocks P.B ds.flatten)) := by
  have S := F.sized
  have hB := F.B_eq
  have hP := F.process.traced
  have R0 : Rep c ops.traced.B (fun (x : H × List (H × List Byte)) b => (P.compress x.1 b, x.2 ++ [(x.1, b)]))
      (P.iv, []) 0 [] ⟨start.buffer, (start.h, []), start.length⟩ := by
    rw [F.start_eq]
    show Rep c ops.B _ _ _ _ _
    rw [hB]
    rw [hB] at S
    exact Rep.zero S.pos (Nat.lt_of_le_of_lt (Nat.zero_le _) S.lt)
  have E := BlockEngine.Ends.foldlM hP S (Nat.dvd_zero _) ds R0
  rw [List.nil_append] at E
  show (ds.foldlM (BlockEngine.input c ops.traced) ⟨start.buffer, (start.h, []), start.length⟩ >>=
    fun e => pure e.h) = _
  by_cases hov : c.overflowChecks = true ∧ 2 ^ c.usizeBits ≤ ds.flatten.length
  · rw [E.2 hov.1 (by rw [Nat.zero_add]; exact hov.2), if_pos hov]
    rfl
  · obtain ⟨e, he, R⟩ := E.1 fun ho => by
      rw [Nat.zero_add]
      exact Nat.lt_of_not_le fun h => hov ⟨ho, h⟩
    rw [he, if_neg hov]
    show Except.ok e.h = _
    rw [R.h_eq S.pos, chain_traced]
    show Except.ok (chain ops.B _ _ _, steps _ _ (blocks ops.B _)) = _
    rw [hB]

/-- Padding is injective even when the length field is taken modulo `2 ^ usizeBits` and 2^64. -/
theorem Md.padWith_inj (hc : c.Valid) (hB : P.B = 64 ∨ P.B = 128) (E : LengthEnc P.L P.enc)
    {m m' : List Byte}
    (h : P.padWith m (8 * (m.length % 2 ^ c.usizeBits) % 2 ^ 64) =
      P.padWith m' (8 * (m'.length % 2 ^ c.usizeBits) % 2 ^ 64)) : m = m' := by
  have hpos : 0 < P.B := by omega
  have hl := congrArg List.length h
  have z := padZeros_lt hpos P.L m.length
  have z' := padZeros_lt hpos P.L m'.length
  simp only [Md.padWith, List.length_append, List.length_cons, List.length_nil,
    List.length_replicate, E.len] at hl
  have h2 : P.enc P.L (8 * (m.length % 2 ^ c.usizeBits) % 2 ^ 64) =
      P.enc P.L (8 * (m'.length % 2 ^ c.usizeBits) % 2 ^ 64) := by
    unfold Md.padWith at h
    exact (List.append_inj' h (by rw [E.len, E.len])).2
  have h3 := E.inj _ _ (Nat.mod_lt _ (by decide)) (Nat.mod_lt _ (by decide)) h2
  have h4 : m.length = m'.length := by
    unfold Cfg.Valid at hc
    rcases hc with hw | hw | hw <;> rw [hw] at h3 <;> omega
  unfold Md.padWith at h
  rw [List.append_assoc, List.append_assoc, List.append_assoc, List.append_assoc] at h
  exact (List.append_inj h h4).1

theorem Md.padWith_dvd (hB : 0 < P.B) (E : LengthEnc P.L P.enc) (m : List Byte) (bits : Nat) :
    P.B ∣ (P.padWith m bits).length := by
  have := padZeros_fills hB P.L m.length
  simp only [Md.padWith, List.length_append, List.length_cons, List.length_nil,
    List.length_replicate, E.len, Nat.zero_add]
  exact this

/-- What the lemmas below need to know of an engine, with the type of chaining values hidden. -/
structure TraceFacts (c : Cfg) (a : Alg) (X : BlockHash) (P : Md X.H) : Prop where
  B_ok : P.B = 64 ∨ P.B = 128
  L_le : P.L ≤ P.B
  enc : LengthEnc P.L P.enc
  process : ProcessIs X.ops P.compress
  B_eq : X.ops.B = P.B
  start_eq : X.start.h = P.iv
  out_eq : ∀ e, X.out e = .ok ((P.words e.h).take P.out)
  calls : ∀ ds, X.calls c ds =
      if c.overflowChecks = true ∧ ¬ (P.paddedLen ds.flatten.length < 2 ^ c.usizeBits ∧
          8 * ds.flatten.length < 2 ^ 64)
      then .error .overflow
      else
        let M := P.padWith ds.flatten (8 * (ds.flatten.length % 2 ^ c.usizeBits) % 2 ^ 64)
        .ok (chain P.B P.compress P.iv M, steps P.compress P.iv (blocks P.B M))
  callsInputs : ∀ ds, X.callsInputs c ds =
      if c.overflowChecks = true ∧ 2 ^ c.usizeBits ≤ ds.flatten.length then .error .overflow
      else .ok (chain P.B P.compress P.iv ds.flatten, steps P.compress P.iv (blocks P.B ds.flatten))
  hash : ∀ ds, (a.engine c).hashByteChunks ds =
      if c.overflowChecks = true ∧ ¬ (P.paddedLen ds.flatten.length < 2 ^ c.usizeBits ∧
          8 * ds.flatten.length < 2 ^ 64)
      then .error .overflow
      else .ok (P.digestWith P.iv ds.flatten
        (8 * (ds.flatten.length % 2 ^ c.usizeBits) % 2 ^ 64))

namespace TraceFacts
variable {a : Alg} {X : BlockHash} {P : Md X.H}

theorem trace (T : TraceFacts c a X P) (ds : List (List Byte)) : X.trace c ds =
    if c.overflowChecks = true ∧ ¬ (P.paddedLen ds.flatten.length < 2 ^ c.usizeBits ∧
        8 * ds.flatten.length < 2 ^ 64)
    then .error .overflow
    else
      let M := P.padWith ds.flatten (8 * (ds.flatten.length % 2 ^ c.usizeBits) % 2 ^ 64)
      .ok (chain P.B P.compress P.iv M, blocks P.B M) := by
  rw [BlockHash.trace, T.calls]
  split
  · rfl
  · simp only [bind, Except.bind, pure, Except.pure, map_snd_steps]

theorem inputs (T : TraceFacts c a X P) (ds : List (List Byte)) : X.traceInputs c ds =
    if c.overflowChecks = true ∧ 2 ^ c.usizeBits ≤ ds.flatten.length then .error .overflow
    else .ok (chain P.B P.compress P.iv ds.flatten, blocks P.B ds.flatten) := by
  rw [BlockHash.traceInputs, T.callsInputs]
  split
  · rfl
  · simp only [bind, Except.bind, pure, Except.pure, map_snd_steps]

end TraceFacts

theorem MdFacts.hash_eq (F : MdFacts c P ops zlen pre enc start fin mid from_ resume)
    (ds : List (List Byte)) :
    (mdEngine c ops start fin mid from_).hashByteChunks ds =
      if c.overflowChecks = true ∧ ¬ (P.paddedLen ds.flatten.length < 2 ^ c.usizeBits ∧
          8 * ds.flatten.length < 2 ^ 64)
      then .error .overflow
      else .ok (P.digestWith P.iv ds.flatten
        (8 * (ds.flatten.length % 2 ^ c.usizeBits) % 2 ^ 64)) := by
  rw [F.lawful.hashByteChunks ds fun _ _ => trivial]
  simp only [Md.log, List.length_nil, Nat.zero_add, List.nil_append]
  have hpl : ∀ n, P.paddedLen n = n + 1 + padZeros P.B P.L n + P.L := fun _ => rfl
  cases ho : c.overflowChecks with
  | false => simp only [Bool.not_false, Bool.true_or, if_true, Bool.false_eq_true, false_and, if_false]
  | true =>
    by_cases h : ds.flatten.length < 2 ^ c.usizeBits
    · simp only [h, decide_true, Bool.or_true, if_true]
    · have h' : ¬ P.paddedLen ds.flatten.length < 2 ^ c.usizeBits := by rw [hpl]; omega
      simp only [h, decide_false, Bool.not_true, Bool.or_self, Bool.false_eq_true, if_false, h',
        false_and, not_false_eq_true, and_self, if_true]

theorem Sha1.traceFacts (hc : c.Valid) : TraceFacts c .sha1
    ⟨_, Sha1.ops c, Sha1.blockSize - 8, [], be64, Sha1.Engine.default, Sha1.midstate⟩ md1 where
  B_ok := .inl rfl
  L_le := show 8 ≤ 64 by decide
  enc := lengthEnc_be (show 8 ≤ 8 by decide)
  process := (Sha1.facts hc).process
  B_eq := rfl
  start_eq := rfl
  out_eq e := (Sha1.midstate_eq e).trans
    (congrArg Except.ok (List.take_of_length_le (Nat.le_of_eq (length_serialize5 e.h))).symm)
  calls := (Sha1.facts hc).calls_eq _
  callsInputs := (Sha1.facts hc).callsInputs_eq _
  hash := (Sha1.facts hc).hash_eq

theorem Sha256.traceFacts (hc : c.Valid) : TraceFacts c .sha256
    ⟨_, Sha256.ops c, Sha256.blockSize - 8, [], be64, Sha256.Engine.default, Sha256.midstate⟩
    md256 where
  B_ok := .inl rfl
  L_le := show 8 ≤ 64 by decide
  enc := lengthEnc_be (show 8 ≤ 8 by decide)
  process := (Sha256.facts hc).process
  B_eq := rfl
  start_eq := rfl
  out_eq e := (Sha256.midstate_eq e).trans
    (congrArg Except.ok (List.take_of_length_le (Nat.le_of_eq (length_serialize8_32 e.h))).symm)
  calls := (Sha256.facts hc).calls_eq _
  callsInputs := (Sha256.facts hc).callsInputs_eq _
  hash := (Sha256.facts hc).hash_eq

theorem Sha512.traceFacts (hc : c.Valid) : TraceFacts c .sha512
    ⟨_, Sha512.ops c, Sha512.blockSize - 16, [List.replicate 8 0], be64, Sha512.Engine.default,
      Sha512.midstate⟩ md512 where
  B_ok := .inr rfl
  L_le := show 16 ≤ 128 by decide
  enc := lengthEnc_be (show 8 ≤ 16 by decide)
  process := (Sha512.facts hc).process
  B_eq := rfl
  start_eq := rfl
  out_eq e := (Sha512.midstate_eq e).trans
    (congrArg Except.ok (List.take_of_length_le (Nat.le_of_eq (length_serialize8_64 e.h))).symm)
  calls := (Sha512.facts hc).calls_eq _
  callsInputs := (Sha512.facts hc).callsInputs_eq _
  hash := (Sha512.facts hc).hash_eq

theorem Sha384.traceFacts (hc : c.Valid) : TraceFacts c .sha384
    ⟨_, Sha512.ops c, Sha512.blockSize - 16, [List.replicate 8 0], be64, Sha512.Engine.sha384,
      fun e => do
        let d ← Sha512.midstate e
        let d ← sliceTo d 48
        copyIntoRange (List.replicate 48 0) 0 48 d⟩ md384 where
  B_ok := .inr rfl
  L_le := show 16 ≤ 128 by decide
  enc := lengthEnc_be (show 8 ≤ 16 by decide)
  process := (Sha384.facts hc).process
  B_eq := rfl
  start_eq := rfl
  out_eq e := by
    show (Sha512.midstate e >>= _) = _
    rw [Sha512.midstate_eq]
    exact truncate_eq (serialize8 e.h) 48 (by rw [length_serialize8_64]; decide)
  calls := (Sha384.facts hc).calls_eq _
  callsInputs := (Sha384.facts hc).callsInputs_eq _
  hash := (Sha384.facts hc).hash_eq

attribute [local irreducible] iv512_256 Sha512.iv512_256 in
theorem Sha512_256.traceFacts (hc : c.Valid) : TraceFacts c .sha512_256
    ⟨_, Sha512.ops c, Sha512.blockSize - 16, [List.replicate 8 0], be64, Sha512.Engine.sha512_256,
      fun e => do
        let d ← Sha512.midstate e
        let d ← sliceTo d 32
        copyIntoRange (List.replicate 32 0) 0 32 d⟩ md512_256 where
  B_ok := .inr rfl
  L_le := show 16 ≤ 128 by decide
  enc := lengthEnc_be (show 8 ≤ 16 by decide)
  process := (Sha512_256.facts hc).process
  B_eq := rfl
  start_eq := Sha512_256.iv_eq
  out_eq e := by
    show (Sha512.midstate e >>= _) = _
    rw [Sha512.midstate_eq]
    exact truncate_eq (serialize8 e.h) 32 (by rw [length_serialize8_64]; decide)
  calls := (Sha512_256.facts hc).calls_eq _
  callsInputs := (Sha512_256.facts hc).callsInputs_eq _
  hash := (Sha512_256.facts hc).hash_eq

theorem Ripemd160.traceFacts (hc : c.Valid) : TraceFacts c .ripemd160
    ⟨_, Ripemd160.ops c, Ripemd160.blockSize - 8, [], le64, Ripemd160.Engine.default,
      Ripemd160.midstate⟩ mdRmd where
  B_ok := .inl rfl
  L_le := show 8 ≤ 64 by decide
  enc := lengthEnc_le (show 8 ≤ 8 by decide)
  process := (Ripemd160.facts hc).process
  B_eq := rfl
  start_eq := rfl
  out_eq e := (Ripemd160.midstate_eq e).trans
    (congrArg Except.ok (List.take_of_length_le (Nat.le_of_eq (length_serializeRmd e.h))).symm)
  calls := (Ripemd160.facts hc).calls_eq _
  callsInputs := (Ripemd160.facts hc).callsInputs_eq _
  hash := (Ripemd160.facts hc).hash_eq

theorem Alg.traceFacts (hc : c.Valid) : (a : Alg) → ∀ {X : BlockHash}, a.blockHash c = some X →
    ∃ P : Md X.H, TraceFacts c a X P
  | .sha1, _, h => by cases h; exact ⟨_, Sha1.traceFacts hc⟩
  | .sha256, _, h => by cases h; exact ⟨_, Sha256.traceFacts hc⟩
  | .sha384, _, h => by cases h; exact ⟨_, Sha384.traceFacts hc⟩
  | .sha512, _, h => by cases h; exact ⟨_, Sha512.traceFacts hc⟩
  | .sha512_256, _, h => by cases h; exact ⟨_, Sha512_256.traceFacts hc⟩
  | .ripemd160, _, h => by cases h; exact ⟨_, Ripemd160.traceFacts hc⟩
  | .siphash24, _, h => by cases h
  | .sha256t _ _ _, _, h => by cases h
  | .hmac _, _, h => by cases h

end Chf
