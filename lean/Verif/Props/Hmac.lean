import Verif.Props.Inputs

/-!
# C23, C24, C46: HMAC
-/

namespace Chf.Props
open Spec

/-! ## C23 -/

/-- C23 on any target, for HMAC over every engine type of the crate: construction from a key, any
number of inputs and `finalize` give the HMAC of RFC 2104 over the engine's hash function. -/
theorem C23_hmac_any_width {c : Cfg} (hc : c.Valid) (a : Alg) (ok : (Alg.hmac a).Ok c) (key : List Byte)
    (chunks : List (List Byte)) (hk : Fits c (a.base + key.length + a.slack))
    (hf : Fits c (a.base + a.blockSize + chunks.flatten.length + (a.slack + 64))) :
    (do
      let e ← Hmac.new c (a.engine c) key
      let e ← (Hmac.engine c (a.engine c)).inputs e chunks
      (Hmac.engine c (a.engine c)).finalize e) =
    .ok (hmac a.hashSpec a.blockSize key chunks.flatten) := by
  have hB : (a.engine c).blockSize ≤ 128 := by rw [Alg.blockSize_eq]; exact a.blockSize_le
  have hacc := a.fresh_accepts ok.1 _ ok.2
  rw [← Alg.blockSize_eq c] at hacc
  have hkey : key.length < c.usizeMod := by have := hk.2; omega
  -- the block key
  have hh : (a.engine c).hash key = .ok (a.hashSpec key) := by
    have := a.hashByteChunks_eq hc ok.1 [key] (by
      intro d hd; rw [List.mem_singleton.1 hd]; exact hkey) (by
      rw [List.flatten_singleton]; exact hk)
    rw [← Lawful.hash_eq_chunks, List.flatten_singleton] at this
    exact this
  obtain ⟨k, hkeq, hkl⟩ : ∃ k, k = (if key.length > a.blockSize then a.hashSpec key else key) ∧
      k.length ≤ a.blockSize := by
    refine ⟨_, rfl, ?_⟩
    split
    · rw [Alg.hashSpec_length]; exact a.outLen_le
    · omega
  obtain ⟨e, h1, R⟩ := Hmac.new_of_key (c := c) (a.lawful hc ok.1) hB hacc (key := key) (k := k)
    (by rw [Alg.blockSize_eq]; exact hkl)
    (by
      rw [Alg.blockSize_eq, hkeq]
      by_cases hgt : key.length > a.blockSize
      · rw [if_pos hgt, if_pos hgt]; exact hh
      · rw [if_neg hgt, if_neg hgt])
  rw [Alg.blockSize_eq] at R
  have R : ((Alg.hmac a).lawful hc ok).Rel e
      (.ofKey (a.log c).fresh (k ++ List.replicate (a.blockSize - k.length) 0)) [] := R
  have hlen : (k ++ List.replicate (a.blockSize - k.length) 0).length = a.blockSize := by
    simp; omega
  have hs : ∀ d ∈ chunks, (((Alg.hmac a).log c)).slice d.length := fun d hd =>
    (Alg.hmac a).log_slice (by
      have := length_le_flatten hd
      have := hf.2
      omega)
  have hfin := ((Alg.hmac a).lawful hc ok).inputs_finalize chunks hs R
  have hb := Alg.Bound.grow (.hmac a) chunks.flatten.length (Alg.ofKey_bound c a _ hlen)
  have hacc' := Alg.Bound.accepts (.hmac a) hb (by have := hf.2; omega)
  rw [List.length_nil, if_pos hacc', List.nil_append, Alg.hmac_digest a a.hashSpec
    (a.fresh_digest hc ok.1) (fun m => by
      rw [Alg.hashSpec_length]
      have := (a.lawful hc ok.1).out_le
      rwa [Alg.log_outLen] at this) _ hlen _ hf] at hfin
  simp only [h1, bind, Except.bind]
  refine hfin.trans ?_
  simp only [hmac, hmacKey, ← hkeq]

/-- C23 on 64-bit targets, for keys and messages of fewer than 2^60 bytes. -/
theorem C23_hmac {c : Cfg} (h64 : c.usizeBits = 64) (a : Alg) (ok : (Alg.hmac a).Ok c) (key : List Byte)
    (chunks : List (List Byte)) (hk : a.base + key.length + a.slack < 2 ^ 60)
    (hm : a.base + chunks.flatten.length + a.slack < 2 ^ 60) :
    (do
      let e ← Hmac.new c (a.engine c) key
      let e ← (Hmac.engine c (a.engine c)).inputs e chunks
      (Hmac.engine c (a.engine c)).finalize e) =
    .ok (hmac a.hashSpec a.blockSize key chunks.flatten) := by
  have := a.blockSize_le
  exact C23_hmac_any_width (.inr (.inr h64)) a ok key chunks (fits_64 h64 (by omega))
    (fits_64 h64 (by omega))

/-- HMAC over HMAC-SHA-512 with a key longer than the block. -/
example : Cfg.release64.usizeBits = 64 ∧ (Alg.hmac (.hmac .sha512)).Ok .release64 ∧
    (Alg.hmac .sha512).base + (List.replicate 200 (1 : Byte)).length + (Alg.hmac .sha512).slack < 2 ^ 60 ∧
    (Alg.hmac .sha512).base + ([[1], [2, 3]] : List (List Byte)).flatten.length +
      (Alg.hmac .sha512).slack < 2 ^ 60 :=
  ⟨rfl, ⟨⟨trivial, by decide⟩, by decide⟩, by decide +kernel, by decide⟩

/-- C23, HMAC-SHA-256 spelled out. -/
theorem C23_hmac_sha256 {c : Cfg} (h64 : c.usizeBits = 64) (key msg : List Byte)
    (hk : key.length < 2 ^ 60) (hm : msg.length < 2 ^ 60) :
    (do
      let e ← Hmac.new c (Sha256.engine c) key
      let e ← (Hmac.engine c (Sha256.engine c)).input e msg
      (Hmac.engine c (Sha256.engine c)).finalize e) = .ok (hmac sha256 64 key msg) := by
  have h := C23_hmac h64 .sha256 ⟨trivial, by
      show 0 + 64 < c.usizeMod
      rw [Cfg.usizeMod, h64]; decide⟩ key [msg]
    (by show 0 + _ + 0 < _; omega) (by rw [List.flatten_singleton]; show 0 + _ + 0 < _; omega)
  rw [List.flatten_singleton] at h
  exact (single (Sha256.engine c) key msg).trans h
where
  single {c : Cfg} (E : HashEngine) (key msg : List Byte) : (do
      let e ← Hmac.new c E key
      let e ← (Hmac.engine c E).input e msg
      (Hmac.engine c E).finalize e) = (do
      let e ← Hmac.new c E key
      let e ← (Hmac.engine c E).inputs e [msg]
      (Hmac.engine c E).finalize e) := by
    simp only [HashEngine.inputs, bind_assoc]
    rfl

/-- C23, HMAC-SHA-512 spelled out. -/
theorem C23_hmac_sha512 {c : Cfg} (h64 : c.usizeBits = 64) (key msg : List Byte)
    (hk : key.length < 2 ^ 60) (hm : msg.length < 2 ^ 60) :
    (do
      let e ← Hmac.new c (Sha512.engine c) key
      let e ← (Hmac.engine c (Sha512.engine c)).input e msg
      (Hmac.engine c (Sha512.engine c)).finalize e) = .ok (hmac sha512 128 key msg) := by
  have h := C23_hmac h64 .sha512 ⟨trivial, by
      show 0 + 128 < c.usizeMod
      rw [Cfg.usizeMod, h64]; decide⟩ key [msg]
    (by show 0 + _ + 0 < _; omega) (by rw [List.flatten_singleton]; show 0 + _ + 0 < _; omega)
  rw [List.flatten_singleton] at h
  exact (C23_hmac_sha256.single (Sha512.engine c) key msg).trans h

example : Cfg.debug64.usizeBits = 64 ∧ (List.replicate 131 (0xaa : Byte)).length < 2 ^ 60 ∧
    ([1, 2, 3] : List Byte).length < 2 ^ 60 := ⟨rfl, by decide +kernel, by decide⟩

/-! ## C24 -/

/-- `new` after the key has been replaced by its digest if need be. -/
def withBlockKey (c : Cfg) (E : HashEngine) (k : List Byte) : Res (Hmac.Engine E) := do
  debugAssert c (E.blockSize ≤ 128)
  let i ← E.default
  let ip ← sliceTo (Hmac.xorZip (List.replicate 128 0x36) k) E.blockSize
  let iengine ← E.input i ip
  let op ← sliceTo (Hmac.xorZip (List.replicate 128 0x5c) k) E.blockSize
  let oengine ← E.input i op
  pure { iengine := iengine, oengine := oengine }

theorem new_short (c : Cfg) (E : HashEngine) {key : List Byte} (h : key.length ≤ E.blockSize) :
    Hmac.new c E key = withBlockKey c E key := by
  have h' : ¬ key.length > E.blockSize := by omega
  unfold Hmac.new withBlockKey
  cases h0 : debugAssert c (decide (E.blockSize ≤ 128)) with
  | error f => rfl
  | ok u =>
    cases hi : E.default with
    | error f => rfl
    | ok i => simp only [bind, Except.bind, h', if_false, pure, Except.pure]

theorem new_long (c : Cfg) (E : HashEngine) {key d : List Byte} (h : key.length > E.blockSize)
    (hd : E.hash key = .ok d) : Hmac.new c E key = withBlockKey c E d := by
  unfold Hmac.new withBlockKey
  cases h0 : debugAssert c (decide (E.blockSize ≤ 128)) with
  | error f => rfl
  | ok u =>
    cases hi : E.default with
    | error f => rfl
    | ok i => simp only [bind, Except.bind, h, if_true, hd, pure, Except.pure]

theorem length_xorZip (x : Byte) (k : List Byte) : ∀ n,
    (Hmac.xorZip (List.replicate n x) k).length = n := by
  induction k with
  | nil => intro n; cases n <;> simp [Hmac.xorZip, List.replicate_succ]
  | cons b k ih =>
    intro n
    cases n with
    | zero => rfl
    | succ n => simp only [List.replicate_succ, Hmac.xorZip, List.length_cons, ih n]

theorem sliceTo_large (E : HashEngine) (hB : 128 < E.blockSize) (x : Byte) (k : List Byte) :
    sliceTo (Hmac.xorZip (List.replicate 128 x) k) E.blockSize = .error .sliceIndex := by
  rw [sliceTo, if_neg (by rw [length_xorZip]; omega)]

/-- C24: a key longer than the block behaves exactly as its digest: the two engines are the same
value.  This holds for HMAC over any engine, also one outside the crate. -/
theorem C24_long_key (c : Cfg) (E : HashEngine) {key d : List Byte} (hgt : key.length > E.blockSize)
    (hd : E.hash key = .ok d) (hl : d.length ≤ E.blockSize) : Hmac.new c E key = Hmac.new c E d := by
  rw [new_long c E hgt hd, new_short c E hl]

/-- The hypotheses of `C24_long_key` hold for every engine of the crate and every key longer than the
block: the digest is never longer than the block. -/
theorem C24_long_key_alg {c : Cfg} (hc : c.Valid) (a : Alg) (ok : a.Ok c) {key : List Byte}
    (hgt : key.length > a.blockSize) (hk : Fits c (a.base + key.length + a.slack)) :
    Hmac.new c (a.engine c) key = Hmac.new c (a.engine c) (a.hashSpec key) := by
  refine C24_long_key c _ (by rw [Alg.blockSize_eq]; exact hgt) ?_
    (by rw [Alg.hashSpec_length, Alg.blockSize_eq]; exact a.outLen_le)
  have := a.hashByteChunks_eq hc ok [key] (by
    intro d hd
    rw [List.mem_singleton.1 hd]
    have := hk.2
    omega) (by rw [List.flatten_singleton]; exact hk)
  rw [← Lawful.hash_eq_chunks, List.flatten_singleton] at this
  exact this

example : (List.replicate 65 (7 : Byte)).length > Alg.ripemd160.blockSize ∧
    Fits .release32 (Alg.ripemd160.base + (List.replicate 65 (7 : Byte)).length + Alg.ripemd160.slack) :=
  ⟨by decide +kernel, by decide +kernel, by decide +kernel⟩

/-- C24: a key not longer than the block behaves exactly as the same key with zero bytes appended. -/
theorem C24_zero_padding (c : Cfg) (E : HashEngine) (key : List Byte) (n : Nat)
    (hn : key.length + n ≤ E.blockSize) :
    Hmac.new c E key = Hmac.new c E (key ++ List.replicate n 0) := by
  rw [new_short c E (by omega), new_short c E (by simp; omega)]
  unfold withBlockKey
  by_cases hB : E.blockSize ≤ 128
  · have key' : ∀ x : Byte, Hmac.xorZip (List.replicate 128 x) key =
        Hmac.xorZip (List.replicate 128 x) (key ++ List.replicate n 0) := by
      intro x
      rw [Hmac.xorZip_eq x key 128 (by omega), Hmac.xorZip_eq x _ 128 (by simp; omega)]
      congr 1
      rw [List.append_assoc, List.replicate_append_replicate, List.length_append,
        List.length_replicate]
      congr 2
      omega
    rw [key', key']
  · simp only [sliceTo_large E (by omega)]

example : ([1, 2] : List Byte).length + 62 ≤ (Sha256.engine .debug64).blockSize := by decide

/-- C24: `Default` and `HashEngine::new` are the empty key, equivalently a key of zeroes. -/
theorem C24_default (c : Cfg) (E : HashEngine) (n : Nat) (hn : n ≤ E.blockSize) :
    (Hmac.engine c E).default = Hmac.new c E (List.replicate n 0) ∧
    (Hmac.engine c E).new = Hmac.new c E (List.replicate n 0) := by
  have := C24_zero_padding c E [] n (by simpa using hn)
  exact ⟨this, this⟩

example : 64 ≤ (Sha1.engine .debug64).blockSize := by decide

/-! ## C46 -/

/-- C46: over an engine with a block size above 128, construction panics for every key. -/
theorem C46_large_block_panics (c : Cfg) (E : HashEngine) (hB : 128 < E.blockSize) (key : List Byte) :
    ∃ f, Hmac.new c E key = .error f := by
  cases h : Hmac.new c E key with
  | error f => exact ⟨f, rfl⟩
  | ok e =>
    have hs := sliceTo_large E hB
    unfold Hmac.new at h
    cases h0 : debugAssert c (decide (E.blockSize ≤ 128)) with
    | error f => rw [h0] at h; cases h
    | ok u =>
      cases hi : E.default with
      | error f => simp only [h0, bind, Except.bind, hi] at h; cases h
      | ok i =>
        by_cases hgt : key.length > E.blockSize
        · cases hh : E.hash key with
          | error f => simp only [h0, bind, Except.bind, hi, hgt, if_true, hh] at h; cases h
          | ok d =>
            simp only [h0, bind, Except.bind, hi, hgt, if_true, hh, pure, Except.pure, hs] at h
            cases h
        · simp only [h0, bind, Except.bind, hi, hgt, if_false, pure, Except.pure, hs] at h
          cases h

/-- An engine with 136-byte blocks, as SHA3-256 would have. -/
example : ∃ E : HashEngine, 128 < E.blockSize :=
  ⟨{ Sha256.engine .debug64 with blockSize := 136 }, by decide⟩

/-- C46: at block sizes up to 128 every panic of construction is one of the underlying engine. -/
theorem C46_only_engine_panics (c : Cfg) (E : HashEngine) (hB : E.blockSize ≤ 128) {key : List Byte}
    {f : Fault} (h : Hmac.new c E key = .error f) :
    E.default = .error f ∨ E.hash key = .error f ∨
      ∃ i block, E.default = .ok i ∧ block.length = E.blockSize ∧ E.input i block = .error f := by
  have hda : debugAssert c (decide (E.blockSize ≤ 128)) = .ok () := by simp [debugAssert, hB]
  have hs : ∀ (x : Byte) k, ∃ s : List Byte, sliceTo (Hmac.xorZip (List.replicate 128 x) k) E.blockSize =
      .ok s ∧ s.length = E.blockSize := by
    intro x k
    refine ⟨_, by rw [sliceTo, if_pos (by rw [length_xorZip]; omega)], ?_⟩
    rw [List.length_take, length_xorZip]
    omega
  have rest : ∀ (i : E.State) (k : List Byte), E.default = .ok i →
      (do
        let ip ← sliceTo (Hmac.xorZip (List.replicate 128 0x36) k) E.blockSize
        let iengine ← E.input i ip
        let op ← sliceTo (Hmac.xorZip (List.replicate 128 0x5c) k) E.blockSize
        let oengine ← E.input i op
        pure { iengine := iengine, oengine := oengine } : Res (Hmac.Engine E)) = .error f →
      ∃ i block, E.default = .ok i ∧ block.length = E.blockSize ∧ E.input i block = .error f := by
    intro i k hi h
    obtain ⟨x, h1, h2⟩ := hs 0x36 k
    obtain ⟨y, h3, h4⟩ := hs 0x5c k
    simp only [h1, h3, bind, Except.bind] at h
    cases h5 : E.input i x with
    | error f' => rw [h5] at h; cases h; exact ⟨i, x, hi, h2, h5⟩
    | ok e1 =>
      rw [h5] at h
      cases h6 : E.input i y with
      | error f' => simp only [h6] at h; cases h; exact ⟨i, y, hi, h4, h6⟩
      | ok e2 => simp only [h6] at h; cases h
  unfold Hmac.new at h
  cases hi : E.default with
  | error f' => simp only [hda, bind, Except.bind, hi] at h; cases h; exact .inl rfl
  | ok i =>
    right
    by_cases hgt : key.length > E.blockSize
    · cases hh : E.hash key with
      | error f' =>
        simp only [hda, bind, Except.bind, hi, hgt, if_true, hh] at h
        cases h
        exact .inl rfl
      | ok d =>
        right
        simp only [hda, bind, Except.bind, hi, hgt, if_true, hh, pure, Except.pure] at h
        rw [← hi]
        exact rest i d hi h
    · right
      simp only [hda, bind, Except.bind, hi, hgt, if_false, pure, Except.pure] at h
      rw [← hi]
      exact rest i key hi h

set_option maxRecDepth 4000 in
/-- An engine whose `input` always panics. -/
example : ∃ (E : HashEngine) (f : Fault), E.blockSize ≤ 128 ∧ Hmac.new .debug64 E [1] = .error f :=
  ⟨{ Sha256.engine .debug64 with input := fun _ _ => .error .overflow }, .overflow, by decide, rfl⟩

end Chf.Props
