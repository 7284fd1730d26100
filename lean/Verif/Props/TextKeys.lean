import Verif.Props.TextContract
import Verif.Props.TextShattered

/-!
# C91: keys of the translated text of HMAC
-/

namespace Chf.Props
open Chf Chf.Rs Chf.Spec

/-- C91: over any engine, a key longer than the block gives the same HMAC engine as its digest. -/
theorem C91_long_key (c : Cfg) (E : HashEngine) {key d : List Byte} (hgt : key.length > E.blockSize)
    (hd : E.hash key = .ok d) (hl : d.length ≤ E.blockSize) :
    Source.Hmac.Engine.new c E key = Source.Hmac.Engine.new c E d := by
  rw [hmac_new_text, hmac_new_text, C24_long_key c E hgt hd hl]

/-- C91: so two keys longer than the block with the same hash give the same HMAC engine. -/
theorem C91_same_hash (c : Cfg) (E : HashEngine) {key key' : List Byte} (hgt : key.length > E.blockSize)
    (hgt' : key'.length > E.blockSize) (hd : E.hash key = E.hash key') :
    Source.Hmac.Engine.new c E key = Source.Hmac.Engine.new c E key' := by
  rw [hmac_new_text, hmac_new_text]
  cases h : E.hash key with
  | ok d => rw [new_long c E hgt h, new_long c E hgt' (hd ▸ h)]
  | error f =>
    have h' : E.hash key' = .error f := hd ▸ h
    unfold Hmac.new
    simp only [hgt, hgt', if_true, h, h']

/-- C91: zero bytes that fill a key up to the block change nothing. -/
theorem C91_zero_padding (c : Cfg) (E : HashEngine) (key : List Byte) (n : Nat)
    (hn : key.length + n ≤ E.blockSize) :
    Source.Hmac.Engine.new c E key = Source.Hmac.Engine.new c E (key ++ List.replicate n 0) := by
  rw [hmac_new_text, hmac_new_text, C24_zero_padding c E key n hn]

/-- C91: `HashEngine::new` and `Default::default` use the key of zero bytes. -/
theorem C91_default (c : Cfg) (E : HashEngine) (n : Nat) (hn : n ≤ E.blockSize) :
    (Source.Hmac.engine c E).default = Source.Hmac.Engine.new c E (List.replicate n 0) ∧
    (Source.Hmac.engine c E).new = Source.Hmac.Engine.new c E (List.replicate n 0) := by
  have := C91_zero_padding c E [] n (by simpa using hn)
  exact ⟨this, this⟩

/-- C91: over the engines of the crate a key longer than the block can be replaced by its hash. -/
theorem C91_crate {c : Cfg} (hc : c.Valid) (a : Alg) (ok : a.Ok c) {key : List Byte}
    (hgt : key.length > a.blockSize) (hk : Fits c (a.base + key.length + a.slack)) :
    (Source.engineOf c a).hash key = .ok (a.hashSpec key) ∧
    Source.Hmac.Engine.new c (Source.engineOf c a) key =
      Source.Hmac.Engine.new c (Source.engineOf c a) (a.hashSpec key) := by
  have hb : (Source.engineOf c a).blockSize = a.blockSize :=
    (Source.algSim hc a (fits_of_ok a ok)).blockSize.trans (Alg.blockSize_eq c a)
  have h3 : a.base + key.length + a.slack + 144 < 2 ^ c.usizeBits := hk.2
  have hh : (Source.engineOf c a).hash key = .ok (a.hashSpec key) := by
    have := C67_engines hc a ok [key] (by rw [List.flatten_singleton]; exact hk.1)
      (by rw [List.flatten_singleton]; exact hk.2)
    rw [← Lawful.hash_eq_chunks, List.flatten_singleton] at this
    exact this
  exact ⟨hh, C91_long_key c _ (by rw [hb]; exact hgt) hh
    (by rw [Alg.hashSpec_length, hb]; exact a.outLen_le)⟩

example : (List.replicate 65 (7 : Byte)).length > Alg.ripemd160.blockSize ∧
    Fits .release32 (Alg.ripemd160.base + (List.replicate 65 (7 : Byte)).length + Alg.ripemd160.slack) :=
  ⟨by decide, by constructor <;> decide⟩

attribute [local irreducible] shattered1 shattered2

/-- C91: the two messages of the published collision of SHA-1, continued in any way, are keys with
which the translated text of HMAC over SHA-1 makes the same engine. -/
theorem C91_sha1_keys {c : Cfg} (hc : c.Valid) (s : List Byte) (hs : Fits c (320 + s.length)) :
    shattered1 ++ s ≠ shattered2 ++ s ∧
    Source.Hmac.Engine.new c (Source.engineOf c .sha1) (shattered1 ++ s) =
      Source.Hmac.Engine.new c (Source.engineOf c .sha1) (shattered2 ++ s) := by
  refine ⟨fun h => shattered_ne (List.append_cancel_right h), ?_⟩
  have hb : 320 + s.length + 144 < 2 ^ c.usizeBits := hs.2
  have l1 : (shattered1 ++ s).length = 320 + s.length := by rw [List.length_append, length_shattered1]
  have l2 : (shattered2 ++ s).length = 320 + s.length := by rw [List.length_append, length_shattered2]
  have whole : ∀ x : List Byte, Fits c (x ++ s).length →
      (Source.engineOf c .sha1).hash (x ++ s) = (Source.engineOf c .sha1).hashByteChunks [x, s] := by
    intro x hf
    have f : [x, s].flatten = x ++ s := by simp
    have h1 := C67_engines hc .sha1 trivial [x ++ s]
      (by rw [List.flatten_singleton]; show 8 * (0 + _ + 0) < _; have := hf.1; omega)
      (by rw [List.flatten_singleton]; show 0 + _ + 0 + 144 < _; have := hf.2; rw [Cfg.usizeMod] at this; omega)
    have h2 := C67_engines hc .sha1 trivial [x, s]
      (by rw [f]; show 8 * (0 + _ + 0) < _; have := hf.1; omega)
      (by rw [f]; show 0 + _ + 0 + 144 < _; have := hf.2; rw [Cfg.usizeMod] at this; omega)
    rw [← Lawful.hash_eq_chunks, List.flatten_singleton] at h1
    rw [h1, h2, f]
  obtain ⟨_, _, _, _, _, _, h⟩ := C90_sha1 hc
  refine C91_same_hash c _ ?_ ?_ ?_
  · rw [l1]; show _ > 64; omega
  · rw [l2]; show _ > 64; omega
  · rw [whole _ (l1 ▸ hs), whole _ (l2 ▸ hs)]
    exact h [s] fun d hd => by rw [List.mem_singleton.1 hd]; omega

theorem hmac_mid {c : Cfg} (hc : c.Valid) {a : Alg} (ha : hasBlocks a = true) {key : List Byte}
    (hk : Fits c key.length) {e} (h : Source.Hmac.Engine.new c (Source.engineOf c a) key = .ok e) :
    ∃ μ : (Source.engineOf c (.hmac a)).Midstate, (Source.engineOf c (.hmac a)).midstate e = .ok μ ∧
      midAfter c a ((hmacKey a.hashSpec a.blockSize key).map (· ^^^ 0x36)) =
        .ok (Source.showMid c a (Source.Hmac.Midstate.inner (E := Source.engineOf c a) μ)) := by
  obtain ⟨ok, hb, hs⟩ := hasBlocks_ok ha c
  have hB : (a.engine c).blockSize ≤ 128 := by rw [Alg.blockSize_eq]; exact a.blockSize_le
  have h16 : 128 < 2 ^ c.usizeBits := Nat.lt_of_lt_of_le (by decide) (usizeMod_ge hc)
  have okh : (Alg.hmac a).Ok c := ⟨ok, by
    have := a.blockSize_le
    rw [hb]; show _ < 2 ^ c.usizeBits; omega⟩
  have hacc := a.fresh_accepts ok _ okh.2
  rw [← Alg.blockSize_eq c] at hacc
  have hkey : key.length < c.usizeMod := by have := hk.2; omega
  have hh : (a.engine c).hash key = .ok (a.hashSpec key) := by
    have := a.hashByteChunks_eq hc ok [key] (by
      intro d hd; rw [List.mem_singleton.1 hd]; exact hkey) (by
      rw [List.flatten_singleton, hb, hs, Nat.zero_add, Nat.add_zero]; exact hk)
    rw [← Lawful.hash_eq_chunks, List.flatten_singleton] at this
    exact this
  obtain ⟨k, hkeq, hkl⟩ : ∃ k, k = (if key.length > a.blockSize then a.hashSpec key else key) ∧
      k.length ≤ a.blockSize := by
    refine ⟨_, rfl, ?_⟩
    split
    · rw [Alg.hashSpec_length]; exact a.outLen_le
    · omega
  obtain ⟨m, h1, R⟩ := Hmac.new_of_key (c := c) (a.lawful hc ok) hB hacc (key := key) (k := k)
    (by rw [Alg.blockSize_eq]; exact hkl)
    (by
      rw [Alg.blockSize_eq, hkeq]
      by_cases hgt : key.length > a.blockSize
      · rw [if_pos hgt, if_pos hgt]; exact hh
      · rw [if_neg hgt, if_neg hgt])
  rw [Alg.blockSize_eq] at R
  have R : ((Alg.hmac a).lawful hc okh).Rel m
      (.ofKey (a.log c).fresh (k ++ List.replicate (a.blockSize - k.length) 0)) [] := R
  have hkk : k ++ List.replicate (a.blockSize - k.length) 0 = hmacKey a.hashSpec a.blockSize key := by
    simp only [hmacKey, ← hkeq]
  rw [hkk] at R
  have hm := ((Alg.hmac a).lawful hc okh).mid R
  rw [Source.Hmac.new_eq hc (Source.algSim hc a (fits_of_ok a ok)) key hkey, h1] at h
  cases h
  refine ⟨(Source.algSim hc (.hmac a) (fits_of_ok _ okh)).mid _,
    ((Source.algSim hc (.hmac a) (fits_of_ok _ okh)).midstate m).trans (by rw [hm]; rfl), ?_⟩
  rw [Source.midAfter_eq hc a ok (fits_of_ok a ok) _ (by
    rw [hb, List.length_map, length_hmacKey]
    have := a.blockSize_le
    omega)]
  rw [← List.append_nil ((hmacKey a.hashSpec a.blockSize key).map (· ^^^ 0x36)), ← List.append_assoc]
  rfl

/-- C91: two keys of the translated text of HMAC with the same midstate have the same key block, or the two
key blocks xor `0x36` are different blocks after which new engines have the same midstate. The second case
names the two blocks: that there are some such blocks is true of every hash function. -/
theorem C91_only {c : Cfg} (hc : c.Valid) (a : Alg) (ha : hasBlocks a = true) {key key' : List Byte}
    (hk : Fits c key.length) (hk' : Fits c key'.length) {e e'}
    (h : Source.Hmac.Engine.new c (Source.engineOf c a) key = .ok e)
    (h' : Source.Hmac.Engine.new c (Source.engineOf c a) key' = .ok e')
    (hm : (Source.engineOf c (.hmac a)).midstate e = (Source.engineOf c (.hmac a)).midstate e') :
    hmacKey a.hashSpec a.blockSize key = hmacKey a.hashSpec a.blockSize key' ∨
    (hmacKey a.hashSpec a.blockSize key ≠ hmacKey a.hashSpec a.blockSize key' ∧
      midAfter c a ((hmacKey a.hashSpec a.blockSize key).map (· ^^^ 0x36)) =
        midAfter c a ((hmacKey a.hashSpec a.blockSize key').map (· ^^^ 0x36))) := by
  obtain ⟨μ, h1, h2⟩ := hmac_mid hc ha hk h
  obtain ⟨μ', h1', h2'⟩ := hmac_mid hc ha hk' h'
  rw [h1, h1'] at hm
  cases hm
  by_cases hne : hmacKey a.hashSpec a.blockSize key = hmacKey a.hashSpec a.blockSize key'
  · exact .inl hne
  · exact .inr ⟨hne, h2.trans h2'.symm⟩

end Chf.Props
