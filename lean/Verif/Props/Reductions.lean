import Verif.Props.Padding
import Verif.Props.Tagged
import Verif.Props.Hmac

/-!
# Property C57: colliding tagged hashes and MACs contain a collision of the hash function
-/

namespace Chf.Props
open Spec

theorem untruncated_ok {a : Alg} (ha : untruncated a = true) (c : Cfg) : a.Ok c := by
  cases a <;> first | (cases ha; done) | trivial

theorem untruncated_base {a : Alg} (ha : untruncated a = true) : a.base = 0 ∧ a.slack = 0 := by
  cases a <;> first | (cases ha; done) | exact ⟨rfl, rfl⟩

/-- Two different messages within the limits whose standard digests are equal. -/
theorem runs_collide {c : Cfg} (hc : c.Valid) (a : Alg) (ha : untruncated a = true) (X : BlockHash)
    (hX : a.blockHash c = some X) (m m' : List Byte) (hf : Fits c m.length) (hf' : Fits c m'.length)
    (he : a.hashSpec m = a.hashSpec m') (hne : m ≠ m') : RunsCollide c X [m] [m'] := by
  obtain ⟨hb, hs⟩ := untruncated_base ha
  have run : ∀ m : List Byte, Fits c m.length → (a.engine c).hashByteChunks [m] = .ok (a.hashSpec m) := by
    intro m hf
    have := a.hashByteChunks_eq hc (untruncated_ok ha c) [m] (by
      intro d hd
      rw [List.mem_singleton.1 hd]
      have := hf.2
      omega) (by rw [List.flatten_singleton, hb, hs, Nat.zero_add, Nat.add_zero]; exact hf)
    rwa [List.flatten_singleton] at this
  have hw : ∀ m : List Byte, Fits c m.length → m.length < 2 ^ c.usizeBits := by
    intro m hf
    have : m.length + 144 < 2 ^ c.usizeBits := hf.2
    omega
  refine C49_collision hc a ha X hX [m] [m'] (a.hashSpec m) ?_ ?_ ?_ ?_ (run m hf) ?_ ?_
  · rw [List.flatten_singleton]; exact hf.1
  · rw [List.flatten_singleton]; exact hf'.1
  · rw [List.flatten_singleton]; exact hw m hf
  · rw [List.flatten_singleton]; exact hw m' hf'
  · rw [he]; exact run m' hf'
  · rw [List.flatten_singleton, List.flatten_singleton]; exact hne

/-- C57: tags separate domains.  If two different pairs of a tag and a message get the same tagged hash,
then SHA-256 collides: on the two tags, or on the two strings that are hashed for the messages. -/
theorem C57_tags {c : Cfg} (hc : c.Valid) (X : BlockHash) (hX : Alg.sha256.blockHash c = some X)
    (tag msg tag' msg' d : List Byte) (ht : Fits c (tag.length + 56)) (ht' : Fits c (tag'.length + 56))
    (hm : Fits c (msg.length + 156)) (hm' : Fits c (msg'.length + 156))
    (h : Sha256t.hash c (bip340Tag c tag) msg = .ok d)
    (h' : Sha256t.hash c (bip340Tag c tag') msg' = .ok d) (hne : (tag, msg) ≠ (tag', msg')) :
    RunsCollide c X [tag] [tag'] ∨
    RunsCollide c X [sha256 tag ++ sha256 tag ++ msg] [sha256 tag' ++ sha256 tag' ++ msg'] := by
  have run : ∀ {tag msg : List Byte}, Fits c (tag.length + 56) → Fits c (msg.length + 156) →
      Sha256t.hash c (bip340Tag c tag) msg = .ok (sha256 (sha256 tag ++ sha256 tag ++ msg)) := by
    intro tag msg h1 h2
    have h3 : tag.length + 56 + 144 < 2 ^ c.usizeBits := h1.2
    have h4 : msg.length + 156 + 144 < 2 ^ c.usizeBits := h2.2
    have h5 := h1.1
    have h6 := h2.1
    exact C13_bip340_hash hc tag msg (by omega) (by omega) (by omega) (by omega)
  rw [run ht hm] at h
  rw [run ht' hm'] at h'
  have he := Except.ok.inj (h.trans h'.symm)
  have l : ∀ t m : List Byte, (sha256 t ++ sha256 t ++ m).length = m.length + 64 := by
    intro t m
    rw [List.length_append, List.length_append, length_sha256]
    omega
  by_cases hs : sha256 tag ++ sha256 tag ++ msg = sha256 tag' ++ sha256 tag' ++ msg'
  · rw [List.append_assoc, List.append_assoc] at hs
    obtain ⟨h1, h2⟩ := List.append_inj hs (by rw [length_sha256, length_sha256])
    obtain ⟨_, h3⟩ := List.append_inj h2 (by rw [length_sha256, length_sha256])
    exact .inl (runs_collide hc .sha256 rfl X hX tag tag' (ht.mono (by omega)) (ht'.mono (by omega)) h1
      fun e => hne (by rw [e, h3]))
  · exact .inr (runs_collide hc .sha256 rfl X hX _ _ (by rw [l]; exact hm.mono (by omega))
      (by rw [l]; exact hm'.mono (by omega)) he hs)

/-- Two tags that differ in one letter. -/
example : Fits .release32 (([0x61] : List Byte).length + 56) ∧ Fits .release32 (([] : List Byte).length + 156) ∧
    (([0x61], []) : List Byte × List Byte) ≠ ([0x62], []) := by
  refine ⟨?_, ?_, by decide⟩ <;> constructor <;> decide

/-- The tag of `msg` under HMAC: `hmac::Engine::<E>::new(key)`, one `input`, `finalize`. -/
def macOf (c : Cfg) (a : Alg) (key msg : List Byte) : Res (List Byte) := do
  let e ← Hmac.new c (a.engine c) key
  let e ← (Hmac.engine c (a.engine c)).inputs e [msg]
  (Hmac.engine c (a.engine c)).finalize e

/-- The two strings HMAC hashes. -/
def innerText (a : Alg) (key msg : List Byte) : List Byte :=
  (hmacKey a.hashSpec a.blockSize key).map (· ^^^ 0x36) ++ msg
def outerText (a : Alg) (key msg : List Byte) : List Byte :=
  (hmacKey a.hashSpec a.blockSize key).map (· ^^^ 0x5c) ++ a.hashSpec (innerText a key msg)

theorem length_hmacKey (a : Alg) (key : List Byte) :
    (hmacKey a.hashSpec a.blockSize key).length = a.blockSize := by
  have h1 := a.outLen_le
  have h2 := a.hashSpec_length key
  simp only [hmacKey]
  split
  · rw [List.length_append, List.length_replicate]; omega
  · rw [List.length_append, List.length_replicate]; omega

theorem xor_map_inj (x : Byte) {k k' : List Byte} (h : k.map (· ^^^ x) = k'.map (· ^^^ x)) : k = k' := by
  have := congrArg (List.map (· ^^^ x)) h
  simpa [List.map_map, Function.comp_def, BitVec.xor_assoc] using this

/-- C57: if two different pairs of a key block and a message get the same HMAC, then the hash function
collides on what HMAC hashes, inside or outside.  The key block is the key, hashed if it is longer than
a block, and filled up with zero bytes. -/
theorem C57_hmac {c : Cfg} (hc : c.Valid) (a : Alg) (ha : untruncated a = true) (X : BlockHash)
    (hX : a.blockHash c = some X) (key msg key' msg' t : List Byte)
    (hk : Fits c key.length) (hk' : Fits c key'.length)
    (hm : Fits c (a.blockSize + msg.length + 64)) (hm' : Fits c (a.blockSize + msg'.length + 64))
    (h : macOf c a key msg = .ok t) (h' : macOf c a key' msg' = .ok t)
    (hne : (hmacKey a.hashSpec a.blockSize key, msg) ≠ (hmacKey a.hashSpec a.blockSize key', msg')) :
    RunsCollide c X [innerText a key msg] [innerText a key' msg'] ∨
    RunsCollide c X [outerText a key msg] [outerText a key' msg'] := by
  obtain ⟨hb, hs⟩ := untruncated_base ha
  have run : ∀ {key msg : List Byte}, Fits c key.length → Fits c (a.blockSize + msg.length + 64) →
      macOf c a key msg = .ok (a.hashSpec (outerText a key msg)) := by
    intro key msg h1 h2
    have h3 : a.blockSize + msg.length + 64 + 144 < 2 ^ c.usizeBits := h2.2
    have := C23_hmac_any_width hc a ⟨untruncated_ok ha c, by
      rw [hb]; show _ < 2 ^ c.usizeBits; omega⟩ key [msg]
      (by rw [hb, hs, Nat.zero_add, Nat.add_zero]; exact h1)
      (by rw [hb, hs, List.flatten_singleton, Nat.zero_add, Nat.zero_add]; exact h2)
    rw [List.flatten_singleton] at this
    exact this
  rw [run hk hm] at h
  rw [run hk' hm'] at h'
  have he := Except.ok.inj (h.trans h'.symm)
  have li : ∀ k m : List Byte, (innerText a k m).length = a.blockSize + m.length := by
    intro k m
    rw [innerText, List.length_append, List.length_map, length_hmacKey]
  have lo : ∀ k m : List Byte, (outerText a k m).length ≤ a.blockSize + 64 := by
    intro k m
    rw [outerText, List.length_append, List.length_map, length_hmacKey, a.hashSpec_length]
    have : a.outLen ≤ 64 := by cases a <;> first | (cases ha; done) | decide
    omega
  by_cases ho : outerText a key msg = outerText a key' msg'
  · obtain ⟨h1, h2⟩ := List.append_inj ho (by
      rw [List.length_map, List.length_map, length_hmacKey, length_hmacKey])
    have h3 := xor_map_inj _ h1
    refine .inl (runs_collide hc a ha X hX _ _ (by rw [li]; exact hm.mono (by omega))
      (by rw [li]; exact hm'.mono (by omega)) h2 fun hi => hne ?_)
    obtain ⟨_, h5⟩ := List.append_inj hi (by
      rw [List.length_map, List.length_map, length_hmacKey, length_hmacKey])
    rw [h3, h5]
  · have := lo key msg
    have := lo key' msg'
    exact .inr (runs_collide hc a ha X hX _ _ (hm.mono (by omega)) (hm'.mono (by omega)) he ho)

/-- C57: in particular for different messages under one key, and for different keys of the same length;
keys longer than a block may also collide themselves. -/
theorem C57_hmac_same_length {c : Cfg} (hc : c.Valid) (a : Alg) (ha : untruncated a = true) (X : BlockHash)
    (hX : a.blockHash c = some X) (key msg key' msg' t : List Byte)
    (hk : Fits c key.length) (hk' : Fits c key'.length)
    (hm : Fits c (a.blockSize + msg.length + 64)) (hm' : Fits c (a.blockSize + msg'.length + 64))
    (h : macOf c a key msg = .ok t) (h' : macOf c a key' msg' = .ok t)
    (hl : key.length = key'.length) (hne : (key, msg) ≠ (key', msg')) :
    RunsCollide c X [key] [key'] ∨
    RunsCollide c X [innerText a key msg] [innerText a key' msg'] ∨
    RunsCollide c X [outerText a key msg] [outerText a key' msg'] := by
  by_cases hne' : (hmacKey a.hashSpec a.blockSize key, msg) = (hmacKey a.hashSpec a.blockSize key', msg')
  · injection hne' with h1 h2
    have hkne : key ≠ key' := fun e => hne (by rw [e, h2])
    simp only [hmacKey] at h1
    by_cases hgt : key.length > a.blockSize
    · rw [if_pos hgt, if_pos (hl ▸ hgt)] at h1
      have := (List.append_inj h1 (by rw [a.hashSpec_length, a.hashSpec_length])).1
      exact .inl (runs_collide hc a ha X hX key key' hk hk' this hkne)
    · rw [if_neg hgt, if_neg (hl ▸ hgt)] at h1
      exact absurd (List.append_inj h1 hl).1 hkne
  · exact .inr (C57_hmac hc a ha X hX key msg key' msg' t hk hk' hm hm' h h' hne')

example : Fits .release32 (List.replicate 70 (1 : Byte)).length ∧
    Fits .release32 (Alg.sha256.blockSize + ([1, 2] : List Byte).length + 64) ∧
    ((List.replicate 70 1, [1, 2]) : List Byte × List Byte) ≠ (List.replicate 70 1, [2, 1]) := by
  refine ⟨?_, ?_, by decide⟩ <;> constructor <;> decide

end Chf.Props
