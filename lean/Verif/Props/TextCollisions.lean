import Verif.Proofs.Source.Collide
import Verif.Props.Reductions
import Verif.Props.Text

/-!
# C89: collisions of the translated text are collisions of its block functions
-/

namespace Chf.Props
open Chf Chf.Rs Chf.Spec

/-- The hash functions with a block function. -/
def hasBlocks : Alg → Bool
  | .sha1 | .sha256 | .sha384 | .sha512 | .sha512_256 | .ripemd160 => true
  | _ => false

theorem hasBlocks_ok {a : Alg} (ha : hasBlocks a = true) (c : Cfg) : a.Ok c ∧ a.base = 0 ∧ a.slack = 0 := by
  cases a <;> first | cases ha; done | exact ⟨trivial, rfl, rfl⟩

theorem collide_text {c : Cfg} (hc : c.Valid) {a : Alg} (ha : hasBlocks a = true) {m m' : List Byte}
    (hm : Fits c m.length) (hm' : Fits c m'.length) (hne : m ≠ m') (heq : a.hashSpec m = a.hashSpec m') :
    BlocksCollide c a m m' ∨ TruncationCollides c a m m' := by
  cases a with
  | sha1 => exact (Source.Sha1.mdText hc).collision hm.1 hm'.1 hm.2 hm'.2 hne heq
  | sha256 => exact (Source.Sha256.mdText hc).collision hm.1 hm'.1 hm.2 hm'.2 hne heq
  | sha384 => exact (Source.Sha384.mdText hc).collision hm.1 hm'.1 hm.2 hm'.2 hne heq
  | sha512 => exact (Source.Sha512.mdText hc).collision hm.1 hm'.1 hm.2 hm'.2 hne heq
  | sha512_256 => exact (Source.Sha512_256.mdText hc).collision hm.1 hm'.1 hm.2 hm'.2 hne heq
  | ripemd160 => exact (Source.Ripemd160.mdText hc).collision hm.1 hm'.1 hm.2 hm'.2 hne heq
  | _ => cases ha

/-- C89: if the translated text gives two different messages, cut in any way, the same digest, then new
engines that were input parts of the two padded messages show two different calls of the block function
with the same result; or the midstates after the padded messages differ but are cut to the same digest. -/
theorem C89_collision {c : Cfg} (hc : c.Valid) (a : Alg) (ha : hasBlocks a = true)
    (ds ds' : List (List Byte)) (d : List Byte) (hm : Fits c ds.flatten.length)
    (hm' : Fits c ds'.flatten.length) (h : (Source.engineOf c a).hashByteChunks ds = .ok d)
    (h' : (Source.engineOf c a).hashByteChunks ds' = .ok d) (hne : ds.flatten ≠ ds'.flatten) :
    BlocksCollide c a ds.flatten ds'.flatten ∨ TruncationCollides c a ds.flatten ds'.flatten := by
  obtain ⟨ok, hb, hs⟩ := hasBlocks_ok ha c
  have run : ∀ {ds : List (List Byte)}, Fits c ds.flatten.length →
      (Source.engineOf c a).hashByteChunks ds = .ok (a.hashSpec ds.flatten) := fun hf =>
    C67_engines hc a ok _ (by have := hf.1; omega) (by have := hf.2; rw [Cfg.usizeMod] at this; omega)
  rw [run hm] at h
  rw [run hm'] at h'
  exact collide_text hc ha hm hm' hne (Except.ok.inj (h.trans h'.symm))

/-- C89: the functions whose digest is the whole state have only collisions of the first kind. -/
theorem C89_untruncated {c : Cfg} (hc : c.Valid) (a : Alg) (ha : untruncated a = true) (m m' : List Byte)
    (hm : Fits c m.length) : ¬ TruncationCollides c a m m' := by
  rintro ⟨x, x', h1, _, _, _, h⟩
  have key : ∀ {H : Type} {P : Md H}, Source.MdText c a P → (∀ s, (P.words s).length = a.outLen) → False := by
    intro H P T hl
    rw [T.blocks_flatten, T.mid _ (T.length_pad hm.2)] at h1
    cases h1
    rw [hl] at h
    omega
  cases a with
  | sha1 => exact key (Source.Sha1.mdText hc) length_serialize5
  | sha256 => exact key (Source.Sha256.mdText hc) length_serialize8_32
  | sha512 => exact key (Source.Sha512.mdText hc) length_serialize8_64
  | ripemd160 => exact key (Source.Ripemd160.mdText hc) length_serializeRmd
  | _ => cases ha

/-- C89: tags separate domains.  If the translated text gives two different pairs of a tag and a message
the same tagged hash, then its SHA-256 collides: on the tags, or on the strings hashed for the messages. -/
theorem C89_tags {c : Cfg} (hc : c.Valid) (tag msg tag' msg' : List Byte) (d)
    (ht : Fits c (tag.length + 56)) (ht' : Fits c (tag'.length + 56))
    (hm : Fits c (msg.length + 156)) (hm' : Fits c (msg'.length + 156))
    (h : Source.Sha256t.Hash.hash c (Source.bip340Tag c tag) msg = .ok d)
    (h' : Source.Sha256t.Hash.hash c (Source.bip340Tag c tag') msg' = .ok d)
    (hne : (tag, msg) ≠ (tag', msg')) :
    BlocksCollide c .sha256 tag tag' ∨
    BlocksCollide c .sha256 (sha256 tag ++ sha256 tag ++ msg) (sha256 tag' ++ sha256 tag' ++ msg') := by
  have run : ∀ {tag msg : List Byte}, Fits c (tag.length + 56) → Fits c (msg.length + 156) →
      Source.Sha256t.Hash.hash c (Source.bip340Tag c tag) msg =
        .ok ⟨sha256 (sha256 tag ++ sha256 tag ++ msg), ()⟩ := by
    intro tag msg h1 h2
    have h3 : tag.length + 56 + 144 < 2 ^ c.usizeBits := h1.2
    have h4 : msg.length + 156 + 144 < 2 ^ c.usizeBits := h2.2
    have h5 := h1.1
    have h6 := h2.1
    exact C69_bip340 hc tag msg (by omega) (by omega) (by omega) (by omega)
  have only : ∀ {m m' : List Byte}, Fits c m.length → Fits c m'.length → m ≠ m' → sha256 m = sha256 m' →
      BlocksCollide c .sha256 m m' := fun f f' hne he =>
    (collide_text hc (a := .sha256) rfl f f' hne he).resolve_right (C89_untruncated hc .sha256 rfl _ _ f)
  rw [run ht hm] at h
  rw [run ht' hm'] at h'
  have he := Except.ok.inj (h.trans h'.symm)
  injection he with he
  have l : ∀ t m : List Byte, (sha256 t ++ sha256 t ++ m).length = m.length + 64 := by
    intro t m
    rw [List.length_append, List.length_append, length_sha256]
    omega
  by_cases hs : sha256 tag ++ sha256 tag ++ msg = sha256 tag' ++ sha256 tag' ++ msg'
  · rw [List.append_assoc, List.append_assoc] at hs
    obtain ⟨h1, h2⟩ := List.append_inj hs (by rw [length_sha256, length_sha256])
    obtain ⟨_, h3⟩ := List.append_inj h2 (by rw [length_sha256, length_sha256])
    refine .inl (only (ht.mono (by omega)) (ht'.mono (by omega)) (fun e => hne (by rw [e, h3])) h1)
  · exact .inr (only (by rw [l]; exact hm.mono (by omega)) (by rw [l]; exact hm'.mono (by omega)) hs he)

/-- C89: if the translated text gives two different pairs of a key block and a message the same HMAC,
then its hash function collides on what HMAC hashes, inside or outside. -/
theorem C89_hmac {c : Cfg} (hc : c.Valid) (a : Alg) (ha : hasBlocks a = true)
    (key key' t : List Byte) (ds ds' : List (List Byte)) (hk : Fits c key.length) (hk' : Fits c key'.length)
    (hm : Fits c (a.blockSize + ds.flatten.length + 64))
    (hm' : Fits c (a.blockSize + ds'.flatten.length + 64))
    (h : (do
      let e ← Source.Hmac.Engine.new c (Source.engineOf c a) key
      let e ← (Source.engineOf c (.hmac a)).inputs e ds
      (Source.engineOf c (.hmac a)).finalize e) = .ok t)
    (h' : (do
      let e ← Source.Hmac.Engine.new c (Source.engineOf c a) key'
      let e ← (Source.engineOf c (.hmac a)).inputs e ds'
      (Source.engineOf c (.hmac a)).finalize e) = .ok t)
    (hne : (hmacKey a.hashSpec a.blockSize key, ds.flatten) ≠
      (hmacKey a.hashSpec a.blockSize key', ds'.flatten)) :
    (BlocksCollide c a (innerText a key ds.flatten) (innerText a key' ds'.flatten) ∨
      TruncationCollides c a (innerText a key ds.flatten) (innerText a key' ds'.flatten)) ∨
    BlocksCollide c a (outerText a key ds.flatten) (outerText a key' ds'.flatten) ∨
      TruncationCollides c a (outerText a key ds.flatten) (outerText a key' ds'.flatten) := by
  obtain ⟨ok, hb, hs⟩ := hasBlocks_ok ha c
  have run : ∀ {key : List Byte} {ds : List (List Byte)}, Fits c key.length →
      Fits c (a.blockSize + ds.flatten.length + 64) →
      (do
        let e ← Source.Hmac.Engine.new c (Source.engineOf c a) key
        let e ← (Source.engineOf c (.hmac a)).inputs e ds
        (Source.engineOf c (.hmac a)).finalize e) = .ok (a.hashSpec (outerText a key ds.flatten)) := by
    intro key ds h1 h2
    have h3 : a.blockSize + ds.flatten.length + 64 + 144 < 2 ^ c.usizeBits := h2.2
    have h4 : key.length + 144 < 2 ^ c.usizeBits := h1.2
    refine (hmac_text hc (Source.algSim hc a (fits_of_ok a ok)) key ds (by show _ < 2 ^ c.usizeBits; omega)
      fun d hd => by
        have := length_le_flatten hd
        show _ < 2 ^ c.usizeBits
        omega).trans ?_
    exact C23_hmac_any_width hc a ⟨ok, by rw [hb]; show _ < 2 ^ c.usizeBits; omega⟩ key ds
      (by rw [hb, hs, Nat.zero_add, Nat.add_zero]; exact h1)
      (by rw [hb, hs, Nat.zero_add, Nat.zero_add]; exact h2)
  rw [run hk hm] at h
  rw [run hk' hm'] at h'
  have he := Except.ok.inj (h.trans h'.symm)
  have li : ∀ k m : List Byte, (innerText a k m).length = a.blockSize + m.length := by
    intro k m
    rw [innerText, List.length_append, List.length_map, length_hmacKey]
  have lo : ∀ k m : List Byte, (outerText a k m).length ≤ a.blockSize + 64 := by
    intro k m
    rw [outerText, List.length_append, List.length_map, length_hmacKey, a.hashSpec_length]
    have : a.outLen ≤ 64 := by cases a <;> first | (cases ha; done) | decide
    omega
  by_cases ho : outerText a key ds.flatten = outerText a key' ds'.flatten
  · obtain ⟨h1, h2⟩ := List.append_inj ho (by
      rw [List.length_map, List.length_map, length_hmacKey, length_hmacKey])
    have h3 := xor_map_inj _ h1
    refine .inl (collide_text hc ha (by rw [li]; exact hm.mono (by omega))
      (by rw [li]; exact hm'.mono (by omega)) (fun hi => hne ?_) h2)
    obtain ⟨_, h5⟩ := List.append_inj hi (by
      rw [List.length_map, List.length_map, length_hmacKey, length_hmacKey])
    rw [h3, h5]
  · have := lo key ds.flatten
    have := lo key' ds'.flatten
    exact .inr (collide_text hc ha (hm.mono (by omega)) (hm'.mono (by omega)) ho he)

end Chf.Props
