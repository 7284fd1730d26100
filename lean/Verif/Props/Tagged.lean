import Verif.Proofs.Resume
import Verif.Model.Bip340

/-!
# Properties C12, C13, C45: hashing in const context and tagged hashes
-/

namespace Chf.Props
open Spec

/-- C12: `const_hash` returns the same as `hash`, panics included, on every target.  (The only
messages left out are those within 200 bytes of the address space.) -/
theorem C12_const_hash {c : Cfg} (hc : c.Valid) (m : List Byte) (hm : m.length + 200 < 2 ^ c.usizeBits) :
    Sha256.constHash c m = (Sha256.engine c).hash m := by
  rw [Sha256.constHash_eq hc hm, (Sha256.lawful hc).hash m trivial]
  have hp := paddedLen_le (P := md256) (.inl rfl) (by decide) (by decide) m.length
  have hacc : (log256 c).accepts (log256 c).fresh.1 ((log256 c).fresh.2.length + m.length) = true := by
    simp only [log256, Md.log, Bool.or_eq_true, decide_eq_true_eq, List.length_nil, Nat.zero_add]
    right; omega
  rw [if_pos hacc]
  simp only [log256, Md.log, Nat.zero_add, List.nil_append,
    Nat.mod_eq_of_lt (show m.length < 2 ^ c.usizeBits by omega)]
  by_cases h : c.overflowChecks = true ∧ ¬ 8 * m.length < 2 ^ 64
  · rw [if_pos h, if_pos ⟨h.1, fun hh => h.2 hh.2⟩]
  · rw [if_neg h, if_neg (by rintro ⟨h1, h2⟩; exact h ⟨h1, fun h3 => h2 ⟨by omega, h3⟩⟩)]
    rfl

example : Cfg.release32.Valid ∧ (List.replicate 119 (5 : Byte)).length + 200 < 2 ^ Cfg.release32.usizeBits := by
  decide +kernel

/-- C12: both are FIPS 180-4 SHA-256. -/
theorem C12_const_hash_sha256 {c : Cfg} (hc : c.Valid) (m : List Byte)
    (hm : m.length + 200 < 2 ^ c.usizeBits) (hb : 8 * m.length < 2 ^ 64) :
    Sha256.constHash c m = .ok (sha256 m) := by
  rw [Sha256.constHash_eq hc hm, if_neg (by rintro ⟨_, h⟩; exact h hb), Nat.mod_eq_of_lt hb,
    digestWith_256]

example : Cfg.debug64.Valid ∧ ([0x61, 0x62, 0x63] : List Byte).length + 200 < 2 ^ Cfg.debug64.usizeBits ∧
    8 * ([0x61, 0x62, 0x63] : List Byte).length < 2 ^ 64 := by decide

theorem length_sha256 (m : List Byte) : (sha256 m).length = 32 := Alg.hashSpec_length .sha256 m

/-- C13: `hash_tag` is that midstate. -/
theorem C13_hash_tag {c : Cfg} (hc : c.Valid) (tag : List Byte)
    (hm : tag.length + 200 < 2 ^ c.usizeBits) (hb : 8 * tag.length < 2 ^ 64) :
    Sha256.hashTag c tag = .ok (tagMidstate tag) := by
  have hl := length_sha256 tag
  have h2 : (sha256 tag ++ sha256 tag).length = 64 := by rw [List.length_append, hl]
  unfold Sha256.hashTag
  rw [C12_const_hash_sha256 hc tag hm hb]
  simp only [bind, Except.bind, Sha256.doubled _ hl]
  rw [Sha256.constHash_block h2 (by have := usizeMod_ge hc; omega), tagMidstate,
    chain_one (by decide) _ _ h2]

/-- C13: `hash_tag` is what the engine's `midstate()` returns after two inputs of the digest. -/
theorem C13_hash_tag_engine {c : Cfg} (hc : c.Valid) (tag : List Byte)
    (hm : tag.length + 200 < 2 ^ c.usizeBits) (hb : 8 * tag.length < 2 ^ 64) :
    Sha256.hashTag c tag = (do
      let e ← (Sha256.engine c).new
      let d ← (Sha256.engine c).hash tag
      let e ← (Sha256.engine c).inputs e [d, d]
      (Sha256.engine c).midstate e) := by
  have hl := length_sha256 tag
  have hM := usizeMod_ge hc
  rw [Cfg.usizeMod] at hM
  obtain ⟨e, he, R⟩ := (Sha256.lawful hc).new_rel
  have hd : (Sha256.engine c).hash tag = .ok (sha256 tag) := by
    rw [← C12_const_hash hc tag hm, C12_const_hash_sha256 hc tag hm hb]
  obtain ⟨e', he', R'⟩ := (Sha256.lawful hc).inputs_ok [sha256 tag, sha256 tag] (fun _ _ => trivial) R (by
    simp [log256, Md.log, hl]
    right; omega)
  rw [C13_hash_tag hc tag hm hb, he]
  simp only [hd, bind, Except.bind, he', (Sha256.lawful hc).mid R']
  simp only [List.flatten_cons, List.flatten_nil, List.append_nil]
  rfl

example : Cfg.release32.Valid ∧ ([0x61, 0x62] : List Byte).length + 200 < 2 ^ Cfg.release32.usizeBits ∧
    8 * ([0x61, 0x62] : List Byte).length < 2 ^ 64 := by decide

theorem bip340Tag_eq {c : Cfg} (hc : c.Valid) (tag : List Byte)
    (hm : tag.length + 200 < 2 ^ c.usizeBits) (hb : 8 * tag.length < 2 ^ 64) :
    bip340Tag c tag = .ofMidstate c (tagMidstate tag) 64 [] := by
  unfold bip340Tag Sha256t.Tag.ofMidstate
  rw [C13_hash_tag hc tag hm hb]
  show Sha256t.Tag.mk (Sha256.fromMidstate (tagMidstate tag) 64) = _
  have hin : ∀ e, (Sha256.engine c).input e [] = .ok e := fun e => rfl
  cases Sha256.fromMidstate (tagMidstate tag) 64 with
  | error f => rfl
  | ok e => exact congrArg Sha256t.Tag.mk (hin e).symm

/-- C13: tagged hashing is BIP-340's tagged hash, in every chunking. -/
theorem C13_bip340 {c : Cfg} (hc : c.Valid) (tag : List Byte) (chunks : List (List Byte))
    (ht : tag.length + 200 < 2 ^ c.usizeBits) (htb : 8 * tag.length < 2 ^ 64)
    (hm : chunks.flatten.length + 300 < 2 ^ c.usizeBits)
    (hb : 8 * (64 + chunks.flatten.length) < 2 ^ 64) :
    (Sha256t.engine c (bip340Tag c tag)).hashByteChunks chunks =
      .ok (tagged sha256 tag chunks.flatten) := by
  rw [bip340Tag_eq hc tag ht htb]
  have ok : (Alg.sha256t (tagMidstate tag) 64 []).Ok c :=
    ⟨length_serialize8_32 _, by decide, by have := usizeMod_ge hc; simp; omega⟩
  have h := (Alg.sha256t (tagMidstate tag) 64 []).hashByteChunks_eq hc ok chunks (fun d hd => by
    have := length_le_flatten hd
    show _ < 2 ^ c.usizeBits
    omega) ⟨by simp only [Alg.base, Alg.slack, List.length_nil]; omega, by
      simp only [Alg.base, Alg.slack, Cfg.usizeMod, List.length_nil]; omega⟩
  refine h.trans ?_
  congr 1
  have h64 : (sha256 tag ++ sha256 tag).length = 64 := by rw [List.length_append, length_sha256]
  have hd := digestWith_append md256 (by decide) iv256 (sha256 tag ++ sha256 tag) chunks.flatten
    (by rw [h64]; decide) (8 * (64 + chunks.flatten.length))
  have hs : (sha256 tag ++ sha256 tag ++ chunks.flatten).length = 64 + chunks.flatten.length := by
    rw [List.length_append, h64]
  rw [tagged, ← digestWith_256, hs, hd]
  simp only [Alg.hashSpec, Alg.sha256From, tagMidstate, parse8_serialize8, List.nil_append,
    List.length_nil, Nat.zero_add]
  rfl

/-- The same for `Hash::<T>::hash(msg)`. -/
theorem C13_bip340_hash {c : Cfg} (hc : c.Valid) (tag msg : List Byte)
    (ht : tag.length + 200 < 2 ^ c.usizeBits) (htb : 8 * tag.length < 2 ^ 64)
    (hm : msg.length + 300 < 2 ^ c.usizeBits) (hb : 8 * (64 + msg.length) < 2 ^ 64) :
    Sha256t.hash c (bip340Tag c tag) msg = .ok (sha256 (sha256 tag ++ sha256 tag ++ msg)) := by
  have h := C13_bip340 hc tag [msg] ht htb (by rw [List.flatten_singleton]; exact hm)
    (by rw [List.flatten_singleton]; exact hb)
  rw [List.flatten_singleton, ← Lawful.hash_eq_chunks] at h
  exact h

example : Cfg.debug64.Valid ∧ ([0x54, 0x61, 0x67] : List Byte).length + 200 < 2 ^ Cfg.debug64.usizeBits ∧
    8 * ([0x54, 0x61, 0x67] : List Byte).length < 2 ^ 64 ∧
    ([[1], [2, 3]] : List (List Byte)).flatten.length + 300 < 2 ^ Cfg.debug64.usizeBits ∧
    8 * (64 + ([[1], [2, 3]] : List (List Byte)).flatten.length) < 2 ^ 64 := by decide

/-- C45: for every tag, even one whose `engine()` panics, the three constructors agree. -/
theorem C45_constructors (c : Cfg) (T : Sha256t.Tag) :
    (Sha256t.engine c T).default = (Sha256t.engine c T).new ∧
    Sha256t.hashEngine T = (Sha256t.engine c T).new := ⟨rfl, rfl⟩

theorem tagged_inputs (c : Cfg) (T : Sha256t.Tag) (ds : List (List Byte)) : ∀ e,
    (Sha256t.engine c T).inputs e ds = (Sha256.engine c).inputs e ds := by
  induction ds with
  | nil => intro e; rfl
  | cons d ds ih =>
    intro e
    exact congrArg (fun k : Sha256.Engine → Res Sha256.Engine =>
      BlockEngine.input c (Sha256.ops c) e d >>= k) (funext ih)

/-- C45: for every tag, `Hash::<T>::hash(msg)` is `engine()`, inputs in any chunking, `from_engine`.
The hypothesis says that the engine is a value of its Rust type: `buffer: [u8; 64]`, `length: usize`. -/
theorem C45_hash_from_engine {c : Cfg} (hc : c.Valid) (T : Sha256t.Tag)
    (hT : ∀ e, T.engine = .ok e → e.buffer.length = 64 ∧ e.length < c.usizeMod)
    (chunks : List (List Byte)) :
    Sha256t.hash c T chunks.flatten = (do
      let e ← Sha256t.hashEngine T
      let e ← (Sha256t.engine c T).inputs e chunks
      Sha256t.fromEngine c T e) := by
  unfold Sha256t.hash Sha256t.hashEngine
  cases he : T.engine with
  | error f => rfl
  | ok e =>
    obtain ⟨h1, h2⟩ := hT e he
    have R : (Sha256.lawful hc).Rel e _ _ := MdRel.any (P := md256) (sized_64 hc) h1 h2
    have k1 := (Sha256.lawful hc).inputs_finalize chunks (fun _ _ => trivial) R
    have k2 := (Sha256.lawful hc).inputs_finalize [chunks.flatten] (fun _ _ => trivial) R
    rw [List.flatten_singleton, ← k1] at k2
    refine Eq.trans ?_ (k2.trans ?_)
    · simp only [HashEngine.inputs, bind_assoc]
      rfl
    · exact congrArg (fun x : Res Sha256.Engine => x >>= (Sha256.engine c).finalize)
        (tagged_inputs c T chunks e).symm

example : Cfg.debug64.Valid ∧ ∃ T : Sha256t.Tag, (∃ e, T.engine = .ok e) ∧
    ∀ e, T.engine = .ok e → e.buffer.length = 64 ∧ e.length < Cfg.debug64.usizeMod :=
  ⟨by decide, ⟨.ok Sha256.Engine.default⟩, ⟨_, rfl⟩, fun e h => by cases h; exact ⟨rfl, by decide⟩⟩

end Chf.Props
