import Verif.Proofs.Source.Programs
import Verif.Proofs.Source.Sha256Const
import Verif.Proofs.Source.Cmp
import Verif.Props.Conformance
import Verif.Props.Hmac
import Verif.Props.Tagged
import Verif.Props.Programs
import Verif.Props.Siphash
import Verif.Props.Cmp

/-!
# C67 to C70: the translated text

`Verif/Source` is a translation of the crate's functions made by `tools/rust2lean.py`; the model's
definitions do not occur in it.  The theorems here are about those functions.
-/

namespace Chf.Props
open Chf Chf.Rs Chf.Spec

/-- A well-formed engine type fits. -/
theorem fits_of_ok {c : Cfg} : (a : Alg) → a.Ok c → Source.Fits c a
  | .sha256t _ _ _, h => by have := h.2.2; show _ < _; omega
  | .hmac a, h => fits_of_ok a h.1
  | .sha1, _ => trivial
  | .sha256, _ => trivial
  | .sha384, _ => trivial
  | .sha512, _ => trivial
  | .sha512_256, _ => trivial
  | .ripemd160, _ => trivial
  | .siphash24, _ => trivial

/-! ## C67 -/

/-- C67: every engine type of the translated text, fed in any chunking, computes its standard. -/
theorem C67_engines {c : Cfg} (hc : c.Valid) (a : Alg) (ok : a.Ok c) (chunks : List (List Byte))
    (hbits : 8 * (a.base + chunks.flatten.length + a.slack) < 2 ^ 64)
    (hbytes : a.base + chunks.flatten.length + a.slack + 144 < 2 ^ c.usizeBits) :
    (Source.engineOf c a).hashByteChunks chunks = .ok (a.hashSpec chunks.flatten) := by
  rw [(Source.algSim hc a (fits_of_ok a ok)).hashByteChunks chunks fun d hd => by
    have := length_le_flatten hd
    show _ < 2 ^ c.usizeBits
    omega]
  exact conformance_any_width hc a ok chunks hbits hbytes

example : Cfg.debug64.Valid ∧ (Alg.hmac .sha512).Ok .debug64 ∧
    8 * ((Alg.hmac .sha512).base + ([[1], [2, 3]] : List (List Byte)).flatten.length +
      (Alg.hmac .sha512).slack) < 2 ^ 64 ∧
    (Alg.hmac .sha512).base + ([[1], [2, 3]] : List (List Byte)).flatten.length +
      (Alg.hmac .sha512).slack + 144 < 2 ^ Cfg.debug64.usizeBits :=
  ⟨by decide, ⟨trivial, by decide⟩, by decide, by decide⟩

/-- The digest of a one-slice message by a translated engine on a 64-bit target. -/
theorem text64 {c : Cfg} (h64 : c.usizeBits = 64) (a : Alg) (ok : a.Ok c) (hs : a.slack = 0)
    (hb : a.base = 0) (m : List Byte) (hlen : m.length < 2 ^ 61) :
    (Source.engineOf c a).hash m = .ok (a.hashSpec m) := by
  have h := C67_engines (.inr (.inr h64)) a ok [m]
    (by rw [List.flatten_singleton]; omega) (by rw [h64, List.flatten_singleton]; omega)
  rw [List.flatten_singleton] at h
  rw [Lawful.hash_eq_chunks]
  exact h

/-- `Hash::hash` and `Hash::from_engine` wrap the digest of an engine. -/
theorem wrapped {H : Type} (E : HashEngine) (mk : List Byte → H) (e : E.State) (he : E.new = .ok e)
    (m d : List Byte) (h : E.hash m = .ok d) :
    (E.input e m >>= fun e => E.finalize e >>= fun x => pure (mk x)) = .ok (mk d) := by
  unfold HashEngine.hash at h
  rw [he, ok_bind] at h
  cases hi : E.input e m with
  | error f => rw [hi] at h; cases h
  | ok e' =>
    rw [hi, ok_bind] at h
    rw [ok_bind, h]
    rfl

/-- C67: the text of `sha1::Hash::hash`. -/
theorem C67_sha1 {c : Cfg} (h64 : c.usizeBits = 64) (m : List Byte) (hlen : m.length < 2 ^ 61) :
    Source.Sha1.Hash.hash c m = .ok ⟨sha1 m⟩ :=
  wrapped (Source.engineOf c .sha1) Source.Sha1.Hash.mk (Source.Sha1.Engine.default c) rfl m _
    (text64 h64 .sha1 trivial rfl rfl m hlen)

/-- C67: the text of `sha256::Hash::hash`. -/
theorem C67_sha256 {c : Cfg} (h64 : c.usizeBits = 64) (m : List Byte) (hlen : m.length < 2 ^ 61) :
    Source.Sha256.Hash.hash c m = .ok ⟨sha256 m⟩ :=
  wrapped (Source.engineOf c .sha256) Source.Sha256.Hash.mk (Source.Sha256.Engine.default c) rfl m _
    (text64 h64 .sha256 trivial rfl rfl m hlen)

/-- C67: the text of `sha384::Hash::hash`. -/
theorem C67_sha384 {c : Cfg} (h64 : c.usizeBits = 64) (m : List Byte) (hlen : m.length < 2 ^ 61) :
    Source.Sha384.Hash.hash c m = .ok ⟨sha384 m⟩ :=
  wrapped (Source.engineOf c .sha384) Source.Sha384.Hash.mk (Source.Sha384.Engine.default c) rfl m _
    (text64 h64 .sha384 trivial rfl rfl m hlen)

/-- C67: the text of `sha512::Hash::hash`. -/
theorem C67_sha512 {c : Cfg} (h64 : c.usizeBits = 64) (m : List Byte) (hlen : m.length < 2 ^ 61) :
    Source.Sha512.Hash.hash c m = .ok ⟨sha512 m⟩ :=
  wrapped (Source.engineOf c .sha512) Source.Sha512.Hash.mk (Source.Sha512.Engine.default c) rfl m _
    (text64 h64 .sha512 trivial rfl rfl m hlen)

/-- C67: the text of `sha512_256::Hash::hash`. -/
theorem C67_sha512_256 {c : Cfg} (h64 : c.usizeBits = 64) (m : List Byte) (hlen : m.length < 2 ^ 61) :
    Source.Sha512_256.Hash.hash c m = .ok ⟨sha512_256 m⟩ :=
  wrapped (Source.engineOf c .sha512_256) Source.Sha512_256.Hash.mk (Source.Sha512_256.Engine.default c) rfl m _
    (text64 h64 .sha512_256 trivial rfl rfl m hlen)

/-- C67: the text of `ripemd160::Hash::hash`. -/
theorem C67_ripemd160 {c : Cfg} (h64 : c.usizeBits = 64) (m : List Byte) (hlen : m.length < 2 ^ 61) :
    Source.Ripemd160.Hash.hash c m = .ok ⟨ripemd160 m⟩ :=
  wrapped (Source.engineOf c .ripemd160) Source.Ripemd160.Hash.mk (Source.Ripemd160.Engine.default c) rfl m _
    (text64 h64 .ripemd160 trivial rfl rfl m hlen)

set_option maxRecDepth 10000 in
/-- The text runs: "abc" and the empty message. -/
example : Cfg.debug64.usizeBits = 64 ∧ ([0x61, 0x62, 0x63] : List Byte).length < 2 ^ 61 ∧
    (Source.Sha1.Hash.hash .debug64 [0x61, 0x62, 0x63]).map (·.f0.take 4) = .ok [0xa9, 0x99, 0x3e, 0x36] ∧
    (Source.Sha256.Hash.hash .debug64 [0x61, 0x62, 0x63]).map (·.f0.take 4) = .ok [0xba, 0x78, 0x16, 0xbf] ∧
    (Source.Sha384.Hash.hash .debug64 [0x61, 0x62, 0x63]).map (·.f0.take 4) = .ok [0xcb, 0x00, 0x75, 0x3f] ∧
    (Source.Sha512.Hash.hash .debug64 [0x61, 0x62, 0x63]).map (·.f0.take 4) = .ok [0xdd, 0xaf, 0x35, 0xa1] ∧
    (Source.Sha512_256.Hash.hash .debug64 []).map (·.f0.take 4) = .ok [0xc6, 0x72, 0xb8, 0xd1] ∧
    (Source.Ripemd160.Hash.hash .debug64 []).map (·.f0.take 4) = .ok [0x9c, 0x11, 0x85, 0xa5] := by
  decide +kernel

/-- C67: the text of `siphash24::Hash::hash`, whose keys are zero. -/
theorem C67_siphash24 {c : Cfg} (hc : c.Valid) (m : List Byte) (hm : m.length < 2 ^ c.usizeBits) :
    Source.Siphash24.Hash.hash c m = .ok ⟨leBytes 8 (siphash24 0 0 m).toNat⟩ := by
  have h := C07_hash hc [m] (by rwa [List.flatten_singleton])
  rw [List.flatten_singleton] at h
  replace h := ((Source.algSim hc .siphash24 trivial).hashByteChunks [m] fun d hd => by
    rw [List.mem_singleton.mp hd]; exact hm).trans h
  rw [← Lawful.hash_eq_chunks] at h
  exact wrapped (Source.engineOf c .siphash24) Source.Siphash24.Hash.mk (Source.Siphash24.Engine.new c)
    rfl m _ h

/-- C67: the text of `hash_with_keys` and `hash_to_u64_with_keys`. -/
theorem C67_siphash24_keys {c : Cfg} (hc : c.Valid) (k0 k1 : BitVec 64) (m : List Byte)
    (hm : m.length < 2 ^ c.usizeBits) :
    Source.Siphash24.Hash.hash_with_keys c k0 k1 m = .ok ⟨leBytes 8 (siphash24 k0 k1 m).toNat⟩ ∧
    Source.Siphash24.Hash.hash_to_u64_with_keys c k0 k1 m = .ok (siphash24 k0 k1 m) := by
  rw [Source.Siphash24.hash_with_keys_eq c hc k0 k1 m hm, C07_hash_with_keys hc k0 k1 m hm,
    Source.Siphash24.hash_to_u64_with_keys_eq c hc k0 k1 m hm]
  exact ⟨rfl, C34_hash_to_u64_spec hc k0 k1 m hm⟩

/-- The key and message of the SipHash paper's appendix. -/
example : (Source.Siphash24.Hash.hash_to_u64_with_keys .release32 0x0706050403020100 0x0f0e0d0c0b0a0908
    [0, 1, 2, 3, 4, 5, 6, 7, 8, 9, 10, 11, 12, 13, 14]) = .ok 0xa129ca6149be45e5 := by decide +kernel

/-- A keyed HMAC computation over two related engine types. -/
theorem hmac_text {c : Cfg} (hc : c.Valid) {E M : HashEngine} (s : Source.Sim c E M) (key : List Byte)
    (chunks : List (List Byte)) (hk : key.length < c.usizeMod)
    (hm : ∀ d ∈ chunks, d.length < c.usizeMod) :
    (do
      let e ← Source.Hmac.Engine.new c E key
      let e ← (Source.Hmac.engine c E).inputs e chunks
      (Source.Hmac.engine c E).finalize e) =
    (do
      let e ← Hmac.new c M key
      let e ← (Hmac.engine c M).inputs e chunks
      (Hmac.engine c M).finalize e) := by
  rw [Source.Hmac.new_eq hc s key hk, map_bind_left]
  refine bind_congr' fun e _ => ?_
  refine (congrArg (fun z => z >>= _) ((Source.Hmac.sim hc s).inputs e chunks hm)).trans ?_
  rw [map_bind_left]
  exact bind_congr' fun e _ => (Source.Hmac.sim hc s).finalize e

/-- C67: the text of `hmac.rs` over the text of any engine type is RFC 2104's HMAC of the engine's
hash function. -/
theorem C67_hmac {c : Cfg} (h64 : c.usizeBits = 64) (a : Alg) (ok : (Alg.hmac a).Ok c) (key : List Byte)
    (chunks : List (List Byte)) (hk : a.base + key.length + a.slack < 2 ^ 60)
    (hm : a.base + chunks.flatten.length + a.slack < 2 ^ 60) :
    (do
      let e ← Source.Hmac.Engine.new c (Source.engineOf c a) key
      let e ← (Source.engineOf c (.hmac a)).inputs e chunks
      (Source.engineOf c (.hmac a)).finalize e) =
    .ok (hmac a.hashSpec a.blockSize key chunks.flatten) := by
  have hc : c.Valid := .inr (.inr h64)
  have hU : c.usizeMod = 2 ^ 64 := congrArg (2 ^ ·) h64
  have ok' : a.Ok c := ok.1
  refine Eq.trans ?_ (C23_hmac h64 a ok key chunks hk hm)
  exact hmac_text hc (Source.algSim hc a (fits_of_ok a ok')) key chunks (by rw [hU]; omega) fun d hd => by
    have := length_le_flatten hd
    rw [hU]; omega

/-- HMAC over HMAC-SHA-512 with a key longer than the block. -/
example : Cfg.release64.usizeBits = 64 ∧ (Alg.hmac (.hmac .sha512)).Ok .release64 ∧
    (Alg.hmac .sha512).base + (List.replicate 200 (1 : Byte)).length + (Alg.hmac .sha512).slack < 2 ^ 60 ∧
    (Alg.hmac .sha512).base + ([[1], [2, 3]] : List (List Byte)).flatten.length +
      (Alg.hmac .sha512).slack < 2 ^ 60 :=
  ⟨rfl, ⟨⟨trivial, by decide⟩, by decide⟩, by decide +kernel, by decide⟩

/-! ## C68 -/

theorem callFits_of_typed {c : Cfg} (x : Call) (h : x.Typed c) : Source.CallFits c x := by
  cases x with
  | make a how => exact ⟨fits_of_ok a h.1, h.2⟩
  | input i d => exact h
  | _ => trivial

/-- C68: every program over any number of engines of any types gets the same answers from the
translated text as from logs of what was input: the same panics, counts, midstates and digests, in
the same places. -/
theorem C68_programs {c : Cfg} (hc : c.Valid) (calls : List Call) (ht : ∀ x ∈ calls, x.Typed c) :
    (Source.text c).answers [] calls = (logs c).answers [] calls :=
  (Source.answers_sim hc calls .nil fun x hx => callFits_of_typed x (ht x hx)).symm.trans
    (C37_programs hc calls ht)

/-- C68: and the model gives the same answers, whatever the tags. -/
theorem C68_model {c : Cfg} (hc : c.Valid) (calls : List Call) (ht : ∀ x ∈ calls, Source.CallFits c x) :
    (Source.text c).answers [] calls = (Impl.crate c).answers [] calls :=
  (Source.answers_sim hc calls .nil ht).symm

set_option maxRecDepth 10000 in
/-- The program of C37, run over the text. -/
example : (Source.text .debug64).answers [] demo =
      [.done, .done, .done, .done, .done, .count 3, .count 1, .done, .count 65,
       .digest [0xba, 0x78, 0x16, 0xbf, 0x8f, 0x01, 0xcf, 0xea, 0x41, 0x41, 0x40, 0xde, 0x5d, 0xae,
         0x22, 0x23, 0xb0, 0x03, 0x61, 0xa3, 0x96, 0x17, 0x7a, 0x9c, 0xb4, 0x10, 0xff, 0x61, 0xf2,
         0x00, 0x15, 0xad], .rejected, .done, .count 0, .rejected] := by
  decide +kernel

/-! ## C69 -/

/-- C69: the text of `const_hash`, in both versions of its rounds, is SHA-256. -/
theorem C69_const_hash {c : Cfg} (hc : c.Valid) (m : List Byte)
    (hm : m.length + 200 < 2 ^ c.usizeBits) (hb : 8 * m.length < 2 ^ 64) :
    Source.Sha256.Hash.const_hash c m = .ok ⟨sha256 m⟩ := by
  rw [Source.Sha256.const_hash_eq c hc m (by show _ < 2 ^ c.usizeBits; omega),
    C12_const_hash_sha256 hc m hm hb]
  rfl

/-- C69: it is `Hash::hash`, panics included. -/
theorem C69_const_hash_hash {c : Cfg} (hc : c.Valid) (m : List Byte) (hm : m.length + 200 < 2 ^ c.usizeBits) :
    Source.Sha256.Hash.const_hash c m = Source.Sha256.Hash.hash c m := by
  have hl : m.length < c.usizeMod := by show _ < 2 ^ c.usizeBits; omega
  rw [Source.Sha256.const_hash_eq c hc m hl, C12_const_hash hc m hm]
  have h := (Source.algSim hc .sha256 trivial).hash m hl
  refine (congrArg (Except.map Source.Sha256.Hash.mk) h).symm.trans ?_
  show ((Source.Sha256.engine c).input (Source.Sha256.Engine.default c) m >>= fun e =>
    (Source.Sha256.engine c).finalize e).map Source.Sha256.Hash.mk =
    ((Source.Sha256.engine c).input (Source.Sha256.Engine.default c) m >>= fun e =>
      (Source.Sha256.engine c).finalize e >>= fun d => pure (Source.Sha256.Hash.mk d))
  rw [Rs.map_bind]
  exact bind_congr' fun e _ => map_eq_bind _ _

/-- C69: the text of `hash_tag` is the midstate BIP-340 prescribes. -/
theorem C69_hash_tag {c : Cfg} (hc : c.Valid) (tag : List Byte)
    (hm : tag.length + 200 < 2 ^ c.usizeBits) (hb : 8 * tag.length < 2 ^ 64) :
    Source.Sha256.Midstate.hash_tag c tag = .ok ⟨tagMidstate tag⟩ := by
  rw [Source.Sha256.hash_tag_eq c hc tag (by show _ < 2 ^ c.usizeBits; omega), C13_hash_tag hc tag hm hb]
  rfl

/-- C69: tagged hashing with the text is BIP-340's. -/
theorem C69_bip340 {c : Cfg} (hc : c.Valid) (tag msg : List Byte)
    (ht : tag.length + 200 < 2 ^ c.usizeBits) (htb : 8 * tag.length < 2 ^ 64)
    (hm : msg.length + 300 < 2 ^ c.usizeBits) (hb : 8 * (64 + msg.length) < 2 ^ 64) :
    Source.Sha256t.Hash.hash c (Source.bip340Tag c tag) msg =
      .ok ⟨sha256 (sha256 tag ++ sha256 tag ++ msg), ()⟩ := by
  have hT : (Source.bip340Tag c tag).engine = (bip340Tag c tag).engine.map Source.Sha256t.emb := by
    unfold Source.bip340Tag bip340Tag
    rw [C69_hash_tag hc tag ht htb, C13_hash_tag hc tag ht htb]
    simp only [ok_bind, Source.Sha256.from_midstate_copy, Source.Sha256.from_midstate_eq, map_bind_left]
    exact (map_eq_bind _ _).symm
  have h := (Source.Sha256t.sim hc _ _ hT).hash msg (by show _ < 2 ^ c.usizeBits; omega)
  rw [show (Sha256t.engine c (bip340Tag c tag)).hash msg = Sha256t.hash c (bip340Tag c tag) msg from rfl,
    C13_bip340_hash hc tag msg ht htb hm hb] at h
  have hw := congrArg (Except.map fun d => (⟨d, ()⟩ : Source.Sha256t.Hash)) h
  refine Eq.trans ?_ hw
  unfold HashEngine.hash
  rw [Rs.map_bind]
  refine bind_congr' fun e _ => ?_
  rw [Rs.map_bind]
  exact bind_congr' fun e _ => (map_eq_bind _ _).symm

/-- Eleven bytes in both versions of the rounds, and a tag. -/
example : Cfg.debug64.Valid ∧ ([0x61, 0x62, 0x63] : List Byte).length + 300 < 2 ^ Cfg.debug64.usizeBits ∧
    (Source.Sha256.Hash.const_hash .debug64 (List.replicate 11 7)).map (·.f0) =
      (Source.Sha256.Hash.const_hash { Cfg.debug64 with smallHash := true } (List.replicate 11 7)).map (·.f0) ∧
    (Source.Sha256.Midstate.hash_tag .debug64 [0x61]).map (·.f0.take 4) =
      .ok ((tagMidstate [0x61]).take 4) := by
  decide +kernel

/-! ## C70 -/

/-- The shape of `from_slice` in the macros and in `sha256.rs`. -/
theorem from_slice_shape {H : Type} (n : Nat) (mk : List Byte → H) (sl : List Byte) :
    (do
      let x ←
        if sl.length != n then do
          pure (Except.error ({ expected := n, got := sl.length } : Source.Lib.FromSliceError))
        else do
          let ret : List Byte := List.replicate n 0#8
          let ret ← Rs.copyFromSlice ret sl
          pure (Except.ok (mk ret))
      pure x : Res (Except Source.Lib.FromSliceError H)) =
    .ok (if sl.length = n then .ok (mk sl) else .error ⟨n, sl.length⟩) := by
  by_cases h : sl.length = n
  · have hcopy : copyFromSlice (List.replicate n 0#8) sl = .ok sl :=
      if_pos (by rw [List.length_replicate]; exact h)
    have hb : (sl.length != n) = false := by simp [h]
    simp only [hb, Bool.false_eq_true, if_false, hcopy, ok_bind, if_pos h]
    rfl
  · have hb : (sl.length != n) = true := by simp [h]
    simp only [hb, if_true, if_neg h]
    rfl

/-- C70: the text of every `from_slice` accepts exactly the slices of the right length, and its errors
name both lengths. -/
theorem C70_from_slice (c : Cfg) (T : Source.Sha256t.Tag) (sl : List Byte) :
    Source.Sha1.Hash.from_slice c sl = .ok (if sl.length = 20 then .ok ⟨sl⟩ else .error ⟨20, sl.length⟩) ∧
    Source.Sha256.Hash.from_slice c sl = .ok (if sl.length = 32 then .ok ⟨sl⟩ else .error ⟨32, sl.length⟩) ∧
    Source.Sha384.Hash.from_slice c sl = .ok (if sl.length = 48 then .ok ⟨sl⟩ else .error ⟨48, sl.length⟩) ∧
    Source.Sha512.Hash.from_slice c sl = .ok (if sl.length = 64 then .ok ⟨sl⟩ else .error ⟨64, sl.length⟩) ∧
    Source.Sha512_256.Hash.from_slice c sl =
      .ok (if sl.length = 32 then .ok ⟨sl⟩ else .error ⟨32, sl.length⟩) ∧
    Source.Ripemd160.Hash.from_slice c sl =
      .ok (if sl.length = 20 then .ok ⟨sl⟩ else .error ⟨20, sl.length⟩) ∧
    Source.Siphash24.Hash.from_slice c sl =
      .ok (if sl.length = 8 then .ok ⟨sl⟩ else .error ⟨8, sl.length⟩) ∧
    Source.Sha256t.Hash.from_slice c T sl =
      .ok (if sl.length = 32 then .ok ⟨sl, ()⟩ else .error ⟨32, sl.length⟩) ∧
    Source.Sha256.Midstate.from_slice c sl =
      .ok (if sl.length = 32 then .ok ⟨sl⟩ else .error ⟨32, sl.length⟩) :=
  ⟨from_slice_shape 20 Source.Sha1.Hash.mk sl, from_slice_shape 32 Source.Sha256.Hash.mk sl,
    from_slice_shape 48 Source.Sha384.Hash.mk sl, from_slice_shape 64 Source.Sha512.Hash.mk sl,
    from_slice_shape 32 Source.Sha512_256.Hash.mk sl, from_slice_shape 20 Source.Ripemd160.Hash.mk sl,
    from_slice_shape 8 Source.Siphash24.Hash.mk sl,
    from_slice_shape 32 (fun d => Source.Sha256t.Hash.mk d ()) sl,
    from_slice_shape 32 Source.Sha256.Midstate.mk sl⟩

example : (Source.Sha1.Hash.from_slice .debug64 [1, 2]).map (fun r => match r with
      | .ok _ => none
      | .error e => some (e.expected, e.got)) = .ok (some (20, 2)) := by decide +kernel

/-- C70: what a translated error reports. -/
theorem C70_errors (c : Cfg) (got expected : Nat) :
    (Source.Lib.FromSliceError.new c got expected).expected_length c = expected ∧
    (Source.Lib.FromSliceError.new c got expected).invalid_length c = got := ⟨rfl, rfl⟩

/-- C70: the text of `fixed_time_eq` compares slices of equal length and panics otherwise. -/
theorem C70_fixed_time_eq (c : Cfg) (a b : List Byte) :
    Source.Cmp.fixed_time_eq c a b =
      if a.length = b.length then .ok (decide (a = b)) else .error .assertion := by
  rw [Source.Cmp.fixed_time_eq_eq]
  split
  · exact C25_equal_lengths a b ‹_›
  · exact C25_different_lengths a b ‹_›

example : Source.Cmp.fixed_time_eq .debug64 [1, 2, 0x80] [1, 2, 0] = .ok false ∧
    Source.Cmp.fixed_time_eq .debug64 [1, 2, 0x80] [1, 2, 0x80] = .ok true ∧
    Source.Cmp.fixed_time_eq .debug64 [1] [1, 2] = .error .assertion := by decide +kernel

/-- C70: the text of SipHash's `as_u64` and `from_u64` are inverse. -/
theorem C70_u64 (c : Cfg) :
    (∀ x : BitVec 64, Source.Siphash24.Hash.as_u64 c (Source.Siphash24.Hash.from_u64 c x) = x) ∧
    (∀ x : BitVec 64, (Source.Siphash24.Hash.from_u64 c x).f0.length = 8) ∧
    ∀ h : Source.Siphash24.Hash, h.f0.length = 8 →
      Source.Siphash24.Hash.from_u64 c (Source.Siphash24.Hash.as_u64 c h) = h := by
  have h8 : ∀ h : List Byte, h.length = 8 → Siphash24.asU64Hash h = .ok (fromLeBytes 64 h) := fun h hl =>
    if_pos hl
  refine ⟨fun x => ?_, fun x => length_le64 x, fun h hl => ?_⟩
  · have := C34_u64_round_trip.1 x
    rw [h8 (Siphash24.fromU64 x) (length_le64 x)] at this
    exact Except.ok.inj this
  · obtain ⟨x, hx, hf⟩ := C34_u64_round_trip.2 h.f0 hl
    rw [h8 _ hl] at hx
    cases hx
    exact congrArg Source.Siphash24.Hash.mk hf

example : (⟨[1, 0, 0, 0, 0, 0, 0, 0x80]⟩ : Source.Siphash24.Hash).f0.length = 8 ∧
    Source.Siphash24.Hash.as_u64 .release64 ⟨[1, 0, 0, 0, 0, 0, 0, 0x80]⟩ = 0x8000000000000001 := by
  decide +kernel

end Chf.Props
