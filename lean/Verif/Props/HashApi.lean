import Verif.Model.HashApi
import Verif.Props.Conformance
import Verif.Props.HashType
import Verif.Props.Inputs
import Verif.Props.Tagged

/-!
# Properties C51 and C52: hash values made by hashing, and hash values as keys
-/

namespace Chf.Props
open Spec HashTy

theorem len_hashSrc : (a : Alg) → a.hashSrc.len = a.outLen
  | .sha1 | .sha256 | .sha384 | .sha512 | .sha512_256 | .ripemd160 | .siphash24 | .sha256t _ _ _ => rfl
  | .hmac a => go a
where
  go : (a : Alg) → a.digestLen = a.outLen
    | .sha1 | .sha256 | .sha384 | .sha512 | .sha512_256 | .ripemd160 | .siphash24 | .sha256t _ _ _ => rfl
    | .hmac a => go a

theorem wrap_ok {s : Source} {d : List Byte} (h : d.length = s.len) :
    HashApi.wrap s d = .ok ⟨⟨d, h⟩⟩ := by
  simp only [HashApi.wrap, copyNew, dif_pos h, bind, Except.bind, pure, Except.pure]

theorem engine_new (c : Cfg) (a : Alg) : HashApi.engine c a = (a.engine c).new := by
  cases a <;> rfl

/-- C51: `Hash::engine()` is `Engine::new()` and `Engine::default()`. -/
theorem C51_engine (c : Cfg) (a : Alg) :
    HashApi.engine c a = (a.engine c).new ∧ HashApi.engine c a = (a.engine c).default := by
  refine ⟨engine_new c a, ?_⟩
  cases a <;> rfl

/-- C51: `Hash::from_engine(e)` panics exactly as `e.finalize()` does, and else is the value with the
bytes that `e.finalize()` returns.  This holds for every engine that a caller can obtain. -/
theorem C51_from_engine {c : Cfg} (hc : c.Valid) (a : Alg) (ok : a.Ok c)
    {e : (a.engine c).State} (he : Reachable c a e) :
    (∀ v, HashApi.fromEngine c a e = .ok v ↔ (a.engine c).finalize e = .ok (asBytes v)) ∧
    (∀ f, HashApi.fromEngine c a e = .error f ↔ (a.engine c).finalize e = .error f) := by
  unfold HashApi.fromEngine
  cases h : (a.engine c).finalize e with
  | error f =>
    simp only [bind, Except.bind]
    exact ⟨fun v => ⟨(by intro h; cases h), (by intro h; cases h)⟩,
      fun g => ⟨(by intro h; cases h; rfl), (by intro h; cases h; rfl)⟩⟩
  | ok d =>
    have hd : d.length = a.hashSrc.len := by
      rw [len_hashSrc]; exact C11_digest_length hc a ok he h
    simp only [bind, Except.bind, wrap_ok hd]
    refine ⟨fun v => ⟨(by intro h; cases h; rfl), fun h => ?_⟩,
      fun f => ⟨(by intro h; cases h), (by intro h; cases h)⟩⟩
    have : d = asBytes v := by injection h
    subst this
    rfl

example : Cfg.release32.Valid ∧ Alg.sha512_256.Ok .release32 ∧
    Reachable .release32 .ripemd160 Ripemd160.Engine.default :=
  ⟨by decide, trivial, ⟨_, .default rfl⟩⟩

theorem hash_wrap (c : Cfg) (a : Alg) (m : List Byte) :
    HashApi.hash c a m = (a.engine c).hash m >>= HashApi.wrap _ := by
  simp only [HashApi.hash, HashEngine.hash, engine_new, bind_assoc]

/-- C51: `Hash::hash(m)` is `Hash::from_engine` of `Hash::engine()` after inputting `m` in any pieces,
panics included. -/
theorem C51_hash_chunks {c : Cfg} (hc : c.Valid) (a : Alg) (ok : a.Ok c) (xs : List (List Byte))
    (h : xs.flatten.length < c.usizeMod) :
    HashApi.hash c a xs.flatten = (do
      let e ← HashApi.engine c a
      let e ← (a.engine c).inputs e xs
      HashApi.fromEngine c a e) := by
  rw [hash_wrap, ← C08_hash_byte_chunks hc a ok xs h]
  simp only [HashEngine.hashByteChunks, engine_new, HashApi.fromEngine, bind_assoc]

example : Cfg.release32.Valid ∧ (Alg.hmac .sha1).Ok .release32 ∧
    ([[1, 2], [], [3]] : List (List Byte)).flatten.length < Cfg.release32.usizeMod :=
  ⟨by decide, ⟨trivial, by decide⟩, by decide⟩

theorem hash_value {c : Cfg} (hc : c.Valid) (a : Alg) (ok : a.Ok c) (m : List Byte)
    (hbits : 8 * (a.base + m.length + a.slack) < 2 ^ 64)
    (hbytes : a.base + m.length + a.slack + 144 < 2 ^ c.usizeBits) :
    ∃ v, HashApi.hash c a m = .ok v ∧ asBytes v = a.hashSpec m := by
  have k := conformance_any_width hc a ok [m] (by simpa using hbits) (by simpa using hbytes)
  have hd : (a.hashSpec m).length = a.hashSrc.len := by rw [len_hashSrc]; exact a.hashSpec_length m
  refine ⟨⟨⟨a.hashSpec m, hd⟩⟩, ?_, rfl⟩
  have l := C08_hash_byte_chunks hc a ok [m] (by
    rw [List.flatten_singleton]; show _ < 2 ^ c.usizeBits; omega)
  rw [k, List.flatten_singleton] at l
  rw [hash_wrap, ← l]
  exact wrap_ok hd

/-- C51: within the limits of the counters, `Hash::hash(m)` has the bytes of the standard's digest;
printed, it is that digest as a hexadecimal number in lower case. -/
theorem C51_hash {c : Cfg} (hc : c.Valid) (a : Alg) (ok : a.Ok c) (m : List Byte)
    (hbits : 8 * (a.base + m.length + a.slack) < 2 ^ 64)
    (hbytes : a.base + m.length + a.slack + 144 < 2 ^ c.usizeBits) :
    ∃ v str, HashApi.hash c a m = .ok v ∧ asBytes v = a.hashSpec m ∧ toStr v = .ok str ∧
      str.length = 2 * a.outLen ∧ (∀ x ∈ str, IsLowerDigit x) ∧
      value16 str = beNat (a.hashSpec m) := by
  obtain ⟨v, hv, hb⟩ := hash_value hc a ok m hbits hbytes
  obtain ⟨out, h1, h2, h3, h4, -⟩ := C31_display _ v
  obtain ⟨out', h1', h2'⟩ := C31_value _ v .lower
  have : out = out' := by rw [h2] at h1'; injection h1'
  subst this
  refine ⟨v, out, hv, hb, h1, ?_, h4, hb ▸ h2'⟩
  rw [h3, len_hashSrc]

/-- C51: a program that parses an expected digest and compares it with `Hash::hash(m)` succeeds exactly
if the text is the standard's digest in hexadecimal, of either case. -/
theorem C51_verify {c : Cfg} (hc : c.Valid) (a : Alg) (ok : a.Ok c) (m : List Byte)
    (hbits : 8 * (a.base + m.length + a.slack) < 2 ^ 64)
    (hbytes : a.base + m.length + a.slack + 144 < 2 ^ c.usizeBits) (str : List Byte) :
    (∃ v w, HashApi.hash c a m = .ok v ∧ fromStr a.hashSrc str = .ok (.ok w) ∧ HashTy.eq v w = true) ↔
      str.length = 2 * a.outLen ∧ (∀ x ∈ str, IsHexDigit x) ∧ value16 str = beNat (a.hashSpec m) := by
  obtain ⟨v, hv, hb⟩ := hash_value hc a ok m hbits hbytes
  rw [← len_hashSrc, ← hb, ← C30_accepts]
  constructor
  · rintro ⟨v', w, h1, h2, h3⟩
    rw [hv] at h1
    cases h1
    rw [C28_eq] at h3
    have : v = w := by
      cases v with | mk v => cases w with | mk w => exact congrArg Hash.mk (Subtype.ext h3)
    rw [h2, this]
  · intro h
    exact ⟨v, v, hv, h, (C28_eq _ _ _).2 rfl⟩

/-- The hypotheses hold for a tagged engine, and the text of a digest of "abc" is accepted. -/
example : Cfg.debug64.Valid ∧ (Alg.sha256t (List.replicate 32 0) 64 [1]).Ok .debug64 ∧
    8 * ((Alg.sha256t (List.replicate 32 0) 64 [1]).base + 3 +
      (Alg.sha256t (List.replicate 32 0) 64 [1]).slack) < 2 ^ 64 :=
  ⟨by decide, ⟨rfl, by decide, by decide⟩, by decide⟩

example : ∃ v w, HashApi.hash .debug64 .sha1 (ascii "abc") = .ok v ∧
    fromStr Alg.sha1.hashSrc (ascii "A9993E364706816aba3e25717850c26c9cd0d89d") = .ok (.ok w) ∧
    HashTy.eq v w = true :=
  (C51_verify (c := .debug64) (by decide) .sha1 trivial (ascii "abc") (by decide) (by decide) _).2
    (by decide +kernel)

/-- C51: `const_hash` makes the same value as `hash`, panics included. -/
theorem C51_const_hash {c : Cfg} (hc : c.Valid) (m : List Byte) (hm : m.length + 200 < 2 ^ c.usizeBits) :
    HashApi.constHash c m = HashApi.hash c .sha256 m := by
  rw [hash_wrap, HashApi.constHash, C12_const_hash hc m hm]
  rfl

example : Cfg.release32.Valid ∧
    (List.replicate 119 (5 : Byte)).length + 200 < 2 ^ Cfg.release32.usizeBits := by decide +kernel

/-- C51: `hash_with_keys` makes the value whose bytes are the SipHash-2-4 of the paper. -/
theorem C51_hash_with_keys {c : Cfg} (hc : c.Valid) (k0 k1 : BitVec 64) (m : List Byte)
    (hm : m.length < 2 ^ c.usizeBits) :
    ∃ v, HashApi.hashWithKeys c k0 k1 m = .ok v ∧
      asBytes v = leBytes 8 (siphash24 k0 k1 m).toNat := by
  have hd : (leBytes 8 (siphash24 k0 k1 m).toNat).length = Alg.siphash24.hashSrc.len := by
    rw [length_leBytes]; rfl
  refine ⟨⟨⟨_, hd⟩⟩, ?_, rfl⟩
  rw [HashApi.hashWithKeys, C07_hash_with_keys hc k0 k1 m hm]
  exact wrap_ok hd

/-! ## C52 -/

theorem feed_eq {s : Source} {S : Type} (H : HashApi.Hasher S) (a : Hash s) (st : S) :
    HashApi.feed H a st = HashApi.hashSlice H (asBytes a) st := by
  cases s <;> rfl

/-- C52: equal hash values feed every `Hasher` the same. -/
theorem C52_consistent (s : Source) (a b : Hash s) (h : HashTy.eq a b = true) {S : Type}
    (H : HashApi.Hasher S) (st : S) : HashApi.feed H a st = HashApi.feed H b st := by
  rw [feed_eq, feed_eq, (C28_eq s a b).1 h]

example : HashTy.eq sample sample = true := by decide +kernel

/-- C52: different hash values are told apart by every `Hasher` that tells different data apart. -/
theorem C52_separates (s : Source) (a b : Hash s) (h : HashTy.eq a b = false) {S : Type}
    (H : HashApi.Hasher S) (hw : ∀ st bs bs', H.write st bs = H.write st bs' → bs = bs') (st : S) :
    HashApi.feed H a st ≠ HashApi.feed H b st := by
  intro hf
  rw [feed_eq, feed_eq, HashApi.hashSlice, HashApi.hashSlice] at hf
  have hl : (asBytes a).length = (asBytes b).length := a.inner.property.trans b.inner.property.symm
  rw [hl] at hf
  rw [(C28_eq s a b).2 (hw _ _ _ hf)] at h
  cases h

/-- There are such hashers and such values. -/
example : HashTy.eq sample allZeros = false ∧ ∃ H : HashApi.Hasher (List Byte),
    ∀ st bs bs', H.write st bs = H.write st bs' → bs = bs' :=
  ⟨by decide +kernel, ⟨fun st bs => st ++ bs, fun st _ => st⟩, fun _ _ _ h => List.append_cancel_left h⟩

/-- C52: values of different types with the same bytes, such as `sha256::Hash`, `sha256t::Hash<T>` and
`hmac::Hash<32>`, are fed alike; so the implementation by hand agrees with the derived ones. -/
theorem C52_across_types (s t : Source) (a : Hash s) (b : Hash t) (h : asBytes a = asBytes b) {S : Type}
    (H : HashApi.Hasher S) (st : S) : HashApi.feed H a st = HashApi.feed H b st := by
  rw [feed_eq, feed_eq, h]

example : asBytes (s := .tagged) allZeros = asBytes (s := (HashTy.sha256).source) allZeros := by
  decide +kernel

end Chf.Props
