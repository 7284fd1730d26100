import Verif.Proofs.Serde
import Verif.Proofs.Utf8
import Verif.Props.HashType

/-!
# Properties C32 and C43: `serde` and `schemars`
-/

namespace Chf.Props
open Spec HashTy

/-! ## C32 -/

/-- C32: in human readable and in binary formats, what was serialized is deserialized to the same
value. -/
theorem C32_round_trip (s : Source) (human : Bool) (a : Hash s) :
    ∃ d, serialize human a = .ok d ∧ deserialize s human d = .ok (.ok a) := by
  cases human with
  | true =>
    obtain ⟨out, h1, h2⟩ := C29_display s a
    refine ⟨.str out, ?_, ?_⟩
    · simp [serialize, toStr, h1, bind, Except.bind, pure, Except.pure]
    · simp [deserialize, hexVisitor, parseCustom, h2, bind, Except.bind, pure, Except.pure]
  | false =>
    refine ⟨.bytes a.inner.val, ?_, ?_⟩
    · simp [serialize, HashTy.index, sliceIndex, bind, Except.bind, pure, Except.pure]
    · have := fromSlice_ok (s := s) a.inner.val a.inner.property
      simp [deserialize, bytesVisitor, this, bind, Except.bind, pure, Except.pure]

/-- C32: a human readable format that hands over the string as bytes also works. -/
theorem C32_string_as_bytes (s : Source) (a : Hash s) :
    ∃ out, serialize true a = .ok (.str out) ∧ deserialize s true (.bytes out) = .ok (.ok a) := by
  obtain ⟨out, h1, h2⟩ := C29_display s a
  obtain ⟨hl, hd, -⟩ := (C30_accepts s out a).1 h2
  have hu := utf8Valid_ascii out fun b hb => ascii_of_hex (hd b hb)
  refine ⟨out, ?_, ?_⟩
  · simp [serialize, toStr, h1, bind, Except.bind, pure, Except.pure]
  · simp [deserialize, hexVisitor, parseCustom, hu, h2, bind, Except.bind, pure, Except.pure]

/-- C32: what is serialized: the displayed string, or the bytes. -/
theorem C32_format (s : Source) (a : Hash s) :
    (∃ out, display ⟨false⟩ a = .ok out ∧ serialize true a = .ok (.str out)) ∧
      serialize false a = .ok (.bytes (asBytes a)) := by
  obtain ⟨out, h1, -⟩ := C29_display s a
  refine ⟨⟨out, h1, ?_⟩, ?_⟩
  · simp [serialize, toStr, h1, bind, Except.bind, pure, Except.pure]
  · simp [serialize, HashTy.index, sliceIndex, bind, Except.bind, pure, Except.pure, asBytes]

example : serialize true sample = .ok (.str (ascii "000102030405060708090a0b0c0d0e0f10111213")) ∧
    deserialize (HashTy.sha1).source true (.str (ascii "000102030405060708090a0b0c0d0e0f10111213")) =
      .ok (.ok sample) ∧
    deserialize (HashTy.sha1).source false (.bytes (asBytes sample)) = .ok (.ok sample) := by
  decide +kernel

/-- C32: in a human readable format exactly the strings of `2 * LEN` hexadecimal digits are accepted. -/
theorem C32_human (s : Source) (v : List Byte) (a : Hash s) :
    (deserialize s true (.str v) = .ok (.ok a) ↔
      v.length = 2 * s.len ∧ (∀ x ∈ v, IsHexDigit x) ∧ value16 v = beNat (asBytes a)) ∧
    (¬ (v.length = 2 * s.len ∧ ∀ x ∈ v, IsHexDigit x) →
      ∃ e, deserialize s true (.str v) = .ok (.error e)) := by
  constructor
  · rw [← C30_accepts]
    obtain ⟨r, hr⟩ := fromStr_total (s := s) v
    cases r <;> simp [deserialize, hexVisitor, parseCustom, hr, bind, Except.bind, pure, Except.pure]
  · intro h
    obtain ⟨e, he⟩ := C30_rejects s v h
    exact ⟨.custom e, by simp [deserialize, hexVisitor, parseCustom, he, bind, Except.bind, pure, Except.pure]⟩

/-- C32: the same if the string is handed over as bytes, where bytes that are not UTF-8 are rejected
before. -/
theorem C32_human_bytes (s : Source) (v : List Byte) (a : Hash s) :
    (deserialize s true (.bytes v) = .ok (.ok a) ↔
      v.length = 2 * s.len ∧ (∀ x ∈ v, IsHexDigit x) ∧ value16 v = beNat (asBytes a)) ∧
    (¬ (v.length = 2 * s.len ∧ ∀ x ∈ v, IsHexDigit x) →
      ∃ e, deserialize s true (.bytes v) = .ok (.error e)) := by
  by_cases hu : utf8Valid v = true
  · have e : deserialize s true (.bytes v) = deserialize s true (.str v) := by
      simp [deserialize, hexVisitor, hu]
    rw [e]
    exact C32_human s v a
  · have e : deserialize s true (.bytes v) = .ok (.error .invalidValue) := by
      simp [deserialize, hexVisitor, hu]
    rw [e]
    refine ⟨⟨fun h => (nomatch h), fun h => absurd (utf8Valid_ascii v fun b hb => ascii_of_hex (h.2.1 b hb)) hu⟩,
      fun _ => ⟨_, rfl⟩⟩

/-- C32: which error a rejected string gives.  Bytes that are not UTF-8 are reported as an invalid
value; everything else gives the error of parsing the string, which is the wrong length or the first
character that is not a hexadecimal digit. -/
theorem C32_human_errors (s : Source) (v : List Byte) :
    (¬ IsUtf8 v → deserialize s true (.bytes v) = .ok (.error .invalidValue)) ∧
    (IsUtf8 v → deserialize s true (.bytes v) = deserialize s true (.str v)) ∧
    (v.length ≠ 2 * s.len →
      deserialize s true (.str v) = .ok (.error (.custom (.invalidLength (2 * s.len) v.length)))) ∧
    (v.length = 2 * s.len → ∀ i, (hi : i < v.length) → (∀ j, (hj : j < i) → IsHexDigit v[j]) →
      ¬ IsHexDigit v[i] → deserialize s true (.str v) = .ok (.error (.custom (.invalidChar v[i] i)))) := by
  refine ⟨fun h => ?_, fun h => ?_, fun h => ?_, fun hl i hi hd hb => ?_⟩
  · rw [← utf8Valid_iff] at h
    simp [deserialize, hexVisitor, h]
  · rw [← utf8Valid_iff] at h
    simp [deserialize, hexVisitor, h]
  · have := (C30_errors s v).1 h
    simp [deserialize, hexVisitor, parseCustom, this, bind, Except.bind, pure, Except.pure]
  · have := (C30_errors s v).2 hl i hi hd hb
    simp [deserialize, hexVisitor, parseCustom, this, bind, Except.bind, pure, Except.pure]

/-- Two bytes that are not UTF-8, and two that are: a surrogate would take three. -/
example : ¬ IsUtf8 [0xff, 0x30] ∧ IsUtf8 [0xc3, 0xa9] ∧ ¬ IsUtf8 [0xed, 0xa0, 0x80] ∧ ¬ IsUtf8 [0xc0, 0x80] := by
  simp only [← utf8Valid_iff]
  decide +kernel

/-- C32: in a binary format exactly the byte strings of length `LEN` are accepted. -/
theorem C32_binary (s : Source) (v : List Byte) (a : Hash s) :
    (deserialize s false (.bytes v) = .ok (.ok a) ↔ v = asBytes a) ∧
    (v.length ≠ s.len → deserialize s false (.bytes v) = .ok (.error (.invalidLength v.length))) := by
  constructor
  · by_cases hl : v.length = s.len
    · simp only [deserialize, bytesVisitor, fromSlice_ok v hl, bind, Except.bind, pure, Except.pure]
      constructor
      · intro h; cases h; rfl
      · rintro rfl; rfl
    · simp only [deserialize, bytesVisitor, fromSlice_err v hl, bind, Except.bind, pure, Except.pure]
      constructor
      · intro h; cases h
      · rintro rfl; exact absurd a.inner.property hl
  · intro hl
    simp [deserialize, bytesVisitor, fromSlice_err v hl, bind, Except.bind, pure, Except.pure]

/-- C32: everything else is rejected: a string in a binary format, and any other kind of data. -/
theorem C32_other (s : Source) (human : Bool) (v : List Byte) :
    deserialize s human .other = .ok (.error .invalidType) ∧
      deserialize s false (.str v) = .ok (.error .invalidType) := by
  cases human <;> exact ⟨rfl, rfl⟩

example : deserialize (HashTy.hmac 2).source false (.bytes [1, 2, 3]) = .ok (.error (.invalidLength 3)) ∧
    deserialize (HashTy.hmac 1).source true (.str (ascii "0x")) =
      .ok (.error (.custom (.invalidChar 120 1))) ∧
    deserialize (HashTy.hmac 1).source true (.bytes [0xff, 0x30]) = .ok (.error .invalidValue) := by
  decide +kernel

/-! ## C43 -/

/-- C43: every hash type other than `Midstate` has a schema.  The length is that of a `u32`
computation, so for `hmac::Hash<N>` it is only right if `2 * N` fits one. -/
theorem C43_exists (c : Cfg) (s : Source) (hs : s ≠ .midstate) (h : s.len < 2 ^ 31) :
    ∃ sch, jsonSchema c s = some (.ok sch) ∧ sch.minLength = 2 * s.len ∧ sch.maxLength = 2 * s.len :=
  ⟨_, jsonSchema_eq c hs h, rfl, rfl⟩

/-- C43: every human readable serialization is admitted by the schema. -/
theorem C43_admits (c : Cfg) (s : Source) (h0 : 0 < s.len) (h : s.len < 2 ^ 31) (sch : Schema)
    (hsch : jsonSchema c s = some (.ok sch)) (a : Hash s) (v : List Byte)
    (hv : serialize true a = .ok (.str v)) : Admits sch v := by
  have hs : s ≠ .midstate := by rintro rfl; simp [jsonSchema] at hsch
  rw [jsonSchema_eq c hs h] at hsch
  cases hsch
  obtain ⟨⟨out, h1, h2⟩, -⟩ := C32_format s a
  rw [h2] at hv
  cases hv
  obtain ⟨out', h3, h4⟩ := C29_display s a
  rw [h1] at h3
  cases h3
  obtain ⟨hl, hd, -⟩ := (C30_accepts s v a).1 h4
  have hc := chars_ascii v fun b hb => ascii_of_hex (hd b hb)
  refine ⟨by simp only [hc]; omega, by simp only [hc]; omega, [], v, [], by simp, (pattern_iff v).2 ⟨?_, hd⟩⟩
  rintro rfl
  simp at hl; omega

/-- The hash types of the crate that have a schema meet these hypotheses. -/
example : ∀ t ∈ [HashTy.sha1, .sha256, .sha384, .sha512, .sha512_256, .ripemd160, .siphash24, .sha256t,
    .hmac 20, .hmac 64], 0 < t.source.len ∧ t.source.len < 2 ^ 31 := by decide

example (c : Cfg) : ∃ sch, jsonSchema c (HashTy.sha1).source = some (.ok sch) ∧
    Admits sch (ascii "000102030405060708090a0b0c0d0e0f10111213") := by
  refine ⟨_, jsonSchema_eq c (by simp [source]) (by decide), ?_⟩
  exact C43_admits c _ (by decide) (by decide) _ (jsonSchema_eq c (by simp [source]) (by decide)) sample _
    (by decide +kernel)

/-- C43: a string of the schema's length that matches its pattern as a whole deserializes. -/
theorem C43_deserializes (c : Cfg) (s : Source) (h : s.len < 2 ^ 31) (sch : Schema)
    (hsch : jsonSchema c s = some (.ok sch)) (v : List Byte) (hmin : sch.minLength ≤ chars v)
    (hmax : chars v ≤ sch.maxLength) (hp : Matches sch.pattern v) :
    ∃ a, deserialize s true (.str v) = .ok (.ok a) := by
  have hs : s ≠ .midstate := by rintro rfl; simp [jsonSchema] at hsch
  rw [jsonSchema_eq c hs h] at hsch
  cases hsch
  have hd := ((pattern_iff v).1 hp).2
  have hc := chars_ascii v fun b hb => ascii_of_hex (hd b hb)
  simp only [hc] at hmin hmax
  obtain ⟨a, ha⟩ := C30_succeeds s v (by omega) hd
  exact ⟨a, ((C32_human s v a).1).2 ((C30_accepts s v a).1 ha)⟩

example : Matches hexPattern (ascii "00fF") ∧
    (deserialize (HashTy.hmac 2).source true (.str (ascii "00fF"))) = .ok (.ok ⟨⟨[0, 255], rfl⟩⟩) :=
  ⟨(pattern_iff _).2 (by decide +kernel), by decide +kernel⟩

/-- C43: the strings that deserialize are exactly those of the schema's length that match its pattern
as a whole. -/
theorem C43_exact (c : Cfg) (s : Source) (h0 : 0 < s.len) (h : s.len < 2 ^ 31) (sch : Schema)
    (hsch : jsonSchema c s = some (.ok sch)) (v : List Byte) :
    (∃ a, deserialize s true (.str v) = .ok (.ok a)) ↔
      sch.minLength ≤ chars v ∧ chars v ≤ sch.maxLength ∧ Matches sch.pattern v := by
  refine ⟨fun ⟨a, ha⟩ => ?_, fun ⟨h1, h2, h3⟩ => C43_deserializes c s h sch hsch v h1 h2 h3⟩
  have hs : s ≠ .midstate := by rintro rfl; simp [jsonSchema] at hsch
  rw [jsonSchema_eq c hs h] at hsch
  cases hsch
  obtain ⟨hl, hd, -⟩ := ((C32_human s v a).1).1 ha
  have hc := chars_ascii v fun b hb => ascii_of_hex (hd b hb)
  refine ⟨by simp only [hc]; omega, by simp only [hc]; omega, (pattern_iff v).2 ⟨?_, hd⟩⟩
  rintro rfl
  simp at hl; omega

/-- Both cases of the digits are admitted, other characters of the length are not. -/
example (c : Cfg) : ∃ sch, jsonSchema c (HashTy.hmac 2).source = some (.ok sch) ∧
    Matches sch.pattern (ascii "aFFa") ∧ ¬ Matches sch.pattern (ascii "aFFg") :=
  ⟨_, jsonSchema_eq c (by simp [source]) (by decide), (pattern_iff _).2 (by decide +kernel),
    fun h => absurd ((pattern_iff _).1 h).2 (by decide +kernel)⟩

/-- C43, a limit of the schema: its pattern is not anchored, so for every hash type it also admits
strings that do not deserialize. -/
theorem C43_not_anchored (c : Cfg) (s : Source) (h0 : 0 < s.len) (h : s.len < 2 ^ 31) (sch : Schema)
    (hsch : jsonSchema c s = some (.ok sch)) :
    ∃ v e, Admits sch v ∧ deserialize s true (.str v) = .ok (.error e) := by
  have hs : s ≠ .midstate := by rintro rfl; simp [jsonSchema] at hsch
  rw [jsonSchema_eq c hs h] at hsch
  cases hsch
  have hmem : ∀ b ∈ (0x30 : Byte) :: List.replicate (2 * s.len - 1) (0x7a : Byte), b ≤ 0x7f := by
    intro b hb
    rcases List.mem_cons.1 hb with rfl | hb
    · decide
    · rw [List.eq_of_mem_replicate hb]; decide
  have hl : ((0x30 : Byte) :: List.replicate (2 * s.len - 1) (0x7a : Byte)).length = 2 * s.len := by
    simp only [List.length_cons, List.length_replicate]; omega
  have hc := chars_ascii _ hmem
  rw [hl] at hc
  obtain ⟨e, he⟩ := (C32_human s ((0x30 : Byte) :: List.replicate (2 * s.len - 1) (0x7a : Byte)) allZeros).2
    (fun hh => by
      have := hh.2 0x7a (by
        rw [List.mem_cons]; right; exact List.mem_replicate.2 ⟨by omega, rfl⟩)
      exact absurd this (by decide))
  exact ⟨_, e, ⟨by simp only [hc]; omega, by simp only [hc]; omega,
    (found_iff _).2 ⟨0x30, by simp, by decide⟩⟩, he⟩

/-- C43, another limit: the length of the schema of `hmac::Hash<N>` is computed in `u32`.  For
`N = 2^31` the computation panics in debug builds and the schema asks for length 0 in others. -/
theorem C43_hmac_u32 (c : Cfg) :
    (c.overflowChecks = true → jsonSchema c (.hmac (2 ^ 31)) = some (.error .overflow)) ∧
      (c.overflowChecks = false → jsonSchema c (.hmac (2 ^ 31)) =
        some (.ok { maxLength := 0, minLength := 0, pattern := hexPattern })) := by
  constructor <;> intro h <;> simp [jsonSchema, mulU32, h, bind, Except.bind, pure, Except.pure]

end Chf.Props
