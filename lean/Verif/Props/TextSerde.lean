import Verif.Proofs.Source.Serde
import Verif.Proofs.Utf8
import Verif.Props.TextTypes

/-!
# C76 to C79: `serde`, `core::hash::Hash` and `schemars` of the translated text
-/

namespace Chf.Props
open Chf Chf.Spec Chf.HashTy Chf.Rs

variable (c : Cfg) (T : Source.Sha256t.Tag) (t : HashTy)

/-! ## C76 -/

/-- C76: a human readable format is given the lower case hexadecimal digits of the bytes, any other
format the bytes. -/
theorem C76_serialize (h : (Source.hashText c T t).H)
    (hl : ((Source.hashText c T t).toByteArray h).length = Source.bytesOf t) :
    (∃ lo, (Source.serdeText c T t).serialize h ⟨true⟩ = .ok (.str lo) ∧
      lo.length = 2 * Source.bytesOf t ∧ (∀ x ∈ lo, IsLowerDigit x) ∧
      value16 lo = beNat ((Source.hashText c T t).toByteArray h)) ∧
    (Source.serdeText c T t).serialize h ⟨false⟩ =
      .ok (.bytes ((Source.hashText c T t).toByteArray h)) := by
  obtain ⟨lo, up, -, h1, -, -, -, -, -, l1, d1, v1, -⟩ := C73_format c T t h hl
  rw [Source.serialize_eq, Source.serialize_eq, h1, (C71_index c T t h 0 0).2.2.2.2.2.2]
  exact ⟨⟨lo, rfl, l1, d1, v1⟩, rfl⟩

/-- What was serialized is what the deserializer finds: a string, which it may also hand over as
bytes, or bytes. -/
def Finds (d : Deserializer) : Serialized → Prop
  | .str v => d.data .str = .str v ∨ d.data .str = .bytes v
  | .bytes v => d.data .bytes = .bytes v

/-- C77 below, for a human readable format. -/
theorem human_text (d : Deserializer) (hd : d.human = true) (h : (Source.hashText c T t).H) :
    (Source.serdeText c T t).deserialize d = .ok (.ok h) ↔
      ∃ v, (d.data .str = .str v ∨ d.data .str = .bytes v) ∧ v.length = 2 * Source.bytesOf t ∧
        (∀ x ∈ v, IsHexDigit x) ∧
        ((Source.hashText c T t).toByteArray h).length = Source.bytesOf t ∧
        value16 v = beNat ((Source.hashText c T t).toByteArray h) := by
  obtain ⟨parse, hp, e⟩ := Source.parser_head c T t
  have key : ∀ v, Source.hexOf parse v = .ok (.ok h) ↔ v.length = 2 * Source.bytesOf t ∧
      (∀ x ∈ v, IsHexDigit x) ∧ ((Source.hashText c T t).toByteArray h).length = Source.bytesOf t ∧
      value16 v = beNat ((Source.hashText c T t).toByteArray h) := by
    intro v
    rw [← C73_parse c T t v h parse hp]
    unfold Source.hexOf
    cases parse v with
    | error f => exact ⟨fun x => (nomatch x), fun x => (nomatch x)⟩
    | ok r =>
      cases r with
      | error f => exact ⟨fun x => (nomatch x), fun x => (nomatch x)⟩
      | ok a => exact ⟨fun x => congrArg (fun y => Except.ok (Except.ok y)) (Except.ok.inj (Except.ok.inj x)),
          fun x => congrArg (fun y => Except.ok (Except.ok y)) (Except.ok.inj (Except.ok.inj x))⟩
  rw [e, Source.deserializeOf, if_pos hd]
  cases hs : d.data .str with
  | str v =>
    rw [key]
    constructor
    · exact fun x => ⟨v, .inl rfl, x⟩
    · rintro ⟨w, hw | hw, x⟩
      · cases hw; exact x
      · cases hw
  | bytes v =>
    show (if utf8Valid v = true then Source.hexOf parse v else _) = _ ↔ _
    constructor
    · intro x
      refine ⟨v, .inr rfl, ?_⟩
      rw [← key]
      by_cases hu : utf8Valid v = true
      · rwa [if_pos hu] at x
      · rw [if_neg hu] at x
        cases x
    · rintro ⟨w, hw | hw, x⟩
      · cases hw
      · cases hw
        rw [if_pos (utf8Valid_ascii v fun b hb => ascii_of_hex (x.2.1 b hb))]
        exact (key v).2 x
  | other => exact ⟨fun x => (nomatch x), fun ⟨_, hw, _⟩ => hw.elim (nomatch ·) (nomatch ·)⟩
  | fail => exact ⟨fun x => (nomatch x), fun ⟨_, hw, _⟩ => hw.elim (nomatch ·) (nomatch ·)⟩

/-- C77 below, for any other format. -/
theorem binary_text (d : Deserializer) (hd : d.human = false) (h : (Source.hashText c T t).H) :
    (Source.serdeText c T t).deserialize d = .ok (.ok h) ↔
      d.data .bytes = .bytes ((Source.hashText c T t).toByteArray h) ∧
      ((Source.hashText c T t).toByteArray h).length = Source.bytesOf t := by
  obtain ⟨parse, hp, e⟩ := Source.parser_head c T t
  have p := Source.plain c T t
  rw [e, Source.deserializeOf, if_neg (by rw [hd]; exact Bool.false_ne_true)]
  cases hs : d.data .bytes with
  | bytes v =>
    show ((Source.hashText c T t).fromSlice v).map _ = _ ↔ _
    rw [p.fromSlice]
    by_cases hv : v.length = Source.bytesOf t
    · rw [if_pos hv]
      constructor
      · intro x
        have x' : p.make v = h := Except.ok.inj (Except.ok.inj x)
        rw [← x', p.toByteArray_make]
        exact ⟨rfl, hv⟩
      · rintro ⟨x, -⟩
        rw [Data.bytes.inj x]
        exact congrArg (fun y => Except.ok (Except.ok y)) (p.make_toByteArray h)
    · rw [if_neg hv]
      refine ⟨fun x => (nomatch x), fun ⟨x, y⟩ => absurd ?_ hv⟩
      rw [Data.bytes.inj x, y]
  | str v => exact ⟨fun x => (nomatch x), fun x => (nomatch x.1)⟩
  | other => exact ⟨fun x => (nomatch x), fun x => (nomatch x.1)⟩
  | fail => exact ⟨fun x => (nomatch x), fun x => (nomatch x.1)⟩

/-- C76: what was serialized is deserialized to the same value, in formats of either kind. -/
theorem C76_round_trip (h : (Source.hashText c T t).H)
    (hl : ((Source.hashText c T t).toByteArray h).length = Source.bytesOf t) (s : Serializer)
    (d : Deserializer) (hsd : d.human = s.human) :
    ∃ out, (Source.serdeText c T t).serialize h s = .ok out ∧
      (Finds d out → (Source.serdeText c T t).deserialize d = .ok (.ok h)) := by
  obtain ⟨⟨lo, h1, l1, d1, v1⟩, h2⟩ := C76_serialize c T t h hl
  obtain ⟨b⟩ := s
  cases b with
  | true =>
    exact ⟨_, h1, fun hf => (human_text c T t d hsd h).2
      ⟨lo, hf, l1, fun x hx => Hex.IsDigitOf.hex (case := .lower) (d1 x hx), hl, v1⟩⟩
  | false => exact ⟨_, h2, fun hf => (binary_text c T t d hsd h).2 ⟨hf, hl⟩⟩

set_option maxRecDepth 10000 in
example : (Source.serdeText .debug64 ⟨.error .fuel⟩ (.hmac 2)).serialize ⟨[0x0a, 0xf3]⟩ ⟨true⟩ =
      .ok (.str (ascii "0af3")) ∧
    (Source.serdeText .debug64 ⟨.error .fuel⟩ (.hmac 2)).serialize ⟨[0x0a, 0xf3]⟩ ⟨false⟩ =
      .ok (.bytes [0x0a, 0xf3]) ∧
    ((Source.serdeText .debug64 ⟨.error .fuel⟩ (.hmac 2)).deserialize
      ⟨true, fun _ => .bytes (ascii "0aF3")⟩).map (·.map (·.f0)) = .ok (.ok [0x0a, 0xf3]) := by
  decide +kernel

/-! ## C77 -/

/-- C77: exactly these data are deserialized.  In a human readable format, which is asked for a string:
strings, or bytes, that are as many hexadecimal digits of either case as the type has half bytes.  In
any other format, which is asked for bytes: as many bytes as the type has. -/
theorem C77_accepts (d : Deserializer) (h : (Source.hashText c T t).H) :
    (Source.serdeText c T t).deserialize d = .ok (.ok h) ↔
      (d.human = true ∧ ∃ v, (d.data .str = .str v ∨ d.data .str = .bytes v) ∧
        v.length = 2 * Source.bytesOf t ∧ (∀ x ∈ v, IsHexDigit x) ∧
        ((Source.hashText c T t).toByteArray h).length = Source.bytesOf t ∧
        value16 v = beNat ((Source.hashText c T t).toByteArray h)) ∨
      (d.human = false ∧ d.data .bytes = .bytes ((Source.hashText c T t).toByteArray h) ∧
        ((Source.hashText c T t).toByteArray h).length = Source.bytesOf t) := by
  cases hd : d.human with
  | true => rw [human_text c T t d hd h]; simp
  | false => rw [binary_text c T t d hd h]; simp

/-- C77: the errors of human readable formats, and what they say was expected. -/
theorem C77_human_errors (d : Deserializer) (hd : d.human = true) (v : List Byte) :
    (d.data .str = .str v → v.length ≠ 2 * Source.bytesOf t →
      (Source.serdeText c T t).deserialize d =
        .ok (.error (.custom (.invalidLength (2 * Source.bytesOf t) v.length)))) ∧
    (d.data .str = .str v → v.length = 2 * Source.bytesOf t → ∀ i, (hi : i < v.length) →
      (∀ j, (hj : j < i) → IsHexDigit v[j]) → ¬ IsHexDigit v[i] →
      (Source.serdeText c T t).deserialize d = .ok (.error (.custom (.invalidChar v[i] i)))) ∧
    (d.data .str = .bytes v → ¬ IsUtf8 v →
      (Source.serdeText c T t).deserialize d =
        .ok (.error (.invalidValue (.bytes v) (ascii "an ASCII hex string")))) ∧
    (d.data .str = .bytes v → IsUtf8 v →
      (Source.serdeText c T t).deserialize d =
        (Source.serdeText c T t).deserialize ⟨true, fun _ => .str v⟩) ∧
    (d.data .str = .other → (Source.serdeText c T t).deserialize d =
      .ok (.error (.invalidType .other (ascii "an ASCII hex string")))) ∧
    (d.data .str = .fail → (Source.serdeText c T t).deserialize d = .ok (.error .format)) := by
  obtain ⟨parse, hp, e⟩ := Source.parser_head c T t
  have er := C73_errors c T t v parse hp
  refine ⟨fun hs hl => ?_, fun hs hl i hi h1 h2 => ?_, fun hs hu => ?_, fun hs hu => ?_, fun hs => ?_,
    fun hs => ?_⟩
  · rw [e, Source.deserializeOf, if_pos hd, hs]
    show Source.hexOf parse v = _
    rw [Source.hexOf, er.1 hl]; rfl
  · rw [e, Source.deserializeOf, if_pos hd, hs]
    show Source.hexOf parse v = _
    rw [Source.hexOf, er.2 hl i hi h1 h2]; rfl
  · rw [← utf8Valid_iff] at hu
    rw [e, Source.deserializeOf, if_pos hd, hs]
    exact if_neg hu
  · rw [← utf8Valid_iff] at hu
    rw [e, e, Source.deserializeOf, if_pos hd, hs]
    exact if_pos hu
  · rw [e, Source.deserializeOf, if_pos hd, hs]
  · rw [e, Source.deserializeOf, if_pos hd, hs]

/-- C77: the errors of other formats. -/
theorem C77_binary_errors (d : Deserializer) (hd : d.human = false) (v : List Byte) :
    (d.data .bytes = .bytes v → v.length ≠ Source.bytesOf t →
      (Source.serdeText c T t).deserialize d = .ok (.error (.invalidLength v.length (ascii "N")))) ∧
    (d.data .bytes = .str v → (Source.serdeText c T t).deserialize d =
      .ok (.error (.invalidType (.str v) (ascii "a bytestring")))) ∧
    (d.data .bytes = .other → (Source.serdeText c T t).deserialize d =
      .ok (.error (.invalidType .other (ascii "a bytestring")))) ∧
    (d.data .bytes = .fail → (Source.serdeText c T t).deserialize d = .ok (.error .format)) := by
  obtain ⟨parse, hp, e⟩ := Source.parser_head c T t
  have p := Source.plain c T t
  have hn : ¬ d.human = true := by rw [hd]; exact Bool.false_ne_true
  refine ⟨fun hs hl => ?_, fun hs => ?_, fun hs => ?_, fun hs => ?_⟩
  · rw [e, Source.deserializeOf, if_neg hn, hs]
    show ((Source.hashText c T t).fromSlice v).map _ = _
    rw [p.fromSlice, if_neg hl]; rfl
  · rw [e, Source.deserializeOf, if_neg hn, hs]
  · rw [e, Source.deserializeOf, if_neg hn, hs]
  · rw [e, Source.deserializeOf, if_neg hn, hs]

example : ((Source.serdeText .debug64 ⟨.error .fuel⟩ (.hmac 2)).deserialize
      ⟨true, fun _ => .bytes [0xff, 0x30]⟩).map (·.map (·.f0)) =
      .ok (.error (.invalidValue (.bytes [0xff, 0x30]) (ascii "an ASCII hex string"))) ∧
    ((Source.serdeText .debug64 ⟨.error .fuel⟩ (.hmac 2)).deserialize
      ⟨false, fun _ => .bytes [1, 2, 3]⟩).map (·.map (·.f0)) =
      .ok (.error (.invalidLength 3 (ascii "N"))) := by decide +kernel

/-! ## C78 -/

/-- C78: a hash feeds a `Hasher` what its bytes as a slice do, so that equal hashes feed it the same. -/
theorem C78_feed (A : Hasher) (a b : (Source.hashText c T t).H) (st : A.State) :
    (Source.serdeText c T t).feed A a st =
      A.write (A.writeLen st ((Source.hashText c T t).toByteArray a).length)
        ((Source.hashText c T t).toByteArray a) ∧
    ((Source.hashText c T t).eq a b = true →
      (Source.serdeText c T t).feed A a st = (Source.serdeText c T t).feed A b st) := by
  rw [Source.feed_eq, Source.feed_eq]
  exact ⟨rfl, fun h => by rw [((C72_eq c T t a b).1).1 h]⟩

/-- C78: a `Hasher` that tells different data apart tells different hashes apart. -/
theorem C78_distinct (A : Hasher) (hA : ∀ s s' bs bs', A.write s bs = A.write s' bs' → bs = bs')
    (a b : (Source.hashText c T t).H) (st : A.State)
    (h : (Source.serdeText c T t).feed A a st = (Source.serdeText c T t).feed A b st) :
    (Source.hashText c T t).eq a b = true := by
  rw [(C78_feed c T t A a b st).1, (C78_feed c T t A b a st).1] at h
  exact ((C72_eq c T t a b).1).2 (hA _ _ _ _ h)

/-- There are such hashers. -/
example : ∃ A : Hasher, ∀ s s' bs bs', A.write s bs = A.write s' bs' → bs = bs' :=
  ⟨⟨List Byte, fun _ bs => bs, fun s _ => s⟩, fun _ _ _ _ h => h⟩

example : (Source.serdeText .debug64 ⟨.error .fuel⟩ .sha256t).feed
    ⟨List Byte × List Nat, fun s bs => (s.1 ++ bs, s.2), fun s n => (s.1, s.2 ++ [n])⟩
    ⟨List.replicate 32 7, ()⟩ ([1], []) = ([1] ++ List.replicate 32 7, [32]) := by decide +kernel

/-! ## C79 -/

/-- C79: every hash type but `Midstate` has a schema, called `Hash`.  It is a string of twice as many
characters as the type has bytes; but the computation is in `u32`, which matters for `hmac::Hash<N>`. -/
theorem C79_schema (h : t ≠ .midstate) (hn : Source.bytesOf t < 2 ^ 31) (g : SchemaGenerator) :
    ∃ f, (Source.serdeText c T t).schema = some (ascii "Hash", f) ∧
      f g = .ok { is_string := true
                  string := some { max_length := some (BitVec.ofNat 32 (2 * Source.bytesOf t))
                                   min_length := some (BitVec.ofNat 32 (2 * Source.bytesOf t))
                                   pattern := some (ascii "[0-9a-fA-F]+") } } := by
  cases t with
  | midstate => exact absurd rfl h
  | hmac N =>
    refine ⟨_, rfl, ?_⟩
    have hN : N < 2 ^ 31 := hn
    have e : Rs.mulU c (BitVec.ofNat 32 N) 2#32 = .ok (BitVec.ofNat 32 (2 * N)) := by
      unfold Rs.mulU
      have h1 : (BitVec.ofNat 32 N).toNat = N := by
        rw [BitVec.toNat_ofNat, Nat.mod_eq_of_lt (by omega)]
      rw [h1, if_pos (by show N * 2 < 2 ^ 32; omega)]
      congr 1
      apply BitVec.eq_of_toNat_eq
      rw [BitVec.toNat_mul, h1, BitVec.toNat_ofNat]
      show N * 2 % 2 ^ 32 = _
      rw [Nat.mul_comm, BitVec.toNat_ofNat]
    show Source.Hmac.Hash.JsonSchema.json_schema c N g = _
    unfold Source.Hmac.Hash.JsonSchema.json_schema
    rw [e]
    rfl
  | _ => exact ⟨_, rfl, by cases hc : c.overflowChecks <;> rfl⟩

/-- C79: `Midstate` has none. -/
theorem C79_none : (Source.serdeText c T .midstate).schema = none := rfl

theorem pattern_text : parseRegex (ascii "[0-9a-fA-F]+") = some hexPattern := by
  rw [show ascii "[0-9a-fA-F]+" = [0x5b, 0x30, 0x2d, 0x39, 0x61, 0x2d, 0x66, 0x41, 0x2d, 0x46, 0x5d, 0x2b] by
    decide +kernel]
  rfl

/-- C79: what a human readable format is given conforms to the schema. -/
theorem C79_conforms (h0 : 0 < Source.bytesOf t) (hn : Source.bytesOf t < 2 ^ 31)
    (name : List Byte) (f : SchemaGenerator → Res SchemaObject)
    (hf : (Source.serdeText c T t).schema = some (name, f)) (g : SchemaGenerator)
    (a : (Source.hashText c T t).H)
    (hl : ((Source.hashText c T t).toByteArray a).length = Source.bytesOf t) (v : List Byte)
    (hv : (Source.serdeText c T t).serialize a ⟨true⟩ = .ok (.str v)) :
    ∃ sch, f g = .ok sch ∧ Conforms sch v := by
  have hm : t ≠ .midstate := by rintro rfl; exact nomatch hf
  obtain ⟨f', h1, h2⟩ := C79_schema c T t hm hn g
  rw [hf] at h1
  cases h1
  obtain ⟨⟨lo, h3, l1, d1, -⟩, -⟩ := C76_serialize c T t a hl
  rw [hv] at h3
  cases h3
  have dh : ∀ x ∈ v, IsHexDigit x := fun x hx => Hex.IsDigitOf.hex (case := .lower) (d1 x hx)
  have hc := chars_ascii v fun b hb => ascii_of_hex (dh b hb)
  have hm : (BitVec.ofNat 32 (2 * Source.bytesOf t)).toNat = 2 * Source.bytesOf t := by
    rw [BitVec.toNat_ofNat, Nat.mod_eq_of_lt (by omega)]
  refine ⟨_, h2, rfl, ?_, ?_, ?_⟩
  · rintro s ⟨⟩ m ⟨⟩
    rw [hm, hc, l1]; exact Nat.le_refl _
  · rintro s ⟨⟩ m ⟨⟩
    rw [hm, hc, l1]; exact Nat.le_refl _
  · rintro s ⟨⟩ p ⟨⟩
    refine ⟨_, pattern_text, [], v, [], by simp, (pattern_iff v).2 ⟨?_, dh⟩⟩
    rintro rfl
    rw [List.length_nil] at l1
    omega

/-- C79: the strings that are deserialized are exactly those of the schema's length that match its
pattern as a whole. -/
theorem C79_exact (h0 : 0 < Source.bytesOf t) (hn : Source.bytesOf t < 2 ^ 31)
    (name : List Byte) (f : SchemaGenerator → Res SchemaObject)
    (hf : (Source.serdeText c T t).schema = some (name, f)) (g : SchemaGenerator) (v : List Byte) :
    ∃ lo hi p r, f g = .ok ⟨true, some ⟨some hi, some lo, some p⟩⟩ ∧ parseRegex p = some r ∧
      ((∃ a, (Source.serdeText c T t).deserialize ⟨true, fun _ => .str v⟩ = .ok (.ok a)) ↔
        lo.toNat ≤ chars v ∧ chars v ≤ hi.toNat ∧ Matches r v) := by
  have hm : t ≠ .midstate := by rintro rfl; exact nomatch hf
  obtain ⟨f', h1, h2⟩ := C79_schema c T t hm hn g
  rw [hf] at h1
  cases h1
  have hm : (BitVec.ofNat 32 (2 * Source.bytesOf t)).toNat = 2 * Source.bytesOf t := by
    rw [BitVec.toNat_ofNat, Nat.mod_eq_of_lt (by omega)]
  refine ⟨_, _, _, _, h2, pattern_text, ?_⟩
  rw [hm]
  constructor
  · rintro ⟨a, ha⟩
    obtain ⟨w, hw, l, d, -⟩ := (human_text c T t ⟨true, fun _ => .str v⟩ rfl a).1 ha
    rcases hw with hw | hw
    · cases hw
      have hc := chars_ascii v fun b hb => ascii_of_hex (d b hb)
      refine ⟨by omega, by omega, (pattern_iff v).2 ⟨?_, d⟩⟩
      rintro rfl
      rw [List.length_nil] at l
      omega
    · cases hw
  · rintro ⟨h1, h2, h3⟩
    have d := ((pattern_iff v).1 h3).2
    have hc := chars_ascii v fun b hb => ascii_of_hex (d b hb)
    have p := Source.plain c T t
    obtain ⟨a, ha⟩ := C30_succeeds (.hmac (Source.bytesOf t)) v (show v.length = 2 * Source.bytesOf t by omega) d
    have hb := (C30_accepts _ v a).1 ha
    refine ⟨p.make a.inner.val, (human_text c T t ⟨true, fun _ => .str v⟩ rfl _).2
      ⟨v, .inl rfl, hb.1, d, ?_⟩⟩
    rw [p.toByteArray_make]
    exact ⟨a.inner.property, hb.2.2⟩

/-- C79, a limit: for `hmac::Hash<N>` with `N = 2^31` the computation panics in debug builds, and in
others the schema admits the empty length only. -/
theorem C79_hmac_u32 (f : SchemaGenerator → Res SchemaObject) (name : List Byte)
    (hf : (Source.serdeText c T (.hmac (2 ^ 31))).schema = some (name, f)) (g : SchemaGenerator) :
    (c.overflowChecks = true → f g = .error .overflow) ∧
    (c.overflowChecks = false → ∃ p, f g = .ok ⟨true, some ⟨some 0, some 0, p⟩⟩) := by
  cases hf
  refine ⟨fun h => ?_, fun h => ⟨some (ascii "[0-9a-fA-F]+"), ?_⟩⟩ <;>
    (show Source.Hmac.Hash.JsonSchema.json_schema c (2 ^ 31) g = _
     unfold Source.Hmac.Hash.JsonSchema.json_schema Rs.mulU
     rw [h]
     rfl)

set_option maxRecDepth 10000 in
/-- The types other than `hmac::Hash<N>` meet the hypotheses; the pattern admits digits of either case
and no other characters. -/
example : (∀ t ∈ [HashTy.sha1, .sha256, .sha384, .sha512, .sha512_256, .ripemd160, .siphash24, .sha256t,
      .hmac 20, .hmac 64], 0 < Source.bytesOf t ∧ Source.bytesOf t < 2 ^ 31) ∧
    ((Source.serdeText .debug64 ⟨.error .fuel⟩ .sha1).schema.map fun s => (s.1, s.2 ())) =
      some (ascii "Hash", .ok ⟨true, some ⟨some 40, some 40, some (ascii "[0-9a-fA-F]+")⟩⟩) := by
  decide +kernel

end Chf.Props
