import Verif.Props.TextHash
import Verif.Props.TextSerde

/-!
# C101: from a message to a stored digest and back, in the translated text
-/

namespace Chf.Props
open Chf Chf.Rs Chf.Spec Chf.HashTy

/-- `impl Serialize`, `Deserialize`, `Hash` and `JsonSchema` of the hash type of an engine type. -/
abbrev storedAs (c : Cfg) (a : Alg) := Source.serdeText c (Source.tagOf c a) (Source.tyOf a)

/-- C101: a hash is serialized as what it prints for human readable formats, which are the lower-case digits of the
digest, and as the digest for others. -/
theorem C101_serialized {c : Cfg} (hc : c.Valid) (a : Alg) (ok : a.Ok c) (ds : List (List Byte))
    (hbits : 8 * (a.base + ds.flatten.length + a.slack) < 2 ^ 64)
    (hbytes : a.base + ds.flatten.length + a.slack + 144 < 2 ^ c.usizeBits) :
    ∃ s, (Source.hashChunks c a ds >>= fun v => (storedAs c a).serialize v ⟨true⟩) = .ok (.str s) ∧
      (Source.hashChunks c a ds >>= fun v => (Source.typeOf c a).display v ⟨false⟩) = .ok s ∧
      s.length = 2 * (a.hashSpec ds.flatten).length ∧ (∀ x ∈ s, IsLowerDigit x) ∧
      value16 s = beNat (a.hashSpec ds.flatten) ∧
      (Source.hashChunks c a ds >>= fun v => (storedAs c a).serialize v ⟨false⟩) =
        .ok (.bytes (a.hashSpec ds.flatten)) := by
  obtain ⟨v, hv, hb⟩ := C96_value hc a ok ds hbits hbytes
  have hl : ((Source.typeOf c a).toByteArray v).length = Source.bytesOf (Source.tyOf a) := by
    rw [hb, Alg.hashSpec_length, bytesOf_tyOf]
  obtain ⟨lo, -, -, h1, -, -, -, -, h2, l1, d1, v1, -⟩ :=
    C73_format c (Source.tagOf c a) (Source.tyOf a) v hl
  obtain ⟨-, h3⟩ := C76_serialize c (Source.tagOf c a) (Source.tyOf a) v hl
  rw [hv]
  refine ⟨lo, ?_, h1, ?_, d1, ?_, h3.trans (congrArg (fun x => Except.ok (Serialized.bytes x)) hb)⟩
  · refine (Source.serialize_eq c (Source.tagOf c a) (Source.tyOf a) v ⟨true⟩).trans ?_
    rw [h1]
    rfl
  · rw [l1, Alg.hashSpec_length, bytesOf_tyOf]
  · rw [v1]; exact congrArg beNat hb

/-- C101: checking a message against stored data. What a deserializer finds gives a hash equal to that of the message
if and only if it is the digest: in hexadecimal digits of either case, as a string or as bytes, for human readable formats;
as bytes for others. -/
theorem C101_check {c : Cfg} (hc : c.Valid) (a : Alg) (ok : a.Ok c) (ds : List (List Byte))
    (hbits : 8 * (a.base + ds.flatten.length + a.slack) < 2 ^ 64)
    (hbytes : a.base + ds.flatten.length + a.slack + 144 < 2 ^ c.usizeBits) (d : Deserializer) :
    (∃ v w, Source.hashChunks c a ds = .ok v ∧ (storedAs c a).deserialize d = .ok (.ok w) ∧
        (Source.typeOf c a).eq v w = true) ↔
      (d.human = true ∧ ∃ s, (d.data .str = .str s ∨ d.data .str = .bytes s) ∧
        s.length = 2 * (a.hashSpec ds.flatten).length ∧ (∀ x ∈ s, IsHexDigit x) ∧
        value16 s = beNat (a.hashSpec ds.flatten)) ∨
      (d.human = false ∧ d.data .bytes = .bytes (a.hashSpec ds.flatten)) := by
  obtain ⟨v, hv, hb⟩ := C96_value hc a ok ds hbits hbytes
  have hs : (a.hashSpec ds.flatten).length = Source.bytesOf (Source.tyOf a) := by
    rw [Alg.hashSpec_length, bytesOf_tyOf]
  have hb' : (Source.hashText c (Source.tagOf c a) (Source.tyOf a)).toByteArray v = a.hashSpec ds.flatten := hb
  have hd := C77_accepts c (Source.tagOf c a) (Source.tyOf a) d v
  rw [hb', ← hs] at hd
  have key : (∃ v w, Source.hashChunks c a ds = .ok v ∧ (storedAs c a).deserialize d = .ok (.ok w) ∧
        (Source.typeOf c a).eq v w = true) ↔ (storedAs c a).deserialize d = .ok (.ok v) := by
    constructor
    · rintro ⟨v', w, h1, h2, h3⟩
      rw [hv] at h1
      cases h1
      have e := (C72_eq c (Source.tagOf c a) (Source.tyOf a) v w).2.1 h3
      subst e
      exact h2
    · exact fun h => ⟨v, v, hv, h, (C72_eq c (Source.tagOf c a) (Source.tyOf a) v v).2.2 rfl⟩
  rw [key, hd]
  constructor
  · rintro (⟨h, s, h1, h2, h3, -, h4⟩ | ⟨h, h1, -⟩)
    · exact .inl ⟨h, s, h1, h2, h3, h4⟩
    · exact .inr ⟨h, h1⟩
  · rintro (⟨h, s, h1, h2, h3, h4⟩ | ⟨h, h1⟩)
    · exact .inl ⟨h, s, h1, h2, h3, rfl, h4⟩
    · exact .inr ⟨h, h1, rfl⟩

theorem tyOf_ne_midstate (a : Alg) : Source.tyOf a ≠ .midstate := by
  cases a <;> exact fun h => nomatch h

/-- The lengths of digests. -/
theorem outLen_bounds : ∀ a : Alg, 0 < a.outLen ∧ a.outLen ≤ 64
  | .sha1 | .sha256 | .sha384 | .sha512 | .sha512_256 | .ripemd160 | .siphash24 | .sha256t _ _ _ => by
    constructor <;> exact Nat.le_of_ble_eq_true rfl
  | .hmac a => outLen_bounds a

/-- C101: the program of `extended_tests/schemars`: every hash type has a schema that is made without a panic, and the
serialized hash of any message conforms to it. -/
theorem C101_schema {c : Cfg} (hc : c.Valid) (a : Alg) (ok : a.Ok c) (ds : List (List Byte))
    (hbits : 8 * (a.base + ds.flatten.length + a.slack) < 2 ^ 64)
    (hbytes : a.base + ds.flatten.length + a.slack + 144 < 2 ^ c.usizeBits) (g : SchemaGenerator) :
    ∃ name f sch s, (storedAs c a).schema = some (name, f) ∧ f g = .ok sch ∧
      (Source.hashChunks c a ds >>= fun v => (storedAs c a).serialize v ⟨true⟩) = .ok (.str s) ∧
      Conforms sch s := by
  obtain ⟨v, hv, hb⟩ := C96_value hc a ok ds hbits hbytes
  have hl : ((Source.typeOf c a).toByteArray v).length = Source.bytesOf (Source.tyOf a) := by
    rw [hb, Alg.hashSpec_length, bytesOf_tyOf]
  obtain ⟨s, h1, -⟩ := C101_serialized hc a ok ds hbits hbytes
  have h0 := outLen_bounds a
  rw [← bytesOf_tyOf] at h0
  have hn : Source.bytesOf (Source.tyOf a) < 2 ^ 31 := by omega
  obtain ⟨f, hf, -⟩ := C79_schema c (Source.tagOf c a) (Source.tyOf a) (tyOf_ne_midstate a) hn g
  have h2 := h1
  rw [hv] at h2
  obtain ⟨sch, q1, q2⟩ := C79_conforms c (Source.tagOf c a) (Source.tyOf a) h0.1 hn _ f hf g v hl s h2
  exact ⟨_, f, sch, s, hf, q1, h1, q2⟩

/-- C101: hashes as keys of a table: the hash of a message feeds a `Hasher` the length of the digest and the digest, so
messages with one digest are found in the same place, and a `Hasher` that tells data apart tells other digests apart. -/
theorem C101_keys {c : Cfg} (hc : c.Valid) (a : Alg) (ok : a.Ok c) (ds : List (List Byte))
    (hbits : 8 * (a.base + ds.flatten.length + a.slack) < 2 ^ 64)
    (hbytes : a.base + ds.flatten.length + a.slack + 144 < 2 ^ c.usizeBits) (A : Hasher) (st : A.State) :
    (Source.hashChunks c a ds).map (fun v => (storedAs c a).feed A v st) =
      .ok (A.write (A.writeLen st a.outLen) (a.hashSpec ds.flatten)) := by
  obtain ⟨v, hv, hb⟩ := C96_value hc a ok ds hbits hbytes
  rw [hv]
  refine congrArg Except.ok (((C78_feed c (Source.tagOf c a) (Source.tyOf a) A v v st).1).trans ?_)
  have hb' : (Source.hashText c (Source.tagOf c a) (Source.tyOf a)).toByteArray v = a.hashSpec ds.flatten := hb
  rw [hb', Alg.hashSpec_length]

/-- "abc" hashed and serialized; and its digest in capitals, found as bytes by a human readable deserializer. -/
example :
    (Source.hashChunks .debug64 .sha1 [ascii "a", ascii "bc"] >>= fun v =>
      (storedAs .debug64 .sha1).serialize v ⟨true⟩) = .ok (.str (ascii "a9993e364706816aba3e25717850c26c9cd0d89d")) ∧
    (do
      let v ← Source.hashChunks .debug64 .sha1 [ascii "abc"]
      let w ← (storedAs .debug64 .sha1).deserialize
        ⟨true, fun _ => .bytes (ascii "A9993E364706816ABA3E25717850C26C9CD0D89D")⟩
      pure (match w with
        | .ok w => (Source.typeOf .debug64 .sha1).eq v w
        | .error _ => false)) = .ok true := by decide +kernel

end Chf.Props
