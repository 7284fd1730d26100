import Verif.Model.TextHash
import Verif.Props.Text
import Verif.Props.TextTypes

/-!
# C96: from a message to a printed digest and back, in the translated text
-/

namespace Chf.Props
open Chf Chf.Rs Chf.Spec Chf.HashTy

theorem bind_pure_map {α β γ : Type} (x : Res α) (f : α → β) (g : β → γ) :
    (x >>= fun a => pure (f a)).map g = x.map (g ∘ f) := by
  cases x <;> rfl

theorem res_map_id {α : Type} (x : Res α) (f : α → α) (h : ∀ a, f a = a) : x.map f = x := by
  cases x with
  | error f => rfl
  | ok a => exact congrArg Except.ok (h a)

/-- C96: `Hash::engine` gives the engine that `new` and `default` give. -/
theorem C96_engine (c : Cfg) (a : Alg) :
    Source.hashEngine c a = (Source.engineOf c a).new ∧
    Source.hashEngine c a = (Source.engineOf c a).default := by
  cases a <;> exact ⟨rfl, rfl⟩

/-- C96: `Hash::from_engine(e)` has the bytes that `e.finalize()` returns, and panics as it does. -/
theorem C96_from_engine (c : Cfg) (a : Alg) (e : (Source.engineOf c a).State) :
    (Source.hashFrom c a e).map (Source.typeOf c a).toByteArray = (Source.engineOf c a).finalize e := by
  cases a with
  | siphash24 => rfl
  | sha1 => exact (bind_pure_map (Source.Sha1.Engine.finalize c e) Source.Sha1.Hash.mk _).trans (res_map_id _ _ fun _ => rfl)
  | sha256 => exact (bind_pure_map (Source.Sha256.Engine.finalize c e) Source.Sha256.Hash.mk _).trans (res_map_id _ _ fun _ => rfl)
  | sha384 => exact (bind_pure_map (Source.Sha384.Engine.finalize c e) Source.Sha384.Hash.mk _).trans (res_map_id _ _ fun _ => rfl)
  | sha512 => exact (bind_pure_map (Source.Sha512.Engine.finalize c e) Source.Sha512.Hash.mk _).trans (res_map_id _ _ fun _ => rfl)
  | sha512_256 => exact (bind_pure_map (Source.Sha512_256.Engine.finalize c e) Source.Sha512_256.Hash.mk _).trans (res_map_id _ _ fun _ => rfl)
  | ripemd160 => exact (bind_pure_map (Source.Ripemd160.Engine.finalize c e) Source.Ripemd160.Hash.mk _).trans (res_map_id _ _ fun _ => rfl)
  | sha256t mid len data =>
    exact (bind_pure_map (Source.Sha256t.Engine.finalize c (.ofMidstate c mid len data) e)
      (fun d => Source.Sha256t.Hash.mk d ()) _).trans (res_map_id _ _ fun _ => rfl)
  | hmac a =>
    exact (bind_pure_map ((Source.engineOf c (.hmac a)).finalize e) Source.Hmac.Hash.mk _).trans
      (res_map_id _ _ fun _ => rfl)

/-- C96: hashing slices with `Hash::engine` and `Hash::from_engine` gives the bytes that the engine computes
for them, or panics as it does; `Hash::hash` does the same for one slice. -/
theorem C96_bytes (c : Cfg) (a : Alg) (ds : List (List Byte)) :
    (Source.hashChunks c a ds).map (Source.typeOf c a).toByteArray =
      (Source.engineOf c a).hashByteChunks ds := by
  unfold Source.hashChunks HashEngine.hashByteChunks
  rw [(C96_engine c a).1, Rs.map_bind]
  refine bind_congr' fun e _ => ?_
  rw [Rs.map_bind]
  exact bind_congr' fun e _ => C96_from_engine c a e

/-- C96: `Hash::hash(m)` is `Hash::engine`, `input(m)` and `Hash::from_engine`. Every type but `Hmac` has it. -/
theorem C96_hash (c : Cfg) (a : Alg) :
    (∀ hash, Source.hashOf c a = some hash → ∀ m, hash m = Source.hashChunks c a [m]) ∧
    (Source.hashOf c a = none ↔ ∃ b, a = .hmac b) := by
  have hi : ∀ {E : HashEngine} {β : Type} (e : E.State) (m : List Byte) (f : E.State → Res β),
      (E.inputs e [m] >>= f) = (E.input e m >>= f) := by
    intro E β e m f
    show ((E.input e m >>= fun e => .ok e) >>= f) = _
    cases E.input e m <;> rfl
  cases a with
  | hmac a => exact ⟨fun _ h => (by cases h), ⟨fun _ => ⟨a, rfl⟩, fun _ => rfl⟩⟩
  | sha256t mid len data =>
    refine ⟨fun hash h m => ?_, fun h => (by cases h), fun h => (by obtain ⟨b, hb⟩ := h; cases hb)⟩
    cases h
    unfold Source.hashChunks
    have h2 := fun e => hi (E := Source.engineOf c (.sha256t mid len data)) e m
      (Source.hashFrom c (.sha256t mid len data))
    simp only [h2]
    rfl
  | _ =>
    refine ⟨fun hash h m => ?_, fun h => (by cases h), fun h => (by obtain ⟨b, hb⟩ := h; cases hb)⟩
    cases h
    unfold Source.hashChunks
    simp only [hi]
    rfl

theorem bytesOf_tyOf (a : Alg) : Source.bytesOf (Source.tyOf a) = a.outLen := by
  cases a <;> rfl

/-- C96: hashing within the lengths of C67 gives one value. Its bytes are the digest of the definition. -/
theorem C96_value {c : Cfg} (hc : c.Valid) (a : Alg) (ok : a.Ok c) (ds : List (List Byte))
    (hbits : 8 * (a.base + ds.flatten.length + a.slack) < 2 ^ 64)
    (hbytes : a.base + ds.flatten.length + a.slack + 144 < 2 ^ c.usizeBits) :
    ∃ v, Source.hashChunks c a ds = .ok v ∧
      (Source.typeOf c a).toByteArray v = a.hashSpec ds.flatten := by
  have h := C96_bytes c a ds
  rw [C67_engines hc a ok ds hbits hbytes] at h
  cases hv : Source.hashChunks c a ds with
  | error f => rw [hv] at h; cases h
  | ok v => rw [hv] at h; exact ⟨v, rfl, Except.ok.inj h⟩

/-- C96: a hash value is printed as the lower-case hexadecimal digits of the digest, two for each byte. -/
theorem C96_printed {c : Cfg} (hc : c.Valid) (a : Alg) (ok : a.Ok c) (ds : List (List Byte))
    (hbits : 8 * (a.base + ds.flatten.length + a.slack) < 2 ^ 64)
    (hbytes : a.base + ds.flatten.length + a.slack + 144 < 2 ^ c.usizeBits) :
    ∃ s, (Source.hashChunks c a ds >>= fun v => (Source.typeOf c a).display v ⟨false⟩) = .ok s ∧
      (Source.hashChunks c a ds >>= fun v => (Source.typeOf c a).debug v ⟨false⟩) = .ok (ascii "0x" ++ s) ∧
      s.length = 2 * (a.hashSpec ds.flatten).length ∧ (∀ x ∈ s, IsLowerDigit x) ∧
      value16 s = beNat (a.hashSpec ds.flatten) := by
  obtain ⟨v, hv, hb⟩ := C96_value hc a ok ds hbits hbytes
  have hl : ((Source.typeOf c a).toByteArray v).length = Source.bytesOf (Source.tyOf a) := by
    rw [hb, Alg.hashSpec_length, bytesOf_tyOf]
  obtain ⟨lo, -, -, h1, -, -, -, -, h2, l1, d1, v1, -⟩ :=
    C73_format c (Source.tagOf c a) (Source.tyOf a) v hl
  rw [hv]
  refine ⟨lo, h1, h2 _, ?_, d1, ?_⟩
  · rw [l1, Alg.hashSpec_length, bytesOf_tyOf]
  · rw [v1]; exact congrArg beNat hb

/-- C96: checking a message against a string. Parsing the string gives a value equal to the hash of the
message if and only if the string is the digest in hexadecimal digits, of either case. -/
theorem C96_check {c : Cfg} (hc : c.Valid) (a : Alg) (ok : a.Ok c) (ds : List (List Byte))
    (hbits : 8 * (a.base + ds.flatten.length + a.slack) < 2 ^ 64)
    (hbytes : a.base + ds.flatten.length + a.slack + 144 < 2 ^ c.usizeBits)
    (parse : List Byte → Res (Except Hex.Error (Source.typeOf c a).H))
    (hp : parse ∈ (Source.typeOf c a).parsers) (s : List Byte) :
    (∃ v w, Source.hashChunks c a ds = .ok v ∧ parse s = .ok (.ok w) ∧ (Source.typeOf c a).eq v w = true) ↔
      s.length = 2 * (a.hashSpec ds.flatten).length ∧ (∀ x ∈ s, IsHexDigit x) ∧
      value16 s = beNat (a.hashSpec ds.flatten) := by
  obtain ⟨v, hv, hb⟩ := C96_value hc a ok ds hbits hbytes
  have hl : ((Source.typeOf c a).toByteArray v).length = Source.bytesOf (Source.tyOf a) := by
    rw [hb, Alg.hashSpec_length, bytesOf_tyOf]
  have hs : (a.hashSpec ds.flatten).length = Source.bytesOf (Source.tyOf a) := by
    rw [Alg.hashSpec_length, bytesOf_tyOf]
  have hp' := C73_parse c (Source.tagOf c a) (Source.tyOf a) s v parse hp
  rw [hs]
  constructor
  · rintro ⟨v', w, h1, h2, h3⟩
    rw [hv] at h1
    cases h1
    have e := (C72_eq c (Source.tagOf c a) (Source.tyOf a) v w).2.1 h3
    subst e
    obtain ⟨q1, q2, -, q4⟩ := hp'.1 h2
    exact ⟨q1, q2, q4.trans (congrArg beNat hb)⟩
  · rintro ⟨q1, q2, q4⟩
    exact ⟨v, v, hv, hp'.2 ⟨q1, q2, hl, q4.trans (congrArg beNat hb.symm)⟩,
      (C72_eq c (Source.tagOf c a) (Source.tyOf a) v v).2.2 rfl⟩

/-- C96: two hash values of one type are equal if and only if the digests are, and are ordered like the
digests read as numbers, most significant byte first. -/
theorem C96_compared {c : Cfg} (hc : c.Valid) (a : Alg) (ok : a.Ok c) (ds es : List (List Byte))
    (hbits : 8 * (a.base + ds.flatten.length + a.slack) < 2 ^ 64)
    (hbytes : a.base + ds.flatten.length + a.slack + 144 < 2 ^ c.usizeBits)
    (ebits : 8 * (a.base + es.flatten.length + a.slack) < 2 ^ 64)
    (ebytes : a.base + es.flatten.length + a.slack + 144 < 2 ^ c.usizeBits) :
    ∃ v w, Source.hashChunks c a ds = .ok v ∧ Source.hashChunks c a es = .ok w ∧
      ((Source.typeOf c a).eq v w = true ↔ a.hashSpec ds.flatten = a.hashSpec es.flatten) ∧
      (Source.typeOf c a).cmp v w =
        compare (beNat (a.hashSpec ds.flatten)) (beNat (a.hashSpec es.flatten)) := by
  obtain ⟨v, hv, hb⟩ := C96_value hc a ok ds hbits hbytes
  obtain ⟨w, hw, hb'⟩ := C96_value hc a ok es ebits ebytes
  have hl : ((Source.typeOf c a).toByteArray v).length = Source.bytesOf (Source.tyOf a) := by
    rw [hb, Alg.hashSpec_length, bytesOf_tyOf]
  have hl' : ((Source.typeOf c a).toByteArray w).length = Source.bytesOf (Source.tyOf a) := by
    rw [hb', Alg.hashSpec_length, bytesOf_tyOf]
  refine ⟨v, w, hv, hw, ?_, ?_⟩
  · refine (C72_eq c (Source.tagOf c a) (Source.tyOf a) v w).1.trans ?_
    show (Source.typeOf c a).toByteArray v = (Source.typeOf c a).toByteArray w ↔ _
    rw [hb, hb']
  · refine (C72_order c (Source.tagOf c a) (Source.tyOf a) v w hl hl').1.trans ?_
    show compare (beNat ((Source.typeOf c a).toByteArray v)) (beNat ((Source.typeOf c a).toByteArray w)) = _
    rw [hb, hb']

/-- "abc" hashed in two slices, printed; and its digest in capitals parsed and compared. -/
example :
    (Source.hashChunks .debug64 .sha1 [ascii "a", ascii "bc"] >>= fun v =>
      (Source.typeOf .debug64 .sha1).display v ⟨false⟩) = .ok (ascii "a9993e364706816aba3e25717850c26c9cd0d89d") ∧
    ((Source.typeOf .debug64 .sha1).parsers.map fun parse => do
      let v ← Source.hashChunks .debug64 .sha1 [ascii "abc"]
      let w ← parse (ascii "A9993E364706816ABA3E25717850C26C9CD0D89D")
      pure (w.map ((Source.typeOf .debug64 .sha1).eq v))) = [.ok (.ok true)] := by decide +kernel

end Chf.Props
