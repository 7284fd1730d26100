import Verif.Spec.OtherSerde
import Verif.Spec.Utf8
import Verif.Proofs.Utf8

/-!
# C110: serde for hash types written by others, in the translated text
-/

namespace Chf.Props
open Chf Chf.Rs Chf.Spec Source.SerdeMacros

variable (c : Cfg) (S : SerdeHash)

/-- C110: human readable formats are given what `Display` writes, without `#`, and others the bytes that `[..]`
gives. There is no other call. -/
theorem C110_serialize (h : S.State) (s : Serializer) :
    SerdeHash.serialize c S h s =
      if s.human = true then (S.fmt h ⟨false⟩).map Serialized.str else (S.index h ⟨⟩).map Serialized.bytes := by
  unfold SerdeHash.serialize
  split
  · cases S.fmt h ⟨false⟩ <;> rfl
  · cases S.index h ⟨⟩ <;> rfl

/-- C110: in human readable formats a string goes to `FromStr`, and bytes do if they are UTF-8. Whatever else is
found is refused without any call of the type's functions. -/
theorem C110_human (d : Deserializer) (hd : d.human = true) (v : List Byte) :
    (d.data .str = .str v ∨ d.data .str = .bytes v ∧ IsUtf8 v →
      SerdeHash.deserialize c S d = (S.from_str v).map (Except.mapError DeError.custom)) ∧
    (d.data .str = .bytes v → ¬ IsUtf8 v →
      SerdeHash.deserialize c S d = .ok (.error (.invalidValue (.bytes v) (ascii "an ASCII hex string")))) ∧
    (d.data .str = .other →
      SerdeHash.deserialize c S d = .ok (.error (.invalidType .other (ascii "an ASCII hex string")))) ∧
    (d.data .str = .fail → SerdeHash.deserialize c S d = .ok (.error .format)) := by
  unfold SerdeHash.deserialize Deserializer.run
  simp only [hd, if_true]
  refine ⟨?_, fun hs hu => ?_, fun hs => ?_, fun hs => ?_⟩
  · rintro (hs | ⟨hs, hu⟩)
    · simp only [hs, HexVisitor.Visitor.visit_str]
      cases S.from_str v <;> rfl
    · simp only [hs, HexVisitor.Visitor.visit_bytes, (HashTy.utf8Valid_iff v).2 hu, if_true]
      cases S.from_str v <;> rfl
  · have : ¬ utf8Valid v = true := fun h => hu ((HashTy.utf8Valid_iff v).1 h)
    simp only [hs, HexVisitor.Visitor.visit_bytes, if_neg this]
    rfl
  · simp only [hs]; rfl
  · simp only [hs]; rfl

/-- C110: in other formats bytes go to `from_slice`; of its error nothing remains but the length of the bytes.
Whatever else is found is refused without any call of the type's functions. -/
theorem C110_binary (d : Deserializer) (hd : d.human = false) (v : List Byte) :
    (d.data .bytes = .bytes v → SerdeHash.deserialize c S d =
      (S.from_slice_delegated v).map (Except.mapError fun _ => .invalidLength v.length (ascii "N"))) ∧
    (d.data .bytes = .str v →
      SerdeHash.deserialize c S d = .ok (.error (.invalidType (.str v) (ascii "a bytestring")))) ∧
    (d.data .bytes = .other →
      SerdeHash.deserialize c S d = .ok (.error (.invalidType .other (ascii "a bytestring")))) ∧
    (d.data .bytes = .fail → SerdeHash.deserialize c S d = .ok (.error .format)) := by
  unfold SerdeHash.deserialize Deserializer.run
  simp only [hd]
  refine ⟨fun hs => ?_, fun hs => ?_, fun hs => ?_, fun hs => ?_⟩
  · simp only [hs, BytesVisitor.Visitor.visit_bytes]
    cases S.from_slice_delegated v <;> rfl
  all_goals simp only [hs]; rfl

theorem mapError_ok {α : Type} {ε ε' : Type} {f : ε → ε'} {r : Res (Except ε α)} {x : α} :
    r.map (Except.mapError f) = .ok (.ok x) ↔ r = .ok (.ok x) := by
  cases r with
  | error e => exact ⟨fun h => (nomatch h), fun h => (nomatch h)⟩
  | ok r =>
    cases r with
    | error e => exact ⟨fun h => (nomatch Except.ok.inj h), fun h => (nomatch Except.ok.inj h)⟩
    | ok y => exact ⟨fun h => by cases h; rfl, fun h => by cases h; rfl⟩

/-- C110: a value comes back from human readable formats exactly if `FromStr` reads what `Display` writes, and from
others exactly if `from_slice` reads what `[..]` gives. -/
theorem C110_round_trip (h : S.State) (v w : List Byte) (hv : S.fmt h ⟨false⟩ = .ok v) (hu : IsUtf8 v)
    (hw : S.index h ⟨⟩ = .ok w) :
    (∀ d : Deserializer, d.human = true → (d.data .str = .str v ∨ d.data .str = .bytes v) →
      SerdeHash.serialize c S h ⟨true⟩ = .ok (.str v) ∧
      (SerdeHash.deserialize c S d = .ok (.ok h) ↔ S.from_str v = .ok (.ok h))) ∧
    ∀ d : Deserializer, d.human = false → d.data .bytes = .bytes w →
      SerdeHash.serialize c S h ⟨false⟩ = .ok (.bytes w) ∧
      (SerdeHash.deserialize c S d = .ok (.ok h) ↔ S.from_slice_delegated w = .ok (.ok h)) := by
  refine ⟨fun d hd hs => ⟨by rw [C110_serialize, if_pos rfl, hv]; rfl, ?_⟩,
    fun d hd hs => ⟨by rw [C110_serialize, if_neg Bool.false_ne_true, hw]; rfl, ?_⟩⟩
  · rw [(C110_human c S d hd v).1 (hs.imp_right fun h => ⟨h, hu⟩), mapError_ok]
  · rw [(C110_binary c S d hd w).1 hs, mapError_ok]

/-- C110: a call panics only if the one function of the type that it calls does. -/
theorem C110_panics (f : Fault) :
    (∀ h s, SerdeHash.serialize c S h s = .error f →
      s.human = true ∧ S.fmt h ⟨false⟩ = .error f ∨ s.human = false ∧ S.index h ⟨⟩ = .error f) ∧
    ∀ d, SerdeHash.deserialize c S d = .error f → ∃ v,
      (d.human = true ∧ (d.data .str = .str v ∨ d.data .str = .bytes v ∧ IsUtf8 v) ∧ S.from_str v = .error f) ∨
      (d.human = false ∧ d.data .bytes = .bytes v ∧ S.from_slice_delegated v = .error f) := by
  have em : ∀ {α β : Type} {g : α → β} {r : Res α}, r.map g = .error f → r = .error f := by
    intro α β g r h
    cases r with
    | error e => cases h; rfl
    | ok x => cases h
  refine ⟨fun h s e => ?_, fun d e => ?_⟩
  · rw [C110_serialize] at e
    split at e
    · next hs => exact .inl ⟨hs, em e⟩
    · next hs => exact .inr ⟨Bool.eq_false_iff.2 hs, em e⟩
  · cases hd : d.human with
    | true =>
      have H := C110_human c S d hd
      cases hx : d.data .str with
      | str v => exact ⟨v, .inl ⟨rfl, .inl rfl, em ((H v).1 (.inl hx) ▸ e)⟩⟩
      | bytes v =>
        by_cases hu : IsUtf8 v
        · exact ⟨v, .inl ⟨rfl, .inr ⟨rfl, hu⟩, em ((H v).1 (.inr ⟨hx, hu⟩) ▸ e)⟩⟩
        · rw [(H v).2.1 hx hu] at e; cases e
      | other => rw [(H []).2.2.1 hx] at e; cases e
      | fail => rw [(H []).2.2.2 hx] at e; cases e
    | false =>
      have H := C110_binary c S d hd
      cases hx : d.data .bytes with
      | bytes v => exact ⟨v, .inr ⟨rfl, rfl, em ((H v).1 hx ▸ e)⟩⟩
      | str v => rw [(H v).2.1 hx] at e; cases e
      | other => rw [(H []).2.2.1 hx] at e; cases e
      | fail => rw [(H []).2.2.2 hx] at e; cases e

/-- A type that prints its bytes backwards and parses them forwards comes back from a binary format but not from
a human readable one; one that parses them backwards too comes back from both. -/
example :
    let d : Deserializer := ⟨true, fun _ => .str (ascii "0201")⟩
    let b : Deserializer := ⟨false, fun _ => .bytes [1, 2]⟩
    SerdeHash.serialize .debug64 (otherType 2 true false) [1, 2] ⟨true⟩ = .ok (.str (ascii "0201")) ∧
    SerdeHash.deserialize .debug64 (otherType 2 true false) d = .ok (.ok [2, 1]) ∧
    SerdeHash.deserialize .debug64 (otherType 2 true true) d = .ok (.ok [1, 2]) ∧
    SerdeHash.deserialize .debug64 (otherType 2 true false) b = .ok (.ok [1, 2]) ∧
    SerdeHash.deserialize .debug64 (otherType 3 true false) b = .ok (.error (.invalidLength 2 (ascii "N"))) :=
  ⟨rfl, rfl, rfl, rfl, rfl⟩

end Chf.Props
