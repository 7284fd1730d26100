import Verif.Model.TextSize
import Verif.Props.TextSerde

/-!
# C111: `SerdeHash::N`, in the translated text
-/

namespace Chf.Props
open Chf Chf.Rs Chf.Spec

variable (c : Cfg) (T : Source.Sha256t.Tag) (t : HashTy)

/-- C111: `from_slice` accepts exactly the slices of `N` bytes, and what it makes of them has as many. -/
theorem C111_from_slice (sl : List Byte) :
    ((∃ h, (Source.hashText c T t).fromSlice sl = .ok (.ok h)) ↔ sl.length = Source.serdeN t) ∧
    ∀ h, (Source.hashText c T t).fromSlice sl = .ok (.ok h) →
      ((Source.hashText c T t).toByteArray h).length = Source.serdeN t := by
  have e : Source.serdeN t = Source.bytesOf t := by cases t <;> rfl
  rw [e]
  have F := C71_from_slice c T t sl
  by_cases hl : sl.length = Source.bytesOf t
  · obtain ⟨h, h1, h2⟩ := F.1 hl
    exact ⟨⟨fun _ => hl, fun _ => ⟨h, h1⟩⟩, fun k hk => by
      rw [h1] at hk; cases hk; rw [h2, hl]⟩
  · have n : ∀ h, (Source.hashText c T t).fromSlice sl ≠ .ok (.ok h) := fun h hk => by
      rw [F.2 hl] at hk; cases hk
    exact ⟨⟨fun ⟨h, hk⟩ => absurd hk (n h), fun k => absurd k hl⟩, fun h hk => absurd hk (n h)⟩

/-- C111: a hash of `N` bytes is serialized as `N` bytes or as `2 * N` characters, and binary formats give back
exactly what has `N` bytes. -/
theorem C111_serde :
    (∀ h, ((Source.hashText c T t).toByteArray h).length = Source.serdeN t →
      (∃ v, (Source.serdeText c T t).serialize h ⟨false⟩ = .ok (.bytes v) ∧ v.length = Source.serdeN t) ∧
      ∃ v, (Source.serdeText c T t).serialize h ⟨true⟩ = .ok (.str v) ∧ v.length = 2 * Source.serdeN t) ∧
    ∀ d : Deserializer, d.human = false → ∀ v, d.data .bytes = .bytes v →
      ((∃ h, (Source.serdeText c T t).deserialize d = .ok (.ok h)) ↔ v.length = Source.serdeN t) := by
  have e : Source.serdeN t = Source.bytesOf t := by cases t <;> rfl
  rw [e]
  refine ⟨fun h hl => ?_, fun d hd v hv => ⟨fun ⟨h, k⟩ => ?_, fun hl => ?_⟩⟩
  · obtain ⟨⟨lo, h1, h2, -⟩, h3⟩ := C76_serialize c T t h hl
    exact ⟨⟨_, h3, hl⟩, lo, h1, h2⟩
  · rcases (C77_accepts c T t d h).1 k with ⟨hh, -⟩ | ⟨-, k1, k2⟩
    · rw [hd] at hh; cases hh
    · rw [hv] at k1
      cases k1
      exact k2
  · have p := Source.plain c T t
    exact ⟨p.make v, (C77_accepts c T t d (p.make v)).2
      (.inr ⟨hd, by rw [p.toByteArray_make]; exact ⟨hv, hl⟩⟩)⟩

/-- C111: so `N` is not the number of bits, as its documentation has it, but the number of bytes, for every type
whose hashes are not empty. -/
theorem C111_not_bits (h : (Source.hashText c T t).H) (sl : List Byte)
    (hs : (Source.hashText c T t).fromSlice sl = .ok (.ok h)) :
    Source.serdeN t = 8 * ((Source.hashText c T t).toByteArray h).length ↔ t = .hmac 0 := by
  rw [(C111_from_slice c T t sl).2 h hs]
  constructor
  · intro k
    have z : Source.serdeN t = 0 := by omega
    cases t <;> first | (exact absurd z (by decide)) | (exact congrArg HashTy.hmac z)
  · rintro rfl; rfl

/-- A digest of SHA-256 has 256 bits, and `N` is 32. -/
example : Source.serdeN .sha256 = 32 ∧ Source.serdeN .siphash24 = 8 ∧ Source.serdeN (.hmac 64) = 64 := ⟨rfl, rfl, rfl⟩

end Chf.Props
