import Verif.Check.TextSchema
import Verif.Check.SoundTextSerde
import Verif.Props.TextSchema

/-!
# The instances of C112 follow from the theorems
-/

namespace Chf.Check
open Chf Spec Props Rs

theorem sound_C112 : check_C112_schema () = true :=
  forall2_true fun c _ n _ => by
    split
    · rfl
    · next name f h =>
      have S := C112_schema c ⟨.error .ub⟩ n name f h ()
      split
      · next e => exact decide_eq_true (S.1 e.1 e.2)
      · next e =>
        obtain ⟨len, hl, hf⟩ := S.2 (by
          cases hc : c.overflowChecks
          · exact .inl rfl
          · exact .inr (by rw [hc] at e; simpa using e))
        have : len = BitVec.ofNat 32 (2 * n) := BitVec.eq_of_toNat_eq (by rw [hl, BitVec.toNat_ofNat])
        rw [← this]
        exact decide_eq_true hf

end Chf.Check
