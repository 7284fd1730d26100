import Verif.Check.OtherSerde
import Verif.Check.SoundTextSerde
import Verif.Props.OtherSerde

/-!
# The instances of C110 follow from the theorems
-/

namespace Chf.Check
open Chf Spec Props Rs

theorem sound_C110 : check_C110_serialize () = true ∧ check_C110_human () = true ∧
    check_C110_binary () = true := by
  refine ⟨?_, ?_, ?_⟩
  · refine forall2_true fun c _ h _ => ?_
    rw [Bool.and_eq_true]
    exact ⟨decide_eq_true (C110_serialize c echo110 h ⟨true⟩), decide_eq_true (C110_serialize c echo110 h ⟨false⟩)⟩
  · refine forall2_true fun c _ v _ => ?_
    have H (x : Data) := C110_human c echo110 (giving true x) rfl v
    rw [Bool.and_eq_true, Bool.and_eq_true, Bool.and_eq_true]
    refine ⟨⟨decide_eq_true ((H _).1 (.inl rfl)), ?_⟩, decide_eq_true ((H _).2.2.1 rfl),
      decide_eq_true ((H _).2.2.2 rfl)⟩
    split
    · next hu => exact decide_eq_true ((H _).1 (.inr ⟨rfl, (HashTy.utf8Valid_iff v).1 hu⟩))
    · next hu => exact decide_eq_true ((H _).2.1 rfl fun k => hu ((HashTy.utf8Valid_iff v).2 k))
  · refine forall2_true fun c _ v _ => ?_
    have H (x : Data) := C110_binary c echo110 (giving false x) rfl v
    rw [Bool.and_eq_true, Bool.and_eq_true, Bool.and_eq_true]
    exact ⟨⟨decide_eq_true ((H _).1 rfl), decide_eq_true ((H _).2.1 rfl)⟩, decide_eq_true ((H _).2.2.1 rfl),
      decide_eq_true ((H _).2.2.2 rfl)⟩

end Chf.Check
