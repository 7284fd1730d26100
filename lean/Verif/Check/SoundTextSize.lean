import Verif.Check.TextSize
import Verif.Check.SoundTextSerde
import Verif.Props.TextSize

/-!
# The instances of C111 follow from the theorems
-/

namespace Chf.Check
open Chf Spec Props Rs

theorem some100_length (n : Nat) : (some100 n).length = n := by simp [some100]

theorem sound_C111 : check_C111_from_slice () = true ∧ check_C111_serde () = true := by
  refine ⟨List.all_eq_true.2 fun x _ => List.all_eq_true.2 fun n _ => ?_,
    List.all_eq_true.2 fun x _ => List.all_eq_true.2 fun n _ => ?_⟩
  · have H := (C111_from_slice .debug64 ⟨.error .ub⟩ x.1 (some100 n)).1
    rw [some100_length] at H
    split
    · next h e => exact decide_eq_true (H.1 ⟨h, e⟩)
    · next k =>
      refine decide_eq_true fun e => ?_
      obtain ⟨h, hk⟩ := H.2 e
      exact k h hk
  · have H := (C111_serde .debug64 ⟨.error .ub⟩ x.1).2 (giving false (.bytes (some100 n))) rfl _ rfl
    rw [some100_length] at H
    split
    · next h e =>
      refine decide_eq_true (H.1 ?_)
      unfold seeDe sd at e
      cases hd : (Source.serdeText .debug64 ⟨.error .ub⟩ x.1).deserialize (giving false (.bytes (some100 n))) with
      | error f => rw [hd] at e; cases e
      | ok r =>
        cases r with
        | error f => rw [hd] at e; cases e
        | ok y => exact ⟨y, rfl⟩
    · next k =>
      refine decide_eq_true fun e => ?_
      obtain ⟨h, hk⟩ := H.2 e
      exact k _ (seeDe_ok hk)

end Chf.Check
