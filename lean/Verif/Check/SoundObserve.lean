import Verif.Check.Observe
import Verif.Check.Sound
import Verif.Props.Observe
import Verif.Props.Shape

/-!
# The instances of C55 and C66 follow from the theorems
-/

namespace Chf.Check
open Chf Spec Props

theorem inputsO_res (c : Cfg) (a : Alg) (ds : List (List Byte)) : ∀ e,
    (inputsO (a.observed c) e ds).res = (a.engine c).inputs e ds := by
  induction ds with
  | nil => intro e; rfl
  | cons d ds ih =>
    intro e
    simp only [inputsO, Obs.bind_res, (C66_computes c a).2.2.1, ih]
    rfl

theorem sound_C66c : check_C66_computes () = true :=
  List.all_eq_true.2 fun x _ => List.all_eq_true.2 fun mk _ => List.all_eq_true.2 fun ds _ =>
    decide_eq_true (by
      obtain ⟨c, a⟩ := x
      have h := C66_computes c a
      unfold runO runM
      rw [← h.2.2.2.2.2.2 mk, Option.map_map]
      congr 1; funext y
      simp only [Function.comp, Obs.bind_res, inputsO_res, h.2.2.2.1, h.2.2.2.2.1]
      rfl)

theorem sound_C66p : check_C66_programs () = true :=
  List.all_eq_true.2 fun c _ => List.all_eq_true.2 fun p _ => decide_eq_true (C66_programs c p)

theorem sound_C55p : check_C55_programs () = true :=
  List.all_eq_true.2 fun c _ => List.all_eq_true.2 fun p _ => decide_eq_true (C55_programs c p)

theorem observeChecks_true : ∀ x ∈ observeChecks, x.2 () = true := by
  unfold observeChecks
  simp only [List.forall_mem_cons, List.not_mem_nil, false_implies, implies_true, and_true]
  exact ⟨sound_C66c, sound_C66p, sound_C55p⟩

end Chf.Check
