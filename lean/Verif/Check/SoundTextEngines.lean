import Verif.Check.TextEngines
import Verif.Check.SoundStates
import Verif.Props.TextContract

/-!
# The instances of C86 follow from the theorems
-/

namespace Chf.Check
open Chf Spec Props

theorem sound_C86_rfc : check_C86_rfc () = true :=
  forall2_true fun c _ x hx => forall2_true fun key hk ds hd => decide_eq_true <| by
    have hx' : x.1 ≤ 128 ∧ x.2 ≤ x.1 := by
      simp only [List.mem_cons, List.not_mem_nil, or_false] at hx
      rcases hx with rfl | rfl | rfl | rfl | rfl <;> decide
    have hk' : key.length < 1000 := by
      simp only [List.mem_cons, List.not_mem_nil, or_false] at hk
      rcases hk with rfl | rfl | rfl | rfl | rfl | rfl | rfl | rfl <;> simp [msg_length]
    have hd' := (inputs3_ok ds hd).2
    have hB : (toyEngine x.1 x.2).blockSize = x.1 := rfl
    exact C86_rfc (E := toyEngine x.1 x.2) (toy_computes x.1 x.2 2000) (by rw [hB]; exact hx'.1)
      (fun m => by rw [hB, toyHash, List.length_replicate]; exact hx'.2)
      (by rw [hB]; omega) key (by omega) ds (by rw [hB]; omega)

theorem sound_C86_large_block : check_C86_large_block () = true :=
  forall2_true fun c _ B hB => List.all_eq_true.2 fun key _ => by
    have h : 128 < (toyEngine B 32).blockSize := by
      show 128 < B
      simp only [List.mem_cons, List.not_mem_nil, or_false] at hB
      rcases hB with rfl | rfl | rfl | rfl <;> decide
    obtain ⟨f, hf⟩ := C86_large_block c h key
    rw [hf]

theorem sound_C86_provided : check_C86_provided () = true :=
  forall2_true fun c _ ds _ => by
    have h := C86_provided c (toy_computes 4 5 ds.flatten.length)
    rw [h.1 _ (Nat.le_refl _), h.2 _ (Nat.le_refl _)]
    simp

end Chf.Check
