import Verif.Check.TextSeen
import Verif.Check.SoundText
import Verif.Props.TextSeen

/-!
# The instances of C84 and C85 follow from the theorems
-/

namespace Chf.Check
open Chf Props

theorem sound_C84_computes : check_C84_computes () = true :=
  forall2_true fun _ _ _ _ => decide_eq_true (C84_computes _ _ _)

theorem sound_C84_constant_time : check_C84_constant_time () = true :=
  forall2_true fun _ _ _ _ => decide_eq_true (C84_constant_time _ _ _ _ _ (by simp [blankBytes]) (by simp [blankBytes]))

theorem sound_C84_reads : check_C84_reads () = true :=
  forall2_true fun _ _ p _ => by
    by_cases h : p.1.length = p.2.length
    · rw [Bool.or_eq_true]; exact .inr (decide_eq_true (C84_reads _ _ _ h))
    · rw [Bool.or_eq_true]; exact .inl (by simpa using h)

theorem sound_C85_programs : check_C85_programs () = true :=
  forall2_true fun _ _ _ _ => decide_eq_true (C85_programs _ _).1

theorem sound_C85_hash : check_C85_hash () = true :=
  forall2_true fun _ _ _ _ => List.all_eq_true.2 fun _ _ => by
    have h := C85_hash
    rw [Bool.and_eq_true]
    exact ⟨decide_eq_true (h _ _ _ _ (by simp [blankBytes])).1, decide_eq_true (h _ _ _ _ rfl).2⟩

theorem sound_C85_hash_chunks : check_C85_hash_chunks () = true :=
  forall2_true fun _ _ _ _ => List.all_eq_true.2 fun _ _ => by
    have h := C85_hash_chunks
    rw [Bool.and_eq_true]
    exact ⟨decide_eq_true (h _ _ _ _ (by simp [blankBytes, Function.comp_def])).1, decide_eq_true (h _ _ _ _ rfl).2⟩

theorem sound_C85_const_hash : check_C85_const_hash () = true :=
  forall2_true fun c _ x _ => by
    have h := C85_const_hash c (msg x.1) (blankBytes (msg x.1)) (by simp [blankBytes]) x.2
    simp [check_C85_const_hash, h.1, h.2.2.1]

theorem sound_C85_hash_tag : check_C85_hash_tag () = true :=
  forall2_true fun c _ n _ => by
    have h := C85_const_hash c (msg n) (blankBytes (msg n)) (by simp [blankBytes]) true
    simp [h.2.1, h.2.2.2]

theorem sound_C85_siphash : check_C85_siphash () = true :=
  forall2_true fun c _ n _ => by
    have h := C85_siphash c 11#64 0xff00ff00ff00ff#64 0#64 0#64 (msg n) (blankBytes (msg n)) (by simp [blankBytes])
    simp only [h.1, h.2.1, h.2.2.1, h.2.2.2, decide_true, Bool.and_self]

end Chf.Check
