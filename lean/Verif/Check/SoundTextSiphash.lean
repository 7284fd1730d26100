import Verif.Check.SoundTextTypes
import Verif.Check.TextSiphash
import Verif.Props.TextSiphash

/-!
# The instances of C99 follow from the theorems
-/

namespace Chf.Check
open Chf Spec Props Chf.Rs

attribute [local irreducible] msg

theorem inputs99_lt {c : Cfg} (hc : c ∈ cfgs) {ds : List (List Byte)} (h : ds ∈ inputs99) :
    ∀ d ∈ ds, d.length < c.usizeMod := by
  have : ∀ d ∈ ds, d.length ≤ 30 := by
    simp only [inputs99, List.mem_cons, List.not_mem_nil, or_false] at h
    rcases h with rfl | rfl | rfl | rfl | rfl | rfl | rfl | rfl <;> intro d hd <;>
      simp only [List.mem_cons, List.not_mem_nil, or_false] at hd <;>
      (first | cases hd; done | skip) <;>
      (first | (rcases hd with rfl | rfl | rfl | rfl <;> rw [msg_length] <;> decide) |
        (rcases hd with rfl | rfl <;> rw [msg_length] <;> decide) | (subst hd; rw [msg_length]; decide))
  intro d hd
  have := this d hd
  rw [mod64 hc]
  omega

theorem sound_C99a : check_C99_keys () = true :=
  forall2_true fun c hc ds hd => Bool.and_eq_true_iff.2 ⟨List.all_eq_true.2 fun k _ => by
      split
      · next e he =>
        exact decide_eq_true ((C99_keys (valid hc) ds (inputs99_lt hc hd) _ e he).1 k.1 k.2 rfl)
      · rfl,
    List.all_eq_true.2 fun e0 he0 => by
      split
      · next e he =>
        refine decide_eq_true ((C99_keys (valid hc) ds (inputs99_lt hc hd) _ e he).2 ?_)
        simp only [List.mem_cons, List.not_mem_nil, or_false] at he0
        rcases he0 with h | h | h | h
        · exact .inl h
        · exact .inr (.inl h)
        · exact .inr (.inr (.inl h))
        · exact .inr (.inr (.inr ⟨_, _, h⟩))
      · rfl⟩

theorem sound_C99b : check_C99_from_engine () = true :=
  forall2_true fun c _ k _ => List.all_eq_true.2 fun t _ => by
    obtain ⟨h1, h2, h3⟩ := C99_from_engine c
      { Source.Siphash24.Engine.with_keys c k.1 k.2 with length := t.1, tail := t.2, ntail := t.1 % 8 }
    simp only [Bool.and_eq_true, decide_eq_true_eq]
    exact ⟨⟨h1, h2⟩, congrArg _ h3⟩

theorem sound_C99c : check_C99_value () = true :=
  forall2_true fun c hc k _ => List.all_eq_true.2 fun n hn => by
    have hn' : n ≤ 300 := by
      simp only [List.mem_cons, List.not_mem_nil, or_false] at hn
      omega
    obtain ⟨h, e, h1, h2, h3, h4, h5, h6⟩ := C99_value (valid hc) k.1 k.2 (msg n)
      (by rw [msg_length, mod64 hc]; omega)
    simp only [h1, h2, h5, Bool.and_eq_true, decide_eq_true_eq]
    exact ⟨⟨⟨congrArg _ h3, h4⟩, trivial⟩, h6⟩

theorem sound_C99d : check_C99_order () = true :=
  forall2_true fun c _ x _ => List.all_eq_true.2 fun y _ => by
    obtain ⟨h1, h2, s, h3, h4⟩ := C99_order c ⟨.error .fuel⟩ x y
    refine Bool.and_eq_true_iff.2 ⟨Bool.and_eq_true_iff.2 ⟨?_, decide_eq_true h2⟩, ?_⟩
    · rw [beq_iff_eq, Bool.eq_iff_iff, decide_eq_true_iff]
      exact h1
    · rw [h3]
      exact decide_eq_true h4

theorem textSiphashChecks_true : ∀ x ∈ textSiphashChecks, x.2 () = true := by
  unfold textSiphashChecks
  simp only [List.forall_mem_cons, List.not_mem_nil, false_implies, implies_true, and_true]
  exact ⟨sound_C99a, sound_C99b, sound_C99c, sound_C99d⟩

end Chf.Check
