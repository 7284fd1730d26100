import Verif.Check.SoundTextTypes
import Verif.Check.TextErrors
import Verif.Props.TextErrors

/-!
# The instances of C108 follow from the theorems
-/

namespace Chf.Check
open Chf Spec Props Source

theorem sound_C108a : check_C108_message () = true :=
  List.all_eq_true.2 fun e _ => by
    obtain ⟨g, x, hg, hx, h⟩ := C108_message .debug64 e ⟨false⟩
    have h' := h
    simp only [List.append_assoc] at h'
    have hl := congrArg List.length h'
    simp only [List.length_append] at hl
    refine List.any_eq_true.2 ⟨g.length, List.mem_range.2 (by omega),
      List.any_eq_true.2 ⟨x.length, List.mem_range.2 (by omega), ?_⟩⟩
    have e1 : ((Lib.FromSliceError.Display.fmt .debug64 e ⟨false⟩).drop (ascii "invalid slice length ").length).take
        g.length = g := by
      rw [h', List.drop_left' rfl, List.take_left' rfl]
    have e2 : ((Lib.FromSliceError.Display.fmt .debug64 e ⟨false⟩).drop ((ascii "invalid slice length ").length +
        g.length + (ascii " (expected ").length)).take x.length = x := by
      rw [h', ← List.append_assoc, ← List.append_assoc, List.drop_left' (by simp only [List.length_append]),
        List.take_left' rfl]
    dsimp only
    rw [e1, e2]
    exact decide_eq_true ⟨hg, hx, h⟩

theorem sound_C108b : check_C108_readable () = true :=
  forall2_true fun e _ e' _ => decide_eq_true <| by
    rw [C108_readable]
    exact ⟨fun h => h ▸ ⟨rfl, rfl⟩, fun ⟨h1, h2⟩ => by cases e; cases e'; dsimp only at h1 h2; rw [h1, h2]⟩

theorem sound_C108c : check_C108_rejected () = true :=
  List.all_eq_true.2 fun x hx => List.all_eq_true.2 fun n _ => by
    have hl := types_len x hx
    have hm : (msg n).length = n := msg_length n
    rcases C108_rejected .debug64 ⟨.error .ub⟩ x.1 (msg n) with ⟨h, h1, h2⟩ | ⟨e, h1, h2, h3, h4⟩
    · rw [show (ty x.1).fromSlice (msg n) = .ok (.ok h) from h1]
      exact decide_eq_true (by rw [← hm, h2, hl])
    · rw [show (ty x.1).fromSlice (msg n) = .ok (.error e) from h1]
      rw [hm, hl] at h4
      exact decide_eq_true ⟨h2.trans hm, h3.trans hl, h4⟩

theorem sound_C108d : check_C108_told_apart () = true :=
  forall2_true fun x hx y hy => forall2_true fun n _ n' _ => by
    split
    · next e e' h h' =>
      have := C108_told_apart .debug64 ⟨.error .ub⟩ ⟨.error .ub⟩ x.1 y.1 (msg n) (msg n') h h' ⟨false⟩ ⟨false⟩
      rw [msg_length, msg_length, types_len x hx, types_len y hy] at this
      exact decide_eq_true this
    · rfl

end Chf.Check
