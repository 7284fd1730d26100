import Verif.Check.SoundTextTypes
import Verif.Check.TextSorted
import Verif.Props.TextSorted

/-!
# The instances of C104 follow from the theorems
-/

namespace Chf.Check
open Chf Spec Props Chf.Rs

theorem sound_C104a : check_C104_printed () = true :=
  onTextPairs_true fun t a b ha hb => List.all_eq_true.2 fun mk hm => List.all_eq_true.2 fun print hp => by
    have ea : (Source.hashText .debug64 ⟨.error .ub⟩ t).toByteArray (mk a) = a := made hm a
    have eb : (Source.hashText .debug64 ⟨.error .ub⟩ t).toByteArray (mk b) = b := made hm b
    obtain ⟨x, y, h1, h2, h3⟩ := C104_printed .debug64 ⟨.error .ub⟩ t (mk a) (mk b) (by rw [ea, ha])
      (by rw [eb, hb]) print hp
    exact okAnd_true ⟨x, h1, okAnd_true ⟨y, h2, decide_eq_true h3⟩⟩

theorem sound_C104b : check_C104_sorted () = true :=
  onTextPairs_true fun t a b ha hb => List.all_eq_true.2 fun mk hm => List.all_eq_true.2 fun hs hh => by
    have ea : (Source.hashText .debug64 ⟨.error .ub⟩ t).toByteArray (mk a) = a := made hm a
    have eb : (Source.hashText .debug64 ⟨.error .ub⟩ t).toByteArray (mk b) = b := made hm b
    have mem : ∀ h ∈ hs, h = mk a ∨ h = mk b := by
      simp only [List.mem_cons, List.not_mem_nil, or_false] at hh
      rcases hh with rfl | rfl | rfl <;> simp
    obtain ⟨ss, h1, h2⟩ := C104_sorted .debug64 ⟨.error .ub⟩ t hs (fun h hx => by
      rcases mem h hx with rfl | rfl
      · rw [ea, ha]
      · rw [eb, hb])
    exact okAnd_true ⟨ss, h1, decide_eq_true h2⟩

theorem low104_lower {x : Byte} (h : IsLowerDigit x) : IsLowerDigit (low104 x) := by
  have h' : ¬ (65 ≤ x.toNat ∧ x.toNat ≤ 70) := by
    unfold IsLowerDigit at h
    have : '0'.toNat = 48 ∧ '9'.toNat = 57 ∧ 'a'.toNat = 97 ∧ 'f'.toNat = 102 := by decide
    omega
  rw [low104, if_neg h']
  exact h

theorem sound_C104c : check_C104_prefix () = true :=
  onTextPairs_true fun t a b ha hb => List.all_eq_true.2 fun mk hm => List.all_eq_true.2 fun parse hp => by
    have ea : (Source.hashText .debug64 ⟨.error .ub⟩ t).toByteArray (mk a) = a := made hm a
    have eb : (Source.hashText .debug64 ⟨.error .ub⟩ t).toByteArray (mk b) = b := made hm b
    obtain ⟨s, -, -, f, -, -, -, -, -, l, d, -⟩ := C73_format .debug64 ⟨.error .ub⟩ t (mk a) (by rw [ea, ha])
    obtain ⟨s', -, -, f', -⟩ := C73_format .debug64 ⟨.error .ub⟩ t (mk b) (by rw [eb, hb])
    rw [hb]
    refine okAnd_true ⟨s, f, okAnd_true ⟨s', f', List.all_eq_true.2 fun k _ => ?_⟩⟩
    obtain ⟨lo, hi, h1, h2, h3⟩ := C104_prefix .debug64 ⟨.error .ub⟩ t ((s.take k).map low104)
      (fun x hx => by
        obtain ⟨y, hy, rfl⟩ := List.mem_map.1 hx
        exact low104_lower (d y (List.mem_of_mem_take hy)))
      (by rw [List.length_map, List.length_take]; omega) parse hp
    obtain ⟨s'', h4, h5⟩ := h3 (mk b) (by rw [eb, hb])
    rw [f'] at h4
    cases h4
    exact okOk_true ⟨lo, h1, okOk_true ⟨hi, h2, decide_eq_true h5⟩⟩

end Chf.Check
