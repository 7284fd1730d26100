import Verif.Props.Text
import Verif.Props.Safety
import Verif.Props.Overflow
import Verif.Props.Portable
import Verif.Props.SameBuilds
import Verif.Props.Shape

/-!
# C80 and C81: panics and builds of the translated text
-/

namespace Chf.Props
open Chf Chf.Rs Chf.Spec

/-! ## C80 -/

/-- C80: whatever a program does with any number of engines of the translated text, a call fails only
in one of the ways of `mayPanic`. So no slice index or slice length of the text is ever wrong, no
debug assertion of it fails, no value that it unwraps is missing outside `from_midstate`, and no loop
of it fails to end. -/
theorem C80_panics {c : Cfg} (hc : c.Valid) (calls : List Call) (ht : ∀ x ∈ calls, x.Typed c) (i : Nat)
    {f : Fault} (h : ((Source.text c).answers [] calls)[i]? = some (.panic f)) :
    ∃ x, calls[i]? = some x ∧ mayPanic c x f := by
  rw [C68_programs hc calls ht] at h
  exact answers_panic calls _ i h

set_option maxRecDepth 10000 in
example : (Source.text .debug64).answers [] panicking = [.panic .assertion, .done, .done, .panic .overflow] ∧
    (Source.text .release64).answers [] panicking = [.panic .assertion, .done, .done, .done] := by
  decide +kernel

/-- C80: so a program over the translated text that does not call `from_midstate` never panics in a
build without overflow checks. -/
theorem C80_release {c : Cfg} (hc : c.Valid) (ho : c.overflowChecks = false) (calls : List Call)
    (ht : ∀ x ∈ calls, x.Typed c) (hr : ∀ a μ n, .make a (.resume μ n) ∉ calls) (f : Fault) :
    .panic f ∉ (Source.text c).answers [] calls := by
  rw [C68_programs hc calls ht, ← C37_programs hc calls ht]
  exact C59_release hc ho calls ht hr f

example : Cfg.release64.Valid ∧ Cfg.release64.overflowChecks = false ∧
    (∀ x ∈ [Call.make .ripemd160 .new, .input 0 [1], .finalize 0], x.Typed .release64) ∧
    (∀ a v n, Call.make a (.resume v n) ∉ [Call.make .ripemd160 .new, .input 0 [1], .finalize 0]) := by
  refine ⟨by decide, rfl, ?_, ?_⟩
  · intro x hx
    simp only [List.mem_cons, List.not_mem_nil, or_false] at hx
    rcases hx with rfl | rfl | rfl
    · exact ⟨trivial, trivial⟩
    · show 1 < _; decide
    · trivial
  · intro a v n h
    simp at h

/-! ## C81 -/

/-- C81: the features, the CPU, the endianness and the debug assertions of a build change no answer of
the translated text. -/
theorem C81_builds {c c' : Cfg} (hb : c.usizeBits = c'.usizeBits)
    (ho : c.overflowChecks = c'.overflowChecks) (hc : c.Valid) (calls : List Call)
    (ht : ∀ x ∈ calls, x.Typed c) :
    (Source.text c).answers [] calls = (Source.text c').answers [] calls := by
  have hc' : c'.Valid := by unfold Cfg.Valid at *; rwa [← hb]
  have ht' : ∀ x ∈ calls, x.Typed c' := fun x hx => typed_same hb (ht x hx)
  rw [C68_model hc calls fun x hx => callFits_of_typed x (ht x hx),
    C68_model hc' calls fun x hx => callFits_of_typed x (ht' x hx)]
  exact (C15_pools hb ho hc calls ht).1

/-- C81: a program that no overflow check stops gets the same answers, panics included, from the
translated text in a build without overflow checks. -/
theorem C81_overflow_checks {c c' : Cfg} (hc : c.Valid) (hb : c.usizeBits = c'.usizeBits)
    (ho : c'.overflowChecks = false) (calls : List Call) (ht : ∀ x ∈ calls, x.Typed c)
    (hp : .panic .overflow ∉ (Source.text c).answers [] calls) :
    (Source.text c').answers [] calls = (Source.text c).answers [] calls := by
  have hc' : c'.Valid := by unfold Cfg.Valid at *; rwa [← hb]
  have ht' : ∀ x ∈ calls, x.Typed c' := fun x hx => typed_same hb (ht x hx)
  rw [C68_model hc calls fun x hx => callFits_of_typed x (ht x hx)] at hp ⊢
  rw [C68_model hc' calls fun x hx => callFits_of_typed x (ht' x hx)]
  exact C50_overflow_checks hc hb ho calls ht hp

/-- C81: and the same on every target whose `usize` is at least as wide. -/
theorem C81_portable {c c' : Cfg} (hc : c.Valid) (hc' : c'.Valid) (ho : c.overflowChecks = true)
    (hb : c.usizeBits ≤ c'.usizeBits) (calls : List Call) (ht : ∀ x ∈ calls, x.Typed c)
    (hp : .panic .overflow ∉ (Source.text c).answers [] calls) :
    (Source.text c').answers [] calls = (Source.text c).answers [] calls := by
  have ht' : ∀ x ∈ calls, x.Typed c' := fun x hx => (ht x hx).wide hb
  rw [C68_model hc calls fun x hx => callFits_of_typed x (ht x hx)] at hp ⊢
  rw [C68_model hc' calls fun x hx => callFits_of_typed x (ht' x hx)]
  exact C60_portable hc hc' ho hb calls ht hp

set_option maxRecDepth 10000 in
/-- The programs of C50 and C60 satisfy the hypotheses. -/
example : (∀ x ∈ demoResume, x.Typed .debug64) ∧ (∀ x ∈ demoSmall, x.Typed debug16) ∧
    .panic .overflow ∉ (Source.text .debug64).answers [] demoResume ∧
    .panic .assertion ∈ (Source.text .debug64).answers [] demoResume ∧
    .panic .overflow ∉ (Source.text debug16).answers [] demoSmall ∧
    .panic .expect ∈ (Source.text debug16).answers [] demoSmall :=
  ⟨demoResume_typed, demoSmall_typed, by decide +kernel, by decide +kernel, by decide +kernel, by decide +kernel⟩

theorem callFits_blank {c : Cfg} (x : Call) : Source.CallFits c x.blank ↔ Source.CallFits c x := by
  cases x with
  | make a how =>
    cases how with
    | hmacKey key =>
      show _ ∧ (blankBytes key).length < _ ↔ _ ∧ key.length < _
      rw [blankBytes, List.length_replicate]
    | _ => exact Iff.rfl
  | input i d =>
    show (blankBytes d).length < _ ↔ d.length < _
    rw [blankBytes, List.length_replicate]
  | _ => exact Iff.rfl

/-- C81: two programs that make the same calls with data and keys of the same lengths, whatever the
bytes are, panic in the same places and for the same reason over the translated text, count the same
bytes and get midstates and digests of the same lengths. -/
theorem C81_lengths_decide {c : Cfg} (hc : c.Valid) (calls calls' : List Call)
    (ht : ∀ x ∈ calls, Source.CallFits c x) (h : calls.map Call.blank = calls'.map Call.blank) :
    ((Source.text c).answers [] calls).map Answer.blank =
      ((Source.text c).answers [] calls').map Answer.blank := by
  have ht' : ∀ x ∈ calls', Source.CallFits c x := by
    intro x hx
    have hm : x.blank ∈ calls.map Call.blank := by rw [h]; exact List.mem_map_of_mem hx
    obtain ⟨y, hy, e⟩ := List.mem_map.1 hm
    rw [← callFits_blank, ← e, callFits_blank]
    exact ht y hy
  rw [C68_model hc calls ht, C68_model hc calls' ht']
  exact C55_lengths_decide c calls calls' h

set_option maxRecDepth 10000 in
example : shapeA.map Call.blank = shapeB.map Call.blank ∧
    (Source.text .release32).answers [] shapeA ≠ (Source.text .release32).answers [] shapeB := by
  exact ⟨rfl, by decide +kernel⟩

end Chf.Props
