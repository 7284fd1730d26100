import Verif.Proofs.Overflow
import Verif.Props.Programs

/-!
# Property C50: overflow checks only add panics
-/

namespace Chf.Props
open Spec

theorem typed_same {c c' : Cfg} (h : c.usizeBits = c'.usizeBits) {x : Call} (hx : x.Typed c) :
    x.Typed c' := by
  cases x with
  | make a how =>
    refine ⟨Alg.Ok.same h a hx.1, ?_⟩
    cases how with
    | hmacKey key => have : key.length < _ := hx.2; simp only [Make.Typed, Cfg.usizeMod] at *; rwa [← h]
    | resume v n => have : n < _ := hx.2; simp only [Make.Typed, Cfg.usizeMod] at *; rwa [← h]
    | _ => trivial
  | input i d => have : d.length < _ := hx; simp only [Call.Typed, Cfg.usizeMod] at *; rwa [← h]
  | _ => trivial

/-- C50: a program that no overflow check stops gets the same answers, panics included, from a build
without overflow checks, whatever the other differences between the builds. -/
theorem C50_overflow_checks {c c' : Cfg} (hc : c.Valid) (hb : c.usizeBits = c'.usizeBits)
    (ho : c'.overflowChecks = false) (calls : List Call) (ht : ∀ x ∈ calls, x.Typed c)
    (hp : .panic .overflow ∉ (Impl.crate c).answers [] calls) :
    (Impl.crate c').answers [] calls = (Impl.crate c).answers [] calls := by
  have hc' : c'.Valid := by unfold Cfg.Valid at *; rwa [← hb]
  rw [C37_programs hc calls ht] at hp ⊢
  rw [C37_programs hc' calls fun x hx => typed_same hb (ht x hx)]
  exact (answers_le ⟨hb, ho⟩ calls PoolLe.nil ht hp).symm

/-- A program that no overflow check stops, though one call of it panics. -/
def demoResume : List Call :=
  [.make .sha1 (.resume (.bytes (List.replicate 20 7)) 64), .count 0, .input 0 [1, 2], .count 0,
   .make .sha1 (.resume (.bytes (List.replicate 20 7)) 65), .finalize 0]

theorem demoResume_typed : ∀ x ∈ demoResume, x.Typed .debug64 := by
  intro x hx
  simp only [demoResume, List.mem_cons, List.not_mem_nil, or_false] at hx
  rcases hx with rfl | rfl | rfl | rfl | rfl | rfl
  all_goals first
    | exact trivial
    | (show _ < _; decide)
    | exact ⟨trivial, by show _ < _; decide⟩

set_option maxRecDepth 10000 in
example : Cfg.debug64.Valid ∧ Cfg.debug64.usizeBits = Cfg.release64.usizeBits ∧
    Cfg.release64.overflowChecks = false ∧ (∀ x ∈ demoResume, x.Typed .debug64) ∧
    .panic .overflow ∉ (Impl.crate .debug64).answers [] demoResume ∧
    (Impl.crate .debug64).answers [] demoResume =
      [.done, .count 64, .done, .count 66, .panic .assertion,
       ((Impl.crate .debug64).answers [] demoResume).getD 5 .done] :=
  ⟨by decide, rfl, rfl, demoResume_typed, by decide +kernel, by decide +kernel⟩

/-- C50: without overflow checks no call other than `from_midstate` ever panics, in any program. -/
theorem C50_unchecked {c : Cfg} (hc : c.Valid) (ho : c.overflowChecks = false) (calls : List Call)
    (ht : ∀ x ∈ calls, x.Typed c)
    (hr : ∀ a v n, .make a (.resume v n) ∉ calls) (f : Fault) :
    .panic f ∉ (Impl.crate c).answers [] calls := by
  rw [C37_programs hc calls ht]
  generalize ([] : (logs c).Pool) = p
  induction calls generalizing p with
  | nil => simp [Impl.answers]
  | cons x xs ih =>
    rw [Impl.answers, List.mem_cons, not_or]
    refine ⟨fun h => ?_, ih (fun y hy => ht y (by simp [hy])) (fun a v n h => hr a v n (by simp [h])) _⟩
    obtain ⟨a, v, n, rfl⟩ := step_unchecked ⟨rfl, ho⟩ (ht x (by simp)) h.symm
    exact hr a v n (by simp)

example : Cfg.release64.Valid ∧ Cfg.release64.overflowChecks = false ∧
    (∀ x ∈ [Call.make .sha384 .new, .input 0 [1], .finalize 0], x.Typed .release64) ∧
    (∀ a v n, Call.make a (.resume v n) ∉ [Call.make .sha384 .new, .input 0 [1], .finalize 0]) := by
  refine ⟨by decide, rfl, ?_, ?_⟩
  · intro x hx
    simp only [List.mem_cons, List.not_mem_nil, or_false] at hx
    rcases hx with rfl | rfl | rfl
    · exact ⟨trivial, trivial⟩
    · show 1 < _; decide
    · trivial
  · intro a v n h
    simp at h

/-- C50: the hypothesis about `panic .overflow` cannot be dropped: the builds do disagree where a
check fails. -/
theorem C50_differ : ∃ calls : List Call, (∀ x ∈ calls, x.Typed .debug64) ∧
    (Impl.crate .debug64).answers [] calls ≠ (Impl.crate .release64).answers [] calls := by
  refine ⟨[.make .sha1 (.resume (.bytes (List.replicate 20 7)) (2 ^ 64 - 64)),
    .input 0 (List.replicate 64 0)], ?_, by decide +kernel⟩
  intro x hx
  simp only [List.mem_cons, List.not_mem_nil, or_false] at hx
  rcases hx with rfl | rfl
  · exact ⟨trivial, by show _ < _; decide⟩
  · show _ < _; rw [List.length_replicate]; decide

end Chf.Props
