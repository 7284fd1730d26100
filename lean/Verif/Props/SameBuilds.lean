import Verif.Proofs.SameBuilds
import Verif.Props.Unwind
import Verif.Props.Programs

/-!
# Properties C14, C15, continued: programs over any number of engines
-/

namespace Chf.Props
open Spec

theorem sameArith_typed {c c' : Cfg} (u : SameArith c c') {x : Call} (h : x.Typed c) : x.Typed c' := by
  have le : ∀ {n}, n < c.usizeMod → n < c'.usizeMod := by
    intro n hn; simp only [Cfg.usizeMod] at *; rw [← u.bits]; exact hn
  cases x with
  | make a how =>
    refine ⟨Alg.Ok.same u.bits a h.1, ?_⟩
    cases how with
    | hmacKey k => exact le h.2
    | resume v n => exact le h.2
    | _ => trivial
  | input i d => exact le h
  | _ => trivial

/-- C15 for programs over any number of engines, whether they stop using an engine when `input` panics
or catch the panic and go on: two builds with the same `usize` and the same overflow checks give the
same answers, whatever their debug assertions, features, CPU and endianness. -/
theorem C15_pools {c c' : Cfg} (hb : c.usizeBits = c'.usizeBits)
    (ho : c.overflowChecks = c'.overflowChecks) (hc : c.Valid) (calls : List Call)
    (ht : ∀ x ∈ calls, x.Typed c) :
    (Impl.crate c).answers [] calls = (Impl.crate c').answers [] calls ∧
    (CatchImpl.crate c).answers [] calls = (CatchImpl.crate c').answers [] calls := by
  have u : SameArith c c' := ⟨hb, ho⟩
  have hc' : c'.Valid := by unfold Cfg.Valid at *; rwa [← hb]
  have ht' : ∀ x ∈ calls, x.Typed c' := fun x hx => sameArith_typed u (ht x hx)
  rw [C37_programs hc calls ht, C37_programs hc' calls ht', C62_programs hc calls ht,
    C62_programs hc' calls ht']
  exact ⟨answers_builds u calls PoolSame.nil ht, catch_answers_builds u calls PoolSame.nil ht⟩

/-- C14 for programs over any number of engines. -/
theorem C14_pools {c : Cfg} (hc : c.Valid) (calls : List Call) (ht : ∀ x ∈ calls, x.Typed c) :
    (CatchImpl.crate { c with shaNi := true }).answers [] calls =
      (CatchImpl.crate { c with shaNi := false }).answers [] calls :=
  (C15_pools (c := { c with shaNi := true }) (c' := { c with shaNi := false }) rfl rfl hc calls
    fun _ hx => sameArith_typed (c := c) (c' := { c with shaNi := true }) ⟨rfl, rfl⟩ (ht _ hx)).2

/-- A program with two engines that catches a panic, on a 16-bit target. -/
def twoEngines : List Call :=
  [.make .sha256 (.resume (.bytes (List.replicate 32 1)) (2 ^ 16 - 128)), .clone 0,
   .input 0 (List.replicate 130 0), .input 1 [7], .midstate 0, .count 0, .finalize 1]

set_option maxRecDepth 10000 in
/-- The builds differ in everything but the arithmetic, and the program panics, goes on, and gets a
digest. -/
example :
    let c : Cfg := { Cfg.debug64 with usizeBits := 16 }
    let c' : Cfg := { c with shaNi := !c.shaNi, smallHash := !c.smallHash, bigEndian := !c.bigEndian,
                             debugAssertions := !c.debugAssertions }
    c.usizeBits = c'.usizeBits ∧ c.overflowChecks = c'.overflowChecks ∧ c.Valid ∧ c ≠ c' ∧
    ((CatchImpl.crate c).answers [] twoEngines)[2]? = some (.panic .overflow) ∧
    ((CatchImpl.crate c).answers [] twoEngines)[5]? = some (.count (2 ^ 16 - 64)) ∧
    (match ((CatchImpl.crate c).answers [] twoEngines)[6]? with
      | some (Answer.digest d) => d.length == 32
      | _ => false) = true := by
  refine ⟨rfl, rfl, by decide, by decide, by decide +kernel, by decide +kernel, by decide +kernel⟩

example : ∀ x ∈ twoEngines, x.Typed { Cfg.debug64 with usizeBits := 16 } := by
  intro x hx
  simp only [twoEngines, List.mem_cons, List.not_mem_nil, or_false] at hx
  rcases hx with rfl | rfl | rfl | rfl | rfl | rfl | rfl
  · exact ⟨trivial, by show _ < _; decide⟩
  · trivial
  · show _ < _; rw [List.length_replicate]; decide
  · show _ < _; decide
  · trivial
  · trivial
  · trivial

end Chf.Props
