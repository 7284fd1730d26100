import Verif.Proofs.Portable
import Verif.Props.Programs

/-!
# Property C60: results do not depend on the target
-/

namespace Chf.Props
open Spec

/-- C60: a program over any number of engines that no overflow check stops on one target gets the same
answers, panics included, on every target whose `usize` is at least as wide, whatever the profile,
features, CPU and endianness of either build. -/
theorem C60_portable {c c' : Cfg} (hc : c.Valid) (hc' : c'.Valid) (ho : c.overflowChecks = true)
    (hb : c.usizeBits ≤ c'.usizeBits) (calls : List Call) (ht : ∀ x ∈ calls, x.Typed c)
    (hp : .panic .overflow ∉ (Impl.crate c).answers [] calls) :
    (Impl.crate c').answers [] calls = (Impl.crate c).answers [] calls := by
  rw [C37_programs hc calls ht] at hp ⊢
  rw [C37_programs hc' calls fun x hx => (ht x hx).wide hb]
  exact (answers_wide ⟨ho, hb⟩ hc calls PoolWide.nil ht hp).symm

/-- A 16-bit build with overflow checks. -/
def debug16 : Cfg := { Cfg.debug64 with usizeBits := 16, bigEndian := true }

/-- A program with a tagged engine that stands for 65344 bytes already, and one with an HMAC key. -/
def demoSmall : List Call :=
  [.make (.sha256t (List.replicate 32 7) 65344 [1]) .new, .count 0, .input 0 (List.replicate 60 2),
   .midstate 0, .count 0, .finalize 0, .make (.hmac .siphash24) (.hmacKey [1, 2, 3]), .input 1 [4],
   .finalize 1, .make .sha512 (.resume (.bytes (List.replicate 64 0)) 128)]

theorem demoSmall_typed : ∀ x ∈ demoSmall, x.Typed debug16 := by
  intro x hx
  simp only [demoSmall, List.mem_cons, List.not_mem_nil, or_false] at hx
  rcases hx with rfl | rfl | rfl | rfl | rfl | rfl | rfl | rfl | rfl | rfl
  · exact ⟨⟨rfl, by decide, by decide⟩, trivial⟩
  · trivial
  · show _ < _; rw [List.length_replicate]; decide
  · trivial
  · trivial
  · trivial
  · exact ⟨⟨trivial, by decide⟩, by show _ < _; decide⟩
  · show _ < _; decide
  · trivial
  · exact ⟨trivial, by show _ < _; decide⟩

set_option maxRecDepth 10000 in
example : debug16.Valid ∧ debug16.overflowChecks = true ∧ debug16.usizeBits ≤ Cfg.release64.usizeBits ∧
    (∀ x ∈ demoSmall, x.Typed debug16) ∧
    .panic .overflow ∉ (Impl.crate debug16).answers [] demoSmall ∧
    ((Impl.crate debug16).answers [] demoSmall)[4]? = some (.count 65405) ∧
    ((Impl.crate debug16).answers [] demoSmall)[9]? = some (.panic .expect) ∧
    ((Impl.crate debug16).answers [] demoSmall)[8]? ≠ some .rejected :=
  ⟨by decide, rfl, by decide, demoSmall_typed, by decide +kernel, by decide +kernel, by decide +kernel,
   by decide +kernel⟩

/-- C60: neither hypothesis can be dropped.  Without overflow checks on the narrow target the answers
differ, and so they do if the check fails there. -/
theorem C60_needed :
    (∃ calls : List Call, (∀ x ∈ calls, x.Typed { debug16 with overflowChecks := false }) ∧
      .panic .overflow ∉ (Impl.crate { debug16 with overflowChecks := false }).answers [] calls ∧
      (Impl.crate .release64).answers [] calls ≠
        (Impl.crate { debug16 with overflowChecks := false }).answers [] calls) ∧
    ∃ calls : List Call, (∀ x ∈ calls, x.Typed debug16) ∧
      (Impl.crate .release64).answers [] calls ≠ (Impl.crate debug16).answers [] calls := by
  have ht : ∀ c : Cfg, c.usizeBits = 16 → ∀ x ∈ [Call.make .sha1 (.resume (.bytes (List.replicate 20 7))
      (2 ^ 16 - 64)), .input 0 (List.replicate 64 0), .count 0], x.Typed c := by
    intro c hc x hx
    simp only [List.mem_cons, List.not_mem_nil, or_false] at hx
    rcases hx with rfl | rfl | rfl
    · exact ⟨trivial, by show _ < 2 ^ _; rw [hc]; decide⟩
    · show _ < 2 ^ _; rw [List.length_replicate, hc]; decide
    · trivial
  exact ⟨⟨_, ht _ rfl, by decide +kernel, by decide +kernel⟩, _, ht _ rfl, by decide +kernel⟩

end Chf.Props
