import Verif.Proofs.Programs

/-!
# Property C37: engine histories behave like message logs
-/

namespace Chf.Props
open Spec

/-- C37: every program over any number of engines of any types gets the same answers from the crate
as from logs: the same panics, counts, midstates and digests, in the same places. -/
theorem C37_programs {c : Cfg} (hc : c.Valid) (calls : List Call) (ht : ∀ x ∈ calls, x.Typed c) :
    (Impl.crate c).answers [] calls = (logs c).answers [] calls :=
  answers_same hc calls PoolRel.nil ht

/-- A program that interleaves three engines, one of them a clone of another. -/
def demo : List Call :=
  [.make .sha256 .new, .input 0 [0x61], .clone 0, .make (.hmac .sha1) (.hmacKey [1, 2]),
   .input 0 [0x62, 0x63], .count 0, .count 1, .input 2 [7], .count 2, .finalize 0, .count 0,
   .make .siphash24 (.resume (.sip ⟨1, 2, 3, 4⟩) 8), .count 3, .input 9 [1]]

set_option maxRecDepth 10000 in
example : Cfg.debug64.Valid ∧ (∀ x ∈ demo, x.Typed .debug64) ∧
    (Impl.crate .debug64).answers [] demo =
      [.done, .done, .done, .done, .done, .count 3, .count 1, .done, .count 65,
       .digest [0xba, 0x78, 0x16, 0xbf, 0x8f, 0x01, 0xcf, 0xea, 0x41, 0x41, 0x40, 0xde, 0x5d, 0xae,
         0x22, 0x23, 0xb0, 0x03, 0x61, 0xa3, 0x96, 0x17, 0x7a, 0x9c, 0xb4, 0x10, 0xff, 0x61, 0xf2,
         0x00, 0x15, 0xad],
       .rejected, .done, .count 0, .rejected] := by
  refine ⟨by decide, ?_, by decide +kernel⟩
  intro x hx
  simp only [demo, List.mem_cons, List.not_mem_nil, or_false] at hx
  rcases hx with rfl | rfl | rfl | rfl | rfl | rfl | rfl | rfl | rfl | rfl | rfl | rfl | rfl | rfl
  all_goals first
    | exact trivial
    | exact ⟨trivial, trivial⟩
    | (show _ < _; decide)
    | exact ⟨trivial, by show _ < _; decide⟩
    | exact ⟨⟨trivial, by decide⟩, by show _ < _; decide⟩

/-- C37: `n_bytes_hashed`, `midstate` and `clone` do not disturb the engines of a program. -/
theorem C37_observers {c : Cfg} (p : (Impl.crate c).Pool) (x : Call)
    (hx : (∃ i, x = .count i) ∨ (∃ i, x = .midstate i) ∨ ∃ i, x = .clone i) :
    ∀ i, i < p.length → ((Impl.crate c).step p x).1[i]? = p[i]? := by
  intro i hi
  rcases hx with ⟨j, rfl⟩ | ⟨j, rfl⟩ | ⟨j, rfl⟩ <;> simp only [Impl.step]
  · split <;> rfl
  · split
    · rfl
    · split <;> rfl
  · split
    · rfl
    · exact List.getElem?_append_left hi

/-- C37: a call disturbs no engine but the one it names. -/
theorem C37_independent {c : Cfg} (p : (Impl.crate c).Pool) (i j : Nat) (d : List Byte) (h : i ≠ j) :
    ((Impl.crate c).step p (.input i d)).1[j]? = p[j]? ∧
    ((Impl.crate c).step p (.finalize i)).1[j]? = p[j]? := by
  simp only [Impl.step]
  constructor <;> split
  · rfl
  · split <;> exact List.getElem?_set_ne h
  · rfl
  · split <;> exact List.getElem?_set_ne h

example : (Impl.crate .debug64).slot [some ⟨.sha256, Sha256.Engine.default⟩, none] 0 ≠ none := by
  intro h; cases h

end Chf.Props
