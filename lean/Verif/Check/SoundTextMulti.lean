import Verif.Check.SoundText
import Verif.Check.TextMulti
import Verif.Props.TextMulti

/-!
# The instances of C107 follow from the theorems
-/

namespace Chf.Check
open Chf Spec Props

theorem two107 {c : Cfg} (hc : c ∈ [Cfg.debug64, .release64]) : c ∈ cfgs := by
  simp only [List.mem_cons, List.not_mem_nil, or_false] at hc
  rcases hc with rfl | rfl <;> decide

theorem blocks107_ok {a : Alg} (h : a ∈ blocks107) : hasBlocks a = true := by
  simp only [blocks107, List.mem_cons, List.not_mem_nil, or_false] at h
  rcases h with rfl | rfl | rfl | rfl | rfl | rfl <;> rfl

theorem after107_small {c : Cfg} (hc : c ∈ [Cfg.debug64, .release64]) {ds : List (List Byte)}
    (h : ds ∈ after107) : ∀ d ∈ ds, d.length < 2 ^ c.usizeBits := by
  have : ∀ ds ∈ after107, ∀ d ∈ ds, d.length < 2 ^ 64 := by decide +kernel
  rw [show 2 ^ c.usizeBits = 2 ^ 64 from mod64 (two107 hc)]
  exact this ds h

theorem places107_small {c : Cfg} (hc : c ∈ [Cfg.debug64, .release64]) {ps : List (List Byte × List Byte)}
    (h : ps ∈ places107) : (ps.map fun p => p.1.length).sum < 2 ^ c.usizeBits := by
  have : ∀ ps ∈ places107, (ps.map fun p => p.1.length).sum < 2 ^ 64 := by decide +kernel
  rw [show 2 ^ c.usizeBits = 2 ^ 64 from mod64 (two107 hc)]
  exact this ps h

theorem sound_C107a : check_C107_multi () = true :=
  forall2_true fun c hc a ha => forall2_true fun ps hp ds hd => by
    by_cases h : CollideInTurn c a [] ps
    · rw [decide_eq_true h, Bool.not_true, Bool.false_or]
      refine List.all_eq_true.2 fun m hm => List.all_eq_true.2 fun m' hm' => decide_eq_true ?_
      obtain ⟨h1, h2⟩ := C107_multi (valid (two107 hc)) a (blocks107_ok ha) ps h (places107_small hc hp) m hm m' hm'
      exact ⟨h1, h2 ds (after107_small hc hd)⟩
    · rw [decide_eq_false h, Bool.not_false, Bool.true_or]

theorem sound_C107b : check_C107_sha1 () = true :=
  forall2_true fun c hc ds hd =>
    List.all_eq_true.2 fun m hm => List.all_eq_true.2 fun m' hm' => decide_eq_true <|
      C107_sha1 (valid (two107 hc)) [(msg 64, msg 64)] ⟨rfl, by decide +kernel, rfl, trivial⟩
        (by rw [show 2 ^ c.usizeBits = 2 ^ 64 from mod64 (two107 hc)]; decide +kernel) m hm m' hm' ds
        (after107_small hc hd)

end Chf.Check
