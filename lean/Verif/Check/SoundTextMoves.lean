import Verif.Check.TextMoves
import Verif.Check.SoundTextPermute
import Verif.Props.TextMoves

/-!
# The instances of C109 follow from the theorems
-/

namespace Chf.Check
open Chf Spec Props Chf.Rs

theorem starts109_alg : ∀ x ∈ starts109, x.1 = .sha1 ∨ x.1 = .sha256 := by
  intro x hx
  simp only [starts109, fix94, List.map_cons, List.map_nil, List.cons_append, List.nil_append, List.mem_cons,
    List.not_mem_nil, or_false] at hx
  rcases hx with rfl | rfl | rfl | rfl | rfl | rfl <;> simp

theorem counts109_ok : ∀ n ∈ counts109, 64 ∣ n.1 ∧ 64 ∣ n.2 ∧ n.1 ≤ 640 ∧ n.2 ≤ 65024 := by decide

theorem cuts109_ok : ∀ d ∈ cuts109, d.1.flatten = d.2.flatten ∧ d.1.flatten.length ≤ 200 := by decide +kernel

theorem parts109_ok : ∀ d ∈ parts109, 64 ∣ d.1.flatten.length ∧ (d.1 ++ d.2).flatten.length ≤ 300 ∧
    d.1.flatten.length ≤ 200 ∧ d.2.flatten.length ≤ 200 := by decide +kernel

theorem copies109_ok : ∀ k ∈ copies109, k.2.flatten = (List.replicate k.1 count94).flatten ∧
    k.2.flatten.length ≤ 200 := by decide +kernel

theorem fix109_alg : ∀ x ∈ fix94, x.1 = .sha1 ∨ x.1 = .sha256 := by
  intro x hx
  simp only [fix94, List.mem_cons, List.not_mem_nil, or_false] at hx
  rcases hx with rfl | rfl <;> simp

theorem sound_C109a : check_C109_anywhere () = true :=
  forall2_true fun c hc x hx => forall2_true fun d hd n hn => decide_eq_true <| by
    obtain ⟨hv, hM⟩ := valid94 hc
    obtain ⟨h1, h2, h3, h4⟩ := counts109_ok n hn
    obtain ⟨h5, h6⟩ := cuts109_ok d hd
    exact C109_anywhere hv (starts109_alg x hx) _ _ _ _ _ h1 h2 h5 (by omega) (by omega)

theorem sound_C109b : check_C109_compose () = true :=
  forall2_true fun c hc x hx => forall2_true fun d hd n hn => by
    obtain ⟨hv, hM⟩ := valid94 hc
    obtain ⟨h1, h2, h3, h4⟩ := counts109_ok n hn
    obtain ⟨h5, h6, h7, h8⟩ := parts109_ok d hd
    split
    · next w h =>
      exact decide_eq_true (C109_compose hv (starts109_alg x hx) _ _ _ _ _ _ h1 h2 h5 (by omega) (by omega) h)
    · rfl

theorem sound_C109c : check_C109_repeat () = true :=
  forall2_true fun c hc x hx => forall2_true fun k hk n hn => by
    obtain ⟨hv, hM⟩ := valid94 hc
    obtain ⟨h1, h2, h3, h4⟩ := counts109_ok n hn
    obtain ⟨h5, h6⟩ := copies109_ok k hk
    have hb : count94.length = 64 := by decide
    rw [Bool.or_eq_true, Bool.not_eq_true', decide_eq_false_iff_not, decide_eq_true_eq]
    refine (Decidable.em _).symm.imp_right fun h => ?_
    exact C109_repeat hv (fix109_alg x hx) _ n.1 _ k.1 count94 _ h1 h2 ⟨1, hb⟩ h5 (by omega) (by omega) h

theorem sound_C109d : check_C109_resume () = true :=
  forall2_true fun c hc x hx => forall2_true fun d hd n hn => by
    obtain ⟨hv, hM⟩ := valid94 hc
    obtain ⟨h1, h2, h3, h4⟩ := counts109_ok n hn
    obtain ⟨h5, h6, h7, h8⟩ := parts109_ok d hd
    split
    · next w h =>
      obtain ⟨e, e1, e', g1, g2, g3, g4⟩ :=
        C109_resume hv (starts109_alg x hx) _ w n.1 d.1 h1 h5 (by omega) h
      rw [g1, g3]
      dsimp only
      rw [g2]
      refine List.all_eq_true.2 fun more hm => decide_eq_true (congrArg _ (g4 more fun y hy => ?_))
      have : ∀ more ∈ [[], [msg 5], [msg 60, msg 70]], ∀ y ∈ more, y.length ≤ 70 := by decide +kernel
      have := this more hm y hy
      omega
    · rfl

end Chf.Check
