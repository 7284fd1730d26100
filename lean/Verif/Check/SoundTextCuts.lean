import Verif.Check.TextCuts
import Verif.Check.SoundTextMoves
import Verif.Check.SoundTextCopy
import Verif.Props.TextCuts

/-!
# The instances of C114 follow from the theorems
-/

namespace Chf.Check
open Chf Spec Props Chf.Rs

theorem cuts114_ok : ∀ d ∈ cuts114, d.1.flatten = d.2.flatten ∧ (∀ x ∈ d.1, x.length < 65536) ∧
    ∀ x ∈ d.2, x.length < 65536 := by decide +kernel

theorem algs114_ok {c : Cfg} (hc : c.Valid) : ∀ a ∈ algs114, a.Ok c := by
  have hM := usizeMod_ge hc
  have h1 : (Alg.hmac .sha1).Ok c := ⟨trivial, by simp only [Alg.base, Alg.blockSize]; omega⟩
  have h2 : (Alg.hmac .sha512).Ok c := ⟨trivial, by simp only [Alg.base, Alg.blockSize]; omega⟩
  intro a ha
  simp only [algs114, List.mem_cons, List.not_mem_nil, or_false] at ha
  rcases ha with rfl | rfl | rfl | rfl | rfl | rfl | rfl | rfl | rfl <;>
    first | exact trivial | exact h1 | exact h2

theorem sound_C114a : check_C114_cuts () = true :=
  forall2_true fun c hc a ha => forall2_true fun how hh d hd => by
    obtain ⟨hv, -⟩ := valid94 hc
    have hM := usizeMod_ge hv
    obtain ⟨h1, h2, h3⟩ := cuts114_ok d hd
    split
    · next e he =>
      have r : Source.Reach c a e := .made how (by
        simp only [List.mem_cons, List.not_mem_nil, or_false] at hh
        rcases hh with rfl | rfl <;> trivial) he
      exact decide_eq_true (congrArg _ (C114_cuts hv a (algs114_ok hv a ha) r d.1 d.2 h1
        (fun x hx => Nat.lt_of_lt_of_le (h2 x hx) hM) fun x hx => Nat.lt_of_lt_of_le (h3 x hx) hM))
    · rfl

theorem sound_C114b : check_C114_empty () = true :=
  forall2_true fun c hc a ha => List.all_eq_true.2 fun n hn => by
    obtain ⟨hv, -⟩ := valid94 hc
    have hM := usizeMod_ge hv
    have hl : (msg n).length < 65536 := by
      revert n
      decide +kernel
    split
    · next e he =>
      have r : Source.Reach c a e := .made .new trivial he
      split
      · next e' h =>
        have r' := reach_inputs_text' [msg n] r
          (fun x hx => by rw [List.mem_singleton.1 hx]; omega) h
        exact decide_eq_true (by rw [C114_empty hv a (algs114_ok hv a ha) r']; rfl)
      · rfl
    · rfl

theorem sound_C114c : check_C114_copy () = true :=
  forall2_true fun x hx r hr => List.all_eq_true.2 fun w hw => List.all_eq_true.2 fun d hd => by
    obtain ⟨r1, r2⟩ := readings_ok r hr
    obtain ⟨hc, ha⟩ := mem_engines hx
    have hM := mod64 hc
    have hl : d.length < x.1.usizeMod := by
      simp only [List.mem_cons, List.not_mem_nil, or_false] at hd
      rcases hd with rfl | rfl | rfl
      · rw [hM]; decide
      · rw [msg_length, hM]; decide
      · rw [msg_length, hM]; decide
    split
    · next e he =>
      cases h0 : (Source.engineOf x.1 x.2).new with
      | error f => rw [h0] at he; cases he
      | ok e0 =>
        rw [h0] at he
        have reach : Source.Reach x.1 x.2 e := .input d (.made .new trivial (by
          show some _ = _; rw [h0])) hl he
        rw [C114_copy (valid hc) x.2 (algs_ok hc _ ha) (isWriter98 hw) reach r.1 (by rw [r1, hM]; omega),
          r1, copied_ok (readings_err r hr), r1, Nat.mod_eq_of_lt (by omega)]
        cases (Source.engineOf x.1 x.2).input e r.2 with
        | error f => exact decide_eq_true rfl
        | ok e' => exact Bool.and_eq_true_iff.2 ⟨decide_eq_true rfl, decide_eq_true rfl⟩
    · rfl

end Chf.Check
