import Verif.Check.SoundTextHash
import Verif.Check.SoundWork
import Verif.Check.TextCopy
import Verif.Props.TextCopy

/-!
# The instances of C98 follow from the theorems
-/

namespace Chf.Check
open Chf Spec Props Chf.Rs

attribute [local irreducible] msg

theorem isWriter98 {c : Cfg} {a : Alg} {w} (h : w ∈ writers98 c a) : IsWriter c a w := by
  cases a with
  | hmac b =>
    rcases List.mem_append.1 h with h | h
    · exact .inl (Option.mem_toList.1 h)
    · exact .inr ⟨b, rfl, List.mem_singleton.1 h⟩
  | _ => exact .inl (Option.mem_toList.1 h)

/-- The lengths that C98 asks for. -/
theorem fits98 {x : Cfg × Alg} (hx : x ∈ engines) {n : Nat} (hn : n < 1000) :
    x.1.Valid ∧ x.2.Ok x.1 ∧ 8 * (x.2.base + n + x.2.slack) < 2 ^ 64 ∧
      x.2.base + n + x.2.slack + 144 < 2 ^ x.1.usizeBits := by
  obtain ⟨hc, ha⟩ := mem_engines hx
  have := bounds ha
  refine ⟨valid hc, algs_ok hc x.2 ha, by omega, ?_⟩
  rw [cfg64 x.1 hc]; omega

theorem sound_C98a : check_C98_printed () = true :=
  forall2_true fun x hx r hr => List.all_eq_true.2 fun w hw => by
    obtain ⟨r1, r2⟩ := readings_ok r hr
    obtain ⟨h1, h2, h3, h4⟩ := fits98 hx r2
    obtain ⟨s, p1, p2, p3, p4⟩ := C98_printed h1 x.2 h2 (isWriter98 hw) r.1 (readings_err r hr)
      (by rw [r1]; exact h3) (by rw [r1]; exact h4)
    rw [r1] at p1 p2 p4
    rw [p1]
    exact decide_eq_true ⟨rfl, p2, p3, p4⟩

theorem sound_C98b : check_C98_check () = true :=
  forall2_true fun x hx r hr => List.all_eq_true.2 fun w hw => forall2_true fun s _ parse hp => by
    obtain ⟨r1, r2⟩ := readings_ok r hr
    obtain ⟨h1, h2, h3, h4⟩ := fits98 hx r2
    have h := C98_check h1 x.2 h2 (isWriter98 hw) r.1 (by rw [r1]; exact h3) (by rw [r1]; exact h4) parse hp s
    rw [r1] at h
    rw [beq_iff_eq, Bool.eq_iff_iff, decide_eq_true_iff, agrees_iff, ← h]
    constructor
    · rintro ⟨v, w', q1, q2, q3⟩
      cases hv : Source.hashReader x.1 x.2 w r.1 with
      | error f => rw [hv] at q1; cases q1
      | ok y =>
        rw [hv] at q1
        cases q1
        exact ⟨y.1, y.2, w', rfl, q2, q3⟩
    · rintro ⟨n, v, w', q1, q2, q3⟩
      exact ⟨v, w', by rw [q1]; rfl, q2, q3⟩

theorem failures_ok : ∀ r ∈ failures, (∀ y ∈ r.1, goesOn y = true) ∧ r.2.1 ≠ .interrupted ∧
    bytesRead r.1 = (r.1.map fun y => match y with | .ok bs => bs | .error _ => []).flatten ∧
    (bytesRead r.1).length < 1000 := by
  decide +kernel

theorem sound_C98c : check_C98_error () = true :=
  forall2_true fun x hx r hr => List.all_eq_true.2 fun w hw => by
    obtain ⟨r1, r2, r3, r4⟩ := failures_ok r hr
    obtain ⟨h1, h2, h3, h4⟩ := fits98 hx r4
    obtain ⟨v, p1, p2⟩ := C98_error h1 x.2 h2 (isWriter98 hw) r.1 r.2.2 r.2.1 r1 r2 h3 h4
    rw [p1]
    exact decide_eq_true ⟨rfl, p2.trans (congrArg _ r3)⟩

theorem sound_C98d : check_C98_copy () = true :=
  forall2_true fun x hx r hr => List.all_eq_true.2 fun w hw => List.all_eq_true.2 fun d hd => by
    obtain ⟨r1, r2⟩ := readings_ok r hr
    obtain ⟨hc, ha⟩ := mem_engines hx
    have hM := mod64 hc
    have hl : d.length < x.1.usizeMod := by
      simp only [List.mem_cons, List.not_mem_nil, or_false] at hd
      rcases hd with rfl | rfl | rfl
      · rw [hM]; decide
      · rw [msg_length, hM]; decide
      · rw [msg_length, hM]; decide
    split
    · next e he =>
      refine decide_eq_true ?_
      cases h0 : (Source.engineOf x.1 x.2).new with
      | error f => rw [h0] at he; cases he
      | ok e0 =>
        rw [h0] at he
        have reach : Source.Reach x.1 x.2 e := .input d (.made .new trivial (by
          show some _ = _; rw [h0])) hl he
        have h := C98_copy (valid hc) x.2 (algs_ok hc _ ha) (isWriter98 hw) reach r.1 (by rw [r1, hM]; omega)
        rw [r1, copied_ok (readings_err r hr), r1, Nat.mod_eq_of_lt (by omega)] at h
        cases h5 : w.copy e 0 r.1 with
        | error f =>
          rw [h5] at h
          cases h6 : (Source.engineOf x.1 x.2).observe e [r.2] with
          | error f' => rw [h6] at h; cases h; rfl
          | ok o => rw [h6] at h; cases h
        | ok y =>
          rw [h5] at h
          replace h : ((Source.engineOf x.1 x.2).observe y.1 [] >>= fun o => pure (y.2, o)) = _ := h
          show ((Source.engineOf x.1 x.2).observe y.1 [] >>= fun o => pure (y.2, _)) = _
          cases h6 : (Source.engineOf x.1 x.2).observe e [r.2] with
          | error f' =>
            rw [h6] at h
            cases h7 : (Source.engineOf x.1 x.2).observe y.1 [] with
            | error f => rw [h7] at h; cases h; rfl
            | ok o => rw [h7] at h; cases h
          | ok o =>
            rw [h6] at h
            cases h7 : (Source.engineOf x.1 x.2).observe y.1 [] with
            | error f => rw [h7] at h; cases h
            | ok o' =>
              rw [h7] at h
              have h8 : (y.2, o') = _ := Except.ok.inj h
              injection h8 with h9 h10
              cases h10
              have h11 := Except.ok.inj h7
              show Except.ok (y.2, _) = Except.ok (Except.ok r.2.length, _)
              rw [h9, ← h11]
    · rfl

theorem textCopyChecks_true : ∀ x ∈ textCopyChecks, x.2 () = true := by
  unfold textCopyChecks
  simp only [List.forall_mem_cons, List.not_mem_nil, false_implies, implies_true, and_true]
  exact ⟨sound_C98a, sound_C98b, sound_C98c, sound_C98d⟩

end Chf.Check
