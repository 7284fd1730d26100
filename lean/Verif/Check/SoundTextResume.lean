import Verif.Check.SoundText
import Verif.Check.TextResume
import Verif.Props.TextResume

/-!
# The instances of C100 follow from the theorems
-/

namespace Chf.Check
open Chf Spec Props Chf.Rs

attribute [local irreducible] msg
set_option synthInstance.maxSize 1000

theorem fits100 {c : Cfg} (hc : c ∈ cfgs) {x : Bool × Nat × Nat} (hx : x ∈ engines100) : x.2.2 < c.usizeMod := by
  have h : x.2.2 < 100 := by
    revert x
    decide
  have := usizeMod_ge (valid hc)
  omega

theorem sees100_eq {c : Cfg} {x : Bool × Nat × Nat} {h h' : Source.Hmac.Engine (countEngine x.1 x.2.1 x.2.2)}
    (ho : ObsEq c (Source.Hmac.engine c (countEngine x.1 x.2.1 x.2.2)) h h') {ds : List (List Byte)}
    (hd : ∀ d ∈ ds, d.length < c.usizeMod) : sees100 c x h ds = sees100 c x h' ds := by
  unfold sees100
  rw [ho ds hd]

theorem sound_C100a : check_C100_count () = true :=
  forall2_true fun c _ x _ => forall2_true fun key _ ds _ => by
    dsimp only
    split
    · next h hh =>
      obtain ⟨h0, hn, hin⟩ := ok_of_bind hh
      exact decide_eq_true (C100_count (countEngine_counts _ _ _ (x.2.1 + ds.flatten.length)) hn ds hin
        (Nat.le_refl _))
    · rfl

theorem short100 {c : Cfg} (hc : c ∈ cfgs) {ds : List (List Byte)}
    (hds : ds ∈ [[], [msg 1], [msg 63, msg 2], [msg 130]]) : ∀ d ∈ ds, d.length < c.usizeMod := by
  have h := usizeMod_ge (valid hc)
  intro d hd
  have : d.length ≤ 130 := by
    simp only [List.mem_cons, List.not_mem_nil, or_false] at hds
    rcases hds with rfl | rfl | rfl | rfl <;> simp only [List.mem_cons, List.not_mem_nil, or_false] at hd <;>
      (try rcases hd with rfl | rfl) <;> simp only [msg_length] <;> omega
  omega

theorem sound_C100b : check_C100_resume () = true :=
  forall2_true fun c hc x hx => forall2_true fun key _ ds hds => by
    have key' : ∀ h, Source.Hmac.Engine.new c (countEngine x.1 x.2.1 x.2.2) key = .ok h →
        ∃ h', resumed100 c x key [] = .ok (h, .ok h') ∧ sees100 c x h ds = sees100 c x h' ds := by
      intro h hn
      obtain ⟨μ, h', h1, h2, h3⟩ := C100_resume (countEngine_counts _ _ _ x.2.1)
        (countEngine_resumes c _ _ _ x.2.1) (countEngine_fits x.1 x.2.1 (fits100 hc hx)) (Nat.le_refl _) hn
      refine ⟨h', ?_, sees100_eq h3 (short100 hc hds)⟩
      unfold resumed100
      dsimp only
      rw [hn]
      show Except.ok (h, (Source.Hmac.engine c _).midstate h >>= fun μ => _) = _
      rw [h1]
      exact congrArg (fun r => Except.ok (h, r)) h2
    cases hn : Source.Hmac.Engine.new c (countEngine x.1 x.2.1 x.2.2) key with
    | error f =>
      have : resumed100 c x key [] = .error f := by unfold resumed100; dsimp only; rw [hn]; rfl
      rw [this]
    | ok h =>
      obtain ⟨h', h1, h2⟩ := key' h hn
      rw [h1]
      exact decide_eq_true h2

theorem sound_C100c : check_C100_later () = true :=
  forall2_true fun c hc x hx => forall2_true fun key _ ds hds => List.all_eq_true.2 fun before hb => by
    obtain ⟨hx, hk⟩ := List.mem_filter.1 hx
    obtain ⟨k, B, D⟩ := x
    cases (show k = true from hk)
    have hD := fits100 hc hx
    have hdvd : B ∣ before.flatten.length := by
      have h3 : 3 ≤ 2 * B := by
        have : 4 ≤ B := by
          have h : ∀ y ∈ engines100, 4 ≤ y.2.1 := by decide
          exact h _ hx
        omega
      simp only [List.mem_cons, List.not_mem_nil, or_false] at hb
      rcases hb with rfl | rfl | rfl <;> simp only [List.flatten_cons, List.flatten_nil, List.append_nil,
        List.length_append, List.length_drop, msg_length]
      · exact Nat.dvd_refl _
      · rw [show 3 + (2 * B - 3) = 2 * B by omega]
        exact Nat.dvd_mul_left _ _
      · exact Nat.dvd_mul_left _ _
    cases hn : Source.Hmac.Engine.new c (countEngine true B D) key with
    | error f =>
      have : resumed100 c (true, B, D) key before = .error f := by unfold resumed100; dsimp only; rw [hn]; rfl
      rw [this]
    | ok h =>
      cases hi : (Source.Hmac.engine c (countEngine true B D)).inputs h before with
      | error f =>
        have : resumed100 c (true, B, D) key before = .error f := by
          unfold resumed100; dsimp only; rw [hn]
          show ((Source.Hmac.engine c (countEngine true B D)).inputs h before >>= fun h => _) = _
          rw [hi]; rfl
        rw [this]
      | ok h1 =>
        obtain ⟨μ, h', q1, q2, q3⟩ := C100_carries hD hn before hi hdvd
        have hcount := C100_count (countEngine_counts true B D (B + before.flatten.length)) hn before hi (Nat.le_refl _)
        have : resumed100 c (true, B, D) key before = .ok (h1, .ok h') := by
          unfold resumed100; dsimp only; rw [hn]
          show ((Source.Hmac.engine c (countEngine true B D)).inputs h before >>= fun h => _) = _
          rw [hi]
          show Except.ok (h1, (Source.Hmac.engine c _).midstate h1 >>= fun μ => _) = _
          rw [q1]
          refine congrArg (fun r => Except.ok (h1, r)) ?_
          show (Source.Hmac.engine c _).fromMidstate μ _ = _
          rw [hcount]
          exact q2
        rw [this]
        exact decide_eq_true (sees100_eq (x := (true, B, D)) q3 (short100 hc (by
          simp only [List.mem_cons, List.not_mem_nil, or_false] at hds ⊢
          rcases hds with h | h | h <;> simp [h])))

end Chf.Check
