import Verif.Check.SoundText
import Verif.Check.TextTags
import Verif.Props.TextTags

/-!
# The instances of C102 follow from the theorems
-/

namespace Chf.Check
open Chf Spec Props Chf.Rs

theorem sound_C102a : check_C102_engine () = true :=
  forall2_true fun c _ x _ => decide_eq_true (by
    obtain ⟨h1, h2, h3⟩ := C102_engine c (fed102 c x)
    rw [h1, h2, h3]
    exact ⟨rfl, rfl, rfl⟩)

theorem public102 {c : Cfg} (hc : c ∈ cfgs) {x : Nat × List (List Byte)} (hx : x ∈ feeds102) :
    PublicTag c (fed102 c x) := by
  have h : ∀ x ∈ feeds102, x.1 < 2 ^ 64 ∧ ∀ d ∈ x.2, d.length < 2 ^ 64 := by decide +kernel
  refine C102_public (msg 32) (msg_length 32) x.1 ?_ x.2 ?_ ?_
  · show _ < 2 ^ c.usizeBits
    rw [cfg64 c hc]
    exact (h x hx).1
  · show ∀ d ∈ x.2, _ < 2 ^ c.usizeBits
    rw [cfg64 c hc]
    exact (h x hx).2
  · exact bind_congr' fun e _ =>
      (tagged_inputs_text c ⟨.error .unreachable⟩ x.2 e).trans (tagged_inputs_text c (fed102 c x) x.2 e).symm

theorem sound_C102b : check_C102_view () = true :=
  forall2_true fun c _ x _ => List.all_eq_true.2 fun ds _ => by
    split
    · rfl
    · refine decide_eq_true ?_
      rw [tagged_inputs_text]
      next e _ => cases (Source.Sha256.engine c).inputs e.f0 ds <;> rfl

theorem sound_C102c : check_C102_hash () = true :=
  forall2_true fun c hc x hx => List.all_eq_true.2 fun ds hd => decide_eq_true (congrArg bytes102
    (C102_hash (valid hc) (public102 hc hx) ds (by
      have := chunks_lt ds hd
      show _ < 2 ^ c.usizeBits
      rw [cfg64 c hc]
      omega)))

theorem fits102 {c : Cfg} (hc : c ∈ cfgs) {k : Nat} (hk : k < 2 ^ 60) : Chf.Fits c k := by
  refine ⟨by omega, ?_⟩
  show _ < 2 ^ c.usizeBits
  rw [cfg64 c hc]
  omega

theorem sound_C102d : check_C102_prefix () = true :=
  forall2_true fun c hc ps hp => List.all_eq_true.2 fun n hn => by
    have h : ∀ ps ∈ blocks102, 64 ∣ ps.flatten.length ∧ ps.flatten.length < 2 ^ 40 := by decide +kernel
    obtain ⟨h1, h2⟩ := h ps hp
    have h3 := lengths_le n hn
    refine decide_eq_true ?_
    rw [C102_prefix (valid hc) (T := after102 c ps) rfl h1 (msg n) (fits102 hc (by rw [msg_length]; omega))]
    rfl

theorem sound_C102e : check_C102_part () = true :=
  forall2_true fun c hc ps hp => by
    have h : ∀ ps ∈ parts102, ¬ 64 ∣ ps.flatten.length ∧ ps.flatten.length < 2 ^ 40 := by decide +kernel
    obtain ⟨h1, h2⟩ := h ps hp
    obtain ⟨h3, h4⟩ := C102_part (valid hc) (T := after102 c ps) rfl h1 (fits102 hc (by omega)) (msg 9)
    refine decide_eq_true ?_
    rw [h3, h4]
    exact ⟨rfl, rfl⟩

end Chf.Check
