import Verif.Check.TextHash
import Verif.Check.SoundTextTypes
import Verif.Props.TextHash

/-!
# The instances of C96 follow from the theorems
-/

namespace Chf.Check
open Chf Spec Props Chf.Rs

attribute [local irreducible] msg

theorem inputs96_le {ds : List (List Byte)} (h : ds ∈ inputs96) : ds.flatten.length ≤ 200 := by
  simp only [inputs96, List.mem_cons, List.not_mem_nil, or_false] at h
  rcases h with rfl | rfl | rfl | rfl | rfl | rfl <;> simp [msg_length]

/-- The lengths that C67 asks for. -/
theorem fits96 {x : Cfg × Alg} (hx : x ∈ engines) {ds : List (List Byte)} (hd : ds.flatten.length ≤ 200) :
    x.1.Valid ∧ x.2.Ok x.1 ∧ 8 * (x.2.base + ds.flatten.length + x.2.slack) < 2 ^ 64 ∧
      x.2.base + ds.flatten.length + x.2.slack + 144 < 2 ^ x.1.usizeBits := by
  obtain ⟨hc, ha⟩ := mem_engines hx
  have := bounds ha
  refine ⟨valid hc, algs_ok hc x.2 ha, by omega, ?_⟩
  rw [cfg64 x.1 hc]; omega

theorem sound_C96a : check_C96_bytes () = true :=
  forall2_true fun x hx ds hd => decide_eq_true <| by
    obtain ⟨h1, h2, h3, h4⟩ := fits96 hx (inputs96_le hd)
    have := C67_engines h1 x.2 h2 ds h3 h4
    exact ⟨(C96_bytes x.1 x.2 ds).trans this, this⟩

theorem sound_C96b : check_C96_hash () = true :=
  forall2_true fun x hx ds hd => by
    have hl : ([ds.flatten] : List (List Byte)).flatten.length ≤ 200 := by
      simpa using inputs96_le hd
    obtain ⟨h1, h2, h3, h4⟩ := fits96 hx hl
    have h := C96_hash x.1 x.2
    split
    · next hn =>
      obtain ⟨b, hb⟩ := h.2.1 hn
      rw [hb]
    · next hash hs =>
      refine decide_eq_true ?_
      rw [h.1 hash hs]
      refine (C96_bytes x.1 x.2 _).trans ((C67_engines h1 x.2 h2 _ h3 h4).trans ?_)
      simp

theorem sound_C96c : check_C96_printed () = true :=
  forall2_true fun x hx ds hd => by
    obtain ⟨h1, h2, h3, h4⟩ := fits96 hx (inputs96_le hd)
    obtain ⟨s, p1, p2, p3, p4, p5⟩ := C96_printed h1 x.2 h2 ds h3 h4
    rw [p1, p2]
    exact decide_eq_true ⟨rfl, p3, p4, p5⟩

theorem agrees_iff (T : Source.HashText) (r : Res T.H) (p : Res (Except Hex.Error T.H)) :
    agrees T r p = true ↔ ∃ v w, r = .ok v ∧ p = .ok (.ok w) ∧ T.eq v w = true := by
  cases r with
  | error f => exact ⟨fun h => (by cases h), fun h => (by obtain ⟨_, _, h, _⟩ := h; cases h)⟩
  | ok v =>
    cases p with
    | error f => exact ⟨fun h => (by cases h), fun h => (by obtain ⟨_, _, _, h, _⟩ := h; cases h)⟩
    | ok q =>
      cases q with
      | error f => exact ⟨fun h => (by cases h), fun h => (by obtain ⟨_, _, _, h, _⟩ := h; cases h)⟩
      | ok w =>
        exact ⟨fun h => ⟨v, w, rfl, rfl, h⟩, fun h => (by obtain ⟨_, _, h1, h2, h3⟩ := h; cases h1; cases h2; exact h3)⟩

theorem sound_C96d : check_C96_check () = true :=
  forall2_true fun x hx ds hd => forall2_true fun s _ parse hp => by
    obtain ⟨h1, h2, h3, h4⟩ := fits96 hx (inputs96_le hd)
    rw [beq_iff_eq, Bool.eq_iff_iff, decide_eq_true_iff, agrees_iff]
    exact C96_check h1 x.2 h2 ds h3 h4 parse hp s

theorem sound_C96e : check_C96_compared () = true :=
  forall2_true fun x hx ds hd => List.all_eq_true.2 fun es he => by
    obtain ⟨h1, h2, h3, h4⟩ := fits96 hx (inputs96_le hd)
    obtain ⟨-, -, e3, e4⟩ := fits96 hx (inputs96_le he)
    obtain ⟨v, w, p1, p2, p3, p4⟩ := C96_compared h1 x.2 h2 ds es h3 h4 e3 e4
    rw [p1, p2]
    refine Bool.and_eq_true_iff.2 ⟨?_, decide_eq_true p4⟩
    rw [beq_iff_eq, Bool.eq_iff_iff, decide_eq_true_iff]
    exact p3

end Chf.Check
