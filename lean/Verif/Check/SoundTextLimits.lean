import Verif.Check.TextLimits
import Verif.Check.SoundLimits
import Verif.Props.TextLimits

/-!
# The instances of C95 follow from the theorems
-/

namespace Chf.Check
open Chf Spec Props Chf.Rs

attribute [local irreducible] msg

theorem over16_small {ds : List (List Byte)} (h : ds ∈ over16) : ∀ d ∈ ds, d.length < release16.usizeMod := by
  show ∀ d ∈ ds, d.length < 65536
  simp only [over16, List.mem_cons, List.not_mem_nil, or_false] at h
  rcases h with rfl | rfl <;> simp [msg_length]

theorem sound_C95a : check_C95_wraps () = true :=
  forall2_true fun a ha ds hd => by
    have hp : plain a = true := by
      simp only [List.mem_cons, List.not_mem_nil, or_false] at ha
      rcases ha with rfl | rfl | rfl | rfl <;> rfl
    obtain ⟨e, e', h1, h2, h3, h4⟩ := C95_wraps (c := release16) (by decide) a hp rfl ds (over16_small hd)
    simp only [h1, h2, ok_bind]
    exact decide_eq_true ⟨h3, h4⟩

theorem sound_C95b : check_C95_tagged () = true :=
  forall2_true fun t ht ds hd => decide_eq_true <| by
    have hs : ∀ d ∈ ds, d.length < release16.usizeMod := by
      show ∀ d ∈ ds, d.length < 65536
      simp only [List.mem_cons, List.not_mem_nil, or_false] at hd
      rcases hd with rfl | rfl | rfl | rfl | rfl <;> simp [msg_length]
    refine C95_tagged (c := release16) (by decide) (msg 32) t.1 t.2 ⟨msg_length 32, ?_⟩ rfl ds hs
    show 64 ∣ t.1 ∧ t.1 + t.2.length < 65536
    simp only [tags95, List.mem_cons, List.not_mem_nil, or_false] at ht
    rcases ht with rfl | rfl | rfl | rfl | rfl <;> simp only [msg_length, List.length_nil] <;> decide

theorem sound_C95c : check_C95_hmac () = true :=
  forall2_true fun x hx ds hd => decide_eq_true <| by
    have hs : ∀ d ∈ ds, d.length < release16.usizeMod := by
      show ∀ d ∈ ds, d.length < 65536
      simp only [List.mem_cons, List.not_mem_nil, or_false] at hd
      rcases hd with rfl | rfl <;> simp [msg_length]
    have hp : plain x.1 = true ∧ x.2.length < 65536 := by
      simp only [List.mem_cons, List.not_mem_nil, or_false] at hx
      rcases hx with rfl | rfl <;> exact ⟨rfl, by simp [msg_length]⟩
    exact C95_hmac (c := release16) (by decide) x.1 hp.1 rfl x.2 hp.2 ds hs

theorem sound_C95d : check_C95_siphash () = true :=
  List.all_eq_true.2 fun ds hd => decide_eq_true <|
    C95_siphash (c := release16) (by decide) rfl 7 9 ds (over16_small hd)

theorem reach_inputs_text {c : Cfg} {a : Alg} : ∀ (ds : List (List Byte)) {e e'},
    (∀ d ∈ ds, d.length < c.usizeMod) → Source.Reach c a e → (Source.engineOf c a).inputs e ds = .ok e' →
    Source.Reach c a e'
  | [], _, _, _, he, h => by cases h; exact he
  | d :: ds, e, _, hs, he, h => by
    unfold HashEngine.inputs at h
    cases hi : (Source.engineOf c a).input e d with
    | error f => rw [hi] at h; cases h
    | ok e1 =>
      rw [hi] at h
      exact reach_inputs_text ds (fun x hx => hs x (List.mem_cons_of_mem _ hx))
        (.input d he (hs d (List.mem_cons_self ..)) hi) h

theorem sound_C95e : check_C95_finalize_panics_iff () = true :=
  forall2_true fun c hc x hx => by
    obtain ⟨ok, hn, hd⟩ := limit_facts hc hx
    dsimp only
    cases hb : blockAndField x.1 with
    | none => rfl
    | some BL =>
      obtain ⟨B, L⟩ := BL
      cases hm : Source.make c x.1 (.resume (midOf x.1) x.2.1) with
      | none => simp only [resumed95, hm, Option.map_none]
      | some r =>
        cases r with
        | error f => simp only [resumed95, hm, Option.map_some]; rfl
        | ok e0 =>
          have hr0 : Source.Reach c x.1 e0 := .made (.resume (midOf x.1) x.2.1)
            (by show x.2.1 < c.usizeMod; rw [mod64 hc]; exact hn) hm
          simp only [resumed95, hm, Option.map_some, ok_bind]
          cases hi : (Source.engineOf c x.1).inputs e0 x.2.2 with
          | error f => rfl
          | ok e =>
            have hr := reach_inputs_text _ (small_chunks hc hd) hr0 hi
            obtain ⟨h1, h2⟩ := C95_finalize_panics_iff (valid hc) x.1 ok hb hr
            rw [cfg64 c hc] at h1
            simp only
            cases hfin : (Source.engineOf c x.1).finalize e with
            | ok d =>
              simp only
              rw [Bool.not_eq_true', Bool.eq_false_iff]
              intro h
              rw [Bool.and_eq_true, Bool.not_eq_true', decide_eq_false_iff_not] at h
              obtain ⟨f, hf⟩ := h1.2 h
              rw [hfin] at hf; cases hf
            | error f =>
              have h3 := h2 ⟨f, hfin⟩
              rw [hfin] at h3; cases h3
              simp only
              rw [Bool.and_eq_true, Bool.and_eq_true, Bool.not_eq_true', decide_eq_false_iff_not]
              exact ⟨h1.1 ⟨_, hfin⟩, by simp⟩

end Chf.Check
