import Verif.Check.SoundText
import Verif.Check.TextKept
import Verif.Props.TextKept

/-!
# The instances of C106 follow from the theorems
-/

namespace Chf.Check
open Chf Spec Props

theorem blocks106_ok {a : Alg} (h : a ∈ blocks106) : hasBlocks a = true := by
  simp only [blocks106, List.mem_cons, List.not_mem_nil, or_false] at h
  rcases h with rfl | rfl | rfl | rfl | rfl | rfl <;> rfl

theorem inputs106_small {c : Cfg} (hc : c ∈ cfgs) {ds : List (List Byte)} (h : ds ∈ inputs106) :
    ∀ d ∈ ds, d.length < c.usizeMod := by
  rw [mod64 hc]
  revert ds
  decide +kernel

theorem makes106_typed {c : Cfg} (hc : c ∈ cfgs) {a : Alg} {how : Make} (h : how ∈ makes106 a) : how.Typed c := by
  have hm := mod64 hc
  simp only [makes106, List.mem_cons, List.not_mem_nil, or_false] at h
  rcases h with rfl | rfl | rfl | rfl
  · trivial
  · trivial
  · show 256 < c.usizeMod
    rw [hm]; decide
  · show 100 < c.usizeMod
    rw [hm]; decide

theorem reach_inputs106 {c : Cfg} {a : Alg} : ∀ (ds : List (List Byte)) {e e'}, Source.Reach c a e →
    (∀ d ∈ ds, d.length < c.usizeMod) → (Source.engineOf c a).inputs e ds = .ok e' → Source.Reach c a e'
  | [], e, e', r, _, h => by cases h; exact r
  | d :: ds, e, e', r, hd, h => by
    obtain ⟨e1, h1, h2⟩ := Source.bind_ok_of h
    exact reach_inputs106 ds (.input d r (hd d (List.mem_cons_self ..)) h1)
      (fun x hx => hd x (List.mem_cons_of_mem _ hx)) h2

theorem sound_C106a : check_C106_kept () = true :=
  forall2_true fun c hc a ha => forall2_true fun how hh ds hd => by
    have hb := blocks106_ok ha
    have hf := fits_of_ok a (hasBlocks_ok hb c).1
    have hs := inputs106_small hc hd
    split
    · next e hm =>
      have r : Source.Reach c a e := .made how (makes106_typed hc hh) hm
      rw [Bool.or_eq_true]
      refine .inr ?_
      split
      · next e1 e' h1 h2 =>
        split
        · next e2 h3 =>
          rw [Bool.and_eq_true]
          exact ⟨decide_eq_true (C106_kept (valid hc) hf (hasBlocks_buffer hb)
              (reach_inputs106 _ r (fun d h => hs d (List.mem_of_mem_take h)) h1) _
              (fun d h => hs d (List.mem_of_mem_drop h)) h3),
            decide_eq_true (C106_kept (valid hc) hf (hasBlocks_buffer hb) r ds hs h2)⟩
        · rfl
      · rfl
    · rfl

theorem sound_C106b : check_C106_clean () = true :=
  forall2_true fun c hc a ha => List.all_eq_true.2 fun how hh => by
    split
    · next e hm => exact decide_eq_true (C106_clean (blocks106_ok ha) how hm)
    · rfl

theorem sound_C106c : check_C106_last () = true :=
  forall2_true fun c hc a ha => forall2_true fun how hh ds hd => by
    split
    · next e hm =>
      split
      · next e' h =>
        exact decide_eq_true (C106_last (valid hc) (blocks106_ok ha) how (makes106_typed hc hh) hm ds
          (inputs106_small hc hd) h)
      · rfl
    · rfl

theorem sound_C106d : check_C106_hmac () = true :=
  forall2_true fun c hc a ha => forall2_true fun key hk ds hd => by
    split
    · next e d hn hh =>
      dsimp only
      split
      · next e' h =>
        rw [Bool.or_eq_true]
        by_cases hl : (if key.length > a.blockSize then d else key).length > a.blockSize
        · exact .inl (decide_eq_true hl)
        · refine .inr (decide_eq_true (C106_hmac (valid hc) (blocks106_ok ha) key _ ?_ hn ds
            (inputs106_small hc hd) h))
          by_cases hg : key.length > a.blockSize
          · rw [if_pos hg] at hl ⊢
            exact .inr ⟨hg, Nat.le_of_not_gt hl, hh⟩
          · rw [if_neg hg]
            exact .inl ⟨Nat.le_of_not_gt hg, rfl⟩
      · rfl
    · rfl

theorem sound_C106e : check_C106_key () = true :=
  forall2_true fun c hc a ha => forall2_true fun key hk ds hd => by
    rw [Bool.or_eq_true]
    by_cases hl : key.length > a.blockSize
    · exact .inl (decide_eq_true hl)
    · refine .inr ?_
      split
      · next e hn =>
        split
        · next e' h =>
          exact decide_eq_true (C106_key (valid hc) (blocks106_ok ha) key (Nat.le_of_not_gt hl) hn ds
            (inputs106_small hc hd) h)
        · rfl
      · rfl

end Chf.Check
