import Verif.Check.SoundText
import Verif.Check.TextVerify
import Verif.Props.TextVerify

/-!
# The instances of C105 follow from the theorems
-/

namespace Chf.Check
open Chf Spec Props

theorem two105 {c : Cfg} (hc : c ∈ [Cfg.debug64, .release64]) : c ∈ cfgs := by
  simp only [List.mem_cons, List.not_mem_nil, or_false] at hc
  rcases hc with rfl | rfl <;> decide

theorem fits105 {c : Cfg} (hc : c ∈ [Cfg.debug64, .release64]) {a : Alg} (ha : a ∈ algs) {key : List Byte}
    {ds : List (List Byte)} (hk : key.length < 200) (hd : ds.flatten.length < 300) :
    (Alg.hmac a).Ok c ∧ Fits c (a.base + key.length + a.slack) ∧
      Fits c (a.base + a.blockSize + ds.flatten.length + (a.slack + 64)) := by
  have hb := bounds ha
  have hB := a.blockSize_le
  have hm := mod64 (two105 hc)
  refine ⟨⟨algs_ok (two105 hc) a ha, by rw [hm]; omega⟩, ⟨by omega, ?_⟩, ⟨by omega, ?_⟩⟩ <;>
    (rw [hm]; omega)

theorem algs105 {a : Alg} {l : List Alg} (h : a ∈ l) (hl : l ⊆ algs := by simp [algs]) : a ∈ algs := hl h

theorem keys105_small {key : List Byte} (h : key ∈ keys105) : key.length < 200 := by
  revert key; decide +kernel

theorem inputs105_small {ds : List (List Byte)} (h : ds ∈ inputs105) : ds.flatten.length < 300 := by
  revert ds; decide +kernel

theorem one105 {key : List Byte} {ds : List (List Byte)} (hk : key ∈ [msg 20]) (hd : ds ∈ [[msg 3]]) :
    key.length < 200 ∧ ds.flatten.length < 300 := by
  rw [List.mem_singleton.1 hk, List.mem_singleton.1 hd]
  decide +kernel

theorem sound_C105a : check_C105_tag () = true :=
  forall2_true fun c hc a ha => forall2_true fun key hk ds hd => by
    obtain ⟨h1, h2, h3⟩ := fits105 hc ha (keys105_small hk) (inputs105_small hd)
    rw [C105_tag (valid (two105 hc)) a h1 key ds h2 h3 a.outLen]
    exact decide_eq_true rfl

theorem sound_C105b : check_C105_check () = true :=
  forall2_true fun c hc a ha => forall2_true fun key hk ds hd => List.all_eq_true.2 fun r _ => decide_eq_true <| by
    have ha := algs105 ha
    obtain ⟨h1, h2, h3⟩ := fits105 hc ha (one105 hk hd).1 (one105 hk hd).2
    exact C105_check (valid (two105 hc)) a h1 key ds h2 h3 r

theorem sound_C105c : check_C105_check_str () = true :=
  forall2_true fun c hc a ha => forall2_true fun key hk ds hd => List.all_eq_true.2 fun r _ => by
    have ha := algs105 ha
    obtain ⟨h1, h2, h3⟩ := fits105 hc ha (one105 hk hd).1 (one105 hk hd).2
    obtain ⟨b, h4, h5⟩ := C105_check_str (valid (two105 hc)) a h1 key ds h2 h3 r
    rw [h4]
    exact decide_eq_true h5

theorem sound_C105d : check_C105_compare () = true :=
  forall2_true fun c hc a ha => forall2_true fun key hk ds hd => List.all_eq_true.2 fun r _ => decide_eq_true <| by
    have ha := algs105 ha
    obtain ⟨h1, h2, h3⟩ := fits105 hc ha (one105 hk hd).1 (one105 hk hd).2
    exact C105_compare (valid (two105 hc)) a h1 key ds h2 h3 r

theorem sound_C105e : check_C105_seen () = true :=
  forall2_true fun c _ a _ => forall2_true fun key _ ds _ => List.all_eq_true.2 fun r _ => decide_eq_true <|
    C105_seen c a key _ ds _ r _ (by simp) (by
      rw [List.map_map]
      exact List.map_congr_left fun d _ => by simp) (by simp)

end Chf.Check
