import Verif.Check.TextUnkeyed
import Verif.Check.SoundTextTypes
import Verif.Props.TextUnkeyed

/-!
# The instances of C113 follow from the theorems
-/

namespace Chf.Check
open Chf Spec Props Chf.Rs

theorem unkeyed113_eq (c : Cfg) (a : Alg) (ds : List (List Byte)) : unkeyed113 c a ds = (do
    let e ← Source.Hmac.Hash.engine c 32 (Source.engineOf c a)
    let e ← (Source.engineOf c a).inputs e ds
    Source.Hmac.Hash.from_engine c 32 (Source.engineOf c a) e : Res Source.Hmac.Hash).map (·.f0) := by
  unfold unkeyed113
  rw [Rs.map_bind]
  refine bind_congr' fun e _ => ?_
  rw [Rs.map_bind]
  exact bind_congr' fun e _ => (map_eq_bind _ _).symm

theorem sound_C113a : check_C113_unkeyed () = true :=
  forall2_true fun x hx ds hd => decide_eq_true <| by
    simp only [engines, List.mem_flatMap, List.mem_map] at hx
    obtain ⟨c, hc, a, ha, rfl⟩ := hx
    have := bounds ha
    have := (chunks_ok ds hd).2
    rw [unkeyed113_eq, C113_unkeyed (valid hc) a (algs_ok hc a ha) 32 ds (by omega) (by rw [cfg64 c hc]; omega)]
    rfl

theorem sound_C113b : check_C113_zero_keys () = true :=
  forall2_true fun c hc a ha => forall2_true fun k _ ds hd => by
    rw [Bool.or_eq_true]
    by_cases hk : k ≤ a.blockSize
    · refine .inr (decide_eq_true ?_)
      have hc : c ∈ cfgs := by
        simp only [List.mem_cons, List.not_mem_nil, or_false] at hc
        rcases hc with rfl | rfl <;> decide
      have hb := bounds ha
      have hB := a.blockSize_le
      have hd : ds.flatten.length < 300 := by
        revert ds
        decide +kernel
      rw [unkeyed113_eq]
      have h := congrArg (Except.map (·.f0)) (C113_zero_keys (cfg64 c hc) a
        ⟨algs_ok hc a ha, by rw [mod64 hc]; omega⟩ 32 k hk ds (by omega) (by omega))
      refine Eq.trans ?_ h
      rw [Rs.map_bind]
      refine bind_congr' fun e _ => ?_
      rw [Rs.map_bind]
      exact bind_congr' fun e _ => (map_eq_bind _ _).symm
    · exact .inl (by rw [decide_eq_false hk]; rfl)

end Chf.Check
