import Verif.Proofs.Source.Sha256Rounds
import Verif.Proofs.Source.Sha256Simd

/-!
# The translation of `sha256.rs` against the model: the engine
-/

namespace Chf.Source.Sha256
open Chf Chf.Rs

theorem software_fast_eq (cfg : Cfg) (hs : cfg.smallHash = false) (e : Chf.Sha256.Engine) :
    Engine.software_process_block_fast cfg (emb e) =
      (Chf.Sha256.softwareProcessBlock cfg e.buffer e.h).map fun h => emb { e with h := h } := by
  unfold Engine.software_process_block_fast Chf.Sha256.softwareProcessBlock
  simp only [map_bind, tryInto_be32, zipMut_eq_fillZip]
  refine bind_congr' fun _ _ => bind_congr' fun w hw => ?_
  obtain ⟨v, hv, rfl⟩ := arr16_toList w (fillZip_length _ _ _ _ hw)
  have hl := runLines_eq _ _ (fast_lines cfg) { regs := e.h, win := v }
  have hline : Chf.Sha256.line cfg = Chf.Sha256.fastLine := by unfold Chf.Sha256.line; rw [hs]; rfl
  rw [hv, ok_bind, hline]
  generalize Chf.Sha256.blockLines.foldl Chf.Sha256.fastLine { regs := e.h, win := v } = t at hl
  have h0 : index (emb e).h 0 = .ok e.h.x0 := rfl
  have h1 : index (emb e).h 1 = .ok e.h.x1 := rfl
  have h2 : index (emb e).h 2 = .ok e.h.x2 := rfl
  have h3 : index (emb e).h 3 = .ok e.h.x3 := rfl
  have h4 : index (emb e).h 4 = .ok e.h.x4 := rfl
  have h5 : index (emb e).h 5 = .ok e.h.x5 := rfl
  have h6 : index (emb e).h 6 = .ok e.h.x6 := rfl
  have h7 : index (emb e).h 7 = .ok e.h.x7 := rfl
  simp only [vars] at hl
  simp only [h0, h1, h2, h3, h4, h5, h6, h7, ok_bind, hl]
  rfl

theorem software_small_eq (cfg : Cfg) (hs : cfg.smallHash = true) (e : Chf.Sha256.Engine) :
    Engine.software_process_block_small cfg (emb e) =
      (Chf.Sha256.softwareProcessBlock cfg e.buffer e.h).map fun h => emb { e with h := h } := by
  unfold Engine.software_process_block_small Chf.Sha256.softwareProcessBlock
  simp only [map_bind, tryInto_be32, zipMut_eq_fillZip]
  refine bind_congr' fun _ _ => bind_congr' fun w hw => ?_
  obtain ⟨v, hv, rfl⟩ := arr16_toList w (fillZip_length _ _ _ _ hw)
  have hl := runLines_eq _ _ (small_lines cfg) { regs := e.h, win := v }
  have hline : Chf.Sha256.line cfg = Chf.Sha256.smallLine := by unfold Chf.Sha256.line; rw [hs]; rfl
  rw [hv, ok_bind, hline]
  generalize Chf.Sha256.blockLines.foldl Chf.Sha256.smallLine { regs := e.h, win := v } = t at hl
  have h0 : index (emb e).h 0 = .ok e.h.x0 := rfl
  have h1 : index (emb e).h 1 = .ok e.h.x1 := rfl
  have h2 : index (emb e).h 2 = .ok e.h.x2 := rfl
  have h3 : index (emb e).h 3 = .ok e.h.x3 := rfl
  have h4 : index (emb e).h 4 = .ok e.h.x4 := rfl
  have h5 : index (emb e).h 5 = .ok e.h.x5 := rfl
  have h6 : index (emb e).h 6 = .ok e.h.x6 := rfl
  have h7 : index (emb e).h 7 = .ok e.h.x7 := rfl
  simp only [vars] at hl
  simp only [h0, h1, h2, h3, h4, h5, h6, h7, ok_bind, hl]
  rfl

theorem process_block_eq (cfg : Cfg) (hc : cfg.Valid) (e : Chf.Sha256.Engine) :
    Engine.process_block cfg (emb e) =
      (BlockEngine.processBlock (Chf.Sha256.ops cfg) e).map emb := by
  have hm : (BlockEngine.processBlock (Chf.Sha256.ops cfg) e).map emb =
      (Chf.Sha256.processBlock cfg e.buffer e.h).map fun h => emb { e with h := h } := by
    unfold BlockEngine.processBlock Chf.Sha256.ops
    simp only
    cases Chf.Sha256.processBlock cfg e.buffer e.h <;> rfl
  rw [hm]
  unfold Engine.process_block Chf.Sha256.processBlock Engine.software_process_block
  cases hn : cfg.shaNi with
  | true =>
    simp only [Bool.and_true, if_true]
    rw [simd_eq cfg hc]
    cases Chf.Sha256.Simd.processBlock e.buffer e.h <;> rfl
  | false =>
    simp only [Bool.and_false, Bool.false_eq_true, if_false]
    cases hs : cfg.smallHash with
    | true =>
      simp only [if_true, pure_bind]
      rw [software_small_eq cfg hs]
    | false =>
      simp only [Bool.false_eq_true, if_false, pure_bind]
      rw [software_fast_eq cfg hs]

theorem input_eq (cfg : Cfg) (hc : cfg.Valid) (e : Chf.Sha256.Engine) (inp : List Byte)
    (h : inp.length < cfg.usizeMod) :
    Engine.input cfg (emb e) inp = (BlockEngine.input cfg (Chf.Sha256.ops cfg) e inp).map emb := by
  unfold Engine.input BlockEngine.input
  simp only
  rw [whileR_inputLoop cfg (Chf.Sha256.ops cfg) (Nat.succ_pos 63) emb _ _ inp.length _ e inp
    (Nat.le_refl _) h, map_bind_left]
  · rw [map_eq_bind]; rfl
  exact input_body_eq cfg (Chf.Sha256.ops cfg) (Nat.succ_pos 63) emb (Engine.process_block cfg)
    (process_block_eq cfg hc)

theorem midstate_eq (cfg : Cfg) (e : Chf.Sha256.Engine) :
    Engine.midstate cfg (emb e) = (Chf.Sha256.midstate e).map Midstate.mk := by
  unfold Engine.midstate Chf.Sha256.midstate
  simp only [zipChunksMut_eq_storeZip]
  rw [map_eq_bind]
  rfl

theorem finalize_eq (cfg : Cfg) (hc : cfg.Valid) (e : Chf.Sha256.Engine) :
    Engine.finalize cfg (emb e) = Chf.Sha256.finalize cfg e := by
  have h := Rs.finalize_eq cfg hc (Chf.Sha256.ops cfg) emb (Engine.input cfg) (fun s => s.length)
    (fun _ => rfl) (input_eq cfg hc)
    (fun s => do let x ← Engine.midstate cfg s; pure (Midstate.to_byte_array cfg x))
    56 (by decide) pure [] (fun _ => rfl) be64 (fun _ => rfl) e
  simp only [midstate_eq, map_bind_left] at h
  refine Eq.trans ?_ (h.trans ?_)
  · rfl
  · unfold Chf.Sha256.finalize
    refine bind_congr' fun e _ => ?_
    exact bind_ok' _

theorem from_midstate_eq (cfg : Cfg) (m : Midstate) (length : Nat) :
    Engine.HashEngine.from_midstate cfg m length =
      (Chf.Sha256.fromMidstate m.f0 length).map emb := by
  unfold Engine.HashEngine.from_midstate Chf.Sha256.fromMidstate
  simp only [map_bind, tryInto_be32, zipMut_eq_fillZip]
  refine bind_congr' fun _ _ => bind_congr' fun l hl => ?_
  have := fillZip_length _ _ _ _ hl
  match l, this with
  | [a, b, c, d, e, f, g, h], _ => rfl

/-- The inherent `from_midstate` is a copy of the trait's. -/
theorem from_midstate_copy (cfg : Cfg) (m : Midstate) (length : Nat) :
    Engine.from_midstate cfg m length = Engine.HashEngine.from_midstate cfg m length := rfl

end Chf.Source.Sha256
