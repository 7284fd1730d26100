import Verif.Proofs.Source.Sha512Rounds

/-!
# The translation of `sha512.rs` against the model
-/

namespace Chf.Source.Sha512
open Chf Chf.Rs

/-- An engine of the model as an engine of the translated source. -/
def emb (e : Chf.Sha512.Engine) : Engine :=
  { buffer := e.buffer, h := e.h.toList, length := e.length }

theorem process_block_fast_eq (cfg : Cfg) (hs : cfg.smallHash = false) (e : Chf.Sha512.Engine) :
    Engine.process_block_fast cfg (emb e) =
      (Chf.Sha512.processBlock cfg e.buffer e.h).map fun h => emb { e with h := h } := by
  unfold Engine.process_block_fast Chf.Sha512.processBlock
  simp only [map_bind, tryInto_be64, zipMut_eq_fillZip]
  refine bind_congr' fun _ _ => bind_congr' fun w hw => ?_
  obtain ⟨v, hv, rfl⟩ := arr16_toList w (fillZip_length _ _ _ _ hw)
  have hl := runLines_eq _ _ (fast_lines cfg) { regs := e.h, win := v }
  have hline : Chf.Sha512.line cfg = Chf.Sha512.fastLine := by unfold Chf.Sha512.line; rw [hs]; rfl
  rw [hv, ok_bind, hline]
  generalize Chf.Sha512.blockLines.foldl Chf.Sha512.fastLine { regs := e.h, win := v } = t at hl
  have h0 : index (emb e).h 0 = .ok e.h.x0 := rfl
  have h1 : index (emb e).h 1 = .ok e.h.x1 := rfl
  have h2 : index (emb e).h 2 = .ok e.h.x2 := rfl
  have h3 : index (emb e).h 3 = .ok e.h.x3 := rfl
  have h4 : index (emb e).h 4 = .ok e.h.x4 := rfl
  have h5 : index (emb e).h 5 = .ok e.h.x5 := rfl
  have h6 : index (emb e).h 6 = .ok e.h.x6 := rfl
  have h7 : index (emb e).h 7 = .ok e.h.x7 := rfl
  simp only [vars] at hl
  simp only [h0, h1, h2, h3, h4, h5, h6, h7, ok_bind, hl]
  rfl

theorem process_block_small_eq (cfg : Cfg) (hs : cfg.smallHash = true) (e : Chf.Sha512.Engine) :
    Engine.process_block_small cfg (emb e) =
      (Chf.Sha512.processBlock cfg e.buffer e.h).map fun h => emb { e with h := h } := by
  unfold Engine.process_block_small Chf.Sha512.processBlock
  simp only [map_bind, tryInto_be64, zipMut_eq_fillZip]
  refine bind_congr' fun _ _ => bind_congr' fun w hw => ?_
  obtain ⟨v, hv, rfl⟩ := arr16_toList w (fillZip_length _ _ _ _ hw)
  have hl := runLines_eq _ _ (small_lines cfg) { regs := e.h, win := v }
  have hline : Chf.Sha512.line cfg = Chf.Sha512.smallLine := by unfold Chf.Sha512.line; rw [hs]; rfl
  rw [hv, ok_bind, hline]
  generalize Chf.Sha512.blockLines.foldl Chf.Sha512.smallLine { regs := e.h, win := v } = t at hl
  have h0 : index (emb e).h 0 = .ok e.h.x0 := rfl
  have h1 : index (emb e).h 1 = .ok e.h.x1 := rfl
  have h2 : index (emb e).h 2 = .ok e.h.x2 := rfl
  have h3 : index (emb e).h 3 = .ok e.h.x3 := rfl
  have h4 : index (emb e).h 4 = .ok e.h.x4 := rfl
  have h5 : index (emb e).h 5 = .ok e.h.x5 := rfl
  have h6 : index (emb e).h 6 = .ok e.h.x6 := rfl
  have h7 : index (emb e).h 7 = .ok e.h.x7 := rfl
  simp only [vars] at hl
  simp only [h0, h1, h2, h3, h4, h5, h6, h7, ok_bind, hl]
  rfl

theorem process_block_eq (cfg : Cfg) (e : Chf.Sha512.Engine) :
    Engine.process_block cfg (emb e) =
      (BlockEngine.processBlock (Chf.Sha512.ops cfg) e).map emb := by
  have hm : (BlockEngine.processBlock (Chf.Sha512.ops cfg) e).map emb =
      (Chf.Sha512.processBlock cfg e.buffer e.h).map fun h => emb { e with h := h } := by
    unfold BlockEngine.processBlock Chf.Sha512.ops
    simp only
    cases Chf.Sha512.processBlock cfg e.buffer e.h <;> rfl
  rw [hm]
  unfold Engine.process_block
  cases hs : cfg.smallHash with
  | true =>
    simp only [if_true]
    rw [process_block_small_eq cfg hs]
  | false =>
    simp only [Bool.false_eq_true, if_false]
    rw [process_block_fast_eq cfg hs]

theorem input_eq (cfg : Cfg) (e : Chf.Sha512.Engine) (inp : List Byte)
    (h : inp.length < cfg.usizeMod) :
    Engine.input cfg (emb e) inp = (BlockEngine.input cfg (Chf.Sha512.ops cfg) e inp).map emb := by
  unfold Engine.input BlockEngine.input
  simp only
  rw [whileR_inputLoop cfg (Chf.Sha512.ops cfg) (Nat.succ_pos 127) emb _ _ inp.length _ e inp
    (Nat.le_refl _) h, map_bind_left]
  · rw [map_eq_bind]; rfl
  exact input_body_eq cfg (Chf.Sha512.ops cfg) (Nat.succ_pos 127) emb (Engine.process_block cfg)
    (process_block_eq cfg)

theorem midstate_eq (cfg : Cfg) (e : Chf.Sha512.Engine) :
    Engine.midstate cfg (emb e) = Chf.Sha512.midstate e := by
  unfold Engine.midstate Chf.Sha512.midstate
  simp only [zipChunksMut_eq_storeZip]
  rfl

theorem finalize_eq (cfg : Cfg) (hc : cfg.Valid) (e : Chf.Sha512.Engine) :
    Engine.finalize cfg (emb e) = Chf.Sha512.finalize cfg e := by
  have hM := usizeMod_ge hc
  have h := Rs.finalize_eq cfg hc (Chf.Sha512.ops cfg) emb (Engine.input cfg) (fun s => s.length)
    (fun _ => rfl) (input_eq cfg) (Engine.midstate cfg) 112 (by decide)
    (fun s => Engine.input cfg s (List.replicate 8 0#8)) [List.replicate 8 0]
    (fun e => by
      rw [input_eq cfg e _ (by simp; omega)]
      simp only [List.foldlM_cons, List.foldlM_nil, bind_pure]
      rfl)
    be64 (fun _ => rfl) e
  simp only [midstate_eq] at h
  exact h

theorem from_midstate_eq (cfg : Cfg) (m : List Byte) (length : Nat) :
    Engine.from_midstate cfg m length = (Chf.Sha512.fromMidstate m length).map emb := by
  unfold Engine.from_midstate Chf.Sha512.fromMidstate
  simp only [map_bind, tryInto_be64, zipMut_eq_fillZip]
  refine bind_congr' fun _ _ => bind_congr' fun l hl => ?_
  have := fillZip_length _ _ _ _ hl
  match l, this with
  | [a, b, c, d, e, f, g, h], _ => rfl

end Chf.Source.Sha512
