import Verif.Proofs.Source.Ripemd160Rounds

/-!
# The translation of `ripemd160.rs` against the model
-/

namespace Chf.Source.Ripemd160
open Chf Chf.Rs

/-- An engine of the model as an engine of the translated source. -/
def emb (e : Chf.Ripemd160.Engine) : Engine :=
  { buffer := e.buffer, h := e.h.toList, length := e.length }

theorem foldl_left (cfg : Cfg) (w : Vector (BitVec 32) 16) (add : BitVec 32)
    (f : BitVec 32 → BitVec 32 → BitVec 32 → BitVec 32) (ls : List Chf.Ripemd160.RLine)
    (a b : Arr5 (BitVec 32)) :
    (ls.map (Step.mk false add f)).foldl (step (Chf.Ripemd160.round cfg) w) (a, b) =
      (Chf.Ripemd160.rounds cfg w add f ls a, b) := by
  induction ls generalizing a with
  | nil => rfl
  | cons l ls ih =>
    rw [List.map_cons, List.foldl_cons]
    exact ih _

theorem foldl_right (cfg : Cfg) (w : Vector (BitVec 32) 16) (add : BitVec 32)
    (f : BitVec 32 → BitVec 32 → BitVec 32 → BitVec 32) (ls : List Chf.Ripemd160.RLine)
    (a b : Arr5 (BitVec 32)) :
    (ls.map (Step.mk true add f)).foldl (step (Chf.Ripemd160.round cfg) w) (a, b) =
      (a, Chf.Ripemd160.rounds cfg w add f ls b) := by
  induction ls generalizing b with
  | nil => rfl
  | cons l ls ih =>
    rw [List.map_cons, List.foldl_cons]
    exact ih _

/-- The end of `process_block!`, `ripemd160.rs` 217-222. -/
def combine (h bb bbb : Arr5 (BitVec 32)) : Arr5 (BitVec 32) :=
  let bbb := Chf.Ripemd160.set bbb 3
    (Chf.Ripemd160.get bbb 3 + Chf.Ripemd160.get h 1 + Chf.Ripemd160.get bb 2)
  let h := Chf.Ripemd160.set h 1
    (Chf.Ripemd160.get h 2 + Chf.Ripemd160.get bb 3 + Chf.Ripemd160.get bbb 4)
  let h := Chf.Ripemd160.set h 2
    (Chf.Ripemd160.get h 3 + Chf.Ripemd160.get bb 4 + Chf.Ripemd160.get bbb 0)
  let h := Chf.Ripemd160.set h 3
    (Chf.Ripemd160.get h 4 + Chf.Ripemd160.get bb 0 + Chf.Ripemd160.get bbb 1)
  let h := Chf.Ripemd160.set h 4
    (Chf.Ripemd160.get h 0 + Chf.Ripemd160.get bb 1 + Chf.Ripemd160.get bbb 2)
  Chf.Ripemd160.set h 0 (Chf.Ripemd160.get bbb 3)

theorem macro_eq (cfg : Cfg) (h : Arr5 (BitVec 32)) (w : Vector (BitVec 32) 16) :
    Chf.Ripemd160.processBlockMacro cfg h w =
      combine h (steps.foldl (step (Chf.Ripemd160.round cfg) w) (h, h)).1
        (steps.foldl (step (Chf.Ripemd160.round cfg) w) (h, h)).2 := by
  unfold steps
  simp only [List.foldl_append, foldl_left, foldl_right]
  rfl

theorem process_block_fast_eq (cfg : Cfg) (hs : cfg.smallHash = false) (e : Chf.Ripemd160.Engine) :
    Engine.process_block_fast cfg (emb e) =
      (Chf.Ripemd160.processBlock cfg e.buffer e.h).map fun h => emb { e with h := h } := by
  unfold Engine.process_block_fast Chf.Ripemd160.processBlock
  simp only [map_bind, tryInto_le32, zipMut_eq_fillZip]
  refine bind_congr' fun _ _ => bind_congr' fun w hw => ?_
  obtain ⟨v, hv, rfl⟩ := arr16_toList w (fillZip_length _ _ _ _ hw)
  have hl := runSteps_eq _ _ (fast_steps cfg v) (e.h, e.h)
  have hround : Chf.Ripemd160.round cfg = Chf.Ripemd160.fastRound := by
    unfold Chf.Ripemd160.round; rw [hs]; rfl
  rw [hv, ok_bind, macro_eq, hround]
  generalize steps.foldl (step Chf.Ripemd160.fastRound v) (e.h, e.h) = t at hl
  obtain ⟨⟨a0, a1, a2, a3, a4⟩, ⟨b0, b1, b2, b3, b4⟩⟩ := t
  obtain ⟨buf, ⟨h0, h1, h2, h3, h4⟩, len⟩ := e
  simp only [pair, toList5] at hl
  simp only [emb, toList5, combine, hl, ok_bind, index5_0, index5_1, index5_2, index5_3, index5_4,
    indexSet5_0, indexSet5_1, indexSet5_2, indexSet5_3, indexSet5_4, get5_0, get5_1, get5_2, get5_3,
    get5_4, set5_0, set5_1, set5_2, set5_3, set5_4]
  rfl

theorem process_block_small_eq (cfg : Cfg) (hs : cfg.smallHash = true) (e : Chf.Ripemd160.Engine) :
    Engine.process_block_small cfg (emb e) =
      (Chf.Ripemd160.processBlock cfg e.buffer e.h).map fun h => emb { e with h := h } := by
  unfold Engine.process_block_small Chf.Ripemd160.processBlock
  simp only [map_bind, tryInto_le32, zipMut_eq_fillZip]
  refine bind_congr' fun _ _ => bind_congr' fun w hw => ?_
  obtain ⟨v, hv, rfl⟩ := arr16_toList w (fillZip_length _ _ _ _ hw)
  have hl := runSteps_eq _ _ (small_steps cfg v) (e.h, e.h)
  have hround : Chf.Ripemd160.round cfg = Chf.Ripemd160.smallRound := by
    unfold Chf.Ripemd160.round; rw [hs]; rfl
  rw [hv, ok_bind, macro_eq, hround]
  generalize steps.foldl (step Chf.Ripemd160.smallRound v) (e.h, e.h) = t at hl
  obtain ⟨⟨a0, a1, a2, a3, a4⟩, ⟨b0, b1, b2, b3, b4⟩⟩ := t
  obtain ⟨buf, ⟨h0, h1, h2, h3, h4⟩, len⟩ := e
  simp only [pair, toList5] at hl
  simp only [emb, toList5, combine, hl, ok_bind, index5_0, index5_1, index5_2, index5_3, index5_4,
    indexSet5_0, indexSet5_1, indexSet5_2, indexSet5_3, indexSet5_4, get5_0, get5_1, get5_2, get5_3,
    get5_4, set5_0, set5_1, set5_2, set5_3, set5_4]
  rfl

theorem process_block_eq (cfg : Cfg) (e : Chf.Ripemd160.Engine) :
    Engine.process_block cfg (emb e) =
      (BlockEngine.processBlock (Chf.Ripemd160.ops cfg) e).map emb := by
  have hm : (BlockEngine.processBlock (Chf.Ripemd160.ops cfg) e).map emb =
      (Chf.Ripemd160.processBlock cfg e.buffer e.h).map fun h => emb { e with h := h } := by
    unfold BlockEngine.processBlock Chf.Ripemd160.ops
    simp only
    cases Chf.Ripemd160.processBlock cfg e.buffer e.h <;> rfl
  rw [hm]
  unfold Engine.process_block
  cases hs : cfg.smallHash with
  | true =>
    simp only [if_true]
    rw [process_block_small_eq cfg hs]
  | false =>
    simp only [Bool.false_eq_true, if_false]
    rw [process_block_fast_eq cfg hs]

theorem input_eq (cfg : Cfg) (e : Chf.Ripemd160.Engine) (inp : List Byte)
    (h : inp.length < cfg.usizeMod) :
    Engine.input cfg (emb e) inp = (BlockEngine.input cfg (Chf.Ripemd160.ops cfg) e inp).map emb := by
  unfold Engine.input BlockEngine.input
  simp only
  rw [whileR_inputLoop cfg (Chf.Ripemd160.ops cfg) (Nat.succ_pos 63) emb _ _ inp.length _ e inp
    (Nat.le_refl _) h, map_bind_left]
  · rw [map_eq_bind]; rfl
  exact input_body_eq cfg (Chf.Ripemd160.ops cfg) (Nat.succ_pos 63) emb (Engine.process_block cfg)
    (process_block_eq cfg)

theorem midstate_eq (cfg : Cfg) (e : Chf.Ripemd160.Engine) :
    Engine.midstate cfg (emb e) = Chf.Ripemd160.midstate e := by
  unfold Engine.midstate Chf.Ripemd160.midstate
  simp only [zipChunksMut_eq_storeZip]
  rfl

theorem finalize_eq (cfg : Cfg) (hc : cfg.Valid) (e : Chf.Ripemd160.Engine) :
    Engine.finalize cfg (emb e) = Chf.Ripemd160.finalize cfg e := by
  have h := Rs.finalize_eq cfg hc (Chf.Ripemd160.ops cfg) emb (Engine.input cfg)
    (fun s => s.length) (fun _ => rfl) (input_eq cfg) (Engine.midstate cfg) 56 (by decide) pure []
    (fun _ => rfl) le64 (fun _ => rfl) e
  simp only [midstate_eq] at h
  exact h

theorem from_midstate_eq (cfg : Cfg) (m : List Byte) (length : Nat) :
    Engine.from_midstate cfg m length = (Chf.Ripemd160.fromMidstate m length).map emb := by
  unfold Engine.from_midstate Chf.Ripemd160.fromMidstate
  simp only [map_bind, tryInto_be32, zipMut_eq_fillZip]
  refine bind_congr' fun _ _ => bind_congr' fun l hl => ?_
  have := fillZip_length _ _ _ _ hl
  match l, this with
  | [a, b, c, d, e], _ => rfl

end Chf.Source.Ripemd160
