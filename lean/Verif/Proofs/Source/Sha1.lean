import Verif.Source.Sha1
import Verif.Model.Sha1
import Verif.Proofs.Source.Common

/-!
# The translation of `sha1.rs` against the model

`emb` embeds the model's engines into the translated type; every translated function commutes with
it.
-/

namespace Chf.Source.Sha1
open Chf Chf.Rs

/-- An engine of the model as an engine of the translated source. -/
def emb (e : Chf.Sha1.Engine) : Engine := { buffer := e.buffer, h := e.h.toList, length := e.length }

theorem expand_eq (cfg : Cfg) (w : List (BitVec 32)) :
    ((Rs.range 16 80).foldlM (init := w) fun w i => do
      let x_2 ← subUsize cfg i 3
      let x_3 ← index w x_2
      let x_4 ← subUsize cfg i 8
      let x_5 ← index w x_4
      let x_6 ← subUsize cfg i 14
      let x_7 ← index w x_6
      let x_8 ← subUsize cfg i 16
      let x_9 ← index w x_8
      let w ← indexSet w i ((((x_3 ^^^ x_5) ^^^ x_7) ^^^ x_9).rotateLeft 1)
      (pure w : Res (List (BitVec 32)))) = Chf.Sha1.expand w := by
  have hr : Rs.range 16 80 = (List.range 64).map (· + 16) := by decide
  rw [hr, Chf.Sha1.expand]
  have hge : ∀ i ∈ (List.range 64).map (· + 16), 16 ≤ i := by
    intro i hi
    simp only [List.mem_map] at hi
    obtain ⟨j, _, rfl⟩ := hi
    omega
  generalize (List.range 64).map (· + 16) = l at hge
  induction l generalizing w with
  | nil => rfl
  | cons i l ih =>
    have hi := hge i (by simp)
    simp only [List.foldlM_cons]
    have hsub : ∀ k, k ≤ 16 → subUsize cfg i k = .ok (i - k) := by
      intro k hk
      unfold subUsize
      rw [if_pos (by omega)]
    simp only [hsub 3 (by omega), hsub 8 (by omega), hsub 14 (by omega), hsub 16 (by omega), ok_bind,
      bind_assoc]
    refine bind_congr' fun a _ => bind_congr' fun b _ => bind_congr' fun c _ => bind_congr' fun d _ =>
      bind_congr' fun w' _ => ih w' fun j hj => hge j (List.mem_cons_of_mem _ hj)

theorem process_block_eq (cfg : Cfg) (e : Chf.Sha1.Engine) :
    Engine.process_block cfg (emb e) =
      (BlockEngine.processBlock (Chf.Sha1.ops cfg) e).map emb := by
  unfold Engine.process_block BlockEngine.processBlock
  simp only [Chf.Sha1.ops, Chf.Sha1.processBlock, bind_assoc, map_bind, tryInto_be32,
    zipMut_eq_fillZip, expand_eq]
  refine bind_congr' fun _ _ => ?_
  refine bind_congr' fun w _ => ?_
  refine bind_congr' fun w' _ => ?_
  have h0 : index (emb e).h 0 = .ok e.h.x0 := rfl
  have h1 : index (emb e).h 1 = .ok e.h.x1 := rfl
  have h2 : index (emb e).h 2 = .ok e.h.x2 := rfl
  have h3 : index (emb e).h 3 = .ok e.h.x3 := rfl
  have h4 : index (emb e).h 4 = .ok e.h.x4 := rfl
  simp only [h0, h1, h2, h3, h4, ok_bind]
  unfold Rs.enumerate
  rw [foldlM_sim (g := fun s (wi : BitVec 32 × Nat) => Chf.Sha1.step s wi.1 wi.2)
    (i := fun s => (s.x0, s.x1, s.x2, s.x3, s.x4)) (k := fun p => (p.2, p.1)) (b := e.h), map_bind_left]
  · rfl
  intro s wi
  obtain ⟨wi, i⟩ := wi
  simp only [Chf.Sha1.step, Chf.Sha1.fk, Nat.zero_le, decide_true, Bool.true_and, Bool.and_eq_true,
    decide_eq_true_eq]
  split
  · rfl
  split
  · rfl
  split
  · rfl
  split <;> rfl

theorem input_eq (cfg : Cfg) (e : Chf.Sha1.Engine) (inp : List Byte)
    (h : inp.length < cfg.usizeMod) :
    Engine.input cfg (emb e) inp = (BlockEngine.input cfg (Chf.Sha1.ops cfg) e inp).map emb := by
  unfold Engine.input BlockEngine.input
  simp only
  rw [whileR_inputLoop cfg (Chf.Sha1.ops cfg) (Nat.succ_pos 63) emb _ _ inp.length _ e inp
    (Nat.le_refl _) h, map_bind_left]
  · rw [map_eq_bind]; rfl
  exact input_body_eq cfg (Chf.Sha1.ops cfg) (Nat.succ_pos 63) emb (Engine.process_block cfg)
    (process_block_eq cfg)

theorem midstate_eq (cfg : Cfg) (e : Chf.Sha1.Engine) :
    Engine.midstate cfg (emb e) = Chf.Sha1.midstate e := by
  unfold Engine.midstate Chf.Sha1.midstate
  simp only [zipChunksMut_eq_storeZip]
  rfl

theorem finalize_eq (cfg : Cfg) (hc : cfg.Valid) (e : Chf.Sha1.Engine) :
    Engine.finalize cfg (emb e) = Chf.Sha1.finalize cfg e := by
  have h := Rs.finalize_eq cfg hc (Chf.Sha1.ops cfg) emb (Engine.input cfg) (fun s => s.length)
    (fun _ => rfl) (input_eq cfg) (Engine.midstate cfg) 56 (by decide) pure [] (fun _ => rfl)
    be64 (fun _ => rfl) e
  simp only [midstate_eq] at h
  exact h

theorem from_midstate_eq (cfg : Cfg) (m : List Byte) (length : Nat) :
    Engine.from_midstate cfg m length = (Chf.Sha1.fromMidstate m length).map emb := by
  unfold Engine.from_midstate Chf.Sha1.fromMidstate
  simp only [map_bind, tryInto_be32, zipMut_eq_fillZip]
  refine bind_congr' fun _ _ => bind_congr' fun l hl => ?_
  have := fillZip_length _ _ _ _ hl
  match l, this with
  | [a, b, c, d, e], _ => rfl

end Chf.Source.Sha1
