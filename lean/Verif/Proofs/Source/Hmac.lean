import Verif.Source.Hmac
import Verif.Model.Hmac
import Verif.Proofs.Source.Common

/-!
# The translation of `hmac.rs` against the model

`Sim cfg S M`: the engine dictionary `S` behaves as `M` does, operation by operation, when their
states and midstates are related by `st` and `mid`.  The translation of `hmac.rs` keeps this
relation.
-/

namespace Chf.Source
open Chf Chf.Rs

/-- `S` simulates `M`. -/
structure Sim (cfg : Cfg) (S M : HashEngine) where
  st : M.State → S.State
  mid : M.Midstate → S.Midstate
  blockSize : S.blockSize = M.blockSize
  default : S.default = M.default.map st
  new : S.new = M.new.map st
  input : ∀ e (d : List Byte), d.length < cfg.usizeMod → S.input (st e) d = (M.input e d).map st
  nBytesHashed : ∀ e, S.nBytesHashed (st e) = M.nBytesHashed e
  finalize : ∀ e, S.finalize (st e) = M.finalize e
  digest : ∀ e d, M.finalize e = .ok d → d.length < cfg.usizeMod
  midstate : ∀ e, S.midstate (st e) = (M.midstate e).map mid
  fromMidstate : ∀ m n, S.fromMidstate (mid m) n = (M.fromMidstate m n).map st
  /-- `mid` is a bijection: the callers of the two dictionaries have the same midstates. -/
  midInv : S.Midstate → M.Midstate
  mid_midInv : ∀ m, mid (midInv m) = m
  midInv_mid : ∀ m, midInv (mid m) = m

theorem Sim.inputs {cfg : Cfg} {S M : HashEngine} (s : Sim cfg S M) (e : M.State)
    (ds : List (List Byte)) (h : ∀ d ∈ ds, d.length < cfg.usizeMod) :
    S.inputs (s.st e) ds = (M.inputs e ds).map s.st := by
  induction ds generalizing e with
  | nil => rfl
  | cons d ds ih =>
    unfold HashEngine.inputs
    rw [s.input e d (h d (List.mem_cons_self ..)), map_bind_left, Rs.map_bind]
    exact bind_congr' fun e' _ => ih e' fun x hx => h x (List.mem_cons_of_mem _ hx)

theorem Sim.hash {cfg : Cfg} {S M : HashEngine} (s : Sim cfg S M) (d : List Byte)
    (h : d.length < cfg.usizeMod) : S.hash d = M.hash d := by
  unfold HashEngine.hash
  rw [s.new, map_bind_left]
  refine bind_congr' fun e _ => ?_
  rw [s.input e d h, map_bind_left]
  exact bind_congr' fun e _ => s.finalize e

theorem Sim.hashByteChunks {cfg : Cfg} {S M : HashEngine} (s : Sim cfg S M) (ds : List (List Byte))
    (h : ∀ d ∈ ds, d.length < cfg.usizeMod) : S.hashByteChunks ds = M.hashByteChunks ds := by
  unfold HashEngine.hashByteChunks
  rw [s.new, map_bind_left]
  refine bind_congr' fun e _ => ?_
  rw [s.inputs e ds h, map_bind_left]
  exact bind_congr' fun e _ => s.finalize e

namespace Hmac

theorem zipMut_eq_xorZip (ps ks : List Byte) :
    zipMut ps ks (fun p k => pure (p ^^^ k)) = .ok (Chf.Hmac.xorZip ps ks) := by
  induction ps generalizing ks with
  | nil => cases ks <;> rfl
  | cons p ps ih =>
    cases ks with
    | nil => rfl
    | cons k ks =>
      unfold zipMut
      rw [ih]
      rfl

variable {cfg : Cfg} {S M : HashEngine}

/-- The state of the translated HMAC engine for a state of the model's. -/
def emb (s : Sim cfg S M) (e : Chf.Hmac.Engine M) : Engine S :=
  { iengine := s.st e.iengine, oengine := s.st e.oengine }

/-- The same for midstates. -/
def embMid (s : Sim cfg S M) (m : Chf.Hmac.Midstate M) : Midstate S :=
  { inner := s.mid m.inner, outer := s.mid m.outer }

theorem sliceTo_le {α : Type} {l r : List α} {n : Nat} (h : sliceTo l n = .ok r) :
    r.length ≤ l.length := by
  unfold sliceTo at h
  split at h
  · cases h; rw [List.length_take]; exact Nat.min_le_right ..
  · cases h

theorem xorZip_length (ps ks : List Byte) : (Chf.Hmac.xorZip ps ks).length = ps.length := by
  induction ps generalizing ks with
  | nil => cases ks <;> rfl
  | cons p ps ih => cases ks with
    | nil => rfl
    | cons k ks => exact congrArg (· + 1) (ih ks)

theorem new_eq (hc : cfg.Valid) (s : Sim cfg S M) (key : List Byte) (hk : key.length < cfg.usizeMod) :
    Engine.new cfg S key = (Chf.Hmac.new cfg M key).map (emb s) := by
  have hM := usizeMod_ge hc
  unfold Engine.new Chf.Hmac.new
  simp only [zipMut_eq_xorZip, ok_bind, s.blockSize, s.default, map_bind_left, Rs.map_bind, s.hash key hk,
    decide_eq_true_eq]
  refine bind_congr' fun _ _ => bind_congr' fun i _ => bind_congr' fun o _ => ?_
  have tail : ∀ k : List Byte,
      (do
        let x_4 ← sliceTo (Chf.Hmac.xorZip (List.replicate 128 0x36#8) k) M.blockSize
        let x_5 ← S.input (s.st i) x_4
        let x_6 ← sliceTo (Chf.Hmac.xorZip (List.replicate 128 0x5c#8) k) M.blockSize
        let x_7 ← S.input (s.st o) x_6
        pure ({ iengine := x_5, oengine := x_7 } : Engine S)) =
      (do
        let x_4 ← sliceTo (Chf.Hmac.xorZip (List.replicate 128 0x36#8) k) M.blockSize
        let x_5 ← M.input i x_4
        let x_6 ← sliceTo (Chf.Hmac.xorZip (List.replicate 128 0x5c#8) k) M.blockSize
        let x_7 ← M.input o x_6
        (pure ({ iengine := x_5, oengine := x_7 } : Chf.Hmac.Engine M) : Res _).map (emb s)) := by
    intro k
    refine bind_congr' fun x hx => ?_
    have h1 := sliceTo_le hx
    rw [xorZip_length, List.length_replicate] at h1
    rw [s.input i x (by omega), map_bind_left]
    refine bind_congr' fun i' _ => bind_congr' fun y hy => ?_
    have h2 := sliceTo_le hy
    rw [xorZip_length, List.length_replicate] at h2
    rw [s.input o y (by omega), map_bind_left]
    rfl
  split
  · simp only [Rs.map_bind]
    exact bind_congr' fun d _ => tail d
  · simp only [pure_eq, ok_bind, Rs.map_bind]
    exact tail key

theorem default_eq (hc : cfg.Valid) (s : Sim cfg S M) :
    Engine.default cfg S = (Chf.Hmac.new cfg M []).map (emb s) := by
  unfold Engine.default
  rw [new_eq hc s [] (Nat.lt_of_lt_of_le (by decide) (usizeMod_ge hc))]

theorem input_eq (s : Sim cfg S M) (e : Chf.Hmac.Engine M) (d : List Byte)
    (h : d.length < cfg.usizeMod) :
    Engine.input cfg S (emb s e) d = ((Chf.Hmac.engine cfg M).input e d).map (emb s) := by
  unfold Engine.input emb
  simp only [s.input _ d h, map_bind_left, Chf.Hmac.engine, Rs.map_bind]
  rfl

theorem finalize_eq (s : Sim cfg S M) (e : Chf.Hmac.Engine M) :
    Engine.finalize cfg S (emb s e) = Chf.Hmac.finalize M e := by
  unfold Engine.finalize Chf.Hmac.finalize emb
  simp only [s.finalize]
  refine bind_congr' fun d hd => ?_
  rw [s.input _ d (s.digest _ _ hd), map_bind_left]
  exact bind_congr' fun o _ => s.finalize o

theorem digest_lt (s : Sim cfg S M) (e : Chf.Hmac.Engine M) (d : List Byte)
    (h : Chf.Hmac.finalize M e = .ok d) : d.length < cfg.usizeMod := by
  unfold Chf.Hmac.finalize at h
  cases h1 : M.finalize e.iengine with
  | error x => rw [h1] at h; cases h
  | ok i =>
    rw [h1, ok_bind] at h
    cases h2 : M.input e.oengine i with
    | error x => rw [h2] at h; cases h
    | ok o => rw [h2, ok_bind] at h; exact s.digest _ _ h

theorem midstate_eq (s : Sim cfg S M) (e : Chf.Hmac.Engine M) :
    Engine.midstate cfg S (emb s e) = ((Chf.Hmac.engine cfg M).midstate e).map (embMid s) := by
  unfold Engine.midstate emb
  simp only [s.midstate, map_bind_left, Chf.Hmac.engine, Rs.map_bind]
  rfl

theorem from_midstate_eq (s : Sim cfg S M) (m : Chf.Hmac.Midstate M) (n : Nat) :
    Engine.from_midstate cfg S (embMid s m) n =
      ((Chf.Hmac.engine cfg M).fromMidstate m n).map (emb s) := by
  unfold Engine.from_midstate embMid
  simp only [s.fromMidstate, map_bind_left, Chf.Hmac.engine, Rs.map_bind]
  rfl

/-- The translated HMAC of a simulating engine simulates the model's HMAC. -/
def sim (hc : cfg.Valid) (s : Sim cfg S M) : Sim cfg (engine cfg S) (Chf.Hmac.engine cfg M) where
  st := emb s
  mid := embMid s
  blockSize := s.blockSize
  default := default_eq hc s
  new := default_eq hc s
  input := input_eq s
  nBytesHashed e := s.nBytesHashed e.iengine
  finalize := finalize_eq s
  digest := digest_lt s
  midstate := midstate_eq s
  fromMidstate := from_midstate_eq s
  midInv m := Chf.Hmac.Midstate.mk (s.midInv m.inner) (s.midInv m.outer)
  mid_midInv m := by
    show embMid s ⟨_, _⟩ = _
    simp only [embMid, s.mid_midInv]
    rfl
  midInv_mid m := by
    show Chf.Hmac.Midstate.mk _ _ = _
    simp only [embMid, s.midInv_mid]
    rfl

end Hmac

end Chf.Source
