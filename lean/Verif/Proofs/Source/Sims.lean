import Verif.Model.Text
import Verif.Proofs.Source.Sha1
import Verif.Proofs.Source.Sha256
import Verif.Proofs.Source.Sha384
import Verif.Proofs.Source.Sha512_256
import Verif.Proofs.Source.Ripemd160
import Verif.Proofs.Source.Siphash24
import Verif.Proofs.Source.Hmac

/-!
# Every engine of the translation simulates the model's
-/

namespace Chf.Source
open Chf Chf.Rs

theorem storeZip_length {α : Type} (k : Nat) (enc : α → List Byte) (vs : List α) (ret d : List Byte)
    (h : storeZip k enc vs ret = .ok d) : d.length = ret.length := by
  induction vs generalizing ret d with
  | nil => cases h; rfl
  | cons v vs ih =>
    unfold storeZip at h
    split at h
    · cases h; rfl
    · split at h
      · cases h1 : storeZip k enc vs (ret.drop k) with
        | error x => rw [h1] at h; cases h
        | ok r =>
          rw [h1] at h
          cases h
          have := ih _ _ h1
          rw [List.length_append, this, List.length_drop]
          omega
      · cases h

theorem bind_ok_of {α β : Type} {x : Res α} {f : α → Res β} {y : β} (h : (x >>= f) = .ok y) :
    ∃ a, x = .ok a ∧ f a = .ok y := by
  cases x with
  | error e => cases h
  | ok a => exact ⟨a, rfl, h⟩

theorem copyIntoRange_length {dst src d : List Byte} {lo hi : Nat}
    (h : copyIntoRange dst lo hi src = .ok d) : d.length = dst.length := by
  unfold copyIntoRange at h
  split at h
  · split at h
    · cases h
      simp only [List.length_append, List.length_take, List.length_drop]
      omega
    · cases h
  · cases h

theorem map_id_res {α : Type} (x : Res α) : x.map id = x := by cases x <;> rfl

theorem Sha1.digest (cfg : Cfg) (e : Chf.Sha1.Engine) (d : List Byte)
    (h : Chf.Sha1.finalize cfg e = .ok d) : d.length = 20 := by
  obtain ⟨_, _, h⟩ := bind_ok_of h
  exact storeZip_length _ _ _ _ _ h

theorem Sha256.digest (cfg : Cfg) (e : Chf.Sha256.Engine) (d : List Byte)
    (h : Chf.Sha256.finalize cfg e = .ok d) : d.length = 32 := by
  obtain ⟨_, _, h⟩ := bind_ok_of h
  exact storeZip_length _ _ _ _ _ h

theorem Sha512.digest (cfg : Cfg) (e : Chf.Sha512.Engine) (d : List Byte)
    (h : Chf.Sha512.finalize cfg e = .ok d) : d.length = 64 := by
  obtain ⟨_, _, h⟩ := bind_ok_of h
  exact storeZip_length _ _ _ _ _ h

theorem Ripemd160.digest (cfg : Cfg) (e : Chf.Ripemd160.Engine) (d : List Byte)
    (h : Chf.Ripemd160.finalize cfg e = .ok d) : d.length = 20 := by
  obtain ⟨_, _, h⟩ := bind_ok_of h
  exact storeZip_length _ _ _ _ _ h

theorem lt_usizeMod {cfg : Cfg} (hc : cfg.Valid) {d : List Byte} {n : Nat} (h : d.length = n)
    (hn : n < 65536) : d.length < cfg.usizeMod := h ▸ Nat.lt_of_lt_of_le hn (usizeMod_ge hc)

def Sha1.sim {cfg : Cfg} (hc : cfg.Valid) : Sim cfg (Sha1.engine cfg) (Chf.Sha1.engine cfg) where
  st := Sha1.emb
  mid := id
  blockSize := rfl
  default := rfl
  new := rfl
  input := Sha1.input_eq cfg
  nBytesHashed _ := rfl
  finalize := Sha1.finalize_eq cfg hc
  digest e d h := lt_usizeMod hc (Sha1.digest cfg e d h) (by decide)
  midstate e := (Sha1.midstate_eq cfg e).trans (map_id_res _).symm
  fromMidstate := Sha1.from_midstate_eq cfg
  midInv := id
  mid_midInv _ := rfl
  midInv_mid _ := rfl

def Sha512.sim {cfg : Cfg} (hc : cfg.Valid) : Sim cfg (Sha512.engine cfg) (Chf.Sha512.engine cfg) where
  st := Sha512.emb
  mid := id
  blockSize := rfl
  default := rfl
  new := rfl
  input := Sha512.input_eq cfg
  nBytesHashed _ := rfl
  finalize := Sha512.finalize_eq cfg hc
  digest e d h := lt_usizeMod hc (Sha512.digest cfg e d h) (by decide)
  midstate e := (Sha512.midstate_eq cfg e).trans (map_id_res _).symm
  fromMidstate := Sha512.from_midstate_eq cfg
  midInv := id
  mid_midInv _ := rfl
  midInv_mid _ := rfl

def Ripemd160.sim {cfg : Cfg} (hc : cfg.Valid) : Sim cfg (Ripemd160.engine cfg) (Chf.Ripemd160.engine cfg) where
  st := Ripemd160.emb
  mid := id
  blockSize := rfl
  default := rfl
  new := rfl
  input := Ripemd160.input_eq cfg
  nBytesHashed _ := rfl
  finalize := Ripemd160.finalize_eq cfg hc
  digest e d h := lt_usizeMod hc (Ripemd160.digest cfg e d h) (by decide)
  midstate e := (Ripemd160.midstate_eq cfg e).trans (map_id_res _).symm
  fromMidstate := Ripemd160.from_midstate_eq cfg
  midInv := id
  mid_midInv _ := rfl
  midInv_mid _ := rfl

theorem Sha384.digest (cfg : Cfg) (e : Chf.Sha512.Engine) (d : List Byte)
    (h : (Chf.Sha384.engine cfg).finalize e = .ok d) : d.length = 48 := by
  obtain ⟨f, hf, h⟩ := bind_ok_of h
  have hl := Sha512.digest cfg e f hf
  obtain ⟨g, hg, h⟩ := bind_ok_of h
  have hr : (List.replicate 48 (0 : Byte)).length = 48 := List.length_replicate ..
  exact (copyIntoRange_length h).trans hr

def Sha384.sim {cfg : Cfg} (hc : cfg.Valid) : Sim cfg (Sha384.engine cfg) (Chf.Sha384.engine cfg) where
  st := Sha384.emb
  mid := id
  blockSize := rfl
  default := rfl
  new := rfl
  input := Sha384.input_eq cfg
  nBytesHashed _ := rfl
  finalize := Sha384.finalize_eq cfg hc
  digest e d h := lt_usizeMod hc (Sha384.digest cfg e d h) (by decide)
  midstate e := (Sha384.midstate_eq cfg e).trans (map_id_res _).symm
  fromMidstate := Sha384.from_midstate_eq cfg
  midInv := id
  mid_midInv _ := rfl
  midInv_mid _ := rfl

theorem Sha512_256.digest (cfg : Cfg) (e : Chf.Sha512.Engine) (d : List Byte)
    (h : (Chf.Sha512_256.engine cfg).finalize e = .ok d) : d.length = 32 := by
  obtain ⟨f, hf, h⟩ := bind_ok_of h
  have hl := Sha512.digest cfg e f hf
  obtain ⟨g, hg, h⟩ := bind_ok_of h
  have hr : (List.replicate 32 (0 : Byte)).length = 32 := List.length_replicate ..
  exact (copyIntoRange_length h).trans hr

def Sha512_256.sim {cfg : Cfg} (hc : cfg.Valid) : Sim cfg (Sha512_256.engine cfg) (Chf.Sha512_256.engine cfg) where
  st := Sha512_256.emb
  mid := id
  blockSize := rfl
  default := rfl
  new := rfl
  input := Sha512_256.input_eq cfg
  nBytesHashed _ := rfl
  finalize := Sha512_256.finalize_eq cfg hc
  digest e d h := lt_usizeMod hc (Sha512_256.digest cfg e d h) (by decide)
  midstate e := (Sha512_256.midstate_eq cfg e).trans (map_id_res _).symm
  fromMidstate := Sha512_256.from_midstate_eq cfg
  midInv := id
  mid_midInv _ := rfl
  midInv_mid _ := rfl

def Sha256.sim {cfg : Cfg} (hc : cfg.Valid) : Sim cfg (Sha256.engine cfg) (Chf.Sha256.engine cfg) where
  st := Sha256.emb
  mid := Sha256.Midstate.mk
  blockSize := rfl
  default := rfl
  new := rfl
  input := Sha256.input_eq cfg hc
  nBytesHashed _ := rfl
  finalize := Sha256.finalize_eq cfg hc
  digest e d h := lt_usizeMod hc (Sha256.digest cfg e d h) (by decide)
  midstate := Sha256.midstate_eq cfg
  fromMidstate m n := Sha256.from_midstate_eq cfg ⟨m⟩ n
  midInv := Sha256.Midstate.f0
  mid_midInv _ := rfl
  midInv_mid _ := rfl

def Siphash24.sim {cfg : Cfg} (hc : cfg.Valid) :
    Sim cfg (Siphash24.engine cfg) (Chf.Siphash24.engine cfg) where
  st := Siphash24.emb
  mid := Siphash24.embState
  blockSize := rfl
  default := rfl
  new := rfl
  input := Siphash24.input_eq cfg hc
  nBytesHashed _ := rfl
  finalize e := congrArg Except.ok (Siphash24.finalize_eq cfg e)
  digest e d h := by
    cases h
    exact lt_usizeMod hc (Siphash24.length_leOfNat 8 _) (by decide)
  midstate _ := rfl
  fromMidstate _ _ := rfl
  midInv m := Chf.Siphash24.State.mk m.v0 m.v2 m.v1 m.v3
  mid_midInv _ := rfl
  midInv_mid _ := rfl

namespace Sha256t

/-- The state of the translated tagged engine for a state of the model's. -/
def emb (e : Chf.Sha256.Engine) : Engine := { f0 := Sha256.emb e, f1 := () }

/-- For tags that agree, the translated tagged engine simulates the model's. -/
def sim {cfg : Cfg} (hc : cfg.Valid) (T : Tag) (T' : Chf.Sha256t.Tag)
    (h : T.engine = T'.engine.map emb) :
    Sim cfg (engine cfg T) (Chf.Sha256t.engine cfg T') where
  st := emb
  mid := Sha256.Midstate.mk
  blockSize := rfl
  default := h
  new := h
  input e d hd := by
    show (do let x ← Sha256.Engine.input cfg (Sha256.emb e) d; pure ({ f0 := x, f1 := () } : Engine)) = _
    rw [Sha256.input_eq cfg hc e d hd, map_bind_left]
    exact (map_eq_bind _ _).symm
  nBytesHashed _ := rfl
  finalize e := Sha256.finalize_eq cfg hc e
  digest e d h := lt_usizeMod hc (Sha256.digest cfg e d h) (by decide)
  midstate e := Sha256.midstate_eq cfg e
  fromMidstate m n := by
    show (do let x ← Sha256.Engine.HashEngine.from_midstate cfg ⟨m⟩ n; pure ({ f0 := x, f1 := () } : Engine)) = _
    rw [Sha256.from_midstate_eq cfg ⟨m⟩ n, map_bind_left]
    exact (map_eq_bind _ _).symm
  midInv := Sha256.Midstate.f0
  mid_midInv _ := rfl
  midInv_mid _ := rfl

theorem ofMidstate_eq (cfg : Cfg) (hc : cfg.Valid) (mid : List Byte) (len : Nat) (data : List Byte)
    (h : data.length < cfg.usizeMod) :
    (Tag.ofMidstate cfg mid len data).engine =
      (Chf.Sha256t.Tag.ofMidstate cfg mid len data).engine.map emb := by
  unfold Tag.ofMidstate Chf.Sha256t.Tag.ofMidstate
  show _ = Except.map emb (Chf.Sha256.fromMidstate mid len >>= fun e =>
    BlockEngine.input cfg (Chf.Sha256.ops cfg) e data)
  simp only [Sha256.from_midstate_copy, Sha256.from_midstate_eq, map_bind_left, Rs.map_bind]
  refine bind_congr' fun e _ => ?_
  rw [Sha256.input_eq cfg hc e data h, map_bind_left]
  exact (map_eq_bind _ _).symm

end Sha256t

/-- Every engine type, made of the translated functions, simulates the model's. -/
def algSim {cfg : Cfg} (hc : cfg.Valid) : (a : Alg) → Fits cfg a →
    Sim cfg (engineOf cfg a) (a.engine cfg)
  | .sha1, _ => Sha1.sim hc
  | .sha256, _ => Sha256.sim hc
  | .sha384, _ => Sha384.sim hc
  | .sha512, _ => Sha512.sim hc
  | .sha512_256, _ => Sha512_256.sim hc
  | .ripemd160, _ => Ripemd160.sim hc
  | .siphash24, _ => Siphash24.sim hc
  | .sha256t mid len data, h => Sha256t.sim hc _ _ (Sha256t.ofMidstate_eq cfg hc mid len data h)
  | .hmac a, h => Hmac.sim hc (algSim hc a h)

end Chf.Source
