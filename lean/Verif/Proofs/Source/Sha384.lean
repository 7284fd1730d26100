import Verif.Source.Sha384
import Verif.Proofs.Source.Sha512

/-!
# The translation of `sha384.rs` against the model
-/

namespace Chf.Source.Sha384
open Chf Chf.Rs

/-- An engine of the model as an engine of the translated source. -/
def emb (e : Chf.Sha512.Engine) : Engine := { f0 := Sha512.emb e }

theorem input_eq (cfg : Cfg) (e : Chf.Sha512.Engine) (inp : List Byte)
    (h : inp.length < cfg.usizeMod) :
    Engine.input cfg (emb e) inp = (BlockEngine.input cfg (Chf.Sha512.ops cfg) e inp).map emb := by
  unfold Engine.input
  rw [show (emb e).f0 = Sha512.emb e from rfl, Sha512.input_eq cfg e inp h, map_bind_left,
    map_eq_bind]
  rfl

theorem midstate_eq (cfg : Cfg) (e : Chf.Sha512.Engine) :
    Engine.midstate cfg (emb e) = Chf.Sha512.midstate e := by
  unfold Engine.midstate
  rw [show (emb e).f0 = Sha512.emb e from rfl, Sha512.midstate_eq]

theorem finalize_eq (cfg : Cfg) (hc : cfg.Valid) (e : Chf.Sha512.Engine) :
    Engine.finalize cfg (emb e) = (Chf.Sha384.engine cfg).finalize e := by
  unfold Engine.finalize
  rw [show (emb e).f0 = Sha512.emb e from rfl, Sha512.finalize_eq cfg hc]
  refine bind_congr' fun d _ => bind_congr' fun d _ => ?_
  exact copyFromSlice_full _ d

theorem from_midstate_eq (cfg : Cfg) (m : List Byte) (length : Nat) :
    Engine.from_midstate cfg m length = (Chf.Sha512.fromMidstate m length).map emb := by
  unfold Engine.from_midstate
  rw [Sha512.from_midstate_eq, map_bind_left, map_eq_bind]
  rfl

end Chf.Source.Sha384
