import Verif.Proofs.Seen.Results

/-!
# Observed engines compute what the engines compute
-/

namespace Chf.Seen
open Chf Tr

/-- The observed methods compute what the methods compute. -/
structure Erases {E : HashEngine} (E' : Tr.HashEngine E) : Prop where
  default : E'.default.res = E.default
  new : E'.new.res = E.new
  input : ∀ e d, (E'.input e d).res = E.input e d
  finalize : ∀ e, (E'.finalize e).res = E.finalize e
  midstate : ∀ e, (E'.midstate e).res = E.midstate e
  fromMidstate : ∀ m n, (E'.fromMidstate m n).res = E.fromMidstate m n

theorem Erases.hash {E : HashEngine} {E' : Tr.HashEngine E} (h : Erases E') (d : List Byte) :
    (E'.hash d).res = E.hash d :=
  bindE h.new fun _ => bindE (h.input _ _) fun _ => h.finalize _

theorem Lib.hash_res (cfg : Cfg) {E : HashEngine} {E' : Tr.HashEngine E} (h : Erases E') (d : List Byte) :
    (Lib.HashEngine.hash cfg E E' d).res = Source.Lib.HashEngine.hash cfg E d := by
  unfold Lib.HashEngine.hash Source.Lib.HashEngine.hash
  erase [h.new, h.input _ _, h.finalize _]

theorem Lib.hash_byte_chunks_res (cfg : Cfg) {E : HashEngine} {E' : Tr.HashEngine E} (h : Erases E')
    (ds : List (List Byte)) :
    (Lib.HashEngine.hash_byte_chunks cfg E E' ds).res = Source.Lib.HashEngine.hash_byte_chunks cfg E ds := by
  unfold Lib.HashEngine.hash_byte_chunks Source.Lib.HashEngine.hash_byte_chunks
  erase [h.new, h.input _ _, h.finalize _]

theorem Sha1.erases (cfg : Cfg) : Erases (Sha1.engine cfg) :=
  ⟨rfl, rfl, Sha1.input_res cfg, Sha1.finalize_res cfg, Sha1.midstate_res cfg, Sha1.from_midstate_res cfg⟩

theorem Ripemd160.erases (cfg : Cfg) : Erases (Ripemd160.engine cfg) :=
  ⟨rfl, rfl, Ripemd160.input_res cfg, Ripemd160.finalize_res cfg, Ripemd160.midstate_res cfg,
    Ripemd160.from_midstate_res cfg⟩

theorem Sha512.erases (cfg : Cfg) : Erases (Sha512.engine cfg) :=
  ⟨rfl, rfl, Sha512.input_res cfg, Sha512.finalize_res cfg, Sha512.midstate_res cfg,
    Sha512.from_midstate_res cfg⟩

theorem Sha256.erases (cfg : Cfg) : Erases (Sha256.engine cfg) :=
  ⟨rfl, rfl, Sha256.input_res cfg, Sha256.finalize_res cfg, Sha256.midstate_res cfg,
    Sha256.trait_from_midstate_res cfg⟩

theorem Sha384.erases (cfg : Cfg) : Erases (Sha384.engine cfg) :=
  ⟨rfl, rfl, Sha384.input_res cfg, Sha384.finalize_res cfg, Sha384.midstate_res cfg,
    Sha384.from_midstate_res cfg⟩

theorem Sha512_256.erases (cfg : Cfg) : Erases (Sha512_256.engine cfg) :=
  ⟨rfl, rfl, Sha512_256.input_res cfg, Sha512_256.finalize_res cfg, Sha512_256.midstate_res cfg,
    Sha512_256.from_midstate_res cfg⟩

theorem Siphash24.erases (cfg : Cfg) : Erases (Siphash24.engine cfg) :=
  ⟨rfl, rfl, Siphash24.input_res cfg, fun _ => rfl, fun _ => rfl, fun _ _ => rfl⟩

theorem Sha256t.erases (cfg : Cfg) {T : Source.Sha256t.Tag} {T' : Sha256t.Tag} (h : T'.engine.res = T.engine) :
    Erases (Sha256t.engine cfg T T') :=
  ⟨h, h, Sha256t.input_res cfg T T', Sha256t.finalize_res cfg T T', Sha256t.midstate_res cfg T T',
    Sha256t.from_midstate_res cfg T T'⟩

theorem Hmac.new_res (cfg : Cfg) {E : HashEngine} {E' : Tr.HashEngine E} (h : Erases E') (k : List Byte) :
    (Hmac.Engine.new cfg E E' k).res = Source.Hmac.Engine.new cfg E k := by
  unfold Hmac.Engine.new Source.Hmac.Engine.new
  dsimp only
  erase [h.default, h.hash _, h.input _ _]

theorem Hmac.erases (cfg : Cfg) {E : HashEngine} {E' : Tr.HashEngine E} (h : Erases E') :
    Erases (Hmac.engine cfg E E') where
  default := Hmac.new_res cfg h []
  new := Hmac.new_res cfg h []
  input _ _ := bindE (h.input _ _) fun _ => rfl
  finalize _ := bindE (h.finalize _) fun _ => bindE (h.input _ _) fun _ => h.finalize _
  midstate _ := bindE (h.midstate _) fun _ => bindE (h.midstate _) fun _ => rfl
  fromMidstate _ _ := bindE (h.fromMidstate _ _) fun _ => bindE (h.fromMidstate _ _) fun _ => rfl

end Chf.Seen
