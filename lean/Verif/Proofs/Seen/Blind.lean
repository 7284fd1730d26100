import Verif.Proofs.Seen.Siphash24
import Verif.Seen.Hmac
import Verif.Seen.Lib

/-!
# Engines of the translated text that cannot be told apart by what is seen of them
-/

namespace Chf.Seen
open Chf Tr

/-- Nothing that is seen of this engine tells states with `R` or midstates with `M` apart. -/
structure Blind {E : HashEngine} (E' : Tr.HashEngine E) (R : E.State → E.State → Prop)
    (M : E.Midstate → E.Midstate → Prop) : Prop where
  default : SameSeen R E'.default E'.default
  new : SameSeen R E'.new E'.new
  input : ∀ {e e' d d'}, R e e' → Len d d' → SameSeen R (E'.input e d) (E'.input e' d')
  finalize : ∀ {e e'}, R e e' → SameSeen Len (E'.finalize e) (E'.finalize e')
  midstate : ∀ {e e'}, R e e' → SameSeen M (E'.midstate e) (E'.midstate e')
  fromMidstate : ∀ {m m'}, M m m' → ∀ n, SameSeen R (E'.fromMidstate m n) (E'.fromMidstate m' n)
  count : ∀ {e e'}, R e e' → E.nBytesHashed e = E.nBytesHashed e'

theorem Blind.hash {E : HashEngine} {E' : Tr.HashEngine E} {R M} (h : Blind E' R M) {d d' : List Byte}
    (hd : Len d d') : SameSeen Len (E'.hash d) (E'.hash d') :=
  .bind h.new fun _ _ he => .bind (h.input he hd) fun _ _ he => h.finalize he

namespace Lib

theorem hash_same (cfg : Cfg) {E : HashEngine} {E' : Tr.HashEngine E} {R M} (h : Blind E' R M)
    {d d' : List Byte} (hd : Len d d') :
    SameSeen Len (HashEngine.hash cfg E E' d) (HashEngine.hash cfg E E' d') := h.hash hd

theorem hash_byte_chunks_same (cfg : Cfg) {E : HashEngine} {E' : Tr.HashEngine E} {R M}
    (h : Blind E' R M) {ds ds' : List (List Byte)} (hd : SameSeen.Each Len ds ds') :
    SameSeen Len (HashEngine.hash_byte_chunks cfg E E' ds) (HashEngine.hash_byte_chunks cfg E E' ds') := by
  unfold HashEngine.hash_byte_chunks
  refine .bind h.new fun _ _ he => .bind (SameSeen.each (P := Len) (R := R) (fun _ _ _ _ he hd => ?_) hd he)
    fun _ _ he => ?_
  · exact h.input he hd
  · exact h.finalize he

end Lib

theorem Sha1.blind (cfg : Cfg) : Blind (Sha1.engine cfg) Sha1.Alike Len where
  default := SameSeen.pure' ⟨rfl, rfl, rfl⟩
  new := SameSeen.pure' ⟨rfl, rfl, rfl⟩
  input h hd := Sha1.input_same cfg h hd
  finalize h := Sha1.finalize_same cfg h
  midstate h := Sha1.midstate_same cfg h
  fromMidstate h n := Sha1.from_midstate_same cfg h n
  count h := h.2.2

theorem Ripemd160.blind (cfg : Cfg) : Blind (Ripemd160.engine cfg) Ripemd160.Alike Len where
  default := SameSeen.pure' ⟨rfl, rfl, rfl⟩
  new := SameSeen.pure' ⟨rfl, rfl, rfl⟩
  input h hd := Ripemd160.input_same cfg h hd
  finalize h := Ripemd160.finalize_same cfg h
  midstate h := Ripemd160.midstate_same cfg h
  fromMidstate h n := Ripemd160.from_midstate_same cfg h n
  count h := h.2.2

theorem Sha256.blind (cfg : Cfg) :
    Blind (Sha256.engine cfg) Sha256.Alike (fun m m' => Len m.f0 m'.f0) where
  default := SameSeen.pure' ⟨rfl, rfl, rfl⟩
  new := SameSeen.pure' ⟨rfl, rfl, rfl⟩
  input h hd := Sha256.input_same cfg h hd
  finalize h := Sha256.finalize_same cfg h
  midstate h := Sha256.midstate_same cfg h
  fromMidstate h n := Sha256.from_midstate_same cfg h n
  count h := h.2.2

theorem Sha512.blind (cfg : Cfg) : Blind (Sha512.engine cfg) Sha512.Alike Len where
  default := SameSeen.pure' ⟨rfl, rfl, rfl⟩
  new := SameSeen.pure' ⟨rfl, rfl, rfl⟩
  input h hd := Sha512.input_same cfg h hd
  finalize h := Sha512.finalize_same cfg h
  midstate h := Sha512.midstate_same cfg h
  fromMidstate h n := Sha512.from_midstate_same cfg h n
  count h := h.2.2

theorem Sha384.blind (cfg : Cfg) :
    Blind (Sha384.engine cfg) (fun e e' => Sha512.Alike e.f0 e'.f0) Len where
  default := SameSeen.pure' ⟨rfl, rfl, rfl⟩
  new := SameSeen.pure' ⟨rfl, rfl, rfl⟩
  input h hd := SameSeen.bind (Sha512.input_same cfg h hd) fun _ _ h => SameSeen.pure' h
  finalize h := by
    refine SameSeen.bind (Sha512.finalize_same cfg h) fun _ _ h => ?_
    exact SameSeen.bind (SameSeen.sliceTo h) fun _ _ h => SameSeen.copyFromSlice rfl h
  midstate h := Sha512.midstate_same cfg h
  fromMidstate h n := SameSeen.bind (Sha512.from_midstate_same cfg h n) fun _ _ h => SameSeen.pure' h
  count h := h.2.2

theorem Sha512_256.blind (cfg : Cfg) :
    Blind (Sha512_256.engine cfg) (fun e e' => Sha512.Alike e.f0 e'.f0) Len where
  default := SameSeen.pure' ⟨rfl, rfl, rfl⟩
  new := SameSeen.pure' ⟨rfl, rfl, rfl⟩
  input h hd := SameSeen.bind (Sha512.input_same cfg h hd) fun _ _ h => SameSeen.pure' h
  finalize h := by
    refine SameSeen.bind (Sha512.finalize_same cfg h) fun _ _ h => ?_
    exact SameSeen.bind (SameSeen.sliceTo h) fun _ _ h => SameSeen.copyFromSlice rfl h
  midstate h := Sha512.midstate_same cfg h
  fromMidstate h n := SameSeen.bind (Sha512.from_midstate_same cfg h n) fun _ _ h => SameSeen.pure' h
  count h := h.2.2

theorem Siphash24.blind (cfg : Cfg) : Blind (Siphash24.engine cfg) Siphash24.Alike Any where
  default := SameSeen.pure' ⟨rfl, rfl⟩
  new := SameSeen.pure' ⟨rfl, rfl⟩
  input h hd := Siphash24.input_same cfg h hd
  finalize _ := SameSeen.pure' (toLeBytes_len _ _)
  midstate _ := SameSeen.pure' trivial
  fromMidstate _ _ := SameSeen.pure' ⟨rfl, rfl⟩
  count h := h.1

theorem Sha256t.blind (cfg : Cfg) {T : Source.Sha256t.Tag} {T' : Sha256t.Tag}
    (hT : SameSeen (fun e e' => Sha256.Alike e.f0 e'.f0) T'.engine T'.engine) :
    Blind (Sha256t.engine cfg T T') (fun e e' => Sha256.Alike e.f0 e'.f0) (fun m m' => Len m.f0 m'.f0) where
  default := hT
  new := hT
  input h hd := SameSeen.bind (Sha256.input_same cfg h hd) fun _ _ h => SameSeen.pure' h
  finalize h := Sha256.finalize_same cfg h
  midstate h := Sha256.midstate_same cfg h
  fromMidstate h n := SameSeen.bind (Sha256.from_midstate_same cfg h n) fun _ _ h => SameSeen.pure' h
  count h := h.2.2

namespace Hmac

theorem xor_same {p p' k k' : List Byte} (hp : Len p p') (hk : Len k k') :
    SameSeen Len (Tr.zipMut p k fun b h => pure (b ^^^ h)) (Tr.zipMut p' k' fun b h => pure (b ^^^ h)) :=
  SameSeen.zipMut (P := Any) (fun _ _ _ _ _ => SameSeen.pure' trivial) hp (SameSeen.Each.ofLen hk)

/-- Engines that cannot be told apart. -/
abbrev Alike {E : HashEngine} (R : E.State → E.State → Prop) (e e' : Source.Hmac.Engine E) : Prop :=
  R e.iengine e'.iengine ∧ R e.oengine e'.oengine

theorem new_same (cfg : Cfg) {E : HashEngine} {E' : Tr.HashEngine E} {R M} (h : Blind E' R M)
    {k k' : List Byte} (hk : Len k k') :
    SameSeen (Alike R) (Engine.new cfg E E' k) (Engine.new cfg E E' k') := by
  unfold Engine.new
  rw [hk]
  dsimp only
  same_step
  refine SameSeen.bind h.default fun i i' hi => SameSeen.bind h.default fun o o' ho => ?_
  refine SameSeen.bind (R := fun p q => Len p.1 q.1 ∧ Len p.2 q.2) (SameSeen.testThen (fun _ => ?_) fun _ => ?_) ?_
  · refine SameSeen.bind (h.hash hk) fun _ _ hh => ?_
    exact SameSeen.bind (xor_same rfl hh) fun _ _ h1 => SameSeen.bind (xor_same rfl hh) fun _ _ h2 =>
      SameSeen.pure' ⟨h1, h2⟩
  · exact SameSeen.bind (xor_same rfl hk) fun _ _ h1 => SameSeen.bind (xor_same rfl hk) fun _ _ h2 =>
      SameSeen.pure' ⟨h1, h2⟩
  · rintro ⟨p, q⟩ ⟨p', q'⟩ ⟨hp, hq⟩
    exact SameSeen.bind (SameSeen.sliceTo hp) fun _ _ hp => SameSeen.bind (h.input hi hp) fun _ _ hi =>
      SameSeen.bind (SameSeen.sliceTo hq) fun _ _ hq => SameSeen.bind (h.input ho hq) fun _ _ ho =>
        SameSeen.pure' ⟨hi, ho⟩

theorem blind (cfg : Cfg) {E : HashEngine} {E' : Tr.HashEngine E} {R M} (h : Blind E' R M) :
    Blind (Hmac.engine cfg E E') (Alike R) (fun m m' => M m.inner m'.inner ∧ M m.outer m'.outer) where
  default := new_same cfg h rfl
  new := new_same cfg h rfl
  input he hd := SameSeen.bind (h.input he.1 hd) fun _ _ hi => SameSeen.pure' ⟨hi, he.2⟩
  finalize he := SameSeen.bind (h.finalize he.1) fun _ _ hd => SameSeen.bind (h.input he.2 hd) fun _ _ ho =>
    h.finalize ho
  midstate he := SameSeen.bind (h.midstate he.1) fun _ _ hi => SameSeen.bind (h.midstate he.2) fun _ _ ho =>
    SameSeen.pure' ⟨hi, ho⟩
  fromMidstate hm n := SameSeen.bind (h.fromMidstate hm.1 n) fun _ _ hi =>
    SameSeen.bind (h.fromMidstate hm.2 n) fun _ _ ho => SameSeen.pure' ⟨hi, ho⟩
  count he := h.count he.1

end Hmac

end Chf.Seen
