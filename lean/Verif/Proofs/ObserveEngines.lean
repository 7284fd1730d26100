import Verif.Proofs.ObserveBlocks
import Verif.Proofs.Bytes

/-!
# The observed engines
-/

namespace Chf
open Obs

/-- The observed methods compute the methods. -/
structure Observed.Erases {E : HashEngine} (O : Observed E) : Prop where
  default : O.default.res = E.default
  new : O.new.res = E.new
  input : ∀ e d, (O.input e d).res = E.input e d
  finalize : ∀ e, (O.finalize e).res = E.finalize e
  midstate : ∀ e, (O.midstate e).res = E.midstate e
  fromMidstate : ∀ μ n, (O.fromMidstate μ n).res = E.fromMidstate μ n

/-- What is seen of the methods is the same for related engines, related midstates and data of the same
length. -/
structure Observed.Blind {E : HashEngine} (O : Observed E) (S : E.State → E.State → Prop)
    (M : E.Midstate → E.Midstate → Prop) : Prop where
  refl : ∀ e, S e e
  count : ∀ {e e'}, S e e' → E.nBytesHashed e = E.nBytesHashed e'
  input : ∀ {e e' d d'}, S e e' → Len d d' → Same S (O.input e d) (O.input e' d')
  finalize : ∀ {e e'}, S e e' → Same Len (O.finalize e) (O.finalize e')
  midstate : ∀ {e e'}, S e e' → Same M (O.midstate e) (O.midstate e')
  fromMidstate : ∀ {μ μ'} (n : Nat), M μ μ' → Same S (O.fromMidstate μ n) (O.fromMidstate μ' n)

theorem Same.ofRefl {α : Type} {R : α → α → Prop} (h : ∀ a, R a a) (x : Obs α) : Same R x x :=
  ⟨rfl, ResRel.refl h _⟩

theorem Observed.Blind.hash {E : HashEngine} {O : Observed E} {S M} (h : O.Blind S M)
    {d d' : List Byte} (hd : Len d d') : Same Len (O.hash d) (O.hash d') :=
  Same.bind (Same.ofRefl h.refl _) fun _ _ h1 => Same.bind (h.input h1 hd) fun _ _ h2 => h.finalize h2

theorem Observed.Erases.hash {E : HashEngine} {O : Observed E} (h : O.Erases) (d : List Byte) :
    (O.hash d).res = E.hash d := by
  unfold Observed.hash HashEngine.hash
  simp only [bind_res, h.new, h.input, h.finalize]

theorem BlockEngine.Rel.rfl {H : Type} (e : BlockEngine H) : BlockEngine.Rel e e := ⟨Eq.refl _, Eq.refl _⟩

/-! ### The four engines with a buffer -/

namespace Sha256

theorem midstateO_same (e e' : Engine) : Same Len (midstateO e) (midstateO e') :=
  storeZipO_same 4 length_be32 0 rfl rfl

theorem finalizeO_same (c : Cfg) {e e' : Engine} (h : BlockEngine.Rel e e') :
    Same Len (finalizeO c e) (finalizeO c e') :=
  Same.bind (BlockEngine.finalizeBlocksO_same c (opsO_blind c) _ _ _ h) fun _ _ _ => midstateO_same _ _

theorem fromMidstateO_same {μ μ' : List Byte} (n : Nat) (h : Len μ μ') :
    Same BlockEngine.Rel (fromMidstateO μ n) (fromMidstateO μ' n) :=
  Same.bind (Same.checkEq _) fun _ _ _ =>
    Same.bind (fillZipO_same _ _ _ fromBe32_rel 0 rfl (chunksExact_lens 4 h)) fun _ _ hr =>
    Same.bind (Same.unseen (arr8_rel hr)) fun _ _ _ => Same.pure' ⟨rfl, rfl⟩

theorem finalizeO_res (c : Cfg) (e : Engine) : (finalizeO c e).res = finalize c e := by
  unfold finalizeO finalize midstateO midstate
  simp only [bind_res, BlockEngine.finalizeBlocksO_res c (opsO_erases c), storeZipO_res]

theorem fromMidstateO_res (μ : List Byte) (n : Nat) : (fromMidstateO μ n).res = fromMidstate μ n := by
  unfold fromMidstateO fromMidstate
  simp only [bind_res, check_res, unseen_res, fillZipO_res, pure_res]

theorem observed_blind (c : Cfg) : (observed c).Blind BlockEngine.Rel Len where
  refl := BlockEngine.Rel.rfl
  count h := h.2
  input := BlockEngine.inputO_same c (opsO_blind c)
  finalize := finalizeO_same c
  midstate _ := midstateO_same _ _
  fromMidstate n h := fromMidstateO_same n h

theorem observed_erases (c : Cfg) : (observed c).Erases where
  default := rfl
  new := rfl
  input := BlockEngine.inputO_res c (opsO_erases c)
  finalize := finalizeO_res c
  midstate _ := storeZipO_res _ _ _ _ _
  fromMidstate := fromMidstateO_res

end Sha256

theorem Sha256t.observed_blind (c : Cfg) (mid : List Byte) (len : Nat) (data : List Byte) :
    (Sha256t.observed c mid len data).Blind BlockEngine.Rel Len where
  refl := BlockEngine.Rel.rfl
  count h := h.2
  input := BlockEngine.inputO_same c (Sha256.opsO_blind c)
  finalize := Sha256.finalizeO_same c
  midstate _ := Sha256.midstateO_same _ _
  fromMidstate n h := Sha256.fromMidstateO_same n h

theorem Sha256t.tag_res (c : Cfg) (mid : List Byte) (len : Nat) (data : List Byte) :
    (Sha256t.observed.tag c mid len data).res = (Sha256t.Tag.ofMidstate c mid len data).engine := by
  unfold Sha256t.observed.tag Sha256t.Tag.ofMidstate
  simp only [bind_res, Sha256.fromMidstateO_res, BlockEngine.inputO_res c (Sha256.opsO_erases c)]
  rfl

theorem Sha256t.observed_erases (c : Cfg) (mid : List Byte) (len : Nat) (data : List Byte) :
    (Sha256t.observed c mid len data).Erases where
  default := Sha256t.tag_res c mid len data
  new := Sha256t.tag_res c mid len data
  input := BlockEngine.inputO_res c (Sha256.opsO_erases c)
  finalize := Sha256.finalizeO_res c
  midstate _ := storeZipO_res _ _ _ _ _
  fromMidstate := Sha256.fromMidstateO_res

namespace Sha512

theorem midstateO_same (e e' : Engine) : Same Len (midstateO e) (midstateO e') :=
  storeZipO_same 8 length_be64 0 rfl rfl

theorem finalizeO_same (c : Cfg) {e e' : Engine} (h : BlockEngine.Rel e e') :
    Same Len (finalizeO c e) (finalizeO c e') :=
  Same.bind (BlockEngine.finalizeBlocksO_same c (opsO_blind c) _ _ _ h) fun _ _ _ => midstateO_same _ _

theorem finalizePrefixO_same (c : Cfg) (n : Nat) {e e' : Engine} (h : BlockEngine.Rel e e') :
    Same Len (finalizePrefixO c n e) (finalizePrefixO c n e') :=
  Same.bind (finalizeO_same c h) fun _ _ h1 => Same.bind (Same.check (sliceTo_rel n h1)) fun _ _ h2 =>
    Same.seeThen (Same.check (copyIntoRange_rel _ _ rfl h2))

theorem fromMidstateO_same {μ μ' : List Byte} (n : Nat) (h : Len μ μ') :
    Same BlockEngine.Rel (fromMidstateO μ n) (fromMidstateO μ' n) :=
  Same.bind (Same.checkEq _) fun _ _ _ =>
    Same.bind (fillZipO_same _ _ _ fromBe64_rel 0 rfl (chunksExact_lens 4 h)) fun _ _ hr =>
    Same.bind (Same.unseen (arr8_rel hr)) fun _ _ _ => Same.pure' ⟨rfl, rfl⟩

theorem finalizeO_res (c : Cfg) (e : Engine) : (finalizeO c e).res = finalize c e := by
  unfold finalizeO finalize midstateO midstate
  simp only [bind_res, BlockEngine.finalizeBlocksO_res c (opsO_erases c), storeZipO_res]

theorem fromMidstateO_res (μ : List Byte) (n : Nat) : (fromMidstateO μ n).res = fromMidstate μ n := by
  unfold fromMidstateO fromMidstate
  simp only [bind_res, check_res, unseen_res, fillZipO_res, pure_res]

theorem finalizePrefixO_res (c : Cfg) (n : Nat) (e : Engine) : (finalizePrefixO c n e).res = (do
    let d ← finalize c e
    let d ← sliceTo d n
    copyIntoRange (List.replicate n 0) 0 n d) := by
  unfold finalizePrefixO
  simp only [bind_res, finalizeO_res, check_res, see_res, pure_bind]

theorem observed_blind (c : Cfg) : (observed c).Blind BlockEngine.Rel Len where
  refl := BlockEngine.Rel.rfl
  count h := h.2
  input := BlockEngine.inputO_same c (opsO_blind c)
  finalize := finalizeO_same c
  midstate _ := midstateO_same _ _
  fromMidstate n h := fromMidstateO_same n h

theorem observed_erases (c : Cfg) : (observed c).Erases where
  default := rfl
  new := rfl
  input := BlockEngine.inputO_res c (opsO_erases c)
  finalize := finalizeO_res c
  midstate _ := storeZipO_res _ _ _ _ _
  fromMidstate := fromMidstateO_res

end Sha512

theorem Sha384.observed_blind (c : Cfg) : (Sha384.observed c).Blind BlockEngine.Rel Len where
  refl := BlockEngine.Rel.rfl
  count h := h.2
  input := BlockEngine.inputO_same c (Sha512.opsO_blind c)
  finalize := Sha512.finalizePrefixO_same c 48
  midstate _ := Sha512.midstateO_same _ _
  fromMidstate n h := Sha512.fromMidstateO_same n h

theorem Sha384.observed_erases (c : Cfg) : (Sha384.observed c).Erases where
  default := rfl
  new := rfl
  input := BlockEngine.inputO_res c (Sha512.opsO_erases c)
  finalize := Sha512.finalizePrefixO_res c 48
  midstate _ := storeZipO_res _ _ _ _ _
  fromMidstate := Sha512.fromMidstateO_res

theorem Sha512_256.observed_blind (c : Cfg) : (Sha512_256.observed c).Blind BlockEngine.Rel Len where
  refl := BlockEngine.Rel.rfl
  count h := h.2
  input := BlockEngine.inputO_same c (Sha512.opsO_blind c)
  finalize := Sha512.finalizePrefixO_same c 32
  midstate _ := Sha512.midstateO_same _ _
  fromMidstate n h := Sha512.fromMidstateO_same n h

theorem Sha512_256.observed_erases (c : Cfg) : (Sha512_256.observed c).Erases where
  default := rfl
  new := rfl
  input := BlockEngine.inputO_res c (Sha512.opsO_erases c)
  finalize := Sha512.finalizePrefixO_res c 32
  midstate _ := storeZipO_res _ _ _ _ _
  fromMidstate := Sha512.fromMidstateO_res

namespace Sha1

theorem midstateO_same (e e' : Engine) : Same Len (midstateO e) (midstateO e') :=
  storeZipO_same 4 length_be32 0 rfl rfl

theorem finalizeO_same (c : Cfg) {e e' : Engine} (h : BlockEngine.Rel e e') :
    Same Len (finalizeO c e) (finalizeO c e') :=
  Same.bind (BlockEngine.finalizeBlocksO_same c (opsO_blind c) _ _ _ h) fun _ _ _ => midstateO_same _ _

theorem fromMidstateO_same {μ μ' : List Byte} (n : Nat) (h : Len μ μ') :
    Same BlockEngine.Rel (fromMidstateO μ n) (fromMidstateO μ' n) :=
  Same.bind (Same.checkEq _) fun _ _ _ =>
    Same.bind (fillZipO_same _ _ _ fromBe32_rel 0 rfl (chunksExact_lens 4 h)) fun _ _ hr =>
    Same.bind (Same.unseen (arr5_rel hr)) fun _ _ _ => Same.pure' ⟨rfl, rfl⟩

theorem finalizeO_res (c : Cfg) (e : Engine) : (finalizeO c e).res = finalize c e := by
  unfold finalizeO finalize midstateO midstate
  simp only [bind_res, BlockEngine.finalizeBlocksO_res c (opsO_erases c), storeZipO_res]

theorem fromMidstateO_res (μ : List Byte) (n : Nat) : (fromMidstateO μ n).res = fromMidstate μ n := by
  unfold fromMidstateO fromMidstate
  simp only [bind_res, check_res, unseen_res, fillZipO_res, pure_res]

theorem observed_blind (c : Cfg) : (observed c).Blind BlockEngine.Rel Len where
  refl := BlockEngine.Rel.rfl
  count h := h.2
  input := BlockEngine.inputO_same c (opsO_blind c)
  finalize := finalizeO_same c
  midstate _ := midstateO_same _ _
  fromMidstate n h := fromMidstateO_same n h

theorem observed_erases (c : Cfg) : (observed c).Erases where
  default := rfl
  new := rfl
  input := BlockEngine.inputO_res c (opsO_erases c)
  finalize := finalizeO_res c
  midstate _ := storeZipO_res _ _ _ _ _
  fromMidstate := fromMidstateO_res

end Sha1

namespace Ripemd160

theorem midstateO_same (e e' : Engine) : Same Len (midstateO e) (midstateO e') :=
  storeZipO_same 4 length_le32 0 rfl rfl

theorem finalizeO_same (c : Cfg) {e e' : Engine} (h : BlockEngine.Rel e e') :
    Same Len (finalizeO c e) (finalizeO c e') :=
  Same.bind (BlockEngine.finalizeBlocksO_same c (opsO_blind c) _ _ _ h) fun _ _ _ => midstateO_same _ _

theorem fromMidstateO_same {μ μ' : List Byte} (n : Nat) (h : Len μ μ') :
    Same BlockEngine.Rel (fromMidstateO μ n) (fromMidstateO μ' n) :=
  Same.bind (Same.checkEq _) fun _ _ _ =>
    Same.bind (fillZipO_same _ _ _ fromBe32_rel 0 rfl (chunksExact_lens 4 h)) fun _ _ hr =>
    Same.bind (Same.unseen (arr5_rel hr)) fun _ _ _ => Same.pure' ⟨rfl, rfl⟩

theorem finalizeO_res (c : Cfg) (e : Engine) : (finalizeO c e).res = finalize c e := by
  unfold finalizeO finalize midstateO midstate
  simp only [bind_res, BlockEngine.finalizeBlocksO_res c (opsO_erases c), storeZipO_res]

theorem fromMidstateO_res (μ : List Byte) (n : Nat) : (fromMidstateO μ n).res = fromMidstate μ n := by
  unfold fromMidstateO fromMidstate
  simp only [bind_res, check_res, unseen_res, fillZipO_res, pure_res]

theorem observed_blind (c : Cfg) : (observed c).Blind BlockEngine.Rel Len where
  refl := BlockEngine.Rel.rfl
  count h := h.2
  input := BlockEngine.inputO_same c (opsO_blind c)
  finalize := finalizeO_same c
  midstate _ := midstateO_same _ _
  fromMidstate n h := fromMidstateO_same n h

theorem observed_erases (c : Cfg) : (observed c).Erases where
  default := rfl
  new := rfl
  input := BlockEngine.inputO_res c (opsO_erases c)
  finalize := finalizeO_res c
  midstate _ := storeZipO_res _ _ _ _ _
  fromMidstate := fromMidstateO_res

end Ripemd160

/-! ### SipHash -/

namespace Siphash24

/-- Engines that counted the same and buffer the same number of bytes. -/
def Rel (e e' : Engine) : Prop := e.length = e'.length ∧ e.ntail = e'.ntail

theorem loadIntLeO_same (c : Cfg) {b b' : List Byte} (i n : Nat) (h : Len b b') :
    Same Any (loadIntLeO c b i n) (loadIntLeO c b' i n) := by
  unfold loadIntLeO
  rw [h]
  refine Same.ite (fun _ => Same.bind (Same.checkEq _) fun j _ hj => ?_)
    fun _ => Same.bind (R := Eq) (Same.pure' rfl) fun j _ hj => ?_
  · subst hj
    exact Same.bind (Same.checkEq _) fun _ _ _ =>
      Same.seeThen (Same.unseen (ResRel.ite Iff.rfl (fun _ => trivial) fun _ => rfl))
  · subst hj
    exact Same.bind (Same.checkEq _) fun _ _ _ =>
      Same.seeThen (Same.unseen (ResRel.ite Iff.rfl (fun _ => trivial) fun _ => rfl))

theorem getUncheckedO_same {b b' : List Byte} (i : Nat) (h : Len b b') :
    Same Any (getUncheckedO b i) (getUncheckedO b' i) := by
  refine Same.seeThen (Same.unseen ?_)
  unfold getUnchecked
  by_cases hi : i < b.length
  · rw [List.getElem?_eq_getElem hi, List.getElem?_eq_getElem (h ▸ hi)]; trivial
  · rw [List.getElem?_eq_none (Nat.le_of_not_lt hi),
      List.getElem?_eq_none (h ▸ Nat.le_of_not_lt hi)]; rfl

theorem shlU64_rel (c : Cfg) (x y : BitVec 64) (n : Nat) : ResRel Any (shlU64 c x n) (shlU64 c y n) :=
  ResRel.ite Iff.rfl (fun _ => trivial) fun _ => ResRel.ite Iff.rfl (fun _ => rfl) fun _ => trivial

theorem u8to64LeO_same (c : Cfg) {b b' : List Byte} (i n : Nat) (h : Len b b') :
    Same Any (u8to64LeO c b i n) (u8to64LeO c b' i n) := by
  unfold u8to64LeO
  dsimp only
  refine Same.bind (Same.checkEq _) fun _ _ _ => ?_
  refine Same.bind (R := fun x y : BitVec 64 × Nat => x.2 = y.2) (Same.choose
    (fun _ => Same.bind (loadIntLeO_same c _ _ h) fun _ _ _ => Same.pure' rfl)
    fun _ => Same.pure' rfl) fun x y hxy => ?_
  obtain ⟨x, j⟩ := x
  obtain ⟨y, k⟩ := y
  subst hxy
  dsimp only
  refine Same.bind (R := fun x y : BitVec 64 × Nat => x.2 = y.2) (Same.choose
    (fun _ => Same.bind (loadIntLeO_same c _ _ h) fun _ _ _ =>
      Same.bind (Same.check (shlU64_rel c _ _ _)) fun _ _ _ => Same.pure' rfl)
    fun _ => Same.pure' rfl) fun x y hxy => ?_
  obtain ⟨x, j⟩ := x
  obtain ⟨y, k⟩ := y
  subst hxy
  dsimp only
  refine Same.bind (R := fun x y : BitVec 64 × Nat => x.2 = y.2) (Same.choose
    (fun _ => Same.bind (getUncheckedO_same _ h) fun _ _ _ =>
      Same.bind (Same.check (shlU64_rel c _ _ _)) fun _ _ _ => Same.pure' rfl)
    fun _ => Same.pure' rfl) fun x y hxy => ?_
  obtain ⟨x, j⟩ := x
  obtain ⟨y, k⟩ := y
  subst hxy
  exact Same.bind (Same.checkEq _) fun _ _ _ => Same.pure' trivial

theorem wordLoopO_same (c : Cfg) {b b' : List Byte} (lim : Nat) (h : Len b b') :
    ∀ (fuel : Nat) (s s' : State) (i : Nat),
      Same (fun x y : State × Nat => x.2 = y.2) (wordLoopO c b lim fuel s i) (wordLoopO c b' lim fuel s' i)
  | 0, _, _, _ => ⟨rfl, rfl⟩
  | fuel + 1, s, s', i => by
      refine Same.choose (fun _ => Same.bind (loadIntLeO_same c _ _ h) fun _ _ _ =>
        Same.bind (Same.checkEq _) fun j _ hj => ?_) fun _ => Same.pure' rfl
      subst hj
      exact wordLoopO_same c lim h fuel _ _ _

theorem restO_same (c : Cfg) {e e' : Engine} {b b' : List Byte} (n : Nat) (h : e.length = e'.length)
    (hb : Len b b') : Same Rel (restO c e b n) (restO c e' b' n) := by
  unfold restO
  rw [hb]
  refine Same.bind (Same.checkEq _) fun l _ hl => ?_
  subst hl
  refine Same.bind (Same.checkEq _) fun m _ hm => ?_
  subst hm
  refine Same.bind (wordLoopO_same c _ hb _ _ _ _) fun x y hxy => ?_
  obtain ⟨x, j⟩ := x
  obtain ⟨y, k⟩ := y
  subst hxy
  exact Same.bind (u8to64LeO_same c _ _ hb) fun _ _ _ => Same.pure' ⟨h, rfl⟩

theorem inputO_same (c : Cfg) {e e' : Engine} {b b' : List Byte} (h : Rel e e') (hb : Len b b') :
    Same Rel (inputO c e b) (inputO c e' b') := by
  unfold inputO
  dsimp only
  rw [h.1, h.2, hb]
  refine Same.bind (Same.checkEq _) fun l _ hl => ?_
  subst hl
  refine Same.choose (fun _ => ?_) fun _ => restO_same c _ rfl hb
  refine Same.bind (Same.checkEq _) fun n _ hn => ?_
  subst hn
  refine Same.testThen (Same.bind (u8to64LeO_same c _ _ hb) fun _ _ _ => ?_)
  refine Same.bind (Same.checkEq _) fun s _ hs => ?_
  subst hs
  refine Same.bind (Same.check (shlU64_rel c _ _ _)) fun _ _ _ => ?_
  refine Same.choose (fun _ => Same.bind (Same.checkEq _) fun t _ ht => ?_) fun _ => restO_same c _ rfl hb
  subst ht
  exact Same.pure' ⟨rfl, rfl⟩

theorem finalize_same (e e' : Engine) :
    Same Len (Obs.unseen (finalize e)) (Obs.unseen (finalize e')) := by
  refine Same.unseen ?_
  unfold finalize
  show (le64 _).length = (le64 _).length
  rw [length_le64, length_le64]

theorem fromMidstate_same (m m' : State) (n : Nat) :
    Same Rel (Obs.unseen (fromMidstate m n)) (Obs.unseen (fromMidstate m' n)) :=
  Same.unseen (R := Rel) (by unfold fromMidstate; exact ⟨rfl, rfl⟩)

theorem observed_blind (c : Cfg) : (observed c).Blind Rel Any where
  refl _ := ⟨rfl, rfl⟩
  count h := h.1
  input := inputO_same c
  finalize _ := finalize_same _ _
  midstate _ := Same.pure' trivial
  fromMidstate n _ := fromMidstate_same _ _ n

theorem loadIntLeO_res (c : Cfg) (b : List Byte) (i n : Nat) : (loadIntLeO c b i n).res = loadIntLe c b i n := by
  unfold loadIntLeO loadIntLe
  simp only [bind_res, ite_res, check_res, see_res, pure_bind, unseen_res, pure_res]
  rfl

theorem getUncheckedO_res (b : List Byte) (i : Nat) : (getUncheckedO b i).res = getUnchecked b i := rfl

theorem u8to64LeO_res (c : Cfg) (b : List Byte) (i n : Nat) : (u8to64LeO c b i n).res = u8to64Le c b i n := by
  unfold u8to64LeO u8to64Le
  simp only [bind_res, choose_res, decide_eq_true_eq, loadIntLeO_res, getUncheckedO_res, check_res, pure_res,
    pure_bind, iteBind, bind_assoc]

theorem wordLoopO_res (c : Cfg) (b : List Byte) (lim : Nat) : ∀ (fuel : Nat) (s : State) (i : Nat),
    (wordLoopO c b lim fuel s i).res = wordLoop c b lim fuel s i
  | 0, _, _ => rfl
  | fuel + 1, s, i => by
      unfold wordLoopO wordLoop
      simp only [bind_res, choose_res, decide_eq_true_eq, loadIntLeO_res, check_res, pure_res,
        wordLoopO_res c b lim fuel]

theorem restO_res (c : Cfg) (e : Engine) (b : List Byte) (n : Nat) : (restO c e b n).res = input.rest c e b n := by
  unfold restO input.rest
  simp only [bind_res, check_res, pure_res, wordLoopO_res, u8to64LeO_res]

theorem inputO_res (c : Cfg) (e : Engine) (b : List Byte) : (inputO c e b).res = input c e b := by
  unfold inputO input
  simp only [bind_res, choose_res, test_res, decide_eq_true_eq, check_res, pure_res, pure_bind, u8to64LeO_res,
    restO_res]

theorem observed_erases (c : Cfg) : (observed c).Erases where
  default := rfl
  new := rfl
  input := inputO_res c
  finalize _ := rfl
  midstate _ := rfl
  fromMidstate _ _ := rfl

end Siphash24

/-! ### HMAC -/

namespace Hmac
variable {E : HashEngine} {O : Observed E} {S : E.State → E.State → Prop}
  {M : E.Midstate → E.Midstate → Prop}

/-- Related inner engines and related outer engines. -/
def Rel (S : E.State → E.State → Prop) (e e' : Engine E) : Prop :=
  S e.iengine e'.iengine ∧ S e.oengine e'.oengine

/-- Related inner and outer midstates. -/
def RelMid (M : E.Midstate → E.Midstate → Prop) (μ μ' : Midstate E) : Prop :=
  M μ.inner μ'.inner ∧ M μ.outer μ'.outer

theorem xorZipO_same (o : Obj) : ∀ (i : Nat) {p p' k k' : List Byte}, Len p p' → Len k k' →
    Same Len (xorZipO o i p k) (xorZipO o i p' k')
  | _, [], [], [], [], _, _ => Same.seeThen (Same.pure' rfl)
  | _, [], [], _ :: _, _ :: _, _, _ => Same.seeThen (Same.pure' rfl)
  | _, _ :: _, _ :: _, [], [], hp, _ => Same.seeThen (Same.pure' hp)
  | i, _ :: _, _ :: _, _ :: _, _ :: _, hp, hk =>
      Same.seeThen (Same.bind (xorZipO_same o (i + 1) (Nat.succ.inj hp) (Nat.succ.inj hk))
        fun _ _ hr => Same.pure' (congrArg Nat.succ hr))

theorem newO_same (c : Cfg) (h : O.Blind S M) {k k' : List Byte} (hk : Len k k') :
    Same (Rel S) (newO c O k) (newO c O k') := by
  unfold newO
  rw [hk]
  refine Same.bind (Same.checkEq _) fun _ _ _ => ?_
  refine Same.bind (Same.mark _ (Same.ofRefl h.refl _)) fun i i' hi => ?_
  refine Same.bind (Same.mark _ (Same.ofRefl h.refl _)) fun o o' ho => ?_
  refine Same.bind (R := fun x y : List Byte × List Byte => Len x.1 y.1 ∧ Len x.2 y.2) (Same.choose
    (fun _ => Same.bind (Same.mark _ (h.hash hk)) fun _ _ hh =>
      Same.bind (xorZipO_same _ _ rfl hh) fun _ _ h1 =>
      Same.bind (xorZipO_same _ _ rfl hh) fun _ _ h2 => Same.pure' ⟨h1, h2⟩)
    fun _ => Same.bind (xorZipO_same _ _ rfl hk) fun _ _ h1 =>
      Same.bind (xorZipO_same _ _ rfl hk) fun _ _ h2 => Same.pure' ⟨h1, h2⟩) fun x y hxy => ?_
  refine Same.bind (Same.check (sliceTo_rel _ hxy.1)) fun _ _ h1 => ?_
  refine Same.bind (Same.mark _ (h.input hi h1)) fun _ _ h2 => ?_
  refine Same.bind (Same.check (sliceTo_rel _ hxy.2)) fun _ _ h3 => ?_
  exact Same.bind (Same.mark _ (h.input ho h3)) fun _ _ h4 => Same.pure' ⟨h2, h4⟩

theorem observed_blind (c : Cfg) (h : O.Blind S M) : (observed c O).Blind (Rel S) (RelMid M) where
  refl _ := ⟨h.refl _, h.refl _⟩
  count he := h.count he.1
  input he hd := Same.bind (Same.mark _ (h.input he.1 hd)) fun _ _ h1 => Same.pure' ⟨h1, he.2⟩
  finalize he := Same.bind (Same.mark _ (h.finalize he.1)) fun _ _ h1 =>
    Same.bind (Same.mark _ (h.input he.2 h1)) fun _ _ h2 => Same.mark _ (h.finalize h2)
  midstate he := Same.bind (Same.mark _ (h.midstate he.1)) fun _ _ h1 =>
    Same.bind (Same.mark _ (h.midstate he.2)) fun _ _ h2 => Same.pure' ⟨h1, h2⟩
  fromMidstate n hm := Same.bind (Same.mark _ (h.fromMidstate n hm.1)) fun _ _ h1 =>
    Same.bind (Same.mark _ (h.fromMidstate n hm.2)) fun _ _ h2 => Same.pure' ⟨h1, h2⟩

theorem xorZipO_res (o : Obj) : ∀ (i : Nat) (p k : List Byte), (xorZipO o i p k).res = pure (xorZip p k)
  | _, [], [] => rfl
  | _, [], _ :: _ => rfl
  | _, _ :: _, [] => rfl
  | i, p :: ps, k :: ks => by
      unfold xorZipO xorZip
      simp only [bind_res, see_res, pure_bind, xorZipO_res o (i + 1) ps ks, pure_res]

theorem newO_res (c : Cfg) (h : O.Erases) (k : List Byte) : (newO c O k).res = new c E k := by
  unfold newO new
  simp only [bind_res, check_res, mark_res, h.default, h.hash, h.input, choose_res, decide_eq_true_eq,
    xorZipO_res, pure_res, pure_bind, iteBind, bind_assoc]

theorem observed_erases (c : Cfg) (h : O.Erases) : (observed c O).Erases where
  default := newO_res c h []
  new := newO_res c h []
  input e d := by
    unfold observed
    simp only [bind_res, mark_res, h.input, pure_res]
    rfl
  finalize e := by
    unfold observed finalizeO
    simp only [bind_res, mark_res, h.input, h.finalize]
    rfl
  midstate e := by
    unfold observed
    simp only [bind_res, mark_res, h.midstate, pure_res]
    rfl
  fromMidstate μ n := by
    unfold observed
    simp only [bind_res, mark_res, h.fromMidstate, pure_res]
    rfl

end Hmac

/-! ### All engines -/

namespace Alg

/-- Engines an observer of branches and addresses cannot tell apart: the same counts and buffers of the
same length. -/
def Like (c : Cfg) : (a : Alg) → (a.engine c).State → (a.engine c).State → Prop
  | sha1 => BlockEngine.Rel (H := Arr5 (BitVec 32))
  | sha256 => BlockEngine.Rel (H := Arr8 (BitVec 32))
  | sha384 => BlockEngine.Rel (H := Arr8 (BitVec 64))
  | sha512 => BlockEngine.Rel (H := Arr8 (BitVec 64))
  | sha512_256 => BlockEngine.Rel (H := Arr8 (BitVec 64))
  | ripemd160 => BlockEngine.Rel (H := Arr5 (BitVec 32))
  | siphash24 => Siphash24.Rel
  | sha256t _ _ _ => BlockEngine.Rel (H := Arr8 (BitVec 32))
  | hmac a => Hmac.Rel (E := a.engine c) (a.Like c)

/-- Midstates of the same shape. -/
def LikeMid (c : Cfg) : (a : Alg) → (a.engine c).Midstate → (a.engine c).Midstate → Prop
  | sha1 | sha256 | sha384 | sha512 | sha512_256 | ripemd160 => Len (α := Byte)
  | sha256t _ _ _ => Len (α := Byte)
  | siphash24 => Any
  | hmac a => Hmac.RelMid (E := a.engine c) (a.LikeMid c)

theorem observed_blind (c : Cfg) : (a : Alg) → (a.observed c).Blind (a.Like c) (a.LikeMid c)
  | sha1 => Sha1.observed_blind c
  | sha256 => Sha256.observed_blind c
  | sha384 => Sha384.observed_blind c
  | sha512 => Sha512.observed_blind c
  | sha512_256 => Sha512_256.observed_blind c
  | ripemd160 => Ripemd160.observed_blind c
  | siphash24 => Siphash24.observed_blind c
  | sha256t mid len data => Sha256t.observed_blind c mid len data
  | hmac a => Hmac.observed_blind c (a.observed_blind c)

theorem observed_erases (c : Cfg) : (a : Alg) → (a.observed c).Erases
  | sha1 => Sha1.observed_erases c
  | sha256 => Sha256.observed_erases c
  | sha384 => Sha384.observed_erases c
  | sha512 => Sha512.observed_erases c
  | sha512_256 => Sha512_256.observed_erases c
  | ripemd160 => Ripemd160.observed_erases c
  | siphash24 => Siphash24.observed_erases c
  | sha256t mid len data => Sha256t.observed_erases c mid len data
  | hmac a => Hmac.observed_erases c (a.observed_erases c)

end Alg

end Chf
