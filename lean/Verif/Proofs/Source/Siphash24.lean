import Verif.Proofs.Source.Siphash24Load

/-!
# The translation of `siphash24.rs` against the model
-/

namespace Chf.Source.Siphash24
open Chf Chf.Rs

theorem core_ok_le {c : Cfg} {buf : List Byte} {i n x : Nat} (h : core c buf i n = .ok x) :
    i + n ≤ buf.length := by
  unfold core at h
  split at h
  · assumption
  · exact absurd h (by simp)

theorem load_ok_le {c : Cfg} {buf : List Byte} {i n x : Nat}
    (h : Chf.Siphash24.loadIntLe c buf i n = .ok x) : i + n ≤ buf.length := by
  cases hd : c.debugAssertions with
  | false =>
    rw [load_false c _ _ _ hd] at h
    exact core_ok_le h
  | true =>
    rw [load_true c _ _ _ hd] at h
    cases ha : addUsize c i n with
    | error e => rw [ha] at h; exact absurd h (by simp [error_bind])
    | ok j =>
      rw [ha, ok_bind] at h
      cases hb : debugAssert c (decide (j ≤ buf.length)) with
      | error e => rw [hb] at h; exact absurd h (by simp [error_bind])
      | ok u => rw [hb, ok_bind] at h; exact core_ok_le h

theorem loop_eq (c : Cfg) (data : List Byte) (hb : data.length < c.usizeMod) (lim : Nat)
    (e : Chf.Siphash24.Engine) (cond : Engine × Nat → Res Bool)
    (body : Engine × Nat → Res (Engine × Nat))
    (hcond : ∀ x i, cond (x, i) = .ok (decide (i < lim)))
    (hbody : ∀ s i, body (emb { e with state := s }, i) =
      (do
        let mi ← Chf.Siphash24.loadIntLe c data i 8
        let j ← addUsize c i 8
        pure (emb { e with state := Chf.Siphash24.absorb s (BitVec.ofNat 64 mi) }, j)))
    (k : Nat) :
    ∀ (F G : Nat) (s : Chf.Siphash24.State) (i : Nat), lim ≤ i + 8 * k → k < F → k < G →
    whileR F cond body (emb { e with state := s }, i) =
      (Chf.Siphash24.wordLoop c data lim G s i).map fun p =>
        (emb { e with state := p.1 }, p.2) := by
  induction k with
  | zero =>
    intro F G s i h hF hG
    obtain ⟨F, rfl⟩ := Nat.exists_eq_add_of_lt hF
    obtain ⟨G, rfl⟩ := Nat.exists_eq_add_of_lt hG
    rw [Nat.zero_add, Nat.zero_add, whileR_succ, Chf.Siphash24.wordLoop, hcond, ok_bind,
      if_neg (by simp; omega), if_neg (by omega)]
    rfl
  | succ k ih =>
    intro F G s i h hF hG
    obtain ⟨F, rfl⟩ := Nat.exists_eq_succ_of_ne_zero (Nat.ne_of_gt (Nat.lt_of_le_of_lt (Nat.zero_le _) hF))
    obtain ⟨G, rfl⟩ := Nat.exists_eq_succ_of_ne_zero (Nat.ne_of_gt (Nat.lt_of_le_of_lt (Nat.zero_le _) hG))
    rw [Nat.succ_eq_add_one, Nat.succ_eq_add_one, whileR_succ, Chf.Siphash24.wordLoop, hcond, ok_bind]
    by_cases hi : i < lim
    · rw [if_pos (by simpa using hi), if_pos hi, hbody, bind_assoc, map_bind]
      refine bind_congr' fun mi hmi => ?_
      rw [addUsize_ok (Nat.lt_of_le_of_lt (load_ok_le hmi) hb), ok_bind]
      exact ih F G _ (i + 8) (by omega) (by omega) (by omega)
    · rw [if_neg (by simpa using hi), if_neg hi]
      rfl

/-- Where the loop ends: at `lim` or less than eight bytes after it, and not where it cannot be. -/
theorem wordLoop_end (c : Cfg) (data : List Byte) (hb : data.length < c.usizeMod) (lim : Nat) (G : Nat) :
    ∀ (s : Chf.Siphash24.State) (i : Nat) (t : Chf.Siphash24.State) (j : Nat),
    Chf.Siphash24.wordLoop c data lim G s i = .ok (t, j) →
      (j = i ∨ j < lim + 8) ∧ j % 8 = i % 8 ∧ i ≤ j := by
  induction G with
  | zero => intro s i t j h; exact absurd h (by simp [Chf.Siphash24.wordLoop])
  | succ G ih =>
    intro s i t j h
    rw [Chf.Siphash24.wordLoop] at h
    by_cases hi : i < lim
    · rw [if_pos hi] at h
      cases hmi : Chf.Siphash24.loadIntLe c data i 8 with
      | error e => rw [hmi] at h; exact absurd h (by simp [error_bind])
      | ok mi =>
        rw [hmi, ok_bind] at h
        simp only [addUsize_ok (Nat.lt_of_le_of_lt (load_ok_le hmi) hb), ok_bind] at h
        have := ih _ _ _ _ h
        omega
    · rw [if_neg hi] at h
      have h := Except.ok.inj h
      have h2 := congrArg Prod.snd h
      simp only at h2
      omega

theorem bind_eq {α β : Type} {x y : Res α} (h : x = y) (f : α → Res β) : (x >>= f) = (y >>= f) := by
  rw [h]

/-- One step of the loop on the state. -/
def absorbS (cfg : Cfg) (self : Engine) (mi : BitVec 64) : Engine :=
  { self with state :=
    { Engine.c_rounds cfg { self.state with v3 := self.state.v3 ^^^ mi } with
      v0 := (Engine.c_rounds cfg { self.state with v3 := self.state.v3 ^^^ mi }).v0 ^^^ mi } }

theorem input_eq (cfg : Cfg) (hc : cfg.Valid) (e : Chf.Siphash24.Engine) (data : List Byte)
    (hb : data.length < cfg.usizeMod) :
    Engine.input cfg (emb e) data = (Chf.Siphash24.input cfg e data).map emb := by
  have hM := usizeMod_ge hc
  have hrest : ∀ (e : Chf.Siphash24.Engine) (needed : Nat), needed ≤ data.length →
      (do
        let len ← subUsize cfg data.length needed
        let left : Nat := len &&& 0x7
        let i : Nat := needed
        let (self, i) ← Rs.whileR cfg.usizeMod
          (fun (self, i) => do
            let x_11 ← subUsize cfg len left
            pure (decide (i < x_11)))
          (fun (self, i) => do
            let _ ←
              if cfg.debugAssertions then do
                let x_12 ← addUsize cfg i 8
                debugAssert cfg (decide (x_12 ≤ data.length))
              else pure ()
            let data' : BitVec 64 := 0#64
            let data' ← Rs.copyNonoverlapping cfg data i data' 8
            let mi : BitVec 64 := Rs.toLe cfg data'
            let self := { self with state := { self.state with v3 := self.state.v3 ^^^ mi } }
            let x_14 := Engine.c_rounds cfg self.state
            let self := { self with state := x_14 }
            let self := { self with state := { self.state with v0 := self.state.v0 ^^^ mi } }
            let i ← addUsize cfg i 8
            pure (self, i)) (emb e, i)
        let x_16 ← u8to64_le cfg data i left
        let self := { self with tail := x_16 }
        let self := { self with ntail := left }
        pure self) = (Chf.Siphash24.input.rest cfg e data needed).map emb := by
    intro e needed hn
    unfold Chf.Siphash24.input.rest
    have h8 : ∀ n : Nat, n &&& 0x7 = n % 8 := fun n => Nat.and_two_pow_sub_one_eq_mod n 3
    simp only [subUsize_ok hn, ok_bind, h8]
    have hl : (data.length - needed) % 8 ≤ data.length - needed := Nat.mod_le _ _
    rw [subUsize_ok hl]
    simp only [ok_bind]
    refine (bind_eq (loop_eq cfg data hb (data.length - needed - (data.length - needed) % 8) e
      _ _ ?_ ?_ ((data.length - needed) / 8) cfg.usizeMod ((data.length - needed) / 8 + 1) e.state
      needed (by omega) (by omega) (by omega)) _).trans ?_
    · intro x i; rfl
    · intro s i
      have h64 := copy_eq cfg data i (w := 64) (n := 8) (hw := rfl)
      have hself : ∀ mi : BitVec 64, absorbS cfg (emb { e with state := s }) mi =
          emb { e with state := Chf.Siphash24.absorb s mi } := fun mi => by
        simp only [absorbS]
        rw [show (emb { e with state := s }).state = embState s from rfl, absorb_eq]
        rfl
      cases hd : cfg.debugAssertions with
      | false =>
        simp only [Bool.false_eq_true, if_false, h64, map_bind_left, toLe_toLe cfg 64 8 rfl,
          pure_eq, load_false cfg _ _ _ hd]
        refine bind_congr' fun mi _ => bind_congr' fun j _ => ?_
        rw [← hself]
        rfl
      | true =>
        simp only [if_true, h64, map_bind_left, toLe_toLe cfg 64 8 rfl, bind_assoc,
          pure_eq, load_true cfg _ _ _ hd]
        refine bind_congr' fun _ _ => bind_congr' fun _ _ => bind_congr' fun mi _ =>
          bind_congr' fun j _ => ?_
        rw [← hself]
        rfl
    rw [map_bind_left, map_bind]
    refine bind_congr' fun p hp => ?_
    have := wordLoop_end cfg data hb _ _ _ _ _ _ hp
    rw [u8to64_le_eq cfg hc data p.2 _ (by omega) hb, map_bind]
    rfl
  unfold Engine.input Chf.Siphash24.input
  simp only [map_bind]
  refine bind_congr' fun l hl => ?_
  by_cases hn : e.ntail = 0
  · have h1 : ((emb e).ntail != 0) = false := by
      rw [show (emb e).ntail = e.ntail from rfl, hn]; rfl
    simp only [h1, Bool.false_eq_true, if_false, hn, ne_eq, not_true_eq_false, pure_eq, ok_bind]
    exact hrest { e with length := l, ntail := e.ntail } 0 (Nat.zero_le _)
  · have h1 : ((emb e).ntail != 0) = true := by
      rw [show (emb e).ntail = e.ntail from rfl]; simpa using hn
    simp only [h1, if_true, hn, ne_eq, not_false_eq_true, map_bind]
    rw [show (emb e).ntail = e.ntail from rfl]
    refine bind_congr' fun needed _ => ?_
    rw [u8to64_le_eq cfg hc data 0 _ (by omega) hb]
    refine bind_congr' fun x _ => bind_congr' fun sh _ => ?_
    simp only [shlU64_eq]
    refine bind_congr' fun y _ => ?_
    by_cases hlt : data.length < needed
    · simp only [hlt, decide_true, if_true, map_bind]
      rfl
    · simp only [hlt, decide_false, Bool.false_eq_true, if_false, pure_eq, ok_bind]
      have h := hrest ⟨e.k0, e.k1, l, Chf.Siphash24.absorb e.state (e.tail ||| y), e.tail ||| y, 0⟩
        needed (by omega)
      have hs : emb ⟨e.k0, e.k1, l, Chf.Siphash24.absorb e.state (e.tail ||| y), e.tail ||| y, 0⟩ =
          { absorbS cfg { emb e with length := l, tail := e.tail ||| y } (e.tail ||| y) with
            ntail := 0 } := by
        simp only [absorbS]
        rw [show (emb e).state = embState e.state from rfl, absorb_eq]
        rfl
      rw [hs] at h
      exact h

theorem from_engine_to_u64_eq (cfg : Cfg) (e : Chf.Siphash24.Engine) :
    Hash.from_engine_to_u64 cfg (emb e) = Chf.Siphash24.fromEngineToU64 e := by
  unfold Hash.from_engine_to_u64 Chf.Siphash24.fromEngineToU64
  have h1 : ∀ b : BitVec 64, { (emb e).state with v3 := (emb e).state.v3 ^^^ b } =
    embState { e.state with v3 := e.state.v3 ^^^ b } := fun _ => rfl
  simp only [h1, c_rounds_eq]
  have h2 : ∀ (s : Chf.Siphash24.State) (b : BitVec 64),
      (⟨(embState s).v0 ^^^ b, (embState s).v2 ^^^ 0xff#64, (embState s).v1,
        (embState s).v3⟩ : State) = embState ⟨s.v0 ^^^ b, s.v2 ^^^ 0xff#64, s.v1, s.v3⟩ :=
    fun _ _ => rfl
  simp only [h2, d_rounds_eq]
  rfl

theorem finalize_eq (cfg : Cfg) (e : Chf.Siphash24.Engine) :
    Engine.finalize cfg (emb e) = le64 (Chf.Siphash24.finalizeU64 e) :=
  congrArg le64 (from_engine_to_u64_eq cfg e)

theorem with_keys_eq (cfg : Cfg) (k0 k1 : BitVec 64) :
    Engine.with_keys cfg k0 k1 = emb (Chf.Siphash24.withKeys k0 k1) := rfl

theorem default_eq (cfg : Cfg) : Engine.default cfg = emb Chf.Siphash24.new := rfl

theorem from_midstate_eq (cfg : Cfg) (m : Chf.Siphash24.State) (length : Nat) :
    Engine.from_midstate cfg (embState m) length = emb { Chf.Siphash24.new with state := m } := rfl

theorem hash_with_keys_eq (cfg : Cfg) (hc : cfg.Valid) (k0 k1 : BitVec 64) (data : List Byte)
    (hb : data.length < cfg.usizeMod) :
    Hash.hash_with_keys cfg k0 k1 data =
      (Chf.Siphash24.hashWithKeys cfg k0 k1 data).map Hash.mk := by
  unfold Hash.hash_with_keys Chf.Siphash24.hashWithKeys
  simp only [with_keys_eq, input_eq cfg hc _ data hb, map_bind_left, map_bind, finalize_eq]
  rfl

theorem hash_to_u64_with_keys_eq (cfg : Cfg) (hc : cfg.Valid) (k0 k1 : BitVec 64)
    (data : List Byte) (hb : data.length < cfg.usizeMod) :
    Hash.hash_to_u64_with_keys cfg k0 k1 data =
      Chf.Siphash24.hashToU64WithKeys cfg k0 k1 data := by
  unfold Hash.hash_to_u64_with_keys Chf.Siphash24.hashToU64WithKeys
  simp only [with_keys_eq, input_eq cfg hc _ data hb, map_bind_left, from_engine_to_u64_eq]

end Chf.Source.Siphash24
