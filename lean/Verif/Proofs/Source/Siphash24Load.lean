import Verif.Source.Siphash24
import Verif.Model.Siphash24
import Verif.Proofs.Bytes
import Verif.Proofs.Source.Common

/-!
# The rounds and loads of the translation of `siphash24.rs` against the model
-/

namespace Chf.Source.Siphash24
open Chf Chf.Rs
set_option linter.unusedSimpArgs false

/-- A state of the model as a state of the translated source. -/
def embState (s : Chf.Siphash24.State) : State := { v0 := s.v0, v2 := s.v2, v1 := s.v1, v3 := s.v3 }

/-- An engine of the model as an engine of the translated source. -/
def emb (e : Chf.Siphash24.Engine) : Engine :=
  { k0 := e.k0, k1 := e.k1, length := e.length, state := embState e.state, tail := e.tail,
    ntail := e.ntail }

/-! ## Rounds -/

theorem c1_eq (cfg : Cfg) (s : Chf.Siphash24.State) :
    runPure (Engine.c_rounds.lines1 cfg) (embState s) = embState (Chf.Siphash24.compress s) := rfl
theorem c2_eq (cfg : Cfg) (s : Chf.Siphash24.State) :
    runPure (Engine.c_rounds.lines2 cfg) (embState s) = embState (Chf.Siphash24.compress s) := rfl
theorem d1_eq (cfg : Cfg) (s : Chf.Siphash24.State) :
    runPure (Engine.d_rounds.lines1 cfg) (embState s) = embState (Chf.Siphash24.compress s) := rfl
theorem d2_eq (cfg : Cfg) (s : Chf.Siphash24.State) :
    runPure (Engine.d_rounds.lines2 cfg) (embState s) = embState (Chf.Siphash24.compress s) := rfl
theorem d3_eq (cfg : Cfg) (s : Chf.Siphash24.State) :
    runPure (Engine.d_rounds.lines3 cfg) (embState s) = embState (Chf.Siphash24.compress s) := rfl
theorem d4_eq (cfg : Cfg) (s : Chf.Siphash24.State) :
    runPure (Engine.d_rounds.lines4 cfg) (embState s) = embState (Chf.Siphash24.compress s) := rfl

theorem c_rounds_eq (cfg : Cfg) (s : Chf.Siphash24.State) :
    Engine.c_rounds cfg (embState s) = embState (Chf.Siphash24.cRounds s) := by
  simp only [Engine.c_rounds, c1_eq, c2_eq, Chf.Siphash24.cRounds]

theorem d_rounds_eq (cfg : Cfg) (s : Chf.Siphash24.State) :
    Engine.d_rounds cfg (embState s) = embState (Chf.Siphash24.dRounds s) := by
  simp only [Engine.d_rounds, d1_eq, d2_eq, d3_eq, d4_eq, Chf.Siphash24.dRounds]

theorem absorb_eq (cfg : Cfg) (s : Chf.Siphash24.State) (m : BitVec 64) :
    { Engine.c_rounds cfg { embState s with v3 := (embState s).v3 ^^^ m } with
      v0 := (Engine.c_rounds cfg { embState s with v3 := (embState s).v3 ^^^ m }).v0 ^^^ m } =
      embState (Chf.Siphash24.absorb s m) := by
  have h : { embState s with v3 := (embState s).v3 ^^^ m } = embState { s with v3 := s.v3 ^^^ m } :=
    rfl
  rw [h, c_rounds_eq]
  rfl

/-! ## Loads -/

theorem length_leOfNat (n x : Nat) : (leOfNat n x).length = n := by
  rw [leOfNat_eq, length_leBytes]

theorem natOfLe_lt (l : List Byte) : natOfLe l < 256 ^ l.length := by
  rw [natOfLe_eq]; exact leNat_lt l

theorem toNat_ofBytes (l : List Byte) (w : Nat) (hw : w = 8 * l.length) :
    (BitVec.ofNat w (natOfLe l)).toNat = natOfLe l := by
  rw [BitVec.toNat_ofNat]
  apply Nat.mod_eq_of_lt
  have := natOfLe_lt l
  rw [hw, Nat.pow_mul]
  exact this

theorem leOfNat_natOfLe (l : List Byte) (n : Nat) (h : l.length = n) : leOfNat n (natOfLe l) = l := by
  subst h
  rw [leOfNat_eq, natOfLe_eq, leBytes_leNat]

theorem toLe_toLe (c : Cfg) (w n : Nat) (hw : w = 8 * n) (x : BitVec w) : toLe c (toLe c x) = x := by
  have hn : w / 8 = n := by omega
  unfold toLe
  cases c.bigEndian with
  | false => rfl
  | true =>
    simp only [if_true, fromLeBytes, toBeBytes, hn]
    rw [toNat_ofBytes _ _ (by rw [List.length_reverse, length_leOfNat]; exact hw),
      leOfNat_natOfLe _ _ (by rw [List.length_reverse, length_leOfNat]), List.reverse_reverse,
      natOfLe_eq, leOfNat_eq, leNat_leBytes]
    apply BitVec.eq_of_toNat_eq
    rw [BitVec.toNat_ofNat]
    have : 256 ^ n = 2 ^ w := by rw [hw, Nat.pow_mul]
    rw [this, Nat.mod_mod]
    exact Nat.mod_eq_of_lt x.isLt

/-- `load_int_le!` without its assertion. -/
def core (c : Cfg) (buf : List Byte) (i n : Nat) : Res Nat :=
  if i + n ≤ buf.length then
    let raw := (buf.drop i).take n
    let data := if c.bigEndian then natOfLe raw.reverse else natOfLe raw
    pure (if c.bigEndian then natOfLe (leOfNat n data).reverse else data)
  else .error .ub

theorem copy_eq (c : Cfg) (buf : List Byte) (i n w : Nat) (hw : w = 8 * n) :
    copyNonoverlapping c buf i (0#w) n =
      (core c buf i n).map fun x => toLe c (BitVec.ofNat w x) := by
  unfold copyNonoverlapping core
  have hn : w / 8 = n := by omega
  by_cases h : i + n ≤ buf.length
  · rw [if_pos ⟨h, by omega⟩, if_pos h]
    have hl : ((buf.drop i).take n).length = n := by simp; omega
    generalize (buf.drop i).take n = raw at hl
    have hd1 : (toLeBytes (0#w)).drop n = [] := by
      apply List.drop_eq_nil_of_le; unfold toLeBytes; rw [length_leOfNat]; omega
    have hd2 : (toBeBytes (0#w)).drop n = [] := by
      apply List.drop_eq_nil_of_le; unfold toBeBytes; rw [List.length_reverse, length_leOfNat]; omega
    simp only [hd1, hd2, List.append_nil]
    cases hb : c.bigEndian with
    | false =>
      simp only [Bool.false_eq_true, if_false, map_ok, pure_eq, toLe, hb, fromLeBytes]
    | true =>
      simp only [if_true, map_ok, pure_eq, toLe, hb, fromLeBytes, fromBeBytes, toBeBytes, hn]
      rw [toNat_ofBytes _ _ (by rw [List.length_reverse, length_leOfNat]; exact hw),
        leOfNat_natOfLe _ _ (by rw [List.length_reverse, length_leOfNat]), List.reverse_reverse,
        leOfNat_natOfLe _ _ (by rw [List.length_reverse, hl])]
  · rw [if_neg (by omega), if_neg h]
    rfl

theorem load_false (c : Cfg) (buf : List Byte) (i n : Nat) (hd : c.debugAssertions = false) :
    Chf.Siphash24.loadIntLe c buf i n = core c buf i n := by
  unfold Chf.Siphash24.loadIntLe core
  simp only [hd, Bool.false_eq_true, if_false, pure_eq, ok_bind, debugAssert, Bool.false_and]

theorem load_true (c : Cfg) (buf : List Byte) (i n : Nat) (hd : c.debugAssertions = true) :
    Chf.Siphash24.loadIntLe c buf i n = (do
      let x ← addUsize c i n
      debugAssert c (decide (x ≤ buf.length))
      core c buf i n) := by
  unfold Chf.Siphash24.loadIntLe core
  simp only [hd, if_true]

theorem core_lt (c : Cfg) (buf : List Byte) (i n x : Nat) (h : core c buf i n = .ok x) :
    x < 256 ^ n := by
  unfold core at h
  split at h
  · rename_i hi
    have hl : ((buf.drop i).take n).length = n := by simp; omega
    generalize (buf.drop i).take n = raw at hl h
    have h := (Except.ok.inj h).symm
    cases hb : c.bigEndian with
    | false =>
      simp only [hb, Bool.false_eq_true, if_false] at h
      have := natOfLe_lt raw
      rw [hl] at this
      omega
    | true =>
      simp only [hb, if_true] at h
      have := natOfLe_lt (leOfNat n (natOfLe raw.reverse)).reverse
      rw [List.length_reverse, length_leOfNat] at this
      omega
  · exact absurd h (by simp)

theorem setWidth_ofNat (w x : Nat) (hw : w ≤ 64) (h : x < 2 ^ w) :
    (BitVec.ofNat w x).setWidth 64 = BitVec.ofNat 64 x := by
  apply BitVec.eq_of_toNat_eq
  have hle : (2 : Nat) ^ w ≤ 2 ^ 64 := Nat.pow_le_pow_right (by omega) hw
  rw [BitVec.toNat_setWidth, BitVec.toNat_ofNat, BitVec.toNat_ofNat, Nat.mod_eq_of_lt h]

theorem u8to64_le_eq (c : Cfg) (hc : c.Valid) (buf : List Byte) (start len : Nat)
    (h : start + len ≤ buf.length) (hb : buf.length < c.usizeMod) :
    u8to64_le c buf start len = Chf.Siphash24.u8to64Le c buf start len := by
  have hM := usizeMod_ge hc
  unfold u8to64_le Chf.Siphash24.u8to64Le
  refine bind_congr' fun _ _ => ?_
  have a0 : ∀ k, k < len → addUsize c start k = .ok (start + k) := fun k hk =>
    addUsize_ok (by omega)
  have a1 : ∀ i k, i ≤ 8 → k ≤ 8 → addUsize c i k = .ok (i + k) := fun i k hi hk =>
    addUsize_ok (by omega)
  have a2 : ∀ i, i ≤ 8 → mulUsize c i 8 = .ok (i * 8) := fun i hi => mulUsize_ok (by omega)
  have h32 := copy_eq c buf (w := 32) (n := 4) (hw := rfl)
  have h16 := copy_eq c buf (w := 16) (n := 2) (hw := rfl)
  have g0 : ∀ i, Rs.getUnchecked buf i = Chf.Siphash24.getUnchecked buf i := fun i => by
    unfold Rs.getUnchecked Chf.Siphash24.getUnchecked
    cases buf[i]? <;> rfl
  have w32 : ∀ i x, core c buf i 4 = .ok x → (BitVec.ofNat 32 x).setWidth 64 = BitVec.ofNat 64 x :=
    fun i x hx => setWidth_ofNat 32 x (by omega) (core_lt _ _ _ _ _ hx)
  have w16 : ∀ i x, core c buf i 2 = .ok x → (BitVec.ofNat 16 x).setWidth 64 = BitVec.ofNat 64 x :=
    fun i x hx => setWidth_ofNat 16 x (by omega) (core_lt _ _ _ _ _ hx)
  cases hd : c.debugAssertions with
  | false =>
    by_cases h3 : 3 < len
    · by_cases h5 : 5 < len
      · by_cases h6 : 6 < len
        · simp only [a0 0 (by omega), a0 4 (by omega), a0 6 (by omega), a1 0 3 (by omega) (by
            omega), a1 0 4 (by omega) (by omega), a1 4 1 (by omega) (by omega), a1 4 2 (by omega)
            (by omega), a1 6 1 (by omega) (by omega), a2 4 (by omega), a2 6 (by omega), ok_bind,
            h3, h5, h6, decide_true, decide_false, if_true, if_false, Bool.false_eq_true, Nat.zero_add, h32,
            h16, map_bind_left, toLe_toLe c 32 4 rfl, toLe_toLe c 16 2 rfl, bind_assoc, pure_eq,
            shlU64_eq, Nat.reduceAdd, g0, hd, load_false c _ _ _ hd]
          refine bind_congr' fun x hx => ?_
          rw [w32 _ _ hx]
          refine bind_congr' fun x hx => ?_
          rw [w16 _ _ hx]
        · simp only [a0 0 (by omega), a0 4 (by omega), a1 0 3 (by omega) (by omega), a1 0 4 (by
            omega) (by omega), a1 4 1 (by omega) (by omega), a1 4 2 (by omega) (by omega), a2 4 (by
            omega), ok_bind,
            h3, h5, h6, decide_true, decide_false, if_true, if_false, Bool.false_eq_true, Nat.zero_add, h32,
            h16, map_bind_left, toLe_toLe c 32 4 rfl, toLe_toLe c 16 2 rfl, bind_assoc, pure_eq,
            shlU64_eq, Nat.reduceAdd, g0, hd, load_false c _ _ _ hd]
          refine bind_congr' fun x hx => ?_
          rw [w32 _ _ hx]
          refine bind_congr' fun x hx => ?_
          rw [w16 _ _ hx]
      · by_cases h4 : 4 < len
        · simp only [a0 0 (by omega), a0 4 (by omega), a1 0 3 (by omega) (by omega), a1 0 4 (by
            omega) (by omega), a1 4 1 (by omega) (by omega), a2 4 (by omega), ok_bind,
            h3, h5, h4, decide_true, decide_false, if_true, if_false, Bool.false_eq_true, Nat.zero_add, h32,
            h16, map_bind_left, toLe_toLe c 32 4 rfl, toLe_toLe c 16 2 rfl, bind_assoc, pure_eq,
            shlU64_eq, Nat.reduceAdd, g0, hd, load_false c _ _ _ hd]
          refine bind_congr' fun x hx => ?_
          rw [w32 _ _ hx]
        · simp only [a0 0 (by omega), a1 0 3 (by omega) (by omega), a1 0 4 (by omega) (by omega), a1
            4 1 (by omega) (by omega), ok_bind,
            h3, h5, h4, decide_true, decide_false, if_true, if_false, Bool.false_eq_true, Nat.zero_add, h32,
            h16, map_bind_left, toLe_toLe c 32 4 rfl, toLe_toLe c 16 2 rfl, bind_assoc, pure_eq,
            shlU64_eq, Nat.reduceAdd, g0, hd, load_false c _ _ _ hd]
          refine bind_congr' fun x hx => ?_
          rw [w32 _ _ hx]
    · by_cases h1 : 1 < len
      · by_cases h2 : 2 < len
        · simp only [a0 0 (by omega), a0 2 (by omega), a1 0 3 (by omega) (by omega), a1 0 1 (by
            omega) (by omega), a1 0 2 (by omega) (by omega), a1 2 1 (by omega) (by omega), a2 0 (by
            omega), a2 2 (by omega), ok_bind,
            h3, h1, h2, decide_true, decide_false, if_true, if_false, Bool.false_eq_true, Nat.zero_add, h32,
            h16, map_bind_left, toLe_toLe c 32 4 rfl, toLe_toLe c 16 2 rfl, bind_assoc, pure_eq,
            shlU64_eq, Nat.reduceAdd, g0, hd, load_false c _ _ _ hd]
          refine bind_congr' fun x hx => ?_
          rw [w16 _ _ hx]
          rfl
        · simp only [a0 0 (by omega), a1 0 3 (by omega) (by omega), a1 0 1 (by omega) (by omega), a1
            0 2 (by omega) (by omega), a2 0 (by omega), ok_bind,
            h3, h1, h2, decide_true, decide_false, if_true, if_false, Bool.false_eq_true, Nat.zero_add, h32,
            h16, map_bind_left, toLe_toLe c 32 4 rfl, toLe_toLe c 16 2 rfl, bind_assoc, pure_eq,
            shlU64_eq, Nat.reduceAdd, g0, hd, load_false c _ _ _ hd]
          refine bind_congr' fun x hx => ?_
          rw [w16 _ _ hx]
          rfl
      · by_cases h0 : 0 < len
        · simp only [a0 0 (by omega), a1 0 3 (by omega) (by omega), a1 0 1 (by omega) (by omega), a2
            0 (by omega), ok_bind,
            h3, h1, h0, decide_true, decide_false, if_true, if_false, Bool.false_eq_true, Nat.zero_add, h32,
            h16, map_bind_left, toLe_toLe c 32 4 rfl, toLe_toLe c 16 2 rfl, bind_assoc, pure_eq,
            shlU64_eq, Nat.reduceAdd, g0, hd, load_false c _ _ _ hd]
          rfl
        · simp only [a1 0 3 (by omega) (by omega), a1 0 1 (by omega) (by omega), ok_bind,
            h3, h1, h0, decide_true, decide_false, if_true, if_false, Bool.false_eq_true, Nat.zero_add, h32,
            h16, map_bind_left, toLe_toLe c 32 4 rfl, toLe_toLe c 16 2 rfl, bind_assoc, pure_eq,
            shlU64_eq, Nat.reduceAdd, g0, hd, load_false c _ _ _ hd]
          rfl
  | true =>
    by_cases h3 : 3 < len
    · by_cases h5 : 5 < len
      · by_cases h6 : 6 < len
        · simp only [a0 0 (by omega), a0 4 (by omega), a0 6 (by omega), a1 0 3 (by omega) (by
            omega), a1 0 4 (by omega) (by omega), a1 4 1 (by omega) (by omega), a1 4 2 (by omega)
            (by omega), a1 6 1 (by omega) (by omega), a2 4 (by omega), a2 6 (by omega), ok_bind,
            h3, h5, h6, decide_true, decide_false, if_true, if_false, Bool.false_eq_true, Nat.zero_add, h32,
            h16, map_bind_left, toLe_toLe c 32 4 rfl, toLe_toLe c 16 2 rfl, bind_assoc, pure_eq,
            shlU64_eq, Nat.reduceAdd, g0, hd, load_true c _ _ _ hd]
          refine bind_congr' fun _ _ => bind_congr' fun _ _ => bind_congr' fun x hx => ?_
          rw [w32 _ _ hx]
          refine bind_congr' fun _ _ => bind_congr' fun _ _ => bind_congr' fun x hx => ?_
          rw [w16 _ _ hx]
        · simp only [a0 0 (by omega), a0 4 (by omega), a1 0 3 (by omega) (by omega), a1 0 4 (by
            omega) (by omega), a1 4 1 (by omega) (by omega), a1 4 2 (by omega) (by omega), a2 4 (by
            omega), ok_bind,
            h3, h5, h6, decide_true, decide_false, if_true, if_false, Bool.false_eq_true, Nat.zero_add, h32,
            h16, map_bind_left, toLe_toLe c 32 4 rfl, toLe_toLe c 16 2 rfl, bind_assoc, pure_eq,
            shlU64_eq, Nat.reduceAdd, g0, hd, load_true c _ _ _ hd]
          refine bind_congr' fun _ _ => bind_congr' fun _ _ => bind_congr' fun x hx => ?_
          rw [w32 _ _ hx]
          refine bind_congr' fun _ _ => bind_congr' fun _ _ => bind_congr' fun x hx => ?_
          rw [w16 _ _ hx]
      · by_cases h4 : 4 < len
        · simp only [a0 0 (by omega), a0 4 (by omega), a1 0 3 (by omega) (by omega), a1 0 4 (by
            omega) (by omega), a1 4 1 (by omega) (by omega), a2 4 (by omega), ok_bind,
            h3, h5, h4, decide_true, decide_false, if_true, if_false, Bool.false_eq_true, Nat.zero_add, h32,
            h16, map_bind_left, toLe_toLe c 32 4 rfl, toLe_toLe c 16 2 rfl, bind_assoc, pure_eq,
            shlU64_eq, Nat.reduceAdd, g0, hd, load_true c _ _ _ hd]
          refine bind_congr' fun _ _ => bind_congr' fun _ _ => bind_congr' fun x hx => ?_
          rw [w32 _ _ hx]
        · simp only [a0 0 (by omega), a1 0 3 (by omega) (by omega), a1 0 4 (by omega) (by omega), a1
            4 1 (by omega) (by omega), ok_bind,
            h3, h5, h4, decide_true, decide_false, if_true, if_false, Bool.false_eq_true, Nat.zero_add, h32,
            h16, map_bind_left, toLe_toLe c 32 4 rfl, toLe_toLe c 16 2 rfl, bind_assoc, pure_eq,
            shlU64_eq, Nat.reduceAdd, g0, hd, load_true c _ _ _ hd]
          refine bind_congr' fun _ _ => bind_congr' fun _ _ => bind_congr' fun x hx => ?_
          rw [w32 _ _ hx]
    · by_cases h1 : 1 < len
      · by_cases h2 : 2 < len
        · simp only [a0 0 (by omega), a0 2 (by omega), a1 0 3 (by omega) (by omega), a1 0 1 (by
            omega) (by omega), a1 0 2 (by omega) (by omega), a1 2 1 (by omega) (by omega), a2 0 (by
            omega), a2 2 (by omega), ok_bind,
            h3, h1, h2, decide_true, decide_false, if_true, if_false, Bool.false_eq_true, Nat.zero_add, h32,
            h16, map_bind_left, toLe_toLe c 32 4 rfl, toLe_toLe c 16 2 rfl, bind_assoc, pure_eq,
            shlU64_eq, Nat.reduceAdd, g0, hd, load_true c _ _ _ hd]
          refine bind_congr' fun _ _ => bind_congr' fun _ _ => bind_congr' fun x hx => ?_
          rw [w16 _ _ hx]
          rfl
        · simp only [a0 0 (by omega), a1 0 3 (by omega) (by omega), a1 0 1 (by omega) (by omega), a1
            0 2 (by omega) (by omega), a2 0 (by omega), ok_bind,
            h3, h1, h2, decide_true, decide_false, if_true, if_false, Bool.false_eq_true, Nat.zero_add, h32,
            h16, map_bind_left, toLe_toLe c 32 4 rfl, toLe_toLe c 16 2 rfl, bind_assoc, pure_eq,
            shlU64_eq, Nat.reduceAdd, g0, hd, load_true c _ _ _ hd]
          refine bind_congr' fun _ _ => bind_congr' fun _ _ => bind_congr' fun x hx => ?_
          rw [w16 _ _ hx]
          rfl
      · by_cases h0 : 0 < len
        · simp only [a0 0 (by omega), a1 0 3 (by omega) (by omega), a1 0 1 (by omega) (by omega), a2
            0 (by omega), ok_bind,
            h3, h1, h0, decide_true, decide_false, if_true, if_false, Bool.false_eq_true, Nat.zero_add, h32,
            h16, map_bind_left, toLe_toLe c 32 4 rfl, toLe_toLe c 16 2 rfl, bind_assoc, pure_eq,
            shlU64_eq, Nat.reduceAdd, g0, hd, load_true c _ _ _ hd]
          rfl
        · simp only [a1 0 3 (by omega) (by omega), a1 0 1 (by omega) (by omega), ok_bind,
            h3, h1, h0, decide_true, decide_false, if_true, if_false, Bool.false_eq_true, Nat.zero_add, h32,
            h16, map_bind_left, toLe_toLe c 32 4 rfl, toLe_toLe c 16 2 rfl, bind_assoc, pure_eq,
            shlU64_eq, Nat.reduceAdd, g0, hd, load_true c _ _ _ hd]
          rfl

end Chf.Source.Siphash24
