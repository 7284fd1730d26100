import Verif.Model.Siphash24
import Verif.Proofs.Lawful
import Verif.Proofs.MdEngine

/-!
# Lemmas: the SipHash engine simulates its log
-/

namespace Chf.Siphash24
open Spec

/-- The model's state as the specification's. -/
def toSip (s : State) : Sip := ⟨s.v0, s.v1, s.v2, s.v3⟩
/-- The specification's state as the model's. -/
def ofSip (s : Sip) : State := { v0 := s.v0, v1 := s.v1, v2 := s.v2, v3 := s.v3 }

theorem ofSip_toSip (s : State) : ofSip (toSip s) = s := rfl
theorem toSip_ofSip (s : Sip) : toSip (ofSip s) = s := rfl

theorem compress_eq (s : State) : toSip (compress s) = sipRound (toSip s) := rfl

theorem absorb_eq (s : State) (m : BitVec 64) : toSip (absorb s m) = sipAbsorb (toSip s) m := rfl

/-! ## Little-endian words -/

theorem leNat_append (a b : List Byte) : leNat (a ++ b) = leNat a + 256 ^ a.length * leNat b := by
  simp only [leNat, List.reverse_append, beNat_append, List.length_reverse]
  rw [Nat.add_comm, Nat.mul_comm]

theorem leNat_replicate_zero (n : Nat) : leNat (List.replicate n 0) = 0 := by
  induction n with
  | zero => rfl
  | succ n ih => rw [List.replicate_succ, leNat_cons, ih]; rfl

/-- Joining two little-endian pieces with a shift and an or. -/
theorem or_shift (a b : List Byte) (h : a.length + b.length ≤ 8) :
    BitVec.ofNat 64 (leNat a) ||| (BitVec.ofNat 64 (leNat b) <<< (8 * a.length)) =
      BitVec.ofNat 64 (leNat (a ++ b)) := by
  have ha := leNat_lt a
  have hb := leNat_lt b
  have hp : 256 ^ a.length * 256 ^ b.length ≤ 2 ^ 64 := by
    rw [← Nat.pow_add]
    calc 256 ^ (a.length + b.length) ≤ 256 ^ 8 := Nat.pow_le_pow_right (by omega) h
      _ = 2 ^ 64 := by decide
  have h256 : 256 ^ a.length = 2 ^ (8 * a.length) := by rw [Nat.pow_mul]
  have hbpos : 0 < 256 ^ b.length := Nat.pow_pos (by omega)
  have hapos : 0 < 256 ^ a.length := Nat.pow_pos (by omega)
  have ha64 : leNat a < 2 ^ 64 := by
    calc leNat a < 256 ^ a.length := ha
      _ ≤ 256 ^ a.length * 256 ^ b.length := Nat.le_mul_of_pos_right _ hbpos
      _ ≤ 2 ^ 64 := hp
  have hb64 : leNat b < 2 ^ 64 := by
    calc leNat b < 256 ^ b.length := hb
      _ ≤ 256 ^ a.length * 256 ^ b.length := Nat.le_mul_of_pos_left _ hapos
      _ ≤ 2 ^ 64 := hp
  have hsh : leNat b <<< (8 * a.length) < 2 ^ 64 := by
    rw [Nat.shiftLeft_eq, ← h256]
    calc leNat b * 256 ^ a.length < 256 ^ b.length * 256 ^ a.length :=
          Nat.mul_lt_mul_of_pos_right hb hapos
      _ = 256 ^ a.length * 256 ^ b.length := Nat.mul_comm _ _
      _ ≤ 2 ^ 64 := hp
  apply BitVec.eq_of_toNat_eq
  rw [BitVec.toNat_or, BitVec.toNat_shiftLeft, BitVec.toNat_ofNat, BitVec.toNat_ofNat,
    BitVec.toNat_ofNat, Nat.mod_eq_of_lt ha64, Nat.mod_eq_of_lt hb64, Nat.mod_eq_of_lt hsh,
    Nat.or_comm, ← Nat.shiftLeft_add_eq_or_of_lt (by rw [← h256]; exact ha), leNat_append,
    Nat.shiftLeft_eq, ← h256, Nat.mul_comm, Nat.add_comm]
  rw [Nat.mod_eq_of_lt]
  have := leNat_lt (a ++ b)
  rw [leNat_append, List.length_append, Nat.pow_add] at this
  omega

/-! ## The unchecked loads -/

theorem loadIntLe_ok {c : Cfg} {buf : List Byte} {i size : Nat} (h : i + size ≤ buf.length)
    (hb : buf.length < c.usizeMod) :
    loadIntLe c buf i size = .ok (leNat ((buf.drop i).take size)) := by
  have hadd : addUsize c i size = .ok (i + size) := by
    unfold addUsize
    rw [if_pos (by omega : i + size < c.usizeMod)]
  have hda : debugAssert c (decide (i + size ≤ buf.length)) = .ok () := by simp [debugAssert, h]
  have hl : ((buf.drop i).take size).length = size := by
    rw [List.length_take, List.length_drop]; omega
  have key : (do
      debugAssert c (decide (i + size ≤ buf.length))
      if i + size ≤ buf.length then
        let raw := (buf.drop i).take size
        let data := if c.bigEndian then natOfLe raw.reverse else natOfLe raw
        let swapped := if c.bigEndian then natOfLe (leOfNat size data).reverse else data
        pure swapped
      else .error .ub : Res Nat) = .ok (leNat ((buf.drop i).take size)) := by
    rw [hda, if_pos h]
    simp only [bind, Except.bind, pure, Except.pure]
    cases c.bigEndian with
    | false => simp [natOfLe_eq]
    | true =>
      simp only [if_true, natOfLe_eq, leOfNat_eq]
      have := leBytes_leNat ((buf.drop i).take size).reverse
      rw [List.length_reverse, hl] at this
      rw [this, List.reverse_reverse]
  unfold loadIntLe
  cases hd : c.debugAssertions with
  | false => exact key
  | true =>
    simp only [if_true, hadd]
    exact key

theorem getUnchecked_ok {buf : List Byte} {i : Nat} (h : i < buf.length) :
    getUnchecked buf i = .ok (buf.getD i 0) := by
  simp [getUnchecked, h]

theorem take_one_drop {buf : List Byte} {i : Nat} (h : i < buf.length) :
    (buf.drop i).take 1 = [buf.getD i 0] := by
  rw [List.drop_eq_getElem_cons h, List.getD_eq_getElem?_getD, List.getElem?_eq_getElem h]; rfl

theorem shlU64_ok {c : Cfg} {x : BitVec 64} {n : Nat} (h : n < 64) : shlU64 c x n = .ok (x <<< n) := by
  rw [shlU64, if_pos h]

theorem take_take_add {α} (l : List α) (i k : Nat) : l.take (i + k) = l.take i ++ (l.drop i).take k := by
  rw [List.take_add]

theorem setWidth_byte (b : Byte) : b.setWidth 64 = BitVec.ofNat 64 (leNat [b]) := by
  apply BitVec.eq_of_toNat_eq
  have := b.isLt
  rw [BitVec.toNat_setWidth, BitVec.toNat_ofNat, leNat_cons, leNat_nil]
  rfl

theorem u8to64Le_ok {c : Cfg} {buf : List Byte} {start len : Nat} (hlen : len < 8)
    (h : start + len ≤ buf.length) (hb : buf.length < c.usizeMod) :
    u8to64Le c buf start len = .ok (BitVec.ofNat 64 (leNat ((buf.drop start).take len))) := by
  -- one stage: `k` more bytes
  have joinBytes : ∀ (i k : Nat), i + k ≤ len →
      BitVec.ofNat 64 (leNat ((buf.drop start).take i)) |||
        (BitVec.ofNat 64 (leNat ((buf.drop (start + i)).take k)) <<< (i * 8)) =
      BitVec.ofNat 64 (leNat ((buf.drop start).take (i + k))) := by
    intro i k hik
    have hi : ((buf.drop start).take i).length = i := by
      rw [List.length_take, List.length_drop]; omega
    have hk : ((buf.drop (start + i)).take k).length = k := by
      rw [List.length_take, List.length_drop]; omega
    have := or_shift ((buf.drop start).take i) ((buf.drop (start + i)).take k) (by omega)
    rw [hi, Nat.mul_comm] at this
    rw [this, take_take_add, List.drop_drop]
  have joinByte : ∀ i, i + 1 ≤ len →
      BitVec.ofNat 64 (leNat ((buf.drop start).take i)) |||
        ((buf.getD (start + i) 0).setWidth 64 <<< (i * 8)) =
      BitVec.ofNat 64 (leNat ((buf.drop start).take (i + 1))) := by
    intro i hi
    rw [setWidth_byte, ← take_one_drop (by omega), joinBytes i 1 hi]
  have byte0 : 1 ≤ len → (buf.getD start 0).setWidth 64 =
      BitVec.ofNat 64 (leNat ((buf.drop start).take 1)) := by
    intro h1
    rw [setWidth_byte, take_one_drop (by omega)]
  have hda : debugAssert c true = .ok () := by simp [debugAssert]
  have zor : ∀ x : BitVec 64, 0 ||| x = x := by intro x; simp
  have hcases : len = 0 ∨ len = 1 ∨ len = 2 ∨ len = 3 ∨ len = 4 ∨ len = 5 ∨ len = 6 ∨ len = 7 := by
    omega
  unfold u8to64Le
  rcases hcases with rfl | rfl | rfl | rfl | rfl | rfl | rfl | rfl <;>
  · simp (disch := omega) only [hda, loadIntLe_ok _ hb, getUnchecked_ok, shlU64_ok, bind,
      Except.bind, pure, Except.pure, Nat.reduceAdd, Nat.reduceLT, if_true, if_false, Nat.add_zero,
      Nat.lt_irrefl, decide_true, beq_self_eq_true]
    try simp (disch := omega) only [joinBytes, joinByte, Nat.reduceAdd, byte0, Nat.zero_mul,
      zor, BitVec.shiftLeft_zero]
    try rfl

/-! ## The word loop -/

theorem leWords_append (p q : List Byte) (hp : 8 ∣ p.length) :
    leWords 64 (p ++ q) = leWords 64 p ++ leWords 64 q := by
  simp [leWords, blocks_append (B := 8) (by omega) p q hp]

theorem leWords_short {q : List Byte} (h : q.length < 8) : leWords 64 q = [] := by
  simp [leWords, blocks_of_lt h]

theorem leWords_one {q : List Byte} (h : q.length = 8) :
    leWords 64 q = [BitVec.ofNat 64 (leNat q)] := by
  have := blocks_cons (B := 8) (by omega) h []
  simp only [List.append_nil, blocks_nil] at this
  simp [leWords, this]

theorem wordLoop_ok {c : Cfg} {data : List Byte} (hb : data.length < c.usizeMod) (lim : Nat)
    (q : Nat) : ∀ (fuel i : Nat) (s : State), q < fuel → i + 8 * q ≤ data.length → lim ≤ i + 8 * q →
      (∀ k, k < q → i + 8 * k < lim) →
      ∃ s', wordLoop c data lim fuel s i = .ok (s', i + 8 * q) ∧
        toSip s' = (leWords 64 ((data.drop i).take (8 * q))).foldl sipAbsorb (toSip s) := by
  induction q with
  | zero =>
    intro fuel i s hf hi hl _
    obtain ⟨f, rfl⟩ : ∃ f, fuel = f + 1 := ⟨fuel - 1, by omega⟩
    refine ⟨s, ?_, ?_⟩
    · rw [wordLoop, if_neg (by omega)]; rfl
    · simp [leWords]
  | succ q ih =>
    intro fuel i s hf hi hl hk
    obtain ⟨f, rfl⟩ : ∃ f, fuel = f + 1 := ⟨fuel - 1, by omega⟩
    have h0 : i < lim := by simpa using hk 0 (by omega)
    have h8 : ((data.drop i).take 8).length = 8 := by
      rw [List.length_take, List.length_drop]; omega
    have hadd : addUsize c i 8 = .ok (i + 8) := by unfold addUsize; rw [if_pos (by omega)]
    obtain ⟨s', h1, h2⟩ := ih f (i + 8)
      (absorb s (BitVec.ofNat 64 (leNat ((data.drop i).take 8)))) (by omega) (by omega) (by omega)
      (fun k hkq => by have := hk (k + 1) (by omega); omega)
    refine ⟨s', ?_, ?_⟩
    · rw [wordLoop, if_pos h0, loadIntLe_ok (by omega) hb]
      simp only [bind, Except.bind, hadd]
      rw [h1, show i + 8 + 8 * q = i + 8 * (q + 1) by omega]
    · rw [h2, absorb_eq, show 8 * (q + 1) = 8 + 8 * q by omega, take_take_add, List.drop_drop,
        leWords_append _ _ (by rw [h8]; exact Nat.dvd_refl _), leWords_one h8, List.foldl_append]
      rfl

/-! ## The simulation -/

/-- Engine state `e` stands for the log `m` from start `s`. -/
structure SipRel (c : Cfg) (e : Engine) (s : SipStart) (m : List Byte) : Prop where
  k0 : e.k0 = s.k0
  k1 : e.k1 = s.k1
  len : e.length = m.length % c.usizeMod
  nowrap : c.overflowChecks = true → m.length < c.usizeMod
  split : ∃ p r, m = p ++ r ∧ 8 ∣ p.length ∧ r.length < 8 ∧ e.ntail = r.length ∧
    e.tail = BitVec.ofNat 64 (leNat r) ∧
    toSip e.state = (leWords 64 p).foldl sipAbsorb s.v

/-- The part of `input` after a partial word has been completed. -/
theorem rest_ok {c : Cfg} {data : List Byte} (hb : data.length < c.usizeMod) {needed : Nat}
    (hn : needed < 8) (hnl : needed ≤ data.length) (e : Engine) (s : SipStart) (p : List Byte)
    (hp : 8 ∣ (p ++ data.take needed).length)
    (hst : toSip e.state = (leWords 64 (p ++ data.take needed)).foldl sipAbsorb s.v) :
    ∃ e', input.rest c e data needed = .ok e' ∧ e'.k0 = e.k0 ∧ e'.k1 = e.k1 ∧
      e'.length = e.length ∧
      ∃ p' r, p ++ data = p' ++ r ∧ 8 ∣ p'.length ∧ r.length < 8 ∧ e'.ntail = r.length ∧
        e'.tail = BitVec.ofNat 64 (leNat r) ∧
        toSip e'.state = (leWords 64 p').foldl sipAbsorb s.v := by
  obtain ⟨q, hq⟩ : ∃ q, q = (data.length - needed) / 8 := ⟨_, rfl⟩
  have hmod : (data.length - needed) % 8 = data.length - needed - 8 * q := by omega
  have hle : 8 * q ≤ data.length - needed := by omega
  obtain ⟨s', h1, h2⟩ := wordLoop_ok hb (8 * q) q ((data.length - needed) / 8 + 1) needed e.state
    (by omega) (by omega) (by omega) (fun k hk => by omega)
  have htail := u8to64Le_ok (c := c) (buf := data) (start := needed + 8 * q)
    (len := (data.length - needed) % 8) (Nat.mod_lt _ (by omega)) (by omega) hb
  have hall : (data.drop (needed + 8 * q)).take ((data.length - needed) % 8) =
      data.drop (needed + 8 * q) := by
    apply List.take_of_length_le
    rw [List.length_drop]; omega
  rw [hall] at htail
  refine ⟨{ e with state := s', tail := BitVec.ofNat 64 (leNat (data.drop (needed + 8 * q))),
                   ntail := (data.length - needed) % 8 }, ?_, rfl, rfl, rfl,
    p ++ data.take needed ++ (data.drop needed).take (8 * q), data.drop (needed + 8 * q), ?_, ?_, ?_,
    ?_, rfl, ?_⟩
  · have hs1 : subUsize c data.length needed = .ok (data.length - needed) := by
      unfold subUsize; rw [if_pos hnl]
    have hs2 : subUsize c (data.length - needed) ((data.length - needed) % 8) = .ok (8 * q) := by
      unfold subUsize; rw [if_pos (Nat.mod_le _ _)]; congr 1; omega
    unfold input.rest
    simp only [hs1, bind, Except.bind, hs2, h1, htail, pure, Except.pure]
  · rw [List.append_assoc, List.append_assoc, ← List.drop_drop, List.take_append_drop,
      List.take_append_drop]
  · rw [List.length_append]
    refine Nat.dvd_add hp ⟨q, ?_⟩
    rw [List.length_take, List.length_drop]; omega
  · rw [List.length_drop]; omega
  · show (data.length - needed) % 8 = _
    rw [List.length_drop]; omega
  · show toSip s' = _
    rw [h2, hst, leWords_append _ _ hp, List.foldl_append]

theorem input_ok {c : Cfg} (hc : c.Valid) {e : Engine} {s : SipStart} {m : List Byte}
    (d : List Byte) (hd : d.length < c.usizeMod) (R : SipRel c e s m)
    (h : c.overflowChecks = true → m.length + d.length < c.usizeMod) :
    ∃ e', input c e d = .ok e' ∧ SipRel c e' s (m ++ d) := by
  obtain ⟨p, r, hm, hp, hr, hnt, htl, hst⟩ := R.split
  have hmod : 128 < c.usizeMod := by have := (sized_64 hc).lt; omega
  have hlen : addUsize c e.length d.length = .ok ((m.length + d.length) % c.usizeMod) := by
    rw [R.len]; exact BlockEngine.addUsize_len h
  have hml : (m ++ d).length = m.length + d.length := List.length_append
  by_cases hz : r.length = 0
  · -- no partial word
    have hr0 : r = [] := List.length_eq_zero_iff.mp hz
    subst hr0
    rw [List.append_nil] at hm
    subst hm
    obtain ⟨e', h1, h2, h3, h4, h5⟩ := rest_ok hd (needed := 0) (by omega) (by omega)
      { e with length := (m.length + d.length) % c.usizeMod } s m (by simpa using hp)
      (by simpa using hst)
    refine ⟨e', ?_, ⟨h2.trans R.k0, h3.trans R.k1, by rw [h4, hml], by rw [hml]; exact h, h5⟩⟩
    have : e.ntail = 0 := hnt
    unfold input
    simp only [hlen, bind, Except.bind, this, ne_eq, not_true_eq_false, if_false]
    exact h1
  · have hsub : subUsize c 8 r.length = .ok (8 - r.length) := by
      unfold subUsize; rw [if_pos (by omega)]
    have hmul : mulUsize c 8 r.length = .ok (8 * r.length) := by
      unfold mulUsize; rw [if_pos (by omega)]
    obtain ⟨k, hk⟩ : ∃ k, k = min d.length (8 - r.length) := ⟨_, rfl⟩
    have hx := u8to64Le_ok (c := c) (buf := d) (start := 0) (len := k) (by omega) (by omega) hd
    rw [List.drop_zero] at hx
    have htk : (d.take k).length = k := by rw [List.length_take]; omega
    have hor := or_shift r (d.take k) (by omega)
    by_cases hlt : d.length < 8 - r.length
    · have hkd : d.take k = d := List.take_of_length_le (by omega)
      refine ⟨{ e with
          length := (m.length + d.length) % c.usizeMod
          tail := BitVec.ofNat 64 (leNat (r ++ d))
          ntail := r.length + d.length }, ?_, ⟨R.k0, R.k1, by rw [hml], by rw [hml]; exact h,
        p, r ++ d, by rw [hm, List.append_assoc], hp, by rw [List.length_append]; omega,
        by rw [List.length_append], rfl, hst⟩⟩
      have hnt' : addUsize c r.length d.length = .ok (r.length + d.length) := by
        unfold addUsize; rw [if_pos (by omega)]
      rw [hkd] at hor hx
      unfold input
      simp only [hlen, bind, Except.bind, hnt, ne_eq, hz, not_false_eq_true, if_true, hsub, ← hk, hx,
        hmul, shlU64_ok (show 8 * r.length < 64 by omega), htl, hor, hlt, hnt', pure, Except.pure]
    · have hkn : k = 8 - r.length := by omega
      have h8 : (r ++ d.take k).length = 8 := by rw [List.length_append, htk]; omega
      have hp8 : 8 ∣ (p ++ r ++ d.take (8 - r.length)).length := by
        rw [List.append_assoc, List.length_append, ← hkn, h8]
        exact Nat.dvd_add hp (Nat.dvd_refl _)
      obtain ⟨e', h1, h2, h3, h4, h5⟩ := rest_ok hd (needed := 8 - r.length) (by omega) (by omega)
        { e with
          length := (m.length + d.length) % c.usizeMod
          state := absorb e.state (BitVec.ofNat 64 (leNat (r ++ d.take k)))
          tail := BitVec.ofNat 64 (leNat (r ++ d.take k))
          ntail := 0 } s (p ++ r) hp8 (by
          show toSip (absorb _ _) = _
          rw [absorb_eq, hst, ← hkn, List.append_assoc, leWords_append _ _ hp, leWords_one h8,
            List.foldl_append]
          rfl)
      refine ⟨e', ?_, ⟨h2.trans R.k0, h3.trans R.k1, by rw [h4, hml], by rw [hml]; exact h,
        by rw [hm]; exact h5⟩⟩
      unfold input
      simp only [hlen, bind, Except.bind, hnt, ne_eq, hz, not_false_eq_true, if_true, hsub, ← hk, hx,
        hmul, shlU64_ok (show 8 * r.length < 64 by omega), htl, hor, hlt, if_false]
      exact h1

theorem input_err {c : Cfg} {e : Engine} {s : SipStart} {m : List Byte}
    (d : List Byte) (R : SipRel c e s m) (ho : c.overflowChecks = true)
    (h : c.usizeMod ≤ m.length + d.length) : input c e d = .error .overflow := by
  have hlen : addUsize c e.length d.length = .error .overflow := by
    rw [R.len, Nat.mod_eq_of_lt (R.nowrap ho)]
    unfold addUsize
    rw [if_neg (by omega), if_pos ho]
  unfold input
  simp only [hlen, bind, Except.bind]

/-- The last word: length byte and pending bytes. -/
theorem lastWord {c : Cfg} (hc : c.Valid) {n : Nat} {r : List Byte} (hr : r.length < 8) :
    ((asU64 (n % c.usizeMod) &&& 0xff) <<< 56) ||| BitVec.ofNat 64 (leNat r) =
      BitVec.ofNat 64 (leNat (r ++ List.replicate (7 - r.length) 0 ++ [BitVec.ofNat 8 n])) := by
  have h256 : 256 ∣ c.usizeMod := by
    unfold Cfg.Valid at hc
    unfold Cfg.usizeMod
    rcases hc with h | h | h <;> rw [h] <;> decide
  have hlen : (r ++ List.replicate (7 - r.length) (0 : Byte)).length = 7 := by simp; omega
  have hr7 : leNat (r ++ List.replicate (7 - r.length) (0 : Byte)) = leNat r := by
    rw [leNat_append, leNat_replicate_zero, Nat.mul_zero, Nat.add_zero]
  rw [← or_shift _ _ (by rw [hlen]; simp), hlen, hr7, BitVec.or_comm]
  congr 2
  apply BitVec.eq_of_toNat_eq
  rw [BitVec.toNat_and, asU64, BitVec.toNat_ofNat, BitVec.toNat_ofNat, leNat_cons, leNat_nil,
    BitVec.toNat_ofNat]
  show _ &&& (2 ^ 8 - 1) = _
  rw [Nat.and_two_pow_sub_one_eq_mod, Nat.mod_mod_of_dvd _ (by decide : 2 ^ 8 ∣ 2 ^ 64),
    Nat.mod_mod_of_dvd _ h256]
  omega

theorem finish_eq (e : Engine) : finalizeU64 e =
    sipFinish (sipAbsorb (toSip e.state) (((asU64 e.length &&& 0xff) <<< 56) ||| e.tail)) := by
  generalize hb : ((asU64 e.length &&& 0xff) <<< 56) ||| e.tail = b
  have h1 : finalizeU64 e =
      (let st := dRounds { absorb e.state b with v2 := (absorb e.state b).v2 ^^^ 0xff }
       st.v0 ^^^ st.v1 ^^^ st.v2 ^^^ st.v3) := by
    unfold finalizeU64
    rw [hb]
    rfl
  rw [h1, ← absorb_eq]
  generalize absorb e.state b = st
  simp only [sipFinish, dRounds]
  rfl

theorem finalizeU64_eq {c : Cfg} (hc : c.Valid) {e : Engine} {s : SipStart} {m : List Byte}
    (R : SipRel c e s m) : finalizeU64 e = sipFrom s.v m := by
  obtain ⟨p, r, hm, hp, hr, hnt, htl, hst⟩ := R.split
  have h8 : (r ++ List.replicate (7 - r.length) 0 ++ [BitVec.ofNat 8 m.length]).length = 8 := by
    simp; omega
  have hpad : sipPad m =
      p ++ (r ++ List.replicate (7 - r.length) 0 ++ [BitVec.ofNat 8 m.length]) := by
    have : m.length % 8 = r.length := by
      rw [hm, List.length_append]
      obtain ⟨k, hk⟩ := hp
      omega
    rw [sipPad, this]
    simp only [← List.append_assoc, ← hm]
  have hlw := lastWord hc (n := m.length) hr
  have hb : ((asU64 e.length &&& 0xff) <<< 56) ||| e.tail =
      BitVec.ofNat 64 (leNat (r ++ List.replicate (7 - r.length) 0 ++ [BitVec.ofNat 8 m.length])) := by
    rw [R.len, htl, hlw]
  rw [sipFrom, hpad, leWords_append _ _ hp, leWords_one h8, List.foldl_append, ← hst, ← hb, finish_eq]
  rfl

/-- `siphash24::Engine` simulates its log. -/
def lawful {c : Cfg} (hc : c.Valid) : Lawful (engine c) (logSip c ofSip toSip) where
  Rel := SipRel c
  accepted {e s m} R := by
    simp only [logSip, Bool.or_eq_true, Bool.not_eq_true', decide_eq_true_eq]
    cases ho : c.overflowChecks with
    | false => left; rfl
    | true => right; exact R.nowrap ho
  new_rel := ⟨_, rfl, rfl, rfl, by simp [logSip, new, withKeys], by
    have := (sized_64 hc).lt
    intro _; simp only [logSip, List.length_nil]; omega, [], [], rfl, by simp, by simp, rfl, rfl, by
    show toSip (withKeys 0 0).state = sipInit 0 0
    decide⟩
  default_rel := ⟨_, rfl, rfl, rfl, by simp [logSip, new, withKeys], by
    have := (sized_64 hc).lt
    intro _; simp only [logSip, List.length_nil]; omega, [], [], rfl, by simp, by simp, rfl, rfl, by
    show toSip (withKeys 0 0).state = sipInit 0 0
    decide⟩
  input_ok {e s m} d hd R h := input_ok hc d hd R (by
    intro ho
    simpa [logSip, ho, Cfg.usizeMod] using h)
  input_err {e s m} d hd R h := by
    simp only [logSip, Bool.or_eq_false_iff, Bool.not_eq_false', decide_eq_false_iff_not] at h
    exact input_err d R h.1 (Nat.le_of_not_lt h.2)
  count R := R.len
  digest {e s m} R := by
    show Except.ok (le64 (finalizeU64 e)) = _
    rw [finalizeU64_eq hc R, le64_eq]; rfl
  mid {e s m} R := by
    obtain ⟨p, r, hm, hp, hr, hnt, htl, hst⟩ := R.split
    show Except.ok e.state = Except.ok (ofSip ((leWords 64 m).foldl sipAbsorb s.v))
    rw [hm, leWords_append _ _ hp, leWords_short hr, List.append_nil, ← hst]
    rfl
  resume_ok {μ n s} ht h := by
    cases h
    exact ⟨_, rfl, rfl, rfl, by simp [new, withKeys], by
      have := (sized_64 hc).lt
      intro _; simp only [List.length_nil]; omega, [], [], rfl, by simp, by simp, rfl, rfl, rfl⟩
  resume_err ht h := by cases h
  digest_len {s m d} h := by cases h; exact length_leBytes _ _
  out_le := by show 8 ≤ 64; decide
  small {n} hn := by
    have := (sized_64 hc).lt
    show n < c.usizeMod
    omega
  mono {s a b} hab h := by
    simp only [logSip, Bool.or_eq_true, decide_eq_true_eq] at h ⊢
    rcases h with h | h
    · exact .inl h
    · exact .inr (by omega)

/-- Keyed engines start keyed logs. -/
theorem withKeys_rel {c : Cfg} (hc : c.Valid) (k0 k1 : BitVec 64) :
    SipRel c (withKeys k0 k1) ⟨k0, k1, sipInit k0 k1⟩ [] := by
  refine ⟨rfl, rfl, by simp [withKeys], ?_, [], [], rfl, by simp, by simp, rfl, rfl, ?_⟩
  · have := (sized_64 hc).lt
    intro _; simp only [List.length_nil]; omega
  · have hC : beWords 64 sipAscii =
        [0x736f6d6570736575, 0x646f72616e646f6d, 0x6c7967656e657261, 0x7465646279746573] := by
      decide
    show toSip (withKeys k0 k1).state = sipInit k0 k1
    simp only [sipInit, hC, List.getD_cons_zero, List.getD_cons_succ]
    rfl

end Chf.Siphash24
