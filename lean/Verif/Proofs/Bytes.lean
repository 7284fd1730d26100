import Verif.Spec.Bytes

/-!
# Lemmas: byte encodings, blocks, slices
-/

namespace Chf
open Spec

/-! ## Encodings -/

theorem leBytes_zero (x : Nat) : leBytes 0 x = [] := rfl

theorem leBytes_succ (n x : Nat) : leBytes (n + 1) x = BitVec.ofNat 8 x :: leBytes n (x / 256) := by
  unfold leBytes
  rw [List.range_succ_eq_map, List.map_cons, List.map_map]
  congr 1
  · simp
  · apply List.map_congr_left
    intro i _
    simp [Nat.pow_succ, Nat.div_div_eq_div_mul, Nat.mul_comm]

theorem leOfNat_eq (n x : Nat) : leOfNat n x = leBytes n x := by
  induction n generalizing x with
  | zero => rfl
  | succ n ih => rw [leOfNat, leBytes_succ, ih]

@[simp] theorem length_leBytes (n x : Nat) : (leBytes n x).length = n := by simp [leBytes]
@[simp] theorem length_beBytes (n x : Nat) : (beBytes n x).length = n := by simp [beBytes]

theorem be32_eq (x : BitVec 32) : be32 x = beBytes 4 x.toNat := by simp [be32, beBytes, leOfNat_eq]
theorem be64_eq (x : BitVec 64) : be64 x = beBytes 8 x.toNat := by simp [be64, beBytes, leOfNat_eq]
theorem le32_eq (x : BitVec 32) : le32 x = leBytes 4 x.toNat := by simp [le32, leOfNat_eq]
theorem le64_eq (x : BitVec 64) : le64 x = leBytes 8 x.toNat := by simp [le64, leOfNat_eq]

@[simp] theorem length_be32 (x : BitVec 32) : (be32 x).length = 4 := by simp [be32_eq]
@[simp] theorem length_be64 (x : BitVec 64) : (be64 x).length = 8 := by simp [be64_eq]
@[simp] theorem length_le32 (x : BitVec 32) : (le32 x).length = 4 := by simp [le32_eq]
@[simp] theorem length_le64 (x : BitVec 64) : (le64 x).length = 8 := by simp [le64_eq]

theorem foldl_beNat (bs : List Byte) (a : Nat) :
    bs.foldl (fun acc b => acc * 256 + b.toNat) a = a * 256 ^ bs.length + beNat bs := by
  unfold beNat
  induction bs generalizing a with
  | nil => simp
  | cons b bs ih =>
    simp only [List.foldl_cons, List.length_cons]
    rw [ih, ih (0 * 256 + b.toNat), Nat.pow_succ]
    simp only [Nat.zero_mul, Nat.zero_add, Nat.add_mul]
    rw [Nat.mul_assoc, Nat.mul_comm 256, Nat.add_assoc]

theorem beNat_nil : beNat [] = 0 := rfl

theorem beNat_append (a b : List Byte) : beNat (a ++ b) = beNat a * 256 ^ b.length + beNat b := by
  rw [beNat, List.foldl_append, foldl_beNat]; rfl

theorem beNat_singleton (b : Byte) : beNat [b] = b.toNat := by simp [beNat]

theorem leNat_nil : leNat [] = 0 := rfl

theorem leNat_cons (b : Byte) (bs : List Byte) : leNat (b :: bs) = b.toNat + 256 * leNat bs := by
  simp [leNat, beNat_append, beNat_singleton]; omega

theorem natOfLe_eq (bs : List Byte) : natOfLe bs = leNat bs := by
  induction bs with
  | nil => rfl
  | cons b bs ih => rw [natOfLe, leNat_cons, ih]

theorem beNat_eq (bs : List Byte) : beNat bs = leNat bs.reverse := by simp [leNat]

theorem leNat_lt (bs : List Byte) : leNat bs < 256 ^ bs.length := by
  induction bs with
  | nil => simp [leNat_nil]
  | cons b bs ih =>
    rw [leNat_cons, List.length_cons, Nat.pow_succ]
    have := b.isLt
    omega

theorem beNat_lt (bs : List Byte) : beNat bs < 256 ^ bs.length := by
  rw [beNat_eq]; simpa using leNat_lt bs.reverse

theorem leBytes_leNat (bs : List Byte) : leBytes bs.length (leNat bs) = bs := by
  induction bs with
  | nil => rfl
  | cons b bs ih =>
    rw [List.length_cons, leBytes_succ, leNat_cons]
    have h1 : BitVec.ofNat 8 (b.toNat + 256 * leNat bs) = b := by
      apply BitVec.eq_of_toNat_eq
      have := b.isLt
      simp only [BitVec.toNat_ofNat]; omega
    have h2 : (b.toNat + 256 * leNat bs) / 256 = leNat bs := by
      have := b.isLt
      omega
    rw [h1, h2, ih]

theorem leNat_leBytes (n x : Nat) : leNat (leBytes n x) = x % 256 ^ n := by
  induction n generalizing x with
  | zero => simp [leBytes_zero, leNat_nil, Nat.mod_one]
  | succ n ih =>
    rw [leBytes_succ, leNat_cons, ih, Nat.pow_succ, Nat.mul_comm (256 ^ n) 256, Nat.mod_mul]
    simp

theorem beNat_beBytes (n x : Nat) : beNat (beBytes n x) = x % 256 ^ n := by
  rw [beNat_eq, beBytes, List.reverse_reverse, leNat_leBytes]

theorem beBytes_beNat (bs : List Byte) : beBytes bs.length (beNat bs) = bs := by
  rw [beNat_eq, beBytes]
  have := leBytes_leNat bs.reverse
  rw [List.length_reverse] at this
  rw [this, List.reverse_reverse]

theorem leBytes_mod (n x : Nat) : leBytes n (x % 256 ^ n) = leBytes n x := by
  have h := leBytes_leNat (leBytes n x)
  rwa [leNat_leBytes, length_leBytes] at h

theorem beBytes_mod (n x : Nat) : beBytes n (x % 256 ^ n) = beBytes n x := by
  simp only [beBytes, leBytes_mod]

theorem leBytes_add (a b x : Nat) : leBytes (a + b) x = leBytes a x ++ leBytes b (x / 256 ^ a) := by
  induction a generalizing x with
  | zero => simp [leBytes_zero]
  | succ a ih =>
    rw [Nat.add_right_comm, leBytes_succ, ih, leBytes_succ, Nat.pow_succ]
    simp [Nat.div_div_eq_div_mul, Nat.mul_comm]

theorem leBytes_zero_right (n : Nat) : leBytes n 0 = List.replicate n 0 := by
  induction n with
  | zero => rfl
  | succ n ih => rw [leBytes_succ, Nat.zero_div, ih, List.replicate_succ]; rfl

theorem beBytes_high (a b x : Nat) (h : x < 256 ^ b) :
    beBytes (a + b) x = List.replicate a 0 ++ beBytes b x := by
  rw [beBytes, Nat.add_comm, leBytes_add, Nat.div_eq_of_lt h, leBytes_zero_right, List.reverse_append,
    List.reverse_replicate, beBytes]

theorem beBytes_inj {n x y : Nat} (hx : x < 256 ^ n) (hy : y < 256 ^ n)
    (h : beBytes n x = beBytes n y) : x = y := by
  have := congrArg beNat h
  rwa [beNat_beBytes, beNat_beBytes, Nat.mod_eq_of_lt hx, Nat.mod_eq_of_lt hy] at this

theorem leBytes_inj {n x y : Nat} (hx : x < 256 ^ n) (hy : y < 256 ^ n)
    (h : leBytes n x = leBytes n y) : x = y := by
  have := congrArg leNat h
  rwa [leNat_leBytes, leNat_leBytes, Nat.mod_eq_of_lt hx, Nat.mod_eq_of_lt hy] at this

theorem fromBe32_ok {s : List Byte} (h : s.length = 4) :
    fromBe32 s = .ok (BitVec.ofNat 32 (beNat s)) := by
  rw [fromBe32, if_pos h, natOfLe_eq, beNat_eq]
theorem fromLe32_ok {s : List Byte} (h : s.length = 4) :
    fromLe32 s = .ok (BitVec.ofNat 32 (leNat s)) := by
  rw [fromLe32, if_pos h, natOfLe_eq]
theorem fromBe64_ok {s : List Byte} (h : s.length = 8) :
    fromBe64 s = .ok (BitVec.ofNat 64 (beNat s)) := by
  rw [fromBe64, if_pos h, natOfLe_eq, beNat_eq]
theorem fromLe64_ok {s : List Byte} (h : s.length = 8) :
    fromLe64 s = .ok (BitVec.ofNat 64 (leNat s)) := by
  rw [fromLe64, if_pos h, natOfLe_eq]

/-! ## Blocks -/

theorem chunksExact_eq (n : Nat) (s : List Byte) : chunksExact n s = blocks n s := by
  unfold chunksExact blocks
  apply List.map_congr_left
  intro i _
  rw [Nat.mul_comm]

@[simp] theorem length_blocks (B : Nat) (m : List Byte) : (blocks B m).length = m.length / B := by
  simp [blocks]

theorem blocks_of_lt {B : Nat} {m : List Byte} (h : m.length < B) : blocks B m = [] := by
  simp [blocks, Nat.div_eq_of_lt h]

@[simp] theorem blocks_nil (B : Nat) : blocks B [] = [] := by simp [blocks]

theorem blocks_cons {B : Nat} (hB : 0 < B) {b : List Byte} (hb : b.length = B) (m : List Byte) :
    blocks B (b ++ m) = b :: blocks B m := by
  unfold blocks
  have hl : (b ++ m).length / B = m.length / B + 1 := by
    rw [List.length_append, hb, Nat.add_comm, Nat.add_div_right _ hB]
  rw [hl, List.range_succ_eq_map, List.map_cons, List.map_map]
  congr 1
  · subst hb; simp
  · apply List.map_congr_left
    intro i _
    have : B * (i + 1) = b.length + B * i := by rw [hb, Nat.mul_succ, Nat.add_comm]
    simp only [Function.comp_apply, Nat.succ_eq_add_one, this, ← List.drop_drop,
      List.drop_left']

theorem blocks_append {B : Nat} (hB : 0 < B) (p q : List Byte) (hp : B ∣ p.length) :
    blocks B (p ++ q) = blocks B p ++ blocks B q := by
  obtain ⟨k, hk⟩ := hp
  induction k generalizing p with
  | zero =>
    have : p = [] := List.length_eq_zero_iff.mp (by simpa using hk)
    subst this; simp
  | succ k ih =>
    have hle : B ≤ p.length := by rw [hk, Nat.mul_succ]; omega
    have h1 : p = p.take B ++ p.drop B := (List.take_append_drop B p).symm
    have h2 : (p.take B).length = B := by simp [hle]
    have h3 : (p.drop B).length = B * k := by rw [List.length_drop, hk, Nat.mul_succ]; omega
    rw [h1, List.append_assoc, blocks_cons hB h2, blocks_cons hB h2, ih _ h3, List.cons_append]

theorem mem_blocks_length {B : Nat} {m b : List Byte} (h : b ∈ blocks B m) : b.length = B := by
  simp only [blocks, List.mem_map, List.mem_range] at h
  obtain ⟨i, hi, rfl⟩ := h
  rw [List.length_take, List.length_drop]
  have h1 : B * i + B ≤ m.length := by
    have := Nat.mul_le_mul_left B (Nat.succ_le_of_lt hi)
    rw [Nat.mul_succ] at this
    exact Nat.le_trans this (Nat.mul_div_le _ _)
  omega

theorem chain_append {H : Type} {B : Nat} (hB : 0 < B) (f : H → List Byte → H) (h : H)
    (p q : List Byte) (hp : B ∣ p.length) :
    chain B f h (p ++ q) = chain B f (chain B f h p) q := by
  simp [chain, blocks_append hB p q hp]

theorem chain_short {H : Type} {B : Nat} (f : H → List Byte → H) (h : H) {q : List Byte}
    (hq : q.length < B) : chain B f h q = h := by simp [chain, blocks_of_lt hq]

theorem chain_one {H : Type} {B : Nat} (hB : 0 < B) (f : H → List Byte → H) (h : H) {q : List Byte}
    (hq : q.length = B) : chain B f h q = f h q := by
  have := blocks_cons hB hq []
  simp only [List.append_nil, blocks_nil] at this
  simp [chain, this]

@[simp] theorem chain_nil {H : Type} (B : Nat) (f : H → List Byte → H) (h : H) :
    chain B f h [] = h := by simp [chain]

/-- Every message is complete blocks and a remainder. -/
theorem split_blocks {B : Nat} (hB : 0 < B) (m : List Byte) :
    ∃ p r, m = p ++ r ∧ B ∣ p.length ∧ r.length < B := by
  refine ⟨m.take (m.length / B * B), m.drop (m.length / B * B), (List.take_append_drop _ _).symm,
    ?_, ?_⟩
  · rw [List.length_take, Nat.min_eq_left (Nat.div_mul_le_self _ _)]
    exact Nat.dvd_mul_left _ _
  · rw [List.length_drop]
    have := Nat.mod_lt m.length hB
    have h := Nat.div_add_mod m.length B
    rw [Nat.mul_comm] at h
    omega

theorem blocks_flatten_remainder (B : Nat) (hB : 0 < B) (m : List Byte) :
    (blocks B m).flatten ++ remainder B m = m := by
  obtain ⟨p, r, rfl, hp, hr⟩ := split_blocks hB m
  have h1 : (blocks B p).flatten = p := by
    obtain ⟨k, hk⟩ := hp
    induction k generalizing p with
    | zero =>
      have : p = [] := List.length_eq_zero_iff.mp (by simpa using hk)
      subst this; simp
    | succ k ih =>
      have hle : B ≤ p.length := by rw [hk, Nat.mul_succ]; omega
      have h2 : (p.take B).length = B := by simp [hle]
      have h3 : (p.drop B).length = B * k := by rw [List.length_drop, hk, Nat.mul_succ]; omega
      conv => lhs; rw [← List.take_append_drop B p]
      rw [blocks_cons hB h2, List.flatten_cons, ih _ h3, List.take_append_drop]
  obtain ⟨k, hk⟩ := hp
  have h2 : remainder B (p ++ r) = r := by
    unfold remainder
    have : (p ++ r).length / B * B = p.length := by
      rw [List.length_append, hk, Nat.mul_add_div hB, Nat.div_eq_of_lt hr, Nat.add_zero,
        Nat.mul_comm]
    rw [this, List.drop_left]
  rw [blocks_append hB _ _ ⟨k, hk⟩, blocks_of_lt hr, List.append_nil, h1, h2]

/-! ## Loops over chunks -/

theorem fillZip_ok {α β} {f : β → Res α} {g : β → α} (ys : List β) (xs : List α)
    (hf : ∀ y ∈ ys, f y = .ok (g y)) (hl : ys.length ≤ xs.length) :
    fillZip f xs ys = .ok (ys.map g ++ xs.drop ys.length) := by
  induction ys generalizing xs with
  | nil => cases xs <;> simp [fillZip]
  | cons y ys ih =>
    cases xs with
    | nil => simp at hl
    | cons x xs =>
      have hy := hf y (List.mem_cons_self ..)
      have hr := ih xs (fun z hz => hf z (List.mem_cons_of_mem _ hz)) (by simpa using hl)
      simp [fillZip, hy, hr, bind, Except.bind, pure, Except.pure]

/-- The same when the destination is shorter: only as many items as it holds are converted. -/
theorem fillZip_ok' {α β} {f : β → Res α} {g : β → α} (ys : List β) (xs : List α)
    (hf : ∀ y ∈ ys, f y = .ok (g y)) (hl : xs.length ≤ ys.length) :
    fillZip f xs ys = .ok ((ys.take xs.length).map g) := by
  induction ys generalizing xs with
  | nil => cases xs <;> simp_all [fillZip]
  | cons y ys ih =>
    cases xs with
    | nil => simp [fillZip]
    | cons x xs =>
      have hy := hf y (List.mem_cons_self ..)
      have hr := ih xs (fun z hz => hf z (List.mem_cons_of_mem _ hz)) (by simpa using hl)
      simp [fillZip, hy, hr, bind, Except.bind, pure, Except.pure]

theorem storeZip_ok {α} {k : Nat} {enc : α → List Byte} (henc : ∀ v, (enc v).length = k)
    (vals : List α) (ret : List Byte) (hl : ret.length = vals.length * k) :
    storeZip k enc vals ret = .ok (vals.flatMap enc) := by
  induction vals generalizing ret with
  | nil =>
    have : ret = [] := List.length_eq_zero_iff.mp (by simpa using hl)
    simp [storeZip, this]
  | cons v vs ih =>
    simp only [List.length_cons, Nat.succ_mul] at hl
    have h1 : ¬ ret.length < k := by omega
    have h2 := ih (ret.drop k) (by rw [List.length_drop]; omega)
    simp [storeZip, h1, henc, h2, bind, Except.bind, pure, Except.pure]

/-- Reading all the 32-bit big-endian words of a block. -/
theorem fill_beWords32 (xs : List (BitVec 32)) (buf : List Byte) (hl : buf.length / 4 ≤ xs.length) :
    fillZip fromBe32 xs (chunksExact 4 buf) =
      .ok (beWords 32 buf ++ xs.drop (buf.length / 4)) := by
  rw [chunksExact_eq, fillZip_ok (g := fun b => BitVec.ofNat 32 (beNat b))]
  · simp [beWords]
  · intro y hy; exact fromBe32_ok (mem_blocks_length hy)
  · simpa using hl

theorem fill_leWords32 (xs : List (BitVec 32)) (buf : List Byte) (hl : buf.length / 4 ≤ xs.length) :
    fillZip fromLe32 xs (chunksExact 4 buf) =
      .ok (leWords 32 buf ++ xs.drop (buf.length / 4)) := by
  rw [chunksExact_eq, fillZip_ok (g := fun b => BitVec.ofNat 32 (leNat b))]
  · simp [leWords]
  · intro y hy; exact fromLe32_ok (mem_blocks_length hy)
  · simpa using hl

theorem fill_beWords64 (xs : List (BitVec 64)) (buf : List Byte) (hl : buf.length / 8 ≤ xs.length) :
    fillZip fromBe64 xs (chunksExact 8 buf) =
      .ok (beWords 64 buf ++ xs.drop (buf.length / 8)) := by
  rw [chunksExact_eq, fillZip_ok (g := fun b => BitVec.ofNat 64 (beNat b))]
  · simp [beWords]
  · intro y hy; exact fromBe64_ok (mem_blocks_length hy)
  · simpa using hl

@[simp] theorem length_beWords (w : Nat) (b : List Byte) :
    (beWords w b).length = b.length / (w / 8) := by simp [beWords]
@[simp] theorem length_leWords (w : Nat) (b : List Byte) :
    (leWords w b).length = b.length / (w / 8) := by simp [leWords]

end Chf
