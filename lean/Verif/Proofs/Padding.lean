import Verif.Proofs.History
import Verif.Proofs.Resume

/-!
# Lemmas: injectivity of padding, and collisions
-/

namespace Chf
open Spec

/-- An encoding of the numbers below 2^64 in `L` bytes. -/
structure LengthEnc (L : Nat) (enc : Nat → Nat → List Byte) : Prop where
  len : ∀ x, (enc L x).length = L
  inj : ∀ x y, x < 2 ^ 64 → y < 2 ^ 64 → enc L x = enc L y → x = y

theorem two64_le {L : Nat} (hL : 8 ≤ L) : 2 ^ 64 ≤ 256 ^ L := by
  rw [show 256 = 2 ^ 8 from rfl, ← Nat.pow_mul]
  exact Nat.pow_le_pow_right (by decide) (by omega)

theorem lengthEnc_be {L : Nat} (hL : 8 ≤ L) : LengthEnc L beBytes :=
  ⟨fun x => by simp, fun x y hx hy h => by
    have := two64_le hL
    exact beBytes_inj (by omega) (by omega) h⟩

theorem lengthEnc_le {L : Nat} (hL : 8 ≤ L) : LengthEnc L leBytes :=
  ⟨fun x => by simp, fun x y hx hy h => by
    have := two64_le hL
    exact leBytes_inj (by omega) (by omega) h⟩

theorem pad_suffix {B L : Nat} {enc : Nat → Nat → List Byte} (m : List Byte) :
    ∃ q, pad B L enc m = q ++ enc L (8 * m.length) := ⟨_, rfl⟩

/-- The length of a padded message's message can be read off its end. -/
theorem pad_suffix_inj {L : Nat} {enc : Nat → Nat → List Byte} (E : LengthEnc L enc)
    {m m' : List Byte} (h : 8 * m.length < 2 ^ 64) (h' : 8 * m'.length < 2 ^ 64)
    (he : enc L (8 * m.length) = enc L (8 * m'.length)) : m.length = m'.length := by
  have := E.inj _ _ h h' he
  omega

theorem pad_inj {B L : Nat} {enc : Nat → Nat → List Byte} (E : LengthEnc L enc)
    {m m' : List Byte} (h : 8 * m.length < 2 ^ 64) (h' : 8 * m'.length < 2 ^ 64)
    (he : pad B L enc m = pad B L enc m') : m = m' := by
  obtain ⟨q, hq⟩ := pad_suffix (B := B) (L := L) (enc := enc) m
  obtain ⟨q', hq'⟩ := pad_suffix (B := B) (L := L) (enc := enc) m'
  have h1 := he
  rw [hq, hq'] at h1
  have h2 := (List.append_inj' h1 (by rw [E.len, E.len])).2
  have h3 := pad_suffix_inj E h h' h2
  unfold pad at he
  rw [List.append_assoc, List.append_assoc, List.append_assoc, List.append_assoc] at he
  exact (List.append_inj he h3).1

theorem blocks_inj {B : Nat} (hB : 0 < B) {p q : List Byte} (hp : B ∣ p.length) (hq : B ∣ q.length)
    (h : blocks B p = blocks B q) : p = q := by
  have h1 := blocks_flatten_remainder B hB p
  have h2 := blocks_flatten_remainder B hB q
  rw [remainder, Nat.div_mul_cancel hp, List.drop_length, List.append_nil] at h1
  rw [remainder, Nat.div_mul_cancel hq, List.drop_length, List.append_nil] at h2
  rw [← h1, ← h2, h]

theorem steps_append {H : Type} (f : H → List Byte → H) (h : H) (bs cs : List (List Byte)) :
    steps f h (bs ++ cs) = steps f h bs ++ steps f (bs.foldl f h) cs := by
  induction bs generalizing h with
  | nil => rfl
  | cons b bs ih => simp only [List.cons_append, steps, ih, List.foldl_cons]

theorem map_snd_steps {H : Type} (f : H → List Byte → H) (h : H) (bs : List (List Byte)) :
    (steps f h bs).map Prod.snd = bs := by
  induction bs generalizing h with
  | nil => rfl
  | cons b bs ih => simp only [steps, List.map_cons, ih]

/-- Among the calls `cs` and `cs'` there are two different ones with the same result. -/
def Collide {H : Type} (f : H → List Byte → H) (cs cs' : List (H × List Byte)) : Prop :=
  ∃ x ∈ cs, ∃ x' ∈ cs', x ≠ x' ∧ f x.1 x.2 = f x'.1 x'.2

/-- Different lists of blocks of the same length that lead to the same value contain a collision. -/
theorem collide_of_foldl {H : Type} {f : H → List Byte → H} (n : Nat) :
    ∀ (bs bs' : List (List Byte)) (h h' : H), bs.length = n → bs'.length = n →
      (h, bs) ≠ (h', bs') → 0 < n → bs.foldl f h = bs'.foldl f h' →
      Collide f (steps f h bs) (steps f h' bs') := by
  induction n with
  | zero => intros; omega
  | succ n ih =>
    intro bs bs' h h' hl hl' hne _ heq
    obtain ⟨b, bs, rfl⟩ : ∃ b t, bs = b :: t := by
      cases bs with
      | nil => simp at hl
      | cons b t => exact ⟨b, t, rfl⟩
    obtain ⟨b', bs', rfl⟩ : ∃ b t, bs' = b :: t := by
      cases bs' with
      | nil => simp at hl'
      | cons b t => exact ⟨b, t, rfl⟩
    simp only [List.length_cons, Nat.add_right_cancel_iff] at hl hl'
    simp only [List.foldl_cons] at heq
    by_cases hc : (f h b, bs) = (f h' b', bs')
    · injection hc with h1 h2
      exact ⟨(h, b), by simp [steps], (h', b'), by simp [steps], fun e => hne (by
        injection e with e1 e2
        rw [e1, e2, h2]), h1⟩
    · cases n with
      | zero =>
        have e1 : bs = [] := List.length_eq_zero_iff.1 hl
        have e2 : bs' = [] := List.length_eq_zero_iff.1 hl'
        subst e1 e2
        simp only [List.foldl_nil] at heq
        exact absurd (by rw [heq]) hc
      | succ n =>
        obtain ⟨x, hx, x', hx', r⟩ := ih bs bs' _ _ hl hl' hc (by omega) heq
        exact ⟨x, by simp [steps, hx], x', by simp [steps, hx'], r⟩

/-- The last block of a padded message ends with the length field. -/
theorem pad_last {B L : Nat} {enc : Nat → Nat → List Byte} (hB : 0 < B) (hL : L ≤ B)
    (E : LengthEnc L enc) (m : List Byte) :
    ∃ p b, pad B L enc m = p ++ b ∧ B ∣ p.length ∧ b.length = B ∧
      b.drop (B - L) = enc L (8 * m.length) := by
  obtain ⟨q, hq⟩ := pad_suffix (B := B) (L := L) (enc := enc) m
  have hd := pad_dvd hB E.len m (B := B)
  obtain ⟨k, hk⟩ := hd
  have hlen : q.length + L = B * k := by rw [← hk, hq, List.length_append, E.len]
  have hk1 : 1 ≤ k := by
    cases k with
    | zero =>
      have : (pad B L enc m).length = 0 := by simpa using hk
      simp [pad] at this
    | succ k => omega
  have hBk : B * k = B * (k - 1) + B := by
    conv => lhs; rw [show k = k - 1 + 1 by omega, Nat.mul_add, Nat.mul_one]
  refine ⟨(pad B L enc m).take (B * (k - 1)), (pad B L enc m).drop (B * (k - 1)),
    (List.take_append_drop _ _).symm, ?_, ?_, ?_⟩
  · rw [List.length_take, Nat.min_eq_left (by omega)]
    exact ⟨_, rfl⟩
  · rw [List.length_drop]; omega
  · rw [List.drop_drop, hq, show B * (k - 1) + (B - L) = q.length by omega, List.drop_left]

theorem blocks_last {B : Nat} (hB : 0 < B) {p b : List Byte} (hp : B ∣ p.length) (hb : b.length = B) :
    blocks B (p ++ b) = blocks B p ++ [b] := by
  rw [blocks_append hB p b hp]
  have := blocks_cons hB hb []
  rw [List.append_nil, blocks_nil] at this
  rw [this]

/-- Two different messages with the same chaining value after padding contain a collision of the
compression function. -/
theorem collide_of_pad {H : Type} {B L : Nat} {enc : Nat → Nat → List Byte} {f : H → List Byte → H}
    (hB : 0 < B) (hL : L ≤ B) (E : LengthEnc L enc) {m m' : List Byte} (hm : 8 * m.length < 2 ^ 64)
    (hm' : 8 * m'.length < 2 ^ 64) (hne : m ≠ m') (h0 : H)
    (heq : chain B f h0 (pad B L enc m) = chain B f h0 (pad B L enc m')) :
    Collide f (steps f h0 (blocks B (pad B L enc m))) (steps f h0 (blocks B (pad B L enc m'))) := by
  by_cases hl : m.length = m'.length
  · have hpl : (pad B L enc m).length = (pad B L enc m').length := by simp [pad, E.len, hl]
    have hne' : blocks B (pad B L enc m) ≠ blocks B (pad B L enc m') := fun h =>
      hne (pad_inj E hm hm' (blocks_inj hB (pad_dvd hB E.len m) (pad_dvd hB E.len m') h))
    refine collide_of_foldl _ _ _ h0 h0 rfl ?_ ?_ ?_ heq
    · simp [hpl]
    · intro h; injection h with _ h; exact hne' h
    · rw [length_blocks]
      obtain ⟨k, hk⟩ := pad_dvd hB E.len m (B := B)
      rw [hk, Nat.mul_div_cancel_left _ hB]
      cases k with
      | zero =>
        have : (pad B L enc m).length = 0 := by simpa using hk
        simp [pad] at this
      | succ k => omega
  · obtain ⟨p, b, h1, h2, h3, h4⟩ := pad_last hB hL E m
    obtain ⟨p', b', h1', h2', h3', h4'⟩ := pad_last hB hL E m'
    rw [h1, h1'] at heq ⊢
    rw [chain_append hB _ _ _ _ h2, chain_append hB _ _ _ _ h2', chain_one hB _ _ h3,
      chain_one hB _ _ h3'] at heq
    rw [blocks_last hB h2 h3, blocks_last hB h2' h3', steps_append, steps_append]
    refine ⟨(chain B f h0 p, b), List.mem_append_right _ (List.mem_singleton.2 rfl),
      (chain B f h0 p', b'), List.mem_append_right _ (List.mem_singleton.2 rfl), ?_, heq⟩
    intro h
    injection h with _ h
    rw [h, h4'] at h4
    exact hl (pad_suffix_inj E hm hm' h4.symm)

end Chf
