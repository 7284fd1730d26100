import Mathlib.Data.Fintype.Pigeonhole
import Verif.Props.TextMulti

/-!
# C107: the parts exist

By the pigeonhole principle, for every number of places.
-/

namespace Chf.Props
open Chf Chf.Spec

theorem two_blocks {c : Cfg} {a : Alg} {H : Type} {P : Md H} (t : Source.MdText c a P) {W : Nat}
    (hw : ∀ h, (P.words h).length = W) (hW : W < P.B) (pre : List Byte)
    (hb : pre.length + P.B < 2 ^ c.usizeBits) :
    ∃ x y : List Byte, x ≠ y ∧ x.length = P.B ∧ y.length = P.B ∧
      midAfter c a (pre ++ x) = midAfter c a (pre ++ y) := by
  obtain ⟨f, hf⟩ : ∃ f : Nat → List Byte, f = fun i => P.words (chain P.B P.compress P.iv (pre ++ beBytes P.B i)) :=
    ⟨_, rfl⟩
  have hlen : ∀ i, (f i).length = W := fun i => by rw [hf]; exact hw _
  have hlt : ∀ i, beNat (f i) < 256 ^ W := fun i => by
    rw [← hlen i]
    exact beNat_lt _
  obtain ⟨x, y, hxy, he⟩ := Fintype.exists_ne_map_eq_of_card_lt
    (fun i : Fin (256 ^ P.B) => (⟨beNat (f i.1), hlt _⟩ : Fin (256 ^ W)))
    (by rw [Fintype.card_fin, Fintype.card_fin]; exact Nat.pow_lt_pow_right (by decide) hW)
  have he : beNat (f x.1) = beNat (f y.1) := congrArg Fin.val he
  have hd : f x.1 = f y.1 := by
    rw [← beBytes_beNat (f x.1), he, hlen, ← hlen y.1, beBytes_beNat]
  refine ⟨beBytes P.B x.1, beBytes P.B y.1, fun h => hxy (Fin.ext (beBytes_inj x.2 y.2 h)),
    length_beBytes _ _, length_beBytes _ _, ?_⟩
  rw [hf] at hd
  rw [t.mid _ (by rw [List.length_append, length_beBytes]; exact hb),
    t.mid _ (by rw [List.length_append, length_beBytes]; exact hb)]
  exact congrArg (fun b => Except.ok (MidVal.bytes b)) hd

theorem exist_in_turn {c : Cfg} {a : Alg} {H : Type} {P : Md H} (t : Source.MdText c a P) {W : Nat}
    (hB : a.blockSize = P.B) (hw : ∀ h, (P.words h).length = W) (hW : W < P.B) :
    ∀ (k : Nat) (pre : List Byte), pre.length + k * P.B < 2 ^ c.usizeBits →
    ∃ ps, ps.length = k ∧ CollideInTurn c a pre ps ∧ ∀ p ∈ ps, p.1 ≠ p.2 ∧ p.1.length = a.blockSize
  | 0, _, _ => ⟨[], rfl, trivial, fun _ h => absurd h List.not_mem_nil⟩
  | k + 1, pre, h => by
    rw [Nat.add_mul, Nat.one_mul] at h
    obtain ⟨x, y, hne, hx, hy, he⟩ := two_blocks t hw hW pre (by omega)
    obtain ⟨ps, hk, hc, hp⟩ := exist_in_turn t hB hw hW k (pre ++ x) (by rw [List.length_append, hx]; omega)
    refine ⟨(x, y) :: ps, by rw [List.length_cons, hk], ⟨hx.trans hy.symm, by rw [hx, hB], he, hc⟩, ?_⟩
    intro p h
    rcases List.mem_cons.1 h with rfl | h
    · exact ⟨hne, hx.trans hB.symm⟩
    · exact hp p h

/-- C107: for every `k` there are `k` places with two different blocks each that collide in turn, after any
beginning, if the messages are shorter than the address space. -/
theorem C107_exist {c : Cfg} (hc : c.Valid) (a : Alg) (ha : hasBlocks a = true) (k : Nat) (pre : List Byte)
    (hk : pre.length + k * a.blockSize < 2 ^ c.usizeBits) :
    ∃ ps, ps.length = k ∧ CollideInTurn c a pre ps ∧ ∀ p ∈ ps, p.1 ≠ p.2 ∧ p.1.length = a.blockSize := by
  cases a with
  | sha1 => exact exist_in_turn (Source.Sha1.mdText hc) rfl length_serialize5 (by decide) k pre hk
  | sha256 => exact exist_in_turn (Source.Sha256.mdText hc) rfl length_serialize8_32 (by decide) k pre hk
  | sha384 => exact exist_in_turn (Source.Sha384.mdText hc) rfl length_serialize8_64 (by decide) k pre hk
  | sha512 => exact exist_in_turn (Source.Sha512.mdText hc) rfl length_serialize8_64 (by decide) k pre hk
  | sha512_256 => exact exist_in_turn (Source.Sha512_256.mdText hc) rfl length_serialize8_64 (by decide) k pre hk
  | ripemd160 => exact exist_in_turn (Source.Ripemd160.mdText hc) rfl length_serializeRmd (by decide) k pre hk
  | _ => cases ha

/-- C107: so there are `2 ^ k` different messages of `k` blocks with one digest, with every continuation. -/
theorem C107_messages {c : Cfg} (hc : c.Valid) (a : Alg) (ha : hasBlocks a = true) (k : Nat)
    (hk : k * a.blockSize < 2 ^ c.usizeBits) :
    ∃ ms : List (List Byte), ms.length = 2 ^ k ∧ ms.Nodup ∧ (∀ m ∈ ms, m.length = k * a.blockSize) ∧
      ∀ m ∈ ms, ∀ m' ∈ ms, ∀ ds : List (List Byte), (∀ d ∈ ds, d.length < 2 ^ c.usizeBits) →
        (Source.engineOf c a).hashByteChunks (m :: ds) = (Source.engineOf c a).hashByteChunks (m' :: ds) := by
  obtain ⟨ps, hl, hc', hp⟩ := C107_exist hc a ha k [] (by rw [List.length_nil, Nat.zero_add]; exact hk)
  have l := collideInTurn_lengths hc'
  have hsum : (ps.map fun p => p.1.length).sum = k * a.blockSize := by
    rw [← hl]
    clear hc' hl l
    induction ps with
    | nil => simp
    | cons p ps ih =>
      rw [List.map_cons, List.sum_cons, ih fun q hq => hp q (List.mem_cons_of_mem _ hq),
        (hp p (List.mem_cons_self ..)).2, List.length_cons, Nat.add_mul, Nat.one_mul, Nat.add_comm]
  obtain ⟨hn, hd⟩ := C107_count ps fun p h => ⟨(l p h).1, (hp p h).1⟩
  refine ⟨choices ps, by rw [hn, hl], hd, fun m hm => ?_, fun m hm m' hm' =>
    (C107_multi hc a ha ps hc' (by rw [hsum]; exact hk) m hm m' hm').2⟩
  rw [choices_length (fun p h => (l p h).1) m hm, hsum]

end Chf.Props
