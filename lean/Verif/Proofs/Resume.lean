import Verif.Proofs.History
import Verif.Proofs.Sha256Const

/-!
# Lemmas: serialized chaining values, and hashing on from them
-/

namespace Chf
open Spec

theorem beWords_flatMap (l : List (BitVec 32)) : beWords 32 (l.flatMap fun x => beBytes 4 x.toNat) = l := by
  induction l with
  | nil => rfl
  | cons x l ih =>
    rw [List.flatMap_cons, beWords, blocks_cons (by decide) (by simp), List.map_cons]
    rw [beWords] at ih
    rw [ih, beNat_beBytes]
    congr 1
    rw [Nat.mod_eq_of_lt (by have := x.isLt; omega)]
    simp

theorem parse8_serialize8 (h : Arr8 (BitVec 32)) : parse8 (serialize8 h) = h := by
  simp only [parse8, serialize8, show (32 : Nat) / 8 = 4 from rfl, beWords_flatMap]
  rfl

theorem parse5_serialize5 (h : Arr5 (BitVec 32)) : parse5 (serialize5 h) = h := by
  simp only [parse5, serialize5, beWords_flatMap]
  rfl

theorem flatMap_beWords (μ : List Byte) (h : 4 ∣ μ.length) :
    ((beWords 32 μ).flatMap fun x => beBytes 4 x.toNat) = μ := by
  have hr : remainder 4 μ = [] := by
    rw [remainder, Nat.div_mul_cancel h, List.drop_length]
  have hb := blocks_flatten_remainder 4 (by decide) μ
  rw [hr, List.append_nil] at hb
  have key : ∀ l : List (List Byte), (∀ b ∈ l, b.length = 4) →
      ((l.map fun bs => BitVec.ofNat 32 (beNat bs)).flatMap fun x => beBytes 4 x.toNat) = l.flatten := by
    intro l
    induction l with
    | nil => intro _; rfl
    | cons b l ih =>
      intro hl
      have hb4 : b.length = 4 := hl b (by simp)
      rw [List.map_cons, List.flatMap_cons, ih (fun x hx => hl x (by simp [hx])), List.flatten_cons,
        BitVec.toNat_ofNat, Nat.mod_eq_of_lt (by have := beNat_lt b; rw [hb4] at this; exact this),
        ← hb4, beBytes_beNat]
  have := key (blocks 4 μ) fun b hb => mem_blocks_length hb
  rw [hb] at this
  exact this

theorem serialize8_parse8 (μ : List Byte) (hμ : μ.length = 32) : serialize8 (parse8 μ) = μ := by
  have h := flatMap_beWords μ (by omega)
  rw [list8 (beWords 32 μ) (by simp [hμ]) 0] at h
  exact h

theorem serialize5_parse5 (μ : List Byte) (hμ : μ.length = 20) : serialize5 (parse5 μ) = μ := by
  have h := flatMap_beWords μ (by omega)
  rw [list5 (beWords 32 μ) (by simp [hμ]) 0] at h
  exact h

/-- Any engine whose buffer and counter have their Rust types stands for some log. -/
theorem MdRel.any {H : Type} {c : Cfg} {P : Md H} (S : Sized c P.B) {e : BlockEngine H}
    (hb : e.buffer.length = P.B) (hl : e.length < c.usizeMod) :
    MdRel c P e (e.h, e.length - e.length % P.B) (e.buffer.take (e.length % P.B)) := by
  have h1 := Nat.mod_lt e.length S.pos
  have h2 := Nat.mod_le e.length P.B
  have h3 : (e.buffer.take (e.length % P.B)).length = e.length % P.B := by
    rw [List.length_take, hb]; omega
  have h4 : e.length - e.length % P.B + (e.buffer.take (e.length % P.B)).length = e.length := by omega
  refine ⟨⟨e.length / P.B, ?_⟩, ?_, ?_, hb, [], _, rfl, by simp, by rw [h3]; exact h1, by simp, ?_⟩
  · have := Nat.div_add_mod e.length P.B
    show e.length - e.length % P.B = _
    omega
  · rw [h4, Nat.mod_eq_of_lt hl]
  · intro _
    rw [h4]
    exact hl
  · rw [h3]

theorem padZeros_add {B L n p : Nat} (hp : B ∣ p) : padZeros B L (p + n) = padZeros B L n := by
  obtain ⟨q, rfl⟩ := hp
  unfold padZeros
  rw [show B * q + n + 1 + L = n + 1 + L + B * q by omega, Nat.add_mul_mod_self_left]

theorem paddedLen_add {H : Type} {P : Md H} {p n : Nat} (hp : P.B ∣ p) :
    P.paddedLen (p + n) = p + P.paddedLen n := by
  unfold Md.paddedLen
  rw [padZeros_add hp]
  omega

/-- Complete blocks can be moved into the chaining value. -/
theorem digestWith_append {H : Type} (P : Md H) (hB : 0 < P.B) (h : H) (p m : List Byte)
    (hp : P.B ∣ p.length) (bits : Nat) :
    P.digestWith h (p ++ m) bits = P.digestWith (chain P.B P.compress h p) m bits := by
  unfold Md.digestWith
  rw [List.length_append, padZeros_add hp, ← chain_append hB _ _ _ _ hp]
  simp only [List.append_assoc]

theorem chain_append' {H : Type} {P : Md H} (hB : 0 < P.B) (h : H) (p m : List Byte)
    (hp : P.B ∣ p.length) : chain P.B P.compress (chain P.B P.compress h p) m =
      chain P.B P.compress h (p ++ m) := (chain_append hB _ _ _ _ hp).symm

/-- A log at a block boundary and the log that starts at its chaining value have the same
observations. -/
theorem Md.observe_resume {H : Type} (P : Md H) (c : Cfg) (r : List Byte → Nat → Res H)
    (hB : 0 < P.B) (s : H × Nat) (m : List Byte) (hm : P.B ∣ m.length)
    (hacc : (P.log c r).accepts s m.length = true) (x : List Byte) :
    (P.log c r).observe (chain P.B P.compress s.1 m, (s.2 + m.length) % 2 ^ c.usizeBits) [] x =
      (P.log c r).observe s m x := by
  have key : ∀ n, ((s.2 + m.length) % 2 ^ c.usizeBits + n) % 2 ^ c.usizeBits =
      (s.2 + (m.length + n)) % 2 ^ c.usizeBits := by
    intro n
    rw [Nat.mod_add_mod, Nat.add_assoc]
  have eq : c.overflowChecks = true → (s.2 + m.length) % 2 ^ c.usizeBits = s.2 + m.length := by
    intro ho
    simp only [Md.log, ho, Bool.not_true, Bool.false_or, decide_eq_true_eq] at hacc
    exact Nat.mod_eq_of_lt hacc
  unfold LogSpec.observe
  simp only [Md.log, List.length_nil, Nat.zero_add, List.nil_append, List.length_append, key]
  rw [digestWith_append P hB _ _ _ hm, chain_append' hB _ _ _ hm]
  cases ho : c.overflowChecks with
  | false => simp only [Bool.not_false, Bool.true_or, if_true, Bool.false_eq_true, false_and, if_false]
  | true =>
    rw [eq ho, paddedLen_add hm]
    simp only [Nat.add_assoc]

theorem pad_dvd {B L : Nat} {enc : Nat → Nat → List Byte} (hB : 0 < B) (henc : ∀ x, (enc L x).length = L)
    (m : List Byte) : B ∣ (pad B L enc m).length := by
  have := padZeros_fills hB L m.length
  simp only [pad, List.length_append, List.length_cons, List.length_nil, List.length_replicate, henc,
    Nat.zero_add]
  exact this

/-- Bytes that do not complete a block do not change the chaining value. -/
theorem chain_stays {H : Type} {B : Nat} (hB : 0 < B) (f : H → List Byte → H) (h : H)
    (m d : List Byte) (hd : m.length % B + d.length < B) : chain B f h (m ++ d) = chain B f h m := by
  obtain ⟨p, r, rfl, hp, hr⟩ := split_blocks hB m
  have hmod : (p ++ r).length % B = r.length := by
    obtain ⟨q, hq⟩ := hp
    rw [List.length_append, hq, Nat.mul_add_mod_self_left, Nat.mod_eq_of_lt hr]
  rw [hmod] at hd
  rw [List.append_assoc, chain_append hB f h p _ hp, chain_append hB f h p _ hp, chain_short _ _ hr,
    chain_short _ _ (by rw [List.length_append]; exact hd)]

/-- The chaining value only depends on the complete blocks. -/
theorem chain_complete {H : Type} {B : Nat} (hB : 0 < B) (f : H → List Byte → H) (h : H)
    (m : List Byte) : chain B f h m = chain B f h (m.take (m.length / B * B)) := by
  have h1 : (m.take (m.length / B * B)).length = m.length / B * B := by
    rw [List.length_take]; have := Nat.div_mul_le_self m.length B; omega
  have h2 := chain_stays hB f h (m.take (m.length / B * B)) (m.drop (m.length / B * B)) (by
    rw [h1, Nat.mul_mod_left, List.length_drop, Nat.zero_add]
    have := Nat.div_add_mod' m.length B
    have := Nat.mod_lt m.length hB
    omega)
  rw [List.take_append_drop] at h2
  exact h2

end Chf
