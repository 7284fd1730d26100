import Verif.Spec.TextCollide
import Verif.Proofs.Padding
import Verif.Proofs.Source.Sims
import Verif.Props.Midstate
import Verif.Props.Padding

/-!
# Lemmas: midstates of the translated text at block boundaries
-/

namespace Chf.Source
open Chf Chf.Rs Chf.Spec

attribute [local irreducible] iv512_256

theorem mem_steps {H : Type} {f : H → List Byte → H} : ∀ {bs : List (List Byte)} {h : H}
    {x : H × List Byte}, x ∈ steps f h bs → ∃ p q, bs = p ++ x.2 :: q ∧ x.1 = p.foldl f h
  | [], _, _, hx => by cases hx
  | b :: bs, h, x, hx => by
    rcases List.mem_cons.1 hx with rfl | hx
    · exact ⟨[], bs, rfl, rfl⟩
    · obtain ⟨p, q, h1, h2⟩ := mem_steps hx
      exact ⟨b :: p, q, by rw [h1]; rfl, h2⟩

theorem blocks_flatten {B : Nat} (hB : 0 < B) : ∀ {p : List (List Byte)}, (∀ b ∈ p, b.length = B) →
    blocks B p.flatten = p
  | [], _ => by rw [List.flatten_nil, blocks_nil]
  | b :: p, h => by
    rw [List.flatten_cons, blocks_cons hB (h b (List.mem_cons_self ..)),
      blocks_flatten hB fun x hx => h x (List.mem_cons_of_mem _ hx)]

theorem midAfter_eq {c : Cfg} (hc : c.Valid) (a : Alg) (ok : a.Ok c) (hf : Fits c a) (x : List Byte)
    (hx : a.base + x.length < 2 ^ c.usizeBits) :
    midAfter c a x = .ok (showMid c a ((algSim hc a hf).mid
      ((a.log c).mid (a.log c).fresh.1 ((a.log c).fresh.2 ++ x)))) := by
  have h := Props.new_inputs_midstate hc a ok [x] (by rw [List.flatten_singleton]; exact hx)
  rw [List.flatten_singleton] at h
  unfold midAfter
  rw [(algSim hc a hf).new, map_bind_left]
  simp only [HashEngine.inputs] at h
  cases hn : (a.engine c).new with
  | error f => rw [hn] at h; cases h
  | ok e =>
    rw [hn] at h
    simp only [ok_bind] at h ⊢
    rw [(algSim hc a hf).input e x (by show _ < 2 ^ c.usizeBits; omega), map_bind_left]
    cases hi : (a.engine c).input e x with
    | error f => rw [hi] at h; cases h
    | ok e' =>
      rw [hi] at h
      simp only [ok_bind] at h ⊢
      rw [(algSim hc a hf).midstate, show (a.engine c).midstate e' = _ from h]
      rfl

/-- What the hash functions of the SHA family and RIPEMD-160 have in common. -/
structure MdText (c : Cfg) (a : Alg) {H : Type} (P : Md H) : Prop where
  pos : 0 < P.B
  B_le : P.B + P.L ≤ 144
  L_le : P.L ≤ P.B
  enc : LengthEnc P.L P.enc
  hash : ∀ m, a.hashSpec m = P.hash m
  blocks : ∀ m, standardBlocks a m = Spec.blocks P.B (pad P.B P.L P.enc m)
  mid : ∀ x, x.length < 2 ^ c.usizeBits →
    midAfter c a x = .ok (.bytes (P.words (chain P.B P.compress P.iv x)))
  inj : ∀ h h', P.words h = P.words h' → h = h'
  out : P.out = a.outLen
  len : (∀ h, (P.words h).length = a.outLen) ∨ ∀ h, a.outLen < (P.words h).length

theorem Sha1.mdText {c : Cfg} (hc : c.Valid) : MdText c .sha1 md1 where
  pos := by decide
  B_le := by decide
  L_le := by decide
  enc := lengthEnc_be (by decide)
  hash m := rfl
  blocks m := rfl
  mid x hx := midAfter_eq hc .sha1 trivial trivial x (by show 0 + _ < _; omega)
  inj _ _ := Props.words1_inj
  out := rfl
  len := .inl length_serialize5

theorem Sha256.mdText {c : Cfg} (hc : c.Valid) : MdText c .sha256 md256 where
  pos := by decide
  B_le := by decide
  L_le := by decide
  enc := lengthEnc_be (by decide)
  hash m := rfl
  blocks m := rfl
  mid x hx := midAfter_eq hc .sha256 trivial trivial x (by show 0 + _ < _; omega)
  inj _ _ := Props.words256_inj
  out := rfl
  len := .inl length_serialize8_32

theorem Sha512.mdText {c : Cfg} (hc : c.Valid) : MdText c .sha512 md512 where
  pos := by decide
  B_le := by decide
  L_le := by decide
  enc := lengthEnc_be (by decide)
  hash m := rfl
  blocks m := rfl
  mid x hx := midAfter_eq hc .sha512 trivial trivial x (by show 0 + _ < _; omega)
  inj _ _ := Props.words512_inj
  out := rfl
  len := .inl length_serialize8_64

theorem Sha384.mdText {c : Cfg} (hc : c.Valid) : MdText c .sha384 md384 where
  pos := by decide
  B_le := by decide
  L_le := by decide
  enc := lengthEnc_be (by decide)
  hash m := rfl
  blocks m := rfl
  mid x hx := midAfter_eq hc .sha384 trivial trivial x (by show 0 + _ < _; omega)
  inj _ _ := Props.words512_inj
  out := rfl
  len := .inr (fun h => by rw [show (md384.words h).length = 64 from length_serialize8_64 h]; decide)

theorem Sha512_256.mdText {c : Cfg} (hc : c.Valid) : MdText c .sha512_256 md512_256 where
  pos := by decide
  B_le := by decide
  L_le := by decide
  enc := lengthEnc_be (by decide)
  hash m := rfl
  blocks m := rfl
  mid x hx := midAfter_eq hc .sha512_256 trivial trivial x (by show 0 + _ < _; omega)
  inj _ _ := Props.words512_inj
  out := rfl
  len := .inr (fun h => by rw [show (md512_256.words h).length = 64 from length_serialize8_64 h]; decide)

theorem Ripemd160.mdText {c : Cfg} (hc : c.Valid) : MdText c .ripemd160 mdRmd where
  pos := by decide
  B_le := by decide
  L_le := by decide
  enc := lengthEnc_le (by decide)
  hash m := rfl
  blocks m := rfl
  mid x hx := midAfter_eq hc .ripemd160 trivial trivial x (by show 0 + _ < _; omega)
  inj _ _ := Props.wordsRmd_inj
  out := rfl
  len := .inl length_serializeRmd

namespace MdText
variable {c : Cfg} {a : Alg} {H : Type} {P : Md H}

theorem length_pad (T : MdText c a P) {m : List Byte} (hm : m.length + 144 < 2 ^ c.usizeBits) :
    (pad P.B P.L P.enc m).length < 2 ^ c.usizeBits := by
  have h1 := T.B_le
  have h2 : padZeros P.B P.L m.length < P.B := Nat.mod_lt _ T.pos
  have h3 : (pad P.B P.L P.enc m).length = m.length + 1 + padZeros P.B P.L m.length + P.L := by
    simp only [pad, List.length_append, List.length_replicate, List.length_singleton, T.enc.len]
  omega

/-- A call of the block function made for the padded message, as midstates. -/
theorem step (T : MdText c a P) {m : List Byte} (hm : m.length + 144 < 2 ^ c.usizeBits)
    {x : H × List Byte} (hx : x ∈ steps P.compress P.iv (Spec.blocks P.B (pad P.B P.L P.enc m))) :
    ∃ p q, standardBlocks a m = p ++ x.2 :: q ∧ midAfter c a p.flatten = .ok (.bytes (P.words x.1)) ∧
      midAfter c a (p.flatten ++ x.2) = .ok (.bytes (P.words (P.compress x.1 x.2))) := by
  obtain ⟨p, q, h1, h2⟩ := mem_steps hx
  have hall : ∀ b ∈ p ++ x.2 :: q, b.length = P.B := by
    rw [← h1]; exact fun b hb => mem_blocks_length hb
  have hl : (p.flatten ++ x.2).length ≤ (pad P.B P.L P.enc m).length := by
    have := blocks_flatten_remainder P.B T.pos (pad P.B P.L P.enc m)
    rw [h1] at this
    rw [← this]
    simp only [List.flatten_append, List.flatten_cons, List.length_append]
    omega
  have hb := T.length_pad hm
  rw [List.length_append] at hl
  have e1 : chain P.B P.compress P.iv p.flatten = x.1 := by
    rw [chain, Source.blocks_flatten T.pos fun b hb => hall b (List.mem_append_left _ hb), h2]
  have e2 : chain P.B P.compress P.iv (p.flatten ++ x.2) = P.compress x.1 x.2 := by
    have : p.flatten ++ x.2 = (p ++ [x.2]).flatten := by
      rw [List.flatten_append, List.flatten_singleton]
    rw [this, chain, Source.blocks_flatten T.pos, List.foldl_append, ← h2]
    · rfl
    · intro b hb
      refine hall b ?_
      rcases List.mem_append.1 hb with hb | hb
      · exact List.mem_append_left _ hb
      · exact List.mem_append_right _ (by rw [List.mem_singleton.1 hb]; exact List.mem_cons_self ..)
  refine ⟨p, q, by rw [T.blocks, h1], ?_, ?_⟩
  · rw [T.mid _ (by omega), e1]
  · rw [T.mid _ (by rw [List.length_append]; omega), e2]

theorem blocks_flatten (T : MdText c a P) (m : List Byte) :
    (standardBlocks a m).flatten = pad P.B P.L P.enc m := by
  have h := blocks_flatten_remainder P.B T.pos (pad P.B P.L P.enc m)
  have hd := pad_dvd T.pos T.enc.len m (B := P.B)
  have hr : remainder P.B (pad P.B P.L P.enc m) = [] := by
    rw [remainder, Nat.div_mul_cancel hd, List.drop_length]
  rw [hr, List.append_nil] at h
  rw [T.blocks]
  exact h

theorem collision (T : MdText c a P) {m m' : List Byte} (hb : 8 * m.length < 2 ^ 64)
    (hb' : 8 * m'.length < 2 ^ 64) (hm : m.length + 144 < 2 ^ c.usizeBits)
    (hm' : m'.length + 144 < 2 ^ c.usizeBits) (hne : m ≠ m') (heq : a.hashSpec m = a.hashSpec m') :
    BlocksCollide c a m m' ∨ TruncationCollides c a m m' := by
  by_cases hch : chain P.B P.compress P.iv (pad P.B P.L P.enc m) =
      chain P.B P.compress P.iv (pad P.B P.L P.enc m')
  · left
    obtain ⟨x, hx, x', hx', hxne, hxe⟩ := collide_of_pad T.pos T.L_le T.enc hb hb' hne P.iv hch
    obtain ⟨p, q, h1, h2, h3⟩ := T.step hm hx
    obtain ⟨p', q', h1', h2', h3'⟩ := T.step hm' hx'
    refine ⟨p, x.2, q, p', x'.2, q', _, _, _, h1, h1', h2, h2', ?_, h3, by rw [h3', hxe]⟩
    intro e
    injection e with e1 e2
    injection e1 with e1
    exact hxne (Prod.ext (T.inj _ _ e1) e2)
  · right
    have hw : P.words (chain P.B P.compress P.iv (pad P.B P.L P.enc m)) ≠
        P.words (chain P.B P.compress P.iv (pad P.B P.L P.enc m')) := fun h => hch (T.inj _ _ h)
    rw [T.hash, T.hash, Md.hash, Md.hash, T.out] at heq
    refine ⟨_, _, by rw [T.blocks_flatten]; exact T.mid _ (T.length_pad hm), by rw [T.blocks_flatten]; exact T.mid _ (T.length_pad hm'),
      hw, heq, ?_⟩
    rcases T.len with h | h
    · rw [List.take_of_length_le (Nat.le_of_eq (h _)), List.take_of_length_le (Nat.le_of_eq (h _))] at heq
      exact absurd heq hw
    · exact h _

end MdText

end Chf.Source
