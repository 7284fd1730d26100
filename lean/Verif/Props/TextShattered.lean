import Verif.Spec.Shattered
import Verif.Props.TextCollisions
import Verif.Props.TextMidstate

/-!
# C90: the published collision of SHA-1 in the translated text
-/

namespace Chf.Props
open Chf Chf.Rs Chf.Spec

/-- The engine after one call of `input` on a new engine of the translated text. -/
def after (c : Cfg) (a : Alg) (x : List Byte) : Res (Source.engineOf c a).State := do
  let e ← (Source.engineOf c a).new
  (Source.engineOf c a).input e x

theorem after_ok {c : Cfg} (hc : c.Valid) (a : Alg) (ok : a.Ok c) (x : List Byte)
    (hx : a.base + x.length < 2 ^ c.usizeBits) :
    ∃ e, after c a x = .ok e ∧ Source.Reach c a e ∧
      (Source.engineOf c a).nBytesHashed e = (a.log c).count (a.log c).fresh.1
        ((a.log c).fresh.2.length + x.length) ∧
      (Source.engineOf c a).midstate e = .ok ((Source.algSim hc a (fits_of_ok a ok)).mid
        ((a.log c).mid (a.log c).fresh.1 ((a.log c).fresh.2 ++ x))) := by
  have s := Source.algSim hc a (fits_of_ok a ok)
  have hl : x.length < c.usizeMod := by show _ < 2 ^ c.usizeBits; omega
  obtain ⟨m, hm, R⟩ := (a.lawful hc ok).new_rel
  obtain ⟨m', hm', R'⟩ := (a.lawful hc ok).input_ok x (a.log_slice hl) R
    (a.fresh_accepts ok _ hx)
  have h1 : (Source.engineOf c a).new = .ok ((Source.algSim hc a (fits_of_ok a ok)).st m) := by
    rw [(Source.algSim hc a (fits_of_ok a ok)).new, hm]; rfl
  have h2 : (Source.engineOf c a).input ((Source.algSim hc a (fits_of_ok a ok)).st m) x =
      .ok ((Source.algSim hc a (fits_of_ok a ok)).st m') := by
    rw [(Source.algSim hc a (fits_of_ok a ok)).input m x hl, hm']; rfl
  refine ⟨(Source.algSim hc a (fits_of_ok a ok)).st m', ?_, ?_, ?_, ?_⟩
  · unfold after
    rw [h1]
    exact h2
  · exact .input x (.made .new trivial (congrArg some h1)) hl h2
  · rw [(Source.algSim hc a (fits_of_ok a ok)).nBytesHashed, (a.lawful hc ok).count R', List.length_append]
  · rw [(Source.algSim hc a (fits_of_ok a ok)).midstate, (a.lawful hc ok).mid R']
    rfl

theorem showMid_inj {c : Cfg} : (a : Alg) → {μ ν : (Source.engineOf c a).Midstate} →
    Source.showMid c a μ = Source.showMid c a ν → μ = ν
  | .sha1, _, _, h | .sha384, _, _, h | .sha512, _, _, h | .sha512_256, _, _, h | .ripemd160, _, _, h => by
    injection h
  | .sha256, ⟨_⟩, ⟨_⟩, h | .sha256t _ _ _, ⟨_⟩, ⟨_⟩, h => by
    injection h with h
    exact congrArg Source.Sha256.Midstate.mk h
  | .siphash24, ⟨_, _, _, _⟩, ⟨_, _, _, _⟩, h => by
    injection h with h
    injection h with h0 h1 h2 h3
    cases h0; cases h1; cases h2; cases h3
    rfl
  | .hmac a, ⟨i, o⟩, ⟨i', o'⟩, h => by
    injection h with h1 h2
    cases showMid_inj a h1
    cases showMid_inj a h2
    rfl

/-- Engines that cannot be told apart give the same digest after every continuation. -/
theorem hash_of_obsEq {c : Cfg} {a : Alg} {x y : List Byte} {e e' : (Source.engineOf c a).State}
    (hx : after c a x = .ok e) (hy : after c a y = .ok e') (h : ObsEq c (Source.engineOf c a) e e')
    (ds : List (List Byte)) (hds : ∀ d ∈ ds, d.length < 2 ^ c.usizeBits) :
    (Source.engineOf c a).hashByteChunks (x :: ds) = (Source.engineOf c a).hashByteChunks (y :: ds) := by
  have run : ∀ {x : List Byte} {e}, after c a x = .ok e →
      (Source.engineOf c a).hashByteChunks (x :: ds) =
        (Source.engineOf c a).observe e ds >>= fun r => r.2.2 := by
    intro x e hx
    unfold after at hx
    unfold HashEngine.hashByteChunks HashEngine.observe
    cases hn : (Source.engineOf c a).new with
    | error f => rw [hn] at hx; cases hx
    | ok e0 =>
      rw [hn] at hx
      simp only [ok_bind, HashEngine.inputs] at hx ⊢
      rw [hx]
      simp only [ok_bind]
      cases (Source.engineOf c a).inputs e ds with
      | error f => rfl
      | ok e1 => rfl
  rw [run hx, run hy, h ds hds]

/-- C90: two messages of the same number of whole blocks after which the midstates are equal give engines
that cannot be told apart, and the same hash with every continuation. -/
theorem C90_continue {c : Cfg} (hc : c.Valid) (a : Alg) (ha : hasBlocks a = true) (x y : List Byte)
    (hl : x.length = y.length) (hd : a.blockSize ∣ x.length) (hx : x.length < 2 ^ c.usizeBits)
    (h : midAfter c a x = midAfter c a y) :
    ∃ e e', after c a x = .ok e ∧ after c a y = .ok e' ∧ ObsEq c (Source.engineOf c a) e e' ∧
      ∀ ds : List (List Byte), (∀ d ∈ ds, d.length < 2 ^ c.usizeBits) →
        (Source.engineOf c a).hashByteChunks (x :: ds) = (Source.engineOf c a).hashByteChunks (y :: ds) := by
  obtain ⟨ok, hb, _⟩ := hasBlocks_ok ha c
  obtain ⟨e, h1, r1, n1, m1⟩ := after_ok hc a ok x (by omega)
  obtain ⟨e', h2, r2, n2, m2⟩ := after_ok hc a ok y (by omega)
  have hcount : (Source.engineOf c a).nBytesHashed e = x.length ∧ stride a = some a.blockSize := by
    rw [n1]
    cases a <;> first | (cases ha; done) | exact ⟨(congrArg (· % 2 ^ c.usizeBits) ((Nat.zero_add _).trans (Nat.zero_add _))).trans (Nat.mod_eq_of_lt hx), rfl⟩
  have hmid : ∀ {x : List Byte} {e μ}, after c a x = .ok e → (Source.engineOf c a).midstate e = .ok μ →
      midAfter c a x = .ok (Source.showMid c a μ) := by
    intro x e μ h1 h2
    unfold after at h1
    unfold midAfter
    cases hn : (Source.engineOf c a).new with
    | error f => rw [hn] at h1; cases h1
    | ok e0 =>
      rw [hn] at h1
      simp only [ok_bind] at h1 ⊢
      rw [h1, ok_bind, h2]
      rfl
  rw [hmid h1 m1, hmid h2 m2] at h
  have hμ := showMid_inj a (Except.ok.inj h)
  have hobs : ObsEq c (Source.engineOf c a) e e' :=
    (C82_states hc a ok hcount.2 r1 r2 (by rw [hcount.1]; exact hd)).2
      ⟨by rw [n1, n2, hl], by rw [m1, m2, hμ]⟩
  exact ⟨e, e', h1, h2, hobs, hash_of_obsEq h1 h2 hobs⟩

theorem shattered_chain : chain 64 compress1 iv1 shattered1 = chain 64 compress1 iv1 shattered2 := by
  decide +kernel

theorem shattered_hash : sha1 shattered1 = sha1 shattered2 := by decide +kernel

theorem shattered_ne : shattered1 ≠ shattered2 := by decide +kernel

theorem length_shattered1 : shattered1.length = 320 := by decide +kernel

theorem length_shattered2 : shattered2.length = 320 := by decide +kernel

attribute [local irreducible] shattered1 shattered2

theorem shattered_mid {c : Cfg} (hc : c.Valid) :
    midAfter c .sha1 shattered1 = midAfter c .sha1 shattered2 := by
  have h16 : 320 < 2 ^ c.usizeBits := Nat.lt_of_lt_of_le (by decide) (usizeMod_ge hc)
  rw [(Source.Sha1.mdText hc).mid shattered1 (by rw [length_shattered1]; exact h16),
    (Source.Sha1.mdText hc).mid shattered2 (by rw [length_shattered2]; exact h16)]
  exact congrArg (fun s => Except.ok (MidVal.bytes (serialize5 s))) shattered_chain

/-- C90: the two messages of the published collision of SHA-1 differ, and the engines of the translated
text of `sha1.rs` after them cannot be told apart, in any build; so they have the same hash, and so have
the messages continued in any way. -/
theorem C90_sha1 {c : Cfg} (hc : c.Valid) :
    shattered1 ≠ shattered2 ∧
    ∃ e e', after c .sha1 shattered1 = .ok e ∧ after c .sha1 shattered2 = .ok e' ∧
      ObsEq c (Source.engineOf c .sha1) e e' ∧
      ∀ ds : List (List Byte), (∀ d ∈ ds, d.length < 2 ^ c.usizeBits) →
        (Source.engineOf c .sha1).hashByteChunks (shattered1 :: ds) =
          (Source.engineOf c .sha1).hashByteChunks (shattered2 :: ds) :=
  ⟨shattered_ne, C90_continue hc .sha1 rfl shattered1 shattered2
    (length_shattered1.trans length_shattered2.symm) (by rw [length_shattered1]; exact ⟨5, rfl⟩)
    (by rw [length_shattered1]; exact Nat.lt_of_lt_of_le (by decide) (usizeMod_ge hc)) (shattered_mid hc)⟩

/-- C90: it is a collision of the block function. -/
theorem C90_block {c : Cfg} (hc : c.Valid) : BlocksCollide c .sha1 shattered1 shattered2 := by
  have h16 : 320 + 144 < 2 ^ c.usizeBits := Nat.lt_of_lt_of_le (by decide) (usizeMod_ge hc)
  have hf : Fits c shattered1.length := ⟨by rw [length_shattered1]; decide, by rw [length_shattered1]; exact h16⟩
  have hf' : Fits c shattered2.length := ⟨by rw [length_shattered2]; decide, by rw [length_shattered2]; exact h16⟩
  exact (collide_text hc (a := .sha1) rfl hf hf' shattered_ne shattered_hash).resolve_right
    (C89_untruncated hc .sha1 rfl _ _ hf)

/-- The case of C89: the two messages are different and have the same digest, cut in different ways. -/
example : ∃ ds ds' : List (List Byte), ∃ d, ds.flatten = shattered1 ∧ ds'.flatten = shattered2 ∧
    Fits Cfg.debug64 ds.flatten.length ∧ Fits Cfg.debug64 ds'.flatten.length ∧
    ds.flatten ≠ ds'.flatten ∧
    (Source.engineOf Cfg.debug64 .sha1).hashByteChunks ds = .ok d ∧
    (Source.engineOf Cfg.debug64 .sha1).hashByteChunks ds' = .ok d := by
  have h1 : ([shattered1] : List (List Byte)).flatten = shattered1 := by simp
  have h2 : ([shattered2.take 100, shattered2.drop 100] : List (List Byte)).flatten = shattered2 := by simp
  have hf : Fits Cfg.debug64 320 := ⟨by decide, by decide⟩
  have hv : Cfg.debug64.Valid := by decide
  refine ⟨_, _, sha1 shattered1, h1, h2, by rw [h1, length_shattered1]; exact hf,
    by rw [h2, length_shattered2]; exact hf, by rw [h1, h2]; exact shattered_ne, ?_, ?_⟩
  · have := C67_engines hv .sha1 trivial [shattered1] (by rw [h1, length_shattered1]; decide)
      (by rw [h1, length_shattered1]; decide)
    rw [h1] at this
    exact this
  · have := C67_engines hv .sha1 trivial [shattered2.take 100, shattered2.drop 100]
      (by rw [h2, length_shattered2]; decide) (by rw [h2, length_shattered2]; decide)
    rw [h2] at this
    rw [show sha1 shattered1 = sha1 shattered2 from shattered_hash]
    exact this

end Chf.Props
