import Verif.Model.Sha256Engine
import Verif.Model.Sha512
import Verif.Model.Sha1
import Verif.Model.Ripemd160
import Verif.Proofs.Lawful
import Verif.Proofs.BlockEngine
import Verif.Proofs.Sha2
import Verif.Proofs.Sha256Simd
import Verif.Proofs.Sha1
import Verif.Proofs.Ripemd160

/-!
# Lemmas: the six Merkle-Damgård engines simulate their logs
-/

namespace Chf
open Spec

variable {H : Type}

/-- The common shape of the engines. -/
def mdEngine (c : Cfg) (ops : BlockOps H) (start : BlockEngine H)
    (fin mid : BlockEngine H → Res (List Byte)) (from_ : List Byte → Nat → Res (BlockEngine H)) :
    HashEngine where
  State := BlockEngine H
  Midstate := List Byte
  blockSize := ops.B
  default := .ok start
  new := .ok start
  input := BlockEngine.input c ops
  nBytesHashed e := e.length
  finalize := fin
  midstate := mid
  fromMidstate := from_

/-- An engine state stands for a log. -/
def MdRel (c : Cfg) (P : Md H) (e : BlockEngine H) (s : H × Nat) (m : List Byte) : Prop :=
  P.B ∣ s.2 ∧ Rep c P.B P.compress s.1 s.2 m e

/-- What has to be known of one engine. -/
structure MdFacts (c : Cfg) (P : Md H) (ops : BlockOps H) (zlen : Nat) (pre : List (List Byte))
    (enc : BitVec 64 → List Byte) (start : BlockEngine H)
    (fin mid : BlockEngine H → Res (List Byte)) (from_ : List Byte → Nat → Res (BlockEngine H))
    (resume : List Byte → Nat → Res H) : Prop where
  valid : c.Valid
  B_eq : ops.B = P.B
  B_ok : P.B = 64 ∨ P.B = 128
  process : ProcessIs ops P.compress
  enc_len : ∀ x, (enc x).length = 8
  enc_eq : ∀ x : BitVec 64, pre.flatten ++ enc x = P.enc P.L x.toNat
  zlen_eq : zlen + P.L = P.B
  L_eq : pre.flatten.length + 8 = P.L
  L_le : 2 * P.L ≤ P.B
  encL : ∀ x, (P.enc P.L x).length = P.L
  words_len : ∀ h, P.out ≤ (P.words h).length
  out_le : P.out ≤ 64
  start_eq : start = ⟨List.replicate P.B 0, P.iv, 0⟩
  mid_eq : ∀ e, mid e = .ok (P.words e.h)
  fin_eq : ∀ e, fin e = (do
    let e ← BlockEngine.finalizeBlocks c ops zlen pre enc e
    .ok ((P.words e.h).take P.out))
  from_eq : ∀ μ n, μ.length = (P.words P.iv).length → from_ μ n = (do
    let h ← if n % P.B = 0 then resume μ n else .error .assertion
    pure ⟨List.replicate P.B 0, h, n⟩)

variable {c : Cfg} {P : Md H} {ops : BlockOps H} {zlen : Nat} {pre : List (List Byte)}
  {enc : BitVec 64 → List Byte} {start : BlockEngine H} {fin mid : BlockEngine H → Res (List Byte)}
  {from_ : List Byte → Nat → Res (BlockEngine H)}
  {resume : List Byte → Nat → Res H}

theorem valid_mod_le (hc : c.Valid) : c.usizeMod ≤ 2 ^ 64 := by
  unfold Cfg.Valid at hc
  unfold Cfg.usizeMod
  rcases hc with h | h | h <;> rw [h] <;> decide

theorem MdFacts.sized (F : MdFacts c P ops zlen pre enc start fin mid from_ resume) :
    Sized c ops.B := by
  rw [F.B_eq]
  rcases F.B_ok with h | h <;> rw [h]
  · exact sized_64 F.valid
  · exact sized_128 F.valid

theorem Rep.zero {f : H → List Byte → H} {B n : Nat} {h0 : H} (hB : 0 < B) (hn : n < c.usizeMod) :
    Rep c B f h0 n [] ⟨List.replicate B 0, h0, n⟩ where
  len := by simp [Nat.mod_eq_of_lt hn]
  nowrap := by simpa using fun _ => hn
  buf := by simp
  split := ⟨[], [], rfl, by simp, by simpa using hB, by simp, by simp⟩

/-- The exact result of `finalize`. -/
theorem MdFacts.finalize_eq (F : MdFacts c P ops zlen pre enc start fin mid from_ resume)
    {e : BlockEngine H} {s : H × Nat} {m : List Byte} (R : MdRel c P e s m) :
    fin e = (P.log c resume).digest s m := by
  obtain ⟨hd, R⟩ := R
  have S := F.sized
  have hm := valid_mod_le F.valid
  have h1 := F.zlen_eq
  have h2 := F.L_eq
  have h3 := F.L_le
  rw [← F.B_eq] at hd R
  have spec := BlockEngine.finalizeBlocks_spec (zlen := zlen) (pre := pre) (enc := enc) F.process S hd
    F.enc_len (by rw [F.B_eq]; omega) (by rw [F.B_eq]; omega) hm R
  have hL : ops.B - zlen = P.L := by rw [F.B_eq]; omega
  have hbits : (8 * asU64 e.length).toNat = 8 * ((s.2 + m.length) % 2 ^ c.usizeBits) % 2 ^ 64 := by
    rw [R.len, asU64, BitVec.toNat_mul, BitVec.toNat_ofNat]
    rw [Cfg.usizeMod]
    show 8 * _ % _ = _
    rw [Nat.mul_mod 8 (_ % 2 ^ 64) _, Nat.mod_mod, ← Nat.mul_mod]
  have htail : m ++ BlockEngine.tail ops.B zlen pre enc m.length e.length =
      m ++ [0x80] ++ List.replicate (padZeros P.B P.L m.length) 0 ++
        P.enc P.L (8 * ((s.2 + m.length) % 2 ^ c.usizeBits) % 2 ^ 64) := by
    rw [← hbits, ← F.enc_eq, BlockEngine.tail, hL, F.B_eq]
    simp only [List.append_assoc]
  have hlen : (m ++ BlockEngine.tail ops.B zlen pre enc m.length e.length).length =
      P.paddedLen m.length := by
    rw [htail]
    simp only [List.length_append, List.length_cons, List.length_nil, List.length_replicate, F.encL,
      Md.paddedLen]
  simp only [] at spec
  rw [hlen, htail] at spec
  rw [F.fin_eq]
  simp only [Md.log]
  split
  · next h =>
    rw [spec.2 h.1 (by
      rcases Nat.lt_or_ge (s.2 + P.paddedLen m.length) c.usizeMod with h' | h'
      · right
        exact Nat.le_of_not_lt fun h'' => h.2 ⟨h', h''⟩
      · left; exact h')]
    rfl
  · next h =>
    obtain ⟨e', he', R'⟩ := spec.1 fun ho => Classical.byContradiction fun hn => h ⟨ho, hn⟩
    rw [he']
    simp only [bind, Except.bind]
    rw [R'.h_eq S.pos, Md.digestWith, F.B_eq]

/-- The engine simulates its log. -/
def MdFacts.lawful (F : MdFacts c P ops zlen pre enc start fin mid from_ resume) :
    Lawful (mdEngine c ops start fin mid from_) (P.log c resume) where
  Rel := MdRel c P
  accepted {e s m} R := by
    simp only [Md.log, Bool.or_eq_true, Bool.not_eq_true', decide_eq_true_eq]
    cases ho : c.overflowChecks with
    | false => left; rfl
    | true => right; exact R.2.nowrap ho
  new_rel := by
    refine ⟨_, rfl, ⟨0, by simp [Md.log]⟩, ?_⟩
    rw [F.start_eq]
    have := F.sized
    rw [F.B_eq] at this
    exact Rep.zero this.pos (Nat.lt_of_le_of_lt (Nat.zero_le _) this.lt)
  default_rel := by
    refine ⟨_, rfl, ⟨0, by simp [Md.log]⟩, ?_⟩
    rw [F.start_eq]
    have := F.sized
    rw [F.B_eq] at this
    exact Rep.zero this.pos (Nat.lt_of_le_of_lt (Nat.zero_le _) this.lt)
  input_ok {e s m} d _ R h := by
    have S := F.sized
    obtain ⟨hd, R⟩ := R
    rw [← F.B_eq] at hd R
    obtain ⟨e', he', R'⟩ := BlockEngine.input_ok (inp := d) F.process S hd R (by
      intro ho
      simp only [Md.log, ho, Bool.not_true, Bool.false_or, decide_eq_true_eq] at h
      show _ < 2 ^ _
      omega)
    rw [F.B_eq] at hd R'
    exact ⟨e', he', hd, R'⟩
  input_err {e s m} d _ R h := by
    have S := F.sized
    obtain ⟨hd, R⟩ := R
    rw [← F.B_eq] at hd R
    simp only [Md.log, Bool.or_eq_false_iff, Bool.not_eq_false', decide_eq_false_iff_not] at h
    exact BlockEngine.input_err (inp := d) F.process S hd R h.1 (by
      show 2 ^ _ ≤ _
      omega)
  count R := R.2.len
  digest R := F.finalize_eq R
  mid {e s m} R := by
    have S := F.sized
    rw [F.B_eq] at S
    have h := F.mid_eq e
    rw [R.2.h_eq S.pos] at h
    exact h
  resume_ok {μ n s} ht h := by
    have S := F.sized
    rw [F.B_eq] at S
    show ∃ e, from_ μ n = _ ∧ _
    rw [F.from_eq _ _ ht.1]
    simp only [Md.log] at h
    by_cases hn : n % P.B = 0
    · rw [if_pos hn] at h ⊢
      cases hr : resume μ n with
      | error f => rw [hr] at h; cases h
      | ok h0 =>
        rw [hr] at h
        cases h
        exact ⟨_, rfl, Nat.dvd_of_mod_eq_zero hn, Rep.zero S.pos ht.2⟩
    · rw [if_neg hn] at h; cases h
  resume_err {μ n f} ht h := by
    show from_ μ n = _
    rw [F.from_eq _ _ ht.1]
    simp only [Md.log] at h
    by_cases hn : n % P.B = 0
    · rw [if_pos hn] at h ⊢
      cases hr : resume μ n with
      | error f => rw [hr] at h; cases h; rfl
      | ok h0 => rw [hr] at h; cases h
    · rw [if_neg hn] at h ⊢; cases h; rfl
  digest_len {s m d} h := by
    simp only [Md.log] at h
    split at h
    · cases h
    · cases h
      exact List.length_take_of_le (F.words_len _)
  out_le := F.out_le
  small _ := trivial
  mono {s a b} hab h := by
    simp only [Md.log, Bool.or_eq_true, decide_eq_true_eq] at h ⊢
    rcases h with h | h
    · exact .inl h
    · exact .inr (by omega)

/-! ## The six engines -/

theorem length_flatMap_be {w : Nat} (l : List (BitVec w)) (k : Nat) :
    (l.flatMap fun x => beBytes k x.toNat).length = l.length * k := by
  induction l with
  | nil => simp
  | cons a l ih => rw [List.flatMap_cons, List.length_append, ih, length_beBytes, List.length_cons,
      Nat.succ_mul, Nat.add_comm]

theorem length_flatMap_le {w : Nat} (l : List (BitVec w)) (k : Nat) :
    (l.flatMap fun x => leBytes k x.toNat).length = l.length * k := by
  induction l with
  | nil => simp
  | cons a l ih => rw [List.flatMap_cons, List.length_append, ih, length_leBytes, List.length_cons,
      Nat.succ_mul, Nat.add_comm]

@[simp] theorem length_serialize8_32 (h : Arr8 (BitVec 32)) : (serialize8 h).length = 32 := by
  rw [serialize8, length_flatMap_be]; rfl
@[simp] theorem length_serialize8_64 (h : Arr8 (BitVec 64)) : (serialize8 h).length = 64 := by
  rw [serialize8, length_flatMap_be]; rfl
@[simp] theorem length_serialize5 (h : Arr5 (BitVec 32)) : (serialize5 h).length = 20 := by
  rw [serialize5, length_flatMap_be]; rfl
@[simp] theorem length_serializeRmd (h : Arr5 (BitVec 32)) : (serializeRmd h).length = 20 := by
  rw [serializeRmd, length_flatMap_le]; rfl

theorem Arr8.ofList_toList {α} (a b c d e f g h : α) :
    Arr8.ofList [a, b, c, d, e, f, g, h] = .ok ⟨a, b, c, d, e, f, g, h⟩ := rfl

theorem list8 {α} [Inhabited α] (l : List α) (hl : l.length = 8) (z : α) :
    l = [l.getD 0 z, l.getD 1 z, l.getD 2 z, l.getD 3 z, l.getD 4 z, l.getD 5 z, l.getD 6 z,
      l.getD 7 z] := by
  match l, hl with
  | [_, _, _, _, _, _, _, _], _ => rfl

theorem list5 {α} [Inhabited α] (l : List α) (hl : l.length = 5) (z : α) :
    l = [l.getD 0 z, l.getD 1 z, l.getD 2 z, l.getD 3 z, l.getD 4 z] := by
  match l, hl with
  | [_, _, _, _, _], _ => rfl

theorem ofList_parse8 (μ : List Byte) (hμ : μ.length = 32) :
    (fillZip fromBe32 (List.replicate 8 0) (chunksExact 4 μ) >>= Arr8.ofList) = .ok (parse8 μ) := by
  rw [fill_beWords32 _ _ (by simp [hμ])]
  have hl : (beWords 32 μ).length = 8 := by simp [hμ]
  simp only [hμ, List.drop_replicate, Nat.reduceDiv, Nat.sub_self, List.replicate_zero,
    List.append_nil, bind, Except.bind]
  rw [list8 _ hl 0]
  rfl

theorem ofList_parse5 (μ : List Byte) (hμ : μ.length = 20) :
    (fillZip fromBe32 (List.replicate 5 0) (chunksExact 4 μ) >>= Arr5.ofList) = .ok (parse5 μ) := by
  rw [fill_beWords32 _ _ (by simp [hμ])]
  have hl : (beWords 32 μ).length = 5 := by simp [hμ]
  simp only [hμ, List.drop_replicate, Nat.reduceDiv, Nat.sub_self, List.replicate_zero,
    List.append_nil, bind, Except.bind]
  rw [list5 _ hl 0]
  rfl

theorem Sha256.midstate_eq (e : Sha256.Engine) : Sha256.midstate e = .ok (serialize8 e.h) := by
  rw [Sha256.midstate, storeZip_ok (by simp) _ _ (by simp [Arr8.toList]),
    serialize8, funext be32_eq]

theorem Sha1.midstate_eq (e : Sha1.Engine) : Sha1.midstate e = .ok (serialize5 e.h) := by
  rw [Sha1.midstate, storeZip_ok (by simp) _ _ (by simp [Arr5.toList]),
    serialize5, funext be32_eq]

theorem Ripemd160.midstate_eq (e : Ripemd160.Engine) :
    Ripemd160.midstate e = .ok (serializeRmd e.h) := by
  rw [Ripemd160.midstate, storeZip_ok (by simp) _ _ (by simp [Arr5.toList]),
    serializeRmd, funext le32_eq]

theorem Sha512.midstate_eq (e : Sha512.Engine) : Sha512.midstate e = .ok (serialize8 e.h) := by
  rw [Sha512.midstate, storeZip_ok (by simp) _ _ (by simp [Arr8.toList]),
    serialize8, funext be64_eq]

theorem fromMid_eq {H A : Type} {B n : Nat} {x : Res (List H)} {g : List H → Res A} :
    (do
      assertR (n % B == 0)
      let ret ← x
      let ret ← g ret
      pure (⟨List.replicate B 0, ret, n⟩ : BlockEngine A)) =
    (do
      let h ← if n % B = 0 then x >>= g else .error .assertion
      pure ⟨List.replicate B 0, h, n⟩) := by
  by_cases h : n % B = 0
  · simp [h, assertR]
    rfl
  · simp [h, assertR]
    rfl

/-- Four-byte chunks never convert to eight-byte words. -/
theorem fill_be64_chunks4 (μ : List Byte) (hμ : μ.length = 64) :
    fillZip fromBe64 (List.replicate 8 0) (chunksExact 4 μ) = .error .expect := by
  rw [chunksExact_eq]
  have hl : (blocks 4 μ).length = 16 := by simp [hμ]
  match hb : blocks 4 μ, hl with
  | b :: bs, _ =>
    have : b.length = 4 := mem_blocks_length (B := 4) (m := μ) (by rw [hb]; simp)
    rw [List.replicate_succ, fillZip, fromBe64, if_neg (by omega)]
    rfl

theorem bind_ok_eq {α β γ} {x : Res α} {f : α → Res β} {g : α → Res γ} {k : β → Res γ}
    (h : ∀ a, (f a >>= k) = g a) : ((x >>= f) >>= k) = x >>= g := by
  rw [bind_assoc]
  congr 1
  funext a
  exact h a

theorem Sha256.facts {c : Cfg} (hc : c.Valid) :
    MdFacts c md256 (Sha256.ops c) (64 - 8) [] be64 Sha256.Engine.default (Sha256.finalize c)
      Sha256.midstate Sha256.fromMidstate fun μ _ => .ok (parse8 μ) where
  valid := hc
  B_eq := rfl
  B_ok := .inl rfl
  process buf h hb := Sha256.processBlock_eq c buf h hb
  enc_len := length_be64
  enc_eq x := be64_eq x
  zlen_eq := rfl
  L_eq := rfl
  L_le := by decide
  encL x := length_beBytes 8 x
  words_len h := Nat.le_trans (by decide) (Nat.le_of_eq (length_serialize8_32 h).symm)
  out_le := by decide
  start_eq := rfl
  mid_eq := Sha256.midstate_eq
  fin_eq e := by
    show (_ >>= Sha256.midstate) = _
    congr 1
    funext e
    rw [Sha256.midstate_eq]
    simp [md256, List.take_of_length_le]
  from_eq μ n hμ := by
    have hμ : μ.length = 32 := by simpa [md256] using hμ
    rw [← ofList_parse8 μ hμ]
    exact fromMid_eq

theorem Sha1.facts {c : Cfg} (hc : c.Valid) :
    MdFacts c md1 (Sha1.ops c) (64 - 8) [] be64 Sha1.Engine.default (Sha1.finalize c)
      Sha1.midstate Sha1.fromMidstate fun μ _ => .ok (parse5 μ) where
  valid := hc
  B_eq := rfl
  B_ok := .inl rfl
  process buf h hb := Sha1.processBlock_eq c buf h hb
  enc_len := length_be64
  enc_eq x := be64_eq x
  zlen_eq := rfl
  L_eq := rfl
  L_le := by decide
  encL x := length_beBytes 8 x
  words_len h := Nat.le_trans (by decide) (Nat.le_of_eq (length_serialize5 h).symm)
  out_le := by decide
  start_eq := rfl
  mid_eq := Sha1.midstate_eq
  fin_eq e := by
    show (_ >>= Sha1.midstate) = _
    congr 1
    funext e
    rw [Sha1.midstate_eq]
    simp [md1, List.take_of_length_le]
  from_eq μ n hμ := by
    have hμ : μ.length = 20 := by simpa [md1] using hμ
    rw [← ofList_parse5 μ hμ]
    exact fromMid_eq

theorem Ripemd160.facts {c : Cfg} (hc : c.Valid) :
    MdFacts c mdRmd (Ripemd160.ops c) (64 - 8) [] le64 Ripemd160.Engine.default
      (Ripemd160.finalize c) Ripemd160.midstate Ripemd160.fromMidstate
      fun μ _ => .ok (parse5 μ) where
  valid := hc
  B_eq := rfl
  B_ok := .inl rfl
  process buf h hb := Ripemd160.processBlock_eq c buf h hb
  enc_len := length_le64
  enc_eq x := le64_eq x
  zlen_eq := rfl
  L_eq := rfl
  L_le := by decide
  encL x := length_leBytes 8 x
  words_len h := Nat.le_trans (by decide) (Nat.le_of_eq (length_serializeRmd h).symm)
  out_le := by decide
  start_eq := rfl
  mid_eq := Ripemd160.midstate_eq
  fin_eq e := by
    show (_ >>= Ripemd160.midstate) = _
    congr 1
    funext e
    rw [Ripemd160.midstate_eq]
    simp [mdRmd, List.take_of_length_le]
  from_eq μ n hμ := by
    have hμ : μ.length = 20 := by simpa [mdRmd] using hμ
    rw [← ofList_parse5 μ hμ]
    exact fromMid_eq

theorem be64_pre (x : BitVec 64) :
    [List.replicate 8 (0 : Byte)].flatten ++ be64 x = beBytes 16 x.toNat := by
  rw [be64_eq, beBytes_high 8 8 x.toNat (by have := x.isLt; omega)]
  simp

theorem Sha512.from_eq (μ : List Byte) (n : Nat) (hμ : μ.length = 64) :
    Sha512.fromMidstate μ n = (do
      let h ← if n % 128 = 0 then (.error .expect : Res (Arr8 (BitVec 64))) else .error .assertion
      pure ⟨List.replicate 128 0, h, n⟩) := by
  have h : (fillZip fromBe64 (List.replicate 8 0) (chunksExact 4 μ) >>= Arr8.ofList) =
      .error .expect := by rw [fill_be64_chunks4 μ hμ]; rfl
  rw [← h]
  exact fromMid_eq

theorem Sha512.facts {c : Cfg} (hc : c.Valid) :
    MdFacts c md512 (Sha512.ops c) (128 - 16) [List.replicate 8 0] be64 Sha512.Engine.default
      (Sha512.finalize c) Sha512.midstate Sha512.fromMidstate fun _ _ => .error .expect where
  valid := hc
  B_eq := rfl
  B_ok := .inr rfl
  process buf h hb := Sha512.processBlock_eq c buf h hb
  enc_len := length_be64
  enc_eq x := be64_pre x
  zlen_eq := rfl
  L_eq := rfl
  L_le := by decide
  encL x := length_beBytes 16 x
  words_len h := Nat.le_trans (by decide) (Nat.le_of_eq (length_serialize8_64 h).symm)
  out_le := by decide
  start_eq := rfl
  mid_eq := Sha512.midstate_eq
  fin_eq e := by
    show (_ >>= Sha512.midstate) = _
    congr 1
    funext e
    rw [Sha512.midstate_eq]
    simp [md512, List.take_of_length_le]
  from_eq μ n hμ := Sha512.from_eq μ n (by simpa [md512] using hμ)

/-- Truncation by `ret.copy_from_slice(&d[..k])`. -/
theorem truncate_eq (d : List Byte) (k : Nat) (hk : k ≤ d.length) :
    (do
      let d ← sliceTo d k
      copyIntoRange (List.replicate k 0) 0 k d : Res (List Byte)) = .ok (d.take k) := by
  simp only [sliceTo, hk, if_true, bind, Except.bind, copyIntoRange, List.length_replicate,
    Nat.zero_le, Nat.le_refl, and_self, List.length_take, Nat.min_eq_left hk, Nat.sub_zero,
    List.take_zero, List.nil_append, List.drop_replicate, Nat.sub_self, List.replicate_zero,
    List.append_nil]

theorem Sha384.facts {c : Cfg} (hc : c.Valid) :
    MdFacts c md384 (Sha512.ops c) (128 - 16) [List.replicate 8 0] be64 Sha512.Engine.sha384
      (Sha384.engine c).finalize Sha512.midstate Sha512.fromMidstate
      fun _ _ => .error .expect where
  valid := hc
  B_eq := rfl
  B_ok := .inr rfl
  process buf h hb := Sha512.processBlock_eq c buf h hb
  enc_len := length_be64
  enc_eq x := be64_pre x
  zlen_eq := rfl
  L_eq := rfl
  L_le := by decide
  encL x := length_beBytes 16 x
  words_len h := Nat.le_trans (by decide) (Nat.le_of_eq (length_serialize8_64 h).symm)
  out_le := by decide
  start_eq := rfl
  mid_eq := Sha512.midstate_eq
  fin_eq e := by
    refine bind_ok_eq fun a => ?_
    rw [Sha512.midstate_eq]
    exact truncate_eq (serialize8 a.h) 48 (by rw [length_serialize8_64]; decide)
  from_eq μ n hμ := Sha512.from_eq μ n (by simpa [md384, md512] using hμ)

/-- The code's SHA-512/256 initial value is the one FIPS 180-4 section 5.3.6 generates. -/
theorem Sha512_256.iv_eq : Sha512.iv512_256 = Spec.iv512_256 := by decide +kernel

theorem Sha512_256.facts {c : Cfg} (hc : c.Valid) :
    MdFacts c md512_256 (Sha512.ops c) (128 - 16) [List.replicate 8 0] be64 Sha512.Engine.sha512_256
      (Sha512_256.engine c).finalize Sha512.midstate Sha512.fromMidstate
      fun _ _ => .error .expect where
  valid := hc
  B_eq := rfl
  B_ok := .inr rfl
  process buf h hb := Sha512.processBlock_eq c buf h hb
  enc_len := length_be64
  enc_eq x := be64_pre x
  zlen_eq := rfl
  L_eq := rfl
  L_le := by decide
  encL x := length_beBytes 16 x
  words_len h := Nat.le_trans (by decide) (Nat.le_of_eq (length_serialize8_64 h).symm)
  out_le := by decide
  start_eq := by rw [Sha512.Engine.sha512_256, Sha512_256.iv_eq, md512_256, md512]
  mid_eq := Sha512.midstate_eq
  fin_eq e := by
    refine bind_ok_eq fun a => ?_
    rw [Sha512.midstate_eq]
    exact truncate_eq (serialize8 a.h) 32 (by rw [length_serialize8_64]; decide)
  from_eq μ n hμ := Sha512.from_eq μ n (by simpa [md512_256, md512] using hμ)

/-- `sha256::Engine` simulates its log. -/
def Sha256.lawful {c : Cfg} (hc : c.Valid) : Lawful (Sha256.engine c) (log256 c) :=
  (Sha256.facts hc).lawful
/-- `sha1::Engine` simulates its log. -/
def Sha1.lawful {c : Cfg} (hc : c.Valid) : Lawful (Sha1.engine c) (log1 c) := (Sha1.facts hc).lawful
/-- `ripemd160::Engine` simulates its log. -/
def Ripemd160.lawful {c : Cfg} (hc : c.Valid) : Lawful (Ripemd160.engine c) (logRmd c) :=
  (Ripemd160.facts hc).lawful
/-- `sha512::Engine` simulates its log. -/
def Sha512.lawful {c : Cfg} (hc : c.Valid) : Lawful (Sha512.engine c) (log512 c) :=
  (Sha512.facts hc).lawful
/-- `sha384::Engine` simulates its log. -/
def Sha384.lawful {c : Cfg} (hc : c.Valid) : Lawful (Sha384.engine c) (log384 c) :=
  (Sha384.facts hc).lawful
/-- `sha512_256::Engine` simulates its log. -/
def Sha512_256.lawful {c : Cfg} (hc : c.Valid) : Lawful (Sha512_256.engine c) (log512_256 c) :=
  (Sha512_256.facts hc).lawful

end Chf
