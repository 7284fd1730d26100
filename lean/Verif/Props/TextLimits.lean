import Verif.Proofs.Source.Collide
import Verif.Proofs.Source.Reach
import Verif.Props.Contract
import Verif.Props.Text
import Verif.Props.Wrapped

/-!
# Property C95: the translated text beyond the limits of its counters
-/

namespace Chf.Props
open Chf Chf.Rs Chf.Spec

attribute [local irreducible] iv512_256

theorem wrapped_model {c : Cfg} (hc : c.Valid) (a : Alg) (ha : plain a = true)
    (ho : c.overflowChecks = false) (ds : List (List Byte)) :
    ∃ e e', (a.engine c).new = .ok e ∧ (a.engine c).inputs e ds = .ok e' ∧
      (a.engine c).nBytesHashed e' = ds.flatten.length % 2 ^ c.usizeBits ∧
      (a.engine c).midstate e' = .ok ((a.log c).mid (a.log c).fresh.1 ((a.log c).fresh.2 ++ ds.flatten)) ∧
      (a.engine c).finalize e' = .ok (wrappedDigest c.usizeBits a ds.flatten) := by
  have ok : a.Ok c := by cases a <;> first | trivial | (cases ha; done)
  obtain ⟨e, h, R⟩ := (a.lawful hc ok).new_rel
  obtain ⟨e', h', R'⟩ := (a.lawful hc ok).inputs_ok ds
    (by cases a <;> first | (cases ha; done) | exact fun _ _ => trivial) R
    (C39_unchecked_never_panics.acc ho a _ _)
  refine ⟨e, e', h, h', ?_, (a.lawful hc ok).mid R', ?_⟩
  · rw [(a.lawful hc ok).count R', List.length_append]
    cases a <;> first
      | (cases ha; done)
      | simp only [Alg.log, log1, log256, log384, log512, log512_256, logRmd, Md.log,
          List.length_nil, Nat.zero_add]
  · rw [(a.lawful hc ok).digest R']
    cases a with
    | sha1 => exact Md.fresh_wraps md1 ho _
    | sha256 => exact Md.fresh_wraps md256 ho _
    | sha384 => exact Md.fresh_wraps md384 ho _
    | sha512 => exact Md.fresh_wraps md512 ho _
    | sha512_256 => exact Md.fresh_wraps md512_256 ho _
    | ripemd160 => exact Md.fresh_wraps mdRmd ho _
    | siphash24 => cases ha
    | sha256t _ _ _ => cases ha
    | hmac _ => cases ha

/-- C95: without overflow checks the translated engines take any number of bytes, cut in any way, count
them modulo `2 ^ w`, and return the standard's digest with a length field made from that count. -/
theorem C95_wraps {c : Cfg} (hc : c.Valid) (a : Alg) (ha : plain a = true)
    (ho : c.overflowChecks = false) (ds : List (List Byte)) (hs : ∀ d ∈ ds, d.length < c.usizeMod) :
    ∃ e e', (Source.engineOf c a).new = .ok e ∧ (Source.engineOf c a).inputs e ds = .ok e' ∧
      (Source.engineOf c a).nBytesHashed e' = ds.flatten.length % 2 ^ c.usizeBits ∧
      (Source.engineOf c a).finalize e' = .ok (wrappedDigest c.usizeBits a ds.flatten) := by
  have hf : Source.Fits c a := by cases a <;> first | trivial | cases ha
  have sim := Source.algSim hc a hf
  obtain ⟨e, e', h1, h2, h3, -, h5⟩ := wrapped_model hc a ha ho ds
  refine ⟨sim.st e, sim.st e', by rw [sim.new, h1]; rfl, by rw [sim.inputs e ds hs, h2]; rfl, ?_, ?_⟩
  · rw [sim.nBytesHashed, h3]
  · rw [sim.finalize, h5]

/-- C95: the same for tagged hashes, whose count starts at the tag's. -/
theorem C95_tagged {c : Cfg} (hc : c.Valid) (mid : List Byte) (len : Nat) (data : List Byte)
    (ok : (Alg.sha256t mid len data).Ok c) (ho : c.overflowChecks = false) (ds : List (List Byte))
    (hs : ∀ d ∈ ds, d.length < c.usizeMod) :
    (Source.engineOf c (.sha256t mid len data)).hashByteChunks ds =
      .ok (md256.digestWith (parse8 mid) (data ++ ds.flatten)
        (8 * ((len + (data ++ ds.flatten).length) % 2 ^ c.usizeBits) % 2 ^ 64)) := by
  rw [(Source.algSim hc _ (fits_of_ok _ ok)).hashByteChunks ds hs]
  obtain ⟨e, h, R⟩ := (Alg.lawful hc (.sha256t mid len data) ok).new_rel
  obtain ⟨e', h', R'⟩ := (Alg.lawful hc (.sha256t mid len data) ok).inputs_ok ds (fun _ _ => trivial) R
    (C39_unchecked_never_panics.acc ho (.sha256t mid len data) _ _)
  unfold HashEngine.hashByteChunks
  rw [h, ok_bind, h', ok_bind, (Alg.lawful hc (.sha256t mid len data) ok).digest R']
  simp only [Alg.log, log256, Md.log, ho, Bool.false_eq_true, false_and, if_false]

/-- C95: HMAC over them is RFC 2104 of what they compute, for every key and any number of bytes. -/
theorem C95_hmac {c : Cfg} (hc : c.Valid) (a : Alg) (ha : plain a = true)
    (ho : c.overflowChecks = false) (key : List Byte) (hk : key.length < c.usizeMod)
    (ds : List (List Byte)) (hs : ∀ d ∈ ds, d.length < c.usizeMod) :
    (do
      let e ← Source.Hmac.Engine.new c (Source.engineOf c a) key
      let e ← (Source.engineOf c (.hmac a)).inputs e ds
      (Source.engineOf c (.hmac a)).finalize e) =
    .ok (hmac (wrappedDigest c.usizeBits a) a.blockSize key ds.flatten) := by
  have hf : Source.Fits c a := by cases a <;> first | trivial | cases ha
  refine (hmac_text hc (Source.algSim hc a hf) key ds hk hs).trans ?_
  have run : ∀ ds : List (List Byte),
      (a.engine c).hashByteChunks ds = .ok (wrappedDigest c.usizeBits a ds.flatten) := by
    intro ds
    obtain ⟨e, e', h1, h2, -, -, h5⟩ := wrapped_model hc a ha ho ds
    unfold HashEngine.hashByteChunks
    rw [h1, ok_bind, h2, ok_bind, h5]
  have hd : (a.engine c).default = (a.engine c).new := by
    cases a <;> first | (cases ha; done) | rfl
  have C : Computes (a.engine c) (wrappedDigest c.usizeBits a)
      (key.length + 2 * (a.engine c).blockSize + ds.flatten.length) :=
    ⟨fun ds _ => run ds, fun ds _ => by rw [hd]; exact run ds⟩
  have hB : (a.engine c).blockSize = a.blockSize := by cases a <;> first | (cases ha; done) | rfl
  rw [← hB]
  exact C63_rfc C (by rw [hB]; cases a <;> first | (cases ha; done) | (show _ ≤ _; decide))
    (fun m => by
      rw [hB]
      refine Nat.le_trans (m := a.outLen) ?_ ?_
      · cases a <;> first | (cases ha; done) | exact List.length_take_le _ _
      · cases a <;> first | (cases ha; done) | (show _ ≤ _; decide))
    (by omega) key (by omega) ds (by omega)

/-- C95: SipHash of the text needs only the low byte of the count: without overflow checks it is right for
any number of bytes. -/
theorem C95_siphash {c : Cfg} (hc : c.Valid) (ho : c.overflowChecks = false) (k0 k1 : BitVec 64)
    (ds : List (List Byte)) (hs : ∀ d ∈ ds, d.length < c.usizeMod) :
    (do
      let e ← (Source.Siphash24.engine c).inputs (Source.Siphash24.Engine.with_keys c k0 k1) ds
      (Source.Siphash24.engine c).finalize e) =
    .ok (leBytes 8 (siphash24 k0 k1 ds.flatten).toNat) := by
  obtain ⟨e', h', R'⟩ := (Siphash24.lawful hc).inputs_ok (s := ⟨k0, k1, sipInit k0 k1⟩) (m := []) ds hs
    (Siphash24.withKeys_rel hc k0 k1)
    (by simp only [logSip, ho, Bool.not_false, Bool.true_or])
  have h3 := (Siphash24.lawful hc).digest R'
  have h1 : (Source.Siphash24.engine c).inputs (Source.Siphash24.Engine.with_keys c k0 k1) ds = _ :=
    (Source.algSim hc .siphash24 trivial).inputs (Siphash24.withKeys k0 k1) ds hs
  have h4 : (Source.Siphash24.engine c).finalize _ = _ := (Source.algSim hc .siphash24 trivial).finalize e'
  have h2 : (Alg.engine c .siphash24).inputs (Siphash24.withKeys k0 k1) ds = .ok e' := h'
  rw [h1, h2]
  refine h4.trans ?_
  refine h3.trans ?_
  rfl

/-- C95: `finalize` of any engine that can be made with the text panics exactly when overflow checks are on
and the padded length does not fit `usize` or the bit length does not fit `u64`. -/
theorem C95_finalize_panics_iff {c : Cfg} (hc : c.Valid) (a : Alg) (ok : a.Ok c) {B L : Nat}
    (ha : blockAndField a = some (B, L)) {e} (he : Source.Reach c a e) :
    ((∃ f, (Source.engineOf c a).finalize e = .error f) ↔ c.overflowChecks = true ∧
      ¬ (paddedTo B L ((Source.engineOf c a).nBytesHashed e) < 2 ^ c.usizeBits ∧
        8 * (Source.engineOf c a).nBytesHashed e < 2 ^ 64)) ∧
    ((∃ f, (Source.engineOf c a).finalize e = .error f) →
      (Source.engineOf c a).finalize e = .error .overflow) := by
  obtain ⟨m, hm, rfl⟩ := he.model hc (fits_of_ok a ok)
  rw [(Source.algSim hc a (fits_of_ok a ok)).nBytesHashed, (Source.algSim hc a (fits_of_ok a ok)).finalize]
  exact C39_finalize_panics_iff hc a ok ha hm

theorem midAfterAll_eq {c : Cfg} (hc : c.Valid) (a : Alg) (ha : plain a = true) (hf : Source.Fits c a)
    (ho : c.overflowChecks = false) (ds : List (List Byte)) (hs : ∀ d ∈ ds, d.length < c.usizeMod) :
    midAfterAll c a ds = .ok (Source.showMid c a ((Source.algSim hc a hf).mid
      ((a.log c).mid (a.log c).fresh.1 ((a.log c).fresh.2 ++ ds.flatten)))) := by
  obtain ⟨e, e', h1, h2, -, h4, -⟩ := wrapped_model hc a ha ho ds
  unfold midAfterAll
  rw [(Source.algSim hc a hf).new, h1]
  show (do
    let e ← (Source.engineOf c a).inputs ((Source.algSim hc a hf).st e) ds
    let μ ← (Source.engineOf c a).midstate e
    pure (Source.showMid c a μ)) = _
  rw [(Source.algSim hc a hf).inputs e ds hs, h2]
  show (do
    let μ ← (Source.engineOf c a).midstate ((Source.algSim hc a hf).st e')
    pure (Source.showMid c a μ)) = _
  rw [(Source.algSim hc a hf).midstate, h4]
  rfl

/-- C95: where the length cannot be recorded (`2 ^ w` bytes or more, or 2^64 bits or more) the text does not
return the standard's digest, unless engines that are input the last block of the standard's padding and a
block that differs from it only in the length field end in midstates that begin with the same digest. -/
theorem C95_not_standard {c : Cfg} (hc : c.Valid) (ho : c.overflowChecks = false) (a : Alg)
    (ha : plain a = true) {B L : Nat} (hBL : blockAndField a = some (B, L)) (ds : List (List Byte))
    (hs : ∀ d ∈ ds, d.length < c.usizeMod) (hfield : 8 * ds.flatten.length < 256 ^ L)
    (hlong : 2 ^ c.usizeBits ≤ ds.flatten.length ∨ 2 ^ 64 ≤ 8 * ds.flatten.length)
    (heq : (Source.engineOf c a).hashByteChunks ds = .ok (a.hashSpec ds.flatten)) :
    LengthFieldCollides c a B L ds.flatten := by
  obtain ⟨e, e', h1, h2, -, h5⟩ := C95_wraps hc a ha ho ds hs
  unfold HashEngine.hashByteChunks at heq
  rw [h1, ok_bind, h2, ok_bind, h5] at heq
  replace heq : wrappedDigest c.usizeBits a ds.flatten = a.hashSpec ds.flatten := Except.ok.inj heq
  have key : ∀ {H : Type} {P : Md H}, Source.MdText c a P → P.B = B → P.L = L → 8 ≤ P.L →
      (∀ x y, x < 256 ^ P.L → y < 256 ^ P.L → P.enc P.L x = P.enc P.L y → x = y) →
      (∀ m bits, digestClaiming a m bits = P.digestWith P.iv m bits) →
      (∀ m, P.digestWith P.iv m (8 * List.length m) = a.hashSpec m) →
      (∀ ds : List (List Byte), (∀ d ∈ ds, d.length < c.usizeMod) →
        midAfterAll c a ds = .ok (.bytes (P.words (chain P.B P.compress P.iv ds.flatten)))) →
      LengthFieldCollides c a B L ds.flatten := by
    intro H P T hPB hPL h8 einj hcl hspec hmid
    subst hPL hPB
    have hfit : 8 * (ds.flatten.length % 2 ^ c.usizeBits) % 2 ^ 64 < 256 ^ P.L :=
      Nat.lt_of_lt_of_le (Nat.mod_lt _ (by decide)) (two64_le h8)
    have hdiff : 8 * (ds.flatten.length % 2 ^ c.usizeBits) % 2 ^ 64 ≠ 8 * ds.flatten.length := by
      have h1 : 8 * (ds.flatten.length % 2 ^ c.usizeBits) % 2 ^ 64 < 2 ^ 64 := Nat.mod_lt _ (by decide)
      have h2 : 8 * (ds.flatten.length % 2 ^ c.usizeBits) % 2 ^ 64 ≤
        8 * (ds.flatten.length % 2 ^ c.usizeBits) := Nat.mod_le _ _
      have h3 : ds.flatten.length % 2 ^ c.usizeBits < 2 ^ c.usizeBits :=
        Nat.mod_lt _ (Nat.two_pow_pos _)
      omega
    have hne : P.enc P.L (8 * (ds.flatten.length % 2 ^ c.usizeBits) % 2 ^ 64) ≠
        P.enc P.L (8 * ds.flatten.length) := fun h => hdiff (einj _ _ hfit hfield h)
    obtain ⟨q, b, b', e1, e2, hq, hb, hb', hbne⟩ := last_blocks T.L_le
      (p := ds.flatten ++ [0x80] ++ List.replicate (padZeros P.B P.L ds.flatten.length) 0)
      (T.enc.len (8 * (ds.flatten.length % 2 ^ c.usizeBits) % 2 ^ 64))
      (T.enc.len (8 * ds.flatten.length)) (Md.padWith_dvd T.pos T.enc _ _)
      (by simp only [List.length_append, List.length_cons]; omega) hne
    have htake : b.take (P.B - P.L) = b'.take (P.B - P.L) := by
      have ht : ∀ {x b : List Byte}, x.length = P.L → b.length = P.B →
          (ds.flatten ++ [0x80] ++ List.replicate (padZeros P.B P.L ds.flatten.length) 0) ++ x = q ++ b →
          q ++ b.take (P.B - P.L) =
            ds.flatten ++ [0x80] ++ List.replicate (padZeros P.B P.L ds.flatten.length) 0 := by
        intro x b hx hb e
        have hl := congrArg List.length e
        have hLB := T.L_le
        rw [List.length_append, List.length_append (as := q), hx, hb] at hl
        have := congrArg (List.take (ds.flatten ++ [0x80] ++
          List.replicate (padZeros P.B P.L ds.flatten.length) 0).length) e
        rw [List.take_left, List.take_append, List.take_of_length_le (by omega)] at this
        rw [this]
        congr 2
        omega
      exact List.append_cancel_left ((ht (T.enc.len _) hb e1).trans (ht (T.enc.len _) hb' e2).symm)
    have hch : ∀ {b}, b.length = P.B → chain P.B P.compress P.iv (q ++ b) =
        P.compress (chain P.B P.compress P.iv q) b := by
      intro b hb
      rw [chain, blocks_last T.pos hq hb, List.foldl_append]
      rfl
    refine ⟨q, b, b', (T.blocks_flatten _).trans e2, hb, hb', hbne, htake, ?_⟩
    intro qs hqs hsl
    have hB : P.B < c.usizeMod := by
      have := T.B_le
      have := usizeMod_ge hc
      omega
    have hm : ∀ {b : List Byte}, b.length = P.B → midAfterAll c a (qs ++ [b]) =
        .ok (.bytes (P.words (chain P.B P.compress P.iv (q ++ b)))) := by
      intro b hb
      rw [hmid _ (fun d hd => by
        rcases List.mem_append.1 hd with hd | hd
        · exact hsl d hd
        · rw [List.mem_singleton.1 hd, hb]; exact hB)]
      rw [List.flatten_append, List.flatten_singleton, hqs]
    refine ⟨_, _, hm hb, hm hb', ?_⟩
    rw [wrappedDigest, hcl, ← hspec] at heq
    have heq : (P.words (chain P.B P.compress P.iv ((ds.flatten ++ [0x80] ++
        List.replicate (padZeros P.B P.L ds.flatten.length) 0) ++
        P.enc P.L (8 * (ds.flatten.length % 2 ^ c.usizeBits) % 2 ^ 64)))).take P.out =
      (P.words (chain P.B P.compress P.iv ((ds.flatten ++ [0x80] ++
        List.replicate (padZeros P.B P.L ds.flatten.length) 0) ++
        P.enc P.L (8 * ds.flatten.length)))).take P.out := heq
    rw [e1, e2, T.out] at heq
    exact heq
  cases a with
  | sha1 =>
    cases hBL
    exact key (Source.Sha1.mdText hc) rfl rfl (Nat.le_refl 8) (fun _ _ h h' => beBytes_inj h h')
      (fun _ _ => rfl) digestWith_1 (midAfterAll_eq hc .sha1 rfl trivial ho)
  | sha256 =>
    cases hBL
    exact key (Source.Sha256.mdText hc) rfl rfl (Nat.le_refl 8) (fun _ _ h h' => beBytes_inj h h')
      (fun _ _ => rfl) digestWith_256 (midAfterAll_eq hc .sha256 rfl trivial ho)
  | sha384 =>
    cases hBL
    exact key (Source.Sha384.mdText hc) rfl rfl (show 8 ≤ 16 by decide) (fun _ _ h h' => beBytes_inj h h')
      (fun _ _ => rfl) digestWith_384 (midAfterAll_eq hc .sha384 rfl trivial ho)
  | sha512 =>
    cases hBL
    exact key (Source.Sha512.mdText hc) rfl rfl (show 8 ≤ 16 by decide) (fun _ _ h h' => beBytes_inj h h')
      (fun _ _ => rfl) digestWith_512 (midAfterAll_eq hc .sha512 rfl trivial ho)
  | sha512_256 =>
    cases hBL
    exact key (Source.Sha512_256.mdText hc) rfl rfl (show 8 ≤ 16 by decide)
      (fun _ _ h h' => beBytes_inj h h')
      (fun _ _ => rfl) digestWith_512_256 (midAfterAll_eq hc .sha512_256 rfl trivial ho)
  | ripemd160 =>
    cases hBL
    exact key (Source.Ripemd160.mdText hc) rfl rfl (Nat.le_refl 8) (fun _ _ h h' => leBytes_inj h h')
      (fun _ _ => rfl) digestWith_Rmd (midAfterAll_eq hc .ripemd160 rfl trivial ho)
  | siphash24 | sha256t _ _ _ | hmac _ => cases ha

/-- Four slices of a gibibyte on a 32-bit release build, two of 40000 bytes on a 16-bit one. -/
example :
    (Cfg.release32.Valid ∧ Cfg.release32.overflowChecks = false ∧
      8 * (List.replicate 4 (List.replicate (2 ^ 30) (0 : Byte))).flatten.length < 256 ^ 8 ∧
      2 ^ Cfg.release32.usizeBits ≤
        (List.replicate 4 (List.replicate (2 ^ 30) (0 : Byte))).flatten.length) ∧
    { Cfg.release64 with usizeBits := 16 }.Valid ∧
      2 ^ 16 ≤ (List.replicate 2 (List.replicate 40000 (0 : Byte))).flatten.length := by
  simp only [List.length_flatten, List.map_replicate, List.length_replicate, List.sum_replicate_nat]
  decide

/-- C95, a wrong digest: on a 32-bit release build an engine of the text that stands for 2^32 - 64 bytes
gets one more block.  Its count is 0 and its digest is not the one with the true bit count. -/
theorem C95_wrong_digest :
    (do
      let E := Source.engineOf .release32 .sha1
      let e ← E.fromMidstate (List.replicate 20 (0 : Byte)) (2 ^ 32 - 64)
      let e ← E.input e (List.replicate 64 0)
      let d ← E.finalize e
      pure (E.nBytesHashed e == 0 && d != md1.digestWith (parse5 (List.replicate 20 0))
        (List.replicate 64 0) (8 * 2 ^ 32))) = Except.ok true := by
  decide +kernel

end Chf.Props
