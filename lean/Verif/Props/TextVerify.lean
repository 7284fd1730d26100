import Verif.Model.TextVerify
import Verif.Props.TextCollisions
import Verif.Props.TextContract
import Verif.Props.TextSeen
import Verif.Props.TextTypes

/-!
# C105: checking a message authentication code with the translated text

The programs are in `Model/TextVerify.lean`; they only call translated functions.
-/

namespace Chf.Props
open Chf Chf.Spec Chf.HashTy Chf.Rs Chf.Tr

theorem hmac_text_any {c : Cfg} (hc : c.Valid) (a : Alg) (ok : (Alg.hmac a).Ok c) (key : List Byte)
    (ds : List (List Byte)) (hk : Fits c (a.base + key.length + a.slack))
    (hf : Fits c (a.base + a.blockSize + ds.flatten.length + (a.slack + 64))) :
    (do
      let e ← Source.Hmac.Engine.new c (Source.engineOf c a) key
      let e ← (Source.engineOf c (.hmac a)).inputs e ds
      (Source.engineOf c (.hmac a)).finalize e) =
    .ok (hmac a.hashSpec a.blockSize key ds.flatten) := by
  refine Eq.trans ?_ (C23_hmac_any_width hc a ok key ds hk hf)
  exact hmac_text hc (Source.algSim hc a (fits_of_ok a ok.1)) key ds (by have := hk.2; omega) fun d hd => by
    have := length_le_flatten hd
    have := hf.2
    omega

theorem hmac_length (a : Alg) (key m : List Byte) : (hmac a.hashSpec a.blockSize key m).length = a.outLen :=
  a.hashSpec_length _

/-- C105: the tag is RFC 2104's, for every engine type, key and split of the message, on any target. -/
theorem C105_tag {c : Cfg} (hc : c.Valid) (a : Alg) (ok : (Alg.hmac a).Ok c) (key : List Byte)
    (ds : List (List Byte)) (hk : Fits c (a.base + key.length + a.slack))
    (hf : Fits c (a.base + a.blockSize + ds.flatten.length + (a.slack + 64))) (N : Nat) :
    Source.macTag c a N key ds = .ok ⟨hmac a.hashSpec a.blockSize key ds.flatten⟩ := by
  have h := congrArg (Except.map Source.Hmac.Hash.mk) (hmac_text_any hc a ok key ds hk hf)
  refine Eq.trans ?_ h
  rw [Rs.map_bind]
  refine bind_congr' fun e _ => ?_
  rw [Rs.map_bind]
  exact bind_congr' fun e _ => (map_eq_bind _ _).symm

/-- C105: the check accepts the tag of RFC 2104 and no other bytes; it does not panic, whatever is
received. -/
theorem C105_check {c : Cfg} (hc : c.Valid) (a : Alg) (ok : (Alg.hmac a).Ok c) (key : List Byte)
    (ds : List (List Byte)) (hk : Fits c (a.base + key.length + a.slack))
    (hf : Fits c (a.base + a.blockSize + ds.flatten.length + (a.slack + 64))) (received : List Byte) :
    Source.macCheck c a a.outLen key ds received =
      .ok (decide (received = hmac a.hashSpec a.blockSize key ds.flatten)) := by
  have hs : Source.Hmac.Hash.from_slice c a.outLen received =
      .ok (if received.length = a.outLen then .ok ⟨received⟩ else .error ⟨a.outLen, received.length⟩) :=
    from_slice_shape a.outLen Source.Hmac.Hash.mk received
  have hl := hmac_length a key ds.flatten
  unfold Source.macCheck
  rw [C105_tag hc a ok key ds hk hf, ok_bind, hs, ok_bind]
  by_cases h : received.length = a.outLen
  · rw [if_pos h]
    refine (C70_fixed_time_eq c (hmac a.hashSpec a.blockSize key ds.flatten) received).trans ?_
    rw [if_pos (hl.trans h.symm)]
    exact congrArg Except.ok (decide_eq_decide.2 ⟨Eq.symm, Eq.symm⟩)
  · rw [if_neg h]
    exact congrArg Except.ok (Eq.symm (decide_eq_false fun e => h (e ▸ hl)))

/-- C105: a received string is accepted exactly if it is the tag in hexadecimal digits, of either case;
other strings, also such that are no digits or of another length, are refused without a panic. -/
theorem C105_check_str {c : Cfg} (hc : c.Valid) (a : Alg) (ok : (Alg.hmac a).Ok c) (key : List Byte)
    (ds : List (List Byte)) (hk : Fits c (a.base + key.length + a.slack))
    (hf : Fits c (a.base + a.blockSize + ds.flatten.length + (a.slack + 64))) (received : List Byte) :
    ∃ b, Source.macCheckStr c a a.outLen key ds received = .ok b ∧
      (b = true ↔ received.length = 2 * a.outLen ∧ (∀ x ∈ received, IsHexDigit x) ∧
        value16 received = beNat (hmac a.hashSpec a.blockSize key ds.flatten)) := by
  have hl := hmac_length a key ds.flatten
  have hp : Source.Hmac.Hash.FromStr.from_str c a.outLen ∈
      (Source.hashText c ⟨.error .ub⟩ (.hmac a.outLen)).parsers := List.mem_cons_self
  have parse : ∀ h : Source.Hmac.Hash, Source.Hmac.Hash.FromStr.from_str c a.outLen received = .ok (.ok h) ↔
      received.length = 2 * a.outLen ∧ (∀ x ∈ received, IsHexDigit x) ∧ h.f0.length = a.outLen ∧
        value16 received = beNat h.f0 :=
    fun h => C73_parse c ⟨.error .ub⟩ (.hmac a.outLen) received h _ hp
  have total : ∃ r, Source.Hmac.Hash.FromStr.from_str c a.outLen received = .ok r := by
    obtain ⟨r, hr⟩ := fromStr_total (s := .hmac a.outLen) received
    have := (Source.plain c ⟨.error .ub⟩ (.hmac a.outLen)).parsers _ hp received
    exact ⟨_, this.trans ((congrArg (Except.map _) hr).trans rfl)⟩
  unfold Source.macCheckStr
  rw [C105_tag hc a ok key ds hk hf, ok_bind]
  obtain ⟨r, hr⟩ := total
  rw [hr, ok_bind]
  cases r with
  | error e =>
    refine ⟨false, rfl, fun h => (by cases h), fun h => ?_⟩
    rw [(parse ⟨hmac a.hashSpec a.blockSize key ds.flatten⟩).2 ⟨h.1, h.2.1, hl, h.2.2⟩] at hr
    cases hr
  | ok r =>
    obtain ⟨p1, p2, p3, p4⟩ := (parse r).1 hr
    refine ⟨_, (C70_fixed_time_eq c (hmac a.hashSpec a.blockSize key ds.flatten) r.f0).trans
      (if_pos (hl.trans p3.symm)), ?_⟩
    rw [decide_eq_true_eq]
    refine ⟨fun h => ⟨p1, p2, p4.trans (congrArg beNat h.symm)⟩, fun h => ?_⟩
    exact beNat_inj (hl.trans p3.symm) (h.2.2.symm.trans p4)

/-- The second test case of RFC 2202 for HMAC-SHA-1 (key "Jefe"): the tag is accepted as bytes and as upper-case
digits; with one bit wrong, cut short, or as something else than digits it is refused. -/
example : Cfg.debug64.Valid ∧ (Alg.hmac .sha1).Ok .debug64 ∧
    Fits .debug64 (Alg.sha1.base + (ascii "Jefe").length + Alg.sha1.slack) ∧
    Fits .debug64 (Alg.sha1.base + Alg.sha1.blockSize +
      ([ascii "what do ya want ", ascii "for nothing?"] : List (List Byte)).flatten.length + (Alg.sha1.slack + 64)) ∧
    hmac Alg.sha1.hashSpec Alg.sha1.blockSize (ascii "Jefe") (ascii "what do ya want for nothing?") =
      beBytes 20 0xeffcdf6ae5eb2fa2d27416d5f184df9c259a7c79 ∧
    value16 (ascii "EFFCDF6AE5EB2FA2D27416D5F184DF9C259A7C79") = 0xeffcdf6ae5eb2fa2d27416d5f184df9c259a7c79 ∧
    (beBytes 20 0xeffcdf6ae5eb2fa2d27416d5f184df9c259a7c78).length = Alg.sha1.outLen ∧
    (ascii "0xFFCDF6AE5EB2FA2D27416D5F184DF9C259A7C79").length ≠ 2 * Alg.sha1.outLen :=
  ⟨by decide, ⟨trivial, by decide⟩, ⟨by decide +kernel, by decide +kernel⟩,
    ⟨by decide +kernel, by decide +kernel⟩, by decide +kernel, by decide +kernel, by decide +kernel,
    by decide +kernel⟩

/-- C105: comparing the digest itself with what was received panics if the lengths differ, and nothing else
is different. -/
theorem C105_compare {c : Cfg} (hc : c.Valid) (a : Alg) (ok : (Alg.hmac a).Ok c) (key : List Byte)
    (ds : List (List Byte)) (hk : Fits c (a.base + key.length + a.slack))
    (hf : Fits c (a.base + a.blockSize + ds.flatten.length + (a.slack + 64))) (received : List Byte) :
    Source.macCompare c a key ds received =
      if received.length = a.outLen then .ok (decide (received = hmac a.hashSpec a.blockSize key ds.flatten))
      else .error .assertion := by
  have h := congrArg (· >>= fun d => Source.Cmp.fixed_time_eq c d received) (hmac_text_any hc a ok key ds hk hf)
  refine Eq.trans ?_ (h.trans ?_)
  · simp only [Source.macCompare, bind_assoc]
  · show Source.Cmp.fixed_time_eq c _ received = _
    rw [C70_fixed_time_eq, hmac_length]
    by_cases hr : received.length = a.outLen
    · rw [if_pos hr, if_pos hr.symm]
      exact congrArg Except.ok (decide_eq_decide.2 ⟨Eq.symm, Eq.symm⟩)
    · rw [if_neg hr, if_neg (Ne.symm hr)]

/-- C105: all that is seen of the computation and the comparison together, branches and addresses, is
fixed by the lengths of the key, of the slices and of what was received. In every build and for every
length, also where the text panics. -/
theorem C105_seen (c : Cfg) (a : Alg) (key key' : List Byte) (ds ds' : List (List Byte))
    (received received' : List Byte) (h1 : key.length = key'.length)
    (h2 : ds.map List.length = ds'.map List.length) (h3 : received.length = received'.length) :
    (Source.macCompareSeen c a key ds received).seen = (Source.macCompareSeen c a key' ds' received').seen ∧
    (Source.macCompareSeen c a key ds received).res = Source.macCompare c a key ds received := by
  refine ⟨?_, ?_⟩
  · have B := Source.blindOf c (.hmac a)
    have h : SameSeen Any (Source.macCompareSeen c a key ds received) (Source.macCompareSeen c a key' ds' received') :=
      .bind (R := Source.like c (.hmac a)) (Seen.Hmac.new_same c (Source.blindOf c a) h1) fun _ _ he =>
      .bind (SameSeen.each (P := Len) (R := Source.like c (.hmac a)) (fun _ _ _ _ he hd => B.input he hd)
        (SameSeen.Each.ofLens h2) he) fun _ _ he =>
      .bind (B.finalize he) fun _ _ hd => (Seen.Cmp.fixed_time_eq_same c hd h3).mono fun _ _ _ => trivial
    exact h.seen
  · have E := Source.erasesOf c (.hmac a)
    refine Tr.bindE (Seen.Hmac.new_res c (Source.erasesOf c a) key) fun e => ?_
    refine Tr.bindE ?_ fun e => Tr.bindE (E.finalize e) fun d => Seen.Cmp.fixed_time_eq_res c d received
    refine (Tr.each_res _ ds e).trans (Eq.trans ?_ (foldlM_inputs (Source.engineOf c (.hmac a)) ds e))
    exact congrArg (fun f => ds.foldlM f e) (funext fun e => funext fun d => E.input e d)

example : (ascii "Jefe").length = (ascii "Tour").length ∧
    ([[1, 2], [], [3]] : List (List Byte)).map List.length = [[9, 9], [], [0]].map List.length ∧
    (List.replicate 8 (1 : Byte)).length = (List.replicate 8 (2 : Byte)).length ∧
    (Source.macCompareSeen .debug64 .siphash24 (ascii "Jefe") [[1, 2], [], [3]] (List.replicate 8 1)).res =
      .ok false := by
  decide +kernel

/-- C105: if one string of bytes is accepted for two messages, or under two keys that are not the same key
block, then the block function collides in one of the computations. -/
theorem C105_twice {c : Cfg} (hc : c.Valid) (a : Alg) (ha : hasBlocks a = true)
    (key key' t : List Byte) (ds ds' : List (List Byte)) (hk : Fits c key.length) (hk' : Fits c key'.length)
    (hm : Fits c (a.blockSize + ds.flatten.length + 64))
    (hm' : Fits c (a.blockSize + ds'.flatten.length + 64))
    (h : Source.macCheck c a a.outLen key ds t = .ok true)
    (h' : Source.macCheck c a a.outLen key' ds' t = .ok true)
    (hne : (hmacKey a.hashSpec a.blockSize key, ds.flatten) ≠
      (hmacKey a.hashSpec a.blockSize key', ds'.flatten)) :
    (BlocksCollide c a (innerText a key ds.flatten) (innerText a key' ds'.flatten) ∨
      TruncationCollides c a (innerText a key ds.flatten) (innerText a key' ds'.flatten)) ∨
    BlocksCollide c a (outerText a key ds.flatten) (outerText a key' ds'.flatten) ∨
      TruncationCollides c a (outerText a key ds.flatten) (outerText a key' ds'.flatten) := by
  obtain ⟨ok, hb, hs⟩ := hasBlocks_ok ha c
  have okh : (Alg.hmac a).Ok c := ⟨ok, by
    rw [hb]
    have : a.blockSize + ds.flatten.length + 64 + 144 < 2 ^ c.usizeBits := hm.2
    show _ < 2 ^ c.usizeBits
    omega⟩
  have run : ∀ {key : List Byte} {ds : List (List Byte)}, Fits c key.length →
      Fits c (a.blockSize + ds.flatten.length + 64) → Source.macCheck c a a.outLen key ds t = .ok true →
      (do
        let e ← Source.Hmac.Engine.new c (Source.engineOf c a) key
        let e ← (Source.engineOf c (.hmac a)).inputs e ds
        (Source.engineOf c (.hmac a)).finalize e) = .ok t := by
    intro key ds hk hm h
    have hk : Fits c (a.base + key.length + a.slack) := by rw [hb, hs]; simpa using hk
    have hm : Fits c (a.base + a.blockSize + ds.flatten.length + (a.slack + 64)) := by
      rw [hb, hs]; simpa using hm
    rw [C105_check hc a okh key ds hk hm] at h
    rw [hmac_text_any hc a okh key ds hk hm, ← of_decide_eq_true (Except.ok.inj h)]
  exact C89_hmac hc a ha key key' t ds ds' hk hk' hm hm' (run hk hm h) (run hk' hm' h') hne

end Chf.Props
