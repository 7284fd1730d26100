import Verif.Props.Checked
import Verif.Props.Text

/-!
# C93: with overflow checks a digest of the translated text is the right one or there is none
-/

namespace Chf.Props
open Chf Chf.Rs Chf.Spec

/-- C93: in a build with overflow checks, on any target, hashing any message in any pieces with the
translated text of any engine type returns the digest of the specification or panics on an overflow
check. -/
theorem C93_right_or_panic {c : Cfg} (hc : c.Valid) (ho : c.overflowChecks = true) (a : Alg)
    (ok : a.Ok c) (ds : List (List Byte)) (hs : ∀ d ∈ ds, d.length < c.usizeMod) :
    (Source.engineOf c a).hashByteChunks ds = .ok (a.hashSpec ds.flatten) ∨
    (Source.engineOf c a).hashByteChunks ds = .error .overflow := by
  rw [(Source.algSim hc a (fits_of_ok a ok)).hashByteChunks ds hs]
  exact C64_right_or_panic hc ho a ok ds hs

/-- C93 for HMAC with any key. -/
theorem C93_hmac {c : Cfg} (hc : c.Valid) (ho : c.overflowChecks = true) (a : Alg)
    (ok : (Alg.hmac a).Ok c) (key : List Byte) (hk : key.length < c.usizeMod)
    (ds : List (List Byte)) (hs : ∀ d ∈ ds, d.length < c.usizeMod) :
    let r := (do
      let e ← Source.Hmac.Engine.new c (Source.engineOf c a) key
      let e ← (Source.engineOf c (.hmac a)).inputs e ds
      (Source.engineOf c (.hmac a)).finalize e)
    r = .ok (hmac a.hashSpec a.blockSize key ds.flatten) ∨ r = .error .overflow := by
  have h := hmac_text hc (Source.algSim hc a (fits_of_ok a ok.1)) key ds hk hs
  have h' := C64_hmac hc ho a ok key hk ds hs
  rw [← h] at h'
  exact h'

/-- C93, which of the two, for the plain hash functions: the digest exactly if the padded message fits the
byte counter and the number of bits fits 64 bits. -/
theorem C93_exact {c : Cfg} (hc : c.Valid) (ho : c.overflowChecks = true) (a : Alg)
    (ha : plain a = true) {B L : Nat} (hBL : blockAndField a = some (B, L)) (ds : List (List Byte))
    (hs : ∀ d ∈ ds, d.length < c.usizeMod) :
    (Source.engineOf c a).hashByteChunks ds =
      if paddedTo B L ds.flatten.length < 2 ^ c.usizeBits ∧ 8 * ds.flatten.length < 2 ^ 64
      then .ok (a.hashSpec ds.flatten) else .error .overflow := by
  have hf : Source.Fits c a := by cases a <;> first | trivial | cases ha
  rw [(Source.algSim hc a hf).hashByteChunks ds hs]
  exact C64_exact hc ho a ha hBL ds hs

/-- Both cases occur: with a 16-bit `usize` a message of 1000 bytes has a digest, one of 65530 has not. -/
example : let c : Cfg := { Cfg.debug64 with usizeBits := 16 }
    c.Valid ∧ c.overflowChecks = true ∧ (∀ n ∈ [1000, 65530], n < c.usizeMod) ∧
    (paddedTo 64 8 1000 < 2 ^ c.usizeBits ∧ 8 * 1000 < 2 ^ 64) ∧ ¬ paddedTo 64 8 65530 < 2 ^ c.usizeBits := by
  decide

end Chf.Props
