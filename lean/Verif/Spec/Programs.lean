import Verif.Spec.AlgLog
import Verif.Model.Programs

/-!
# Specification: programs over message logs

Here an engine value is where the engine started and the list of all bytes input since.
-/

namespace Chf.Spec

/-- `hash` in terms of logs. -/
def logHash (c : Cfg) (a : Alg) (m : List Byte) : Res (List Byte) :=
  let S := a.log c
  if S.accepts S.fresh.1 (S.fresh.2.length + m.length) then S.digest S.fresh.1 (S.fresh.2 ++ m)
  else .error .overflow

/-- HMAC hashes keys longer than a block. -/
def shortKey (c : Cfg) (a : Alg) (key : List Byte) : Res (List Byte) :=
  if key.length > a.blockSize then logHash c a key else .ok key

/-- The start of `hmac::Engine::<E>::new(key)`: the key is filled up with zeroes to a block. -/
def logHmacKey (c : Cfg) (a : Alg) (key : List Byte) : Res (HmacStart (a.log c).Start) := do
  let k ← shortKey c a key
  pure (.ofKey (a.log c).fresh (k ++ List.replicate (a.blockSize - k.length) 0))

/-- The start of an engine. -/
def logMake (c : Cfg) : (a : Alg) → Make → Option (Res ((a.log c).Start × List Byte))
  | a, .new => some (.ok (a.log c).fresh)
  | a, .default => some (.ok (a.log c).fresh)
  | .siphash24, .sipKeys k0 k1 => some (.ok ((⟨k0, k1, sipInit k0 k1⟩ : SipStart), []))
  | .hmac a, .hmacKey key => some (do
      let s ← logHmacKey c a key
      pure (s, []))
  | a, .resume v n => (a.readMid c v).map fun μ => do
      let s ← (a.log c).resume μ n
      pure (s, [])
  | _, _ => none

/-- Engines as logs. -/
def logs (c : Cfg) : Impl where
  State a := (a.log c).Start × List Byte
  make := logMake c
  input a e d :=
    if (a.log c).accepts e.1 (e.2.length + d.length) then .ok (e.1, e.2 ++ d) else .error .overflow
  count a e := (a.log c).count e.1 e.2.length
  mid a e := .ok (a.showMid c ((a.log c).mid e.1 e.2))
  fin a e := (a.log c).digest e.1 e.2

end Chf.Spec
