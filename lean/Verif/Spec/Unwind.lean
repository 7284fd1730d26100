import Verif.Spec.Programs
import Verif.Model.Unwind

/-!
# Specification: what a panicking `input` leaves behind
-/

namespace Chf.Spec

/-- The number of bytes of the slice that an engine has absorbed when `input` panics, if it had counted
`n` bytes before.  The block engines absorb as many bytes as leave the count at most one block below
`2 ^ usizeBits`; `siphash24` absorbs nothing; HMAC does what its inner engine does. -/
def kept (c : Cfg) : Alg → Nat → Nat
  | .siphash24, _ => 0
  | .hmac a, n => kept c a n
  | a, n => 2 ^ c.usizeBits - a.blockSize - n

/-- Engines as logs: after a panic the log has grown by the bytes absorbed. -/
def catchLogs (c : Cfg) : CatchImpl where
  toImpl := logs c
  left a e d := (e.1, e.2 ++ d.take (kept c a ((a.log c).count e.1 e.2.length)))

end Chf.Spec
