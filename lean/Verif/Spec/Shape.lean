import Verif.Model.Programs

/-!
# Specification: programs with the contents of their data erased

`blank` replaces every byte and every key word by zero and keeps all lengths, byte counts and panics.
-/

namespace Chf

/-- As many zero bytes. -/
def blankBytes (d : List Byte) : List Byte := List.replicate d.length 0

def MidVal.blank : MidVal → MidVal
  | .bytes bs => .bytes (blankBytes bs)
  | .sip _ => .sip ⟨0, 0, 0, 0⟩
  | .pair i o => .pair i.blank o.blank

def Make.blank : Make → Make
  | .new => .new
  | .default => .default
  | .sipKeys _ _ => .sipKeys 0 0
  | .hmacKey key => .hmacKey (blankBytes key)
  | .resume μ n => .resume μ.blank n

def Call.blank : Call → Call
  | .make a how => .make a how.blank
  | .input i data => .input i (blankBytes data)
  | x => x

def Answer.blank : Answer → Answer
  | .midstate v => .midstate v.blank
  | .digest d => .digest (blankBytes d)
  | x => x

end Chf
