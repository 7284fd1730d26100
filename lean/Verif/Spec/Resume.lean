import Verif.Model.Alg

/-!
# What HMAC may ask of an engine that it did not write: counting and resuming
-/

namespace Chf.Spec
open Chf

/-- `n_bytes_hashed` of an engine from `default` is the number of bytes input, up to `N` bytes. -/
def Counts (E : HashEngine) (N : Nat) : Prop :=
  ∀ (ds : List (List Byte)) (e0 e : E.State), ds.flatten.length ≤ N → E.default = .ok e0 →
    E.inputs e0 ds = .ok e → E.nBytesHashed e = ds.flatten.length

/-- After whole blocks, up to `N` bytes, `from_midstate` with the midstate and the number of bytes gives an
engine that no caller can tell from the one that the midstate was taken of. -/
def ResumesAtBlocks (c : Cfg) (E : HashEngine) (N : Nat) : Prop :=
  ∀ (ds : List (List Byte)) (e0 e : E.State), ds.flatten.length ≤ N → E.blockSize ∣ ds.flatten.length →
    E.default = .ok e0 → E.inputs e0 ds = .ok e →
    ∃ μ e', E.midstate e = .ok μ ∧ E.fromMidstate μ ds.flatten.length = .ok e' ∧ ObsEq c E e e'

/-- An engine as somebody else may write it: it keeps the number of bytes and the bytes, and the digest depends on
both. Its midstate has the number only if `carries`; otherwise `from_midstate` uses the number it is given. -/
def countEngine (carries : Bool) (B D : Nat) : HashEngine where
  State := Nat × List Byte
  Midstate := Nat × List Byte
  blockSize := B
  default := .ok (0, [])
  new := .ok (0, [])
  input e d := .ok (e.1 + d.length, e.2 ++ d)
  nBytesHashed e := e.1
  finalize e := .ok (List.replicate D (e.2.foldl (fun h b => 3 * h + b) (BitVec.ofNat 8 e.1)))
  midstate e := .ok (if carries then e.1 else 0, e.2)
  fromMidstate μ n := .ok (if carries then μ.1 else n, μ.2)

end Chf.Spec
