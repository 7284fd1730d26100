import Verif.Model.Text
import Verif.Spec.AlgLog

/-!
# Specification: collisions of the block function, seen through the public methods; length extension
-/

namespace Chf.Spec

/-- The midstate of a new engine of the translated text after one call of `input`. -/
def midAfter (c : Cfg) (a : Alg) (x : List Byte) : Res MidVal := do
  let e ← (Source.engineOf c a).new
  let e ← (Source.engineOf c a).input e x
  let μ ← (Source.engineOf c a).midstate e
  pure (Source.showMid c a μ)

/-- The midstate of a new engine of the translated text after one call of `input` for each slice. -/
def midAfterAll (c : Cfg) (a : Alg) (ds : List (List Byte)) : Res MidVal := do
  let e ← (Source.engineOf c a).new
  let e ← (Source.engineOf c a).inputs e ds
  let μ ← (Source.engineOf c a).midstate e
  pure (Source.showMid c a μ)

/-- The padded message `m` ends in a block `b'` with which another block `b`, different only in the length
field, collides: after everything before `b'`, cut in any way, engines that are input `b` and `b'` have
midstates that begin with the same digest. -/
def LengthFieldCollides (c : Cfg) (a : Alg) (B L : Nat) (m : List Byte) : Prop :=
  ∃ q b b', (standardBlocks a m).flatten = q ++ b' ∧ b.length = B ∧ b'.length = B ∧ b ≠ b' ∧
    b.take (B - L) = b'.take (B - L) ∧
    ∀ qs : List (List Byte), qs.flatten = q → (∀ d ∈ qs, d.length < c.usizeMod) →
      ∃ x x', midAfterAll c a (qs ++ [b]) = .ok (.bytes x) ∧
        midAfterAll c a (qs ++ [b']) = .ok (.bytes x') ∧ x.take a.outLen = x'.take a.outLen

/-- Among the blocks of `m` and of `m'` there are `b` and `b'` such that engines that were input the
blocks before them have different midstates, or `b` and `b'` differ, but after `b` and `b'` the midstates
are equal. -/
def BlocksCollide (c : Cfg) (a : Alg) (m m' : List Byte) : Prop :=
  ∃ p b q p' b' q' μ μ' ν, standardBlocks a m = p ++ b :: q ∧ standardBlocks a m' = p' ++ b' :: q' ∧
    midAfter c a p.flatten = .ok μ ∧ midAfter c a p'.flatten = .ok μ' ∧ (μ, b) ≠ (μ', b') ∧
    midAfter c a (p.flatten ++ b) = .ok ν ∧ midAfter c a (p'.flatten ++ b') = .ok ν

/-- The midstates after all blocks of `m` and of `m'` are different but begin with the same digest. -/
def TruncationCollides (c : Cfg) (a : Alg) (m m' : List Byte) : Prop :=
  ∃ x x', midAfter c a (standardBlocks a m).flatten = .ok (.bytes x) ∧
    midAfter c a (standardBlocks a m').flatten = .ok (.bytes x') ∧ x ≠ x' ∧
    x.take a.outLen = x'.take a.outLen ∧ a.outLen < x.length

/-- The padded message of SHA-1, SHA-256 and RIPEMD-160. -/
def padded : Alg → List Byte → List Byte
  | .ripemd160, m => pad 64 8 leBytes m
  | _, m => pad 64 8 beBytes m

/-- How a digest is to be given to `from_midstate` as a midstate: for RIPEMD-160 the bytes of each word
are to be reversed. -/
def asMidstate : Alg → List Byte → List Byte
  | .ripemd160, d => ((blocks 4 d).map List.reverse).flatten
  | _, d => d

end Chf.Spec
