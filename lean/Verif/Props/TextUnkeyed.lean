import Verif.Props.TextWrite

/-!
# C113: `hmac::Hash` without a key, in the translated text
-/

namespace Chf.Props
open Chf Chf.Rs Chf.Spec

/-- C113: `hmac::Hash::engine` and `from_engine` take any engine, whoever wrote it: the one makes a new engine
and the other finalizes it. -/
theorem C113_any_engine (c : Cfg) (E : HashEngine) (N : Nat) (e : E.State) :
    Source.Hmac.Hash.engine c N E = E.new ∧
    (Source.Hmac.Hash.from_engine c N E e).map (Source.Hmac.Hash.to_byte_array c N) = E.finalize e := by
  constructor
  · unfold Source.Hmac.Hash.engine
    cases E.new <;> rfl
  · unfold Source.Hmac.Hash.from_engine
    cases E.finalize e <;> rfl

/-- C113: so with a hash function's own engine the `hmac::Hash` is the plain digest of the message, and with an
HMAC engine it is the code under the empty key. -/
theorem C113_unkeyed {c : Cfg} (hc : c.Valid) (a : Alg) (ok : a.Ok c) (N : Nat) (chunks : List (List Byte))
    (hbits : 8 * (a.base + chunks.flatten.length + a.slack) < 2 ^ 64)
    (hbytes : a.base + chunks.flatten.length + a.slack + 144 < 2 ^ c.usizeBits) :
    (do
      let e ← Source.Hmac.Hash.engine c N (Source.engineOf c a)
      let e ← (Source.engineOf c a).inputs e chunks
      Source.Hmac.Hash.from_engine c N (Source.engineOf c a) e) = .ok ⟨a.hashSpec chunks.flatten⟩ := by
  have h := congrArg (Except.map Source.Hmac.Hash.mk) (C67_engines hc a ok chunks hbits hbytes)
  refine Eq.trans ?_ h
  unfold HashEngine.hashByteChunks
  rw [Rs.map_bind]
  have e1 : Source.Hmac.Hash.engine c N (Source.engineOf c a) = (Source.engineOf c a).new := by
    unfold Source.Hmac.Hash.engine
    cases (Source.engineOf c a).new <;> rfl
  rw [e1]
  refine bind_congr' fun e _ => ?_
  rw [Rs.map_bind]
  exact bind_congr' fun e _ => (map_eq_bind _ _).symm

theorem hmac_zeros (H : List Byte → List Byte) (B k : Nat) (hk : k ≤ B) (m : List Byte) :
    hmac H B (List.replicate k 0) m = hmac H B [] m := by
  unfold hmac hmacKey
  rw [List.length_replicate, if_neg (by omega), List.length_nil, if_neg (by omega)]
  simp only [List.length_replicate, List.length_nil, List.nil_append]
  rw [List.replicate_append_replicate, show k + (B - k) = B - 0 by omega]

/-- C113: the code under the empty key is the one under every key of zeros that is not longer than a block, so
callers who start from `hmac::Hash::engine` authenticate nothing. -/
theorem C113_zero_keys {c : Cfg} (h64 : c.usizeBits = 64) (a : Alg) (ok : (Alg.hmac a).Ok c) (N k : Nat)
    (hk : k ≤ a.blockSize) (chunks : List (List Byte))
    (hm : a.base + chunks.flatten.length + a.slack < 2 ^ 60) (hz : a.base + k + a.slack < 2 ^ 60) :
    (do
      let e ← Source.Hmac.Engine.new c (Source.engineOf c a) (List.replicate k 0)
      let e ← (Source.engineOf c (.hmac a)).inputs e chunks
      Source.Hmac.Hash.from_engine c N (Source.engineOf c (.hmac a)) e) =
    (do
      let e ← Source.Hmac.Hash.engine c N (Source.engineOf c (.hmac a))
      let e ← (Source.engineOf c (.hmac a)).inputs e chunks
      Source.Hmac.Hash.from_engine c N (Source.engineOf c (.hmac a)) e) := by
  rw [C74_hmac h64 a ok N _ chunks (by rw [List.length_replicate]; exact hz) hm, hmac_zeros _ _ _ hk]
  have e1 : Source.Hmac.Hash.engine c N (Source.engineOf c (.hmac a)) =
      Source.Hmac.Engine.new c (Source.engineOf c a) [] := by
    unfold Source.Hmac.Hash.engine
    show (do let x ← Source.Hmac.Engine.default c (Source.engineOf c a); pure x) = _
    unfold Source.Hmac.Engine.default
    cases Source.Hmac.Engine.new c (Source.engineOf c a) [] <;> rfl
  rw [e1]
  exact (C74_hmac h64 a ok N [] chunks (by rw [List.length_nil]; omega) hm).symm

set_option maxRecDepth 10000 in
/-- The `hmac::Hash` of an engine of SHA-1 that was input `abc` is SHA-1's digest. -/
example : Cfg.debug64.Valid ∧ Alg.sha1.Ok .debug64 ∧ (Alg.hmac .sha1).Ok .debug64 ∧
    ((do
      let e ← Source.Hmac.Hash.engine .debug64 20 (Source.engineOf .debug64 .sha1)
      let e ← (Source.engineOf .debug64 .sha1).inputs e [[0x61], [0x62, 0x63]]
      Source.Hmac.Hash.from_engine .debug64 20 (Source.engineOf .debug64 .sha1) e : Res _)).map (·.f0.take 4) =
      .ok [0xa9, 0x99, 0x3e, 0x36] :=
  ⟨by decide, trivial, ⟨trivial, by decide⟩, by decide +kernel⟩

end Chf.Props
