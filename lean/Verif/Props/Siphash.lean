import Verif.Proofs.History

/-!
# C34, C35, C47: SipHash specifics
-/

namespace Chf.Props
open Spec

/-- C34: the integer computed by `from_engine_to_u64` is the value of the bytes of `finalize`, for
every engine value. -/
theorem C34_from_engine_to_u64 (c : Cfg) (e : Siphash24.Engine) :
    ((Siphash24.engine c).finalize e >>= Siphash24.asU64Hash) = .ok (Siphash24.fromEngineToU64 e) := by
  show Siphash24.asU64Hash (le64 (Siphash24.fromEngineToU64 e)) = _
  rw [Siphash24.asU64Hash, fromLe64_ok (length_le64 _), le64_eq, leNat_leBytes,
    Nat.mod_eq_of_lt (by have := (Siphash24.fromEngineToU64 e).isLt; omega)]
  simp

/-- C34: `hash_to_u64_with_keys` is `hash_with_keys(..).as_u64()`, panics included. -/
theorem C34_hash_to_u64 (c : Cfg) (k0 k1 : BitVec 64) (data : List Byte) :
    Siphash24.hashToU64WithKeys c k0 k1 data =
      (Siphash24.hashWithKeys c k0 k1 data >>= Siphash24.asU64Hash) := by
  unfold Siphash24.hashToU64WithKeys Siphash24.hashWithKeys
  cases Siphash24.input c (Siphash24.withKeys k0 k1) data with
  | error f => rfl
  | ok e => exact (C34_from_engine_to_u64 c e).symm

/-- C34: `hash_to_u64_with_keys` is the number SipHash-2-4 defines. -/
theorem C34_hash_to_u64_spec {c : Cfg} (hc : c.Valid) (k0 k1 : BitVec 64) (data : List Byte)
    (hd : data.length < 2 ^ c.usizeBits) :
    Siphash24.hashToU64WithKeys c k0 k1 data = .ok (siphash24 k0 k1 data) := by
  obtain ⟨e, h, R⟩ := (Siphash24.lawful hc).input_ok (s := ⟨k0, k1, sipInit k0 k1⟩) (m := []) data hd
    (Siphash24.withKeys_rel hc k0 k1) (by
      simp only [logSip, List.length_nil, Nat.zero_add]
      rw [decide_eq_true hd, Bool.or_true])
  have h : Siphash24.input c (Siphash24.withKeys k0 k1) data = .ok e := h
  have h2 := Siphash24.finalizeU64_eq hc R
  rw [sipFrom, List.nil_append] at h2
  unfold Siphash24.hashToU64WithKeys
  rw [h, siphash24, ← h2]
  rfl

example : Cfg.release32.Valid ∧ (List.replicate 15 (9 : Byte)).length < 2 ^ Cfg.release32.usizeBits := by
  decide

/-- C34: `from_u64` and `as_u64` are mutually inverse. -/
theorem C34_u64_round_trip :
    (∀ x : BitVec 64, Siphash24.asU64Hash (Siphash24.fromU64 x) = .ok x) ∧
    ∀ h : List Byte, h.length = 8 →
      ∃ x, Siphash24.asU64Hash h = .ok x ∧ Siphash24.fromU64 x = h := by
  constructor
  · intro x
    rw [Siphash24.asU64Hash, Siphash24.fromU64, fromLe64_ok (length_le64 _), le64_eq, leNat_leBytes,
      Nat.mod_eq_of_lt (by have := x.isLt; omega)]
    simp
  · intro h hl
    refine ⟨_, fromLe64_ok hl, ?_⟩
    rw [Siphash24.fromU64, le64_eq, BitVec.toNat_ofNat, Nat.mod_eq_of_lt (by
      have := leNat_lt h
      rw [hl] at this
      omega)]
    have := leBytes_leNat h
    rwa [hl] at this

/-- C35: no `input` on a reachable engine reads out of bounds; the only way it can fail is the byte
counter overflowing with overflow checks on. -/
theorem C35_input_in_bounds {c : Cfg} (hc : c.Valid) {e : Siphash24.Engine}
    (he : Reachable c .siphash24 e) (data : List Byte) (hd : data.length < c.usizeMod) :
    Siphash24.input c e data ≠ .error .ub ∧
    ∀ f, Siphash24.input c e data = .error f → f = .overflow ∧ c.overflowChecks = true ∧
      c.usizeMod ≤ (Siphash24.engine c).nBytesHashed e + data.length := by
  obtain ⟨k, h⟩ := he
  obtain ⟨s, m, R, _⟩ := h.rel hc (a := .siphash24) trivial
  have R : Siphash24.SipRel c e s m := R
  have hcount : (Siphash24.engine c).nBytesHashed e = m.length % c.usizeMod := R.len
  have key : ∀ f, Siphash24.input c e data = .error f → f = .overflow ∧ c.overflowChecks = true ∧
      c.usizeMod ≤ (Siphash24.engine c).nBytesHashed e + data.length := by
    intro f hf
    have hslice : (Alg.log c .siphash24).slice data.length := hd
    cases hacc : (Alg.log c .siphash24).accepts s (m.length + data.length) with
    | true =>
      obtain ⟨e', h', _⟩ := (Siphash24.lawful hc).input_ok data hslice R hacc
      have h' : Siphash24.input c e data = .ok e' := h'
      rw [hf] at h'
      cases h'
    | false =>
      have h' : Siphash24.input c e data = .error .overflow :=
        (Siphash24.lawful hc).input_err data hslice R hacc
      rw [hf] at h'
      cases h'
      have hacc' : (!c.overflowChecks || decide (m.length + data.length < 2 ^ c.usizeBits)) = false :=
        hacc
      rw [Bool.or_eq_false_iff, Bool.not_eq_false', decide_eq_false_iff_not] at hacc'
      refine ⟨rfl, hacc'.1, ?_⟩
      rw [hcount, Nat.mod_eq_of_lt (R.nowrap hacc'.1)]
      exact Nat.le_of_not_lt hacc'.2
  exact ⟨fun h => absurd (key _ h).1 (by decide), key⟩

example : Reachable .debug64 .siphash24 (Siphash24.withKeys 1 2) := ⟨_, .sipKeys 1 2⟩

/-- C47: `keys` returns the keys given to `with_keys`, whatever has been input. -/
theorem C47_keys {c : Cfg} (hc : c.Valid) (k0 k1 : BitVec 64) (chunks : List (List Byte))
    (hs : ∀ d ∈ chunks, d.length < c.usizeMod) {e : Siphash24.Engine}
    (h : (Siphash24.engine c).inputs (Siphash24.withKeys k0 k1) chunks = .ok e) :
    Siphash24.keys e = (k0, k1) := by
  have R := Siphash24.withKeys_rel hc k0 k1
  have hs' : ∀ d ∈ chunks, (Alg.log c .siphash24).slice d.length := hs
  cases hacc : (Alg.log c .siphash24).accepts ⟨k0, k1, sipInit k0 k1⟩
      (([] : List Byte).length + chunks.flatten.length) with
  | true =>
    obtain ⟨e', h', R'⟩ := (Siphash24.lawful hc).inputs_ok chunks hs' R hacc
    have : e = e' := Except.ok.inj (h.symm.trans h')
    subst this
    have R' : Siphash24.SipRel c e ⟨k0, k1, sipInit k0 k1⟩ ([] ++ chunks.flatten) := R'
    exact Prod.ext R'.k0 R'.k1
  | false =>
    have h' := (Siphash24.lawful hc).inputs_err chunks hs' R hacc
    exact absurd (h.symm.trans h') (by simp)

example : ∃ e, (Siphash24.engine .debug64).inputs (Siphash24.withKeys 5 6) [[1, 2, 3], []] = .ok e :=
  ⟨_, rfl⟩

/-- C47: `new` and `default` have zero keys. -/
theorem C47_new_keys (c : Cfg) :
    (∃ e, (Siphash24.engine c).new = .ok e ∧ Siphash24.keys e = (0, 0)) ∧
    ∃ e, (Siphash24.engine c).default = .ok e ∧ Siphash24.keys e = (0, 0) :=
  ⟨⟨_, rfl, rfl⟩, _, rfl, rfl⟩

end Chf.Props
