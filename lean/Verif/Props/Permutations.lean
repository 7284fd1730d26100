import Verif.Proofs.Bijections
import Verif.Props.Midstate

/-!
# Properties C53 and C54: what the block functions do to a state can be undone

For a fixed block, the rounds of SHA-1, SHA-256 and SHA-512 permute the states, and the block function
adds the state to the result.  Absorbing data into a SipHash engine permutes its states.
-/

namespace Chf.Props
open Spec

/-! ## C53 -/

theorem sha2_delta {w : Nat} (S : Sha2 w) (buf : List Byte) (Δ : Arr8 (BitVec w)) :
    ∃ h, S.compress h buf = Sha2.add h Δ ∧ ∀ h', S.compress h' buf = Sha2.add h' Δ → h' = h := by
  obtain ⟨h, h1, h2⟩ := S.roundsN_bij (S.schedule (beWords w buf) (S.K.length - 16)) S.K.length Δ
  exact ⟨h, by simp only [Sha2.compress, h1], fun h' e => h2 h' (Sha2.add_left_cancel e)⟩

/-- C53: for every block and every difference `Δ` there is exactly one state that the block function of
SHA-256 moves by `Δ` (word by word), with or without SHA-NI. -/
theorem C53_sha256_difference (c : Cfg) (buf : List Byte) (hb : buf.length = 64) (Δ : Arr8 (BitVec 32)) :
    ∃ h, Sha256.processBlock c buf h = .ok (Sha2.add h Δ) ∧
      ∀ h', Sha256.processBlock c buf h' = .ok (Sha2.add h' Δ) → h' = h := by
  simp only [Sha256.processBlock_eq c buf _ hb, Except.ok.injEq]
  exact sha2_delta sha256Fns buf Δ

/-- C53: the same for SHA-512. -/
theorem C53_sha512_difference (c : Cfg) (buf : List Byte) (hb : buf.length = 128) (Δ : Arr8 (BitVec 64)) :
    ∃ h, Sha512.processBlock c buf h = .ok (Sha2.add h Δ) ∧
      ∀ h', Sha512.processBlock c buf h' = .ok (Sha2.add h' Δ) → h' = h := by
  simp only [Sha512.processBlock_eq c buf _ hb, Except.ok.injEq]
  exact sha2_delta sha512Fns buf Δ

theorem sha1_delta (buf : List Byte) (Δ : Arr5 (BitVec 32)) :
    ∃ h : Arr5 (BitVec 32),
      compress1 h buf = ⟨h.x0 + Δ.x0, h.x1 + Δ.x1, h.x2 + Δ.x2, h.x3 + Δ.x3, h.x4 + Δ.x4⟩ ∧
      ∀ h' : Arr5 (BitVec 32), compress1 h' buf =
        ⟨h'.x0 + Δ.x0, h'.x1 + Δ.x1, h'.x2 + Δ.x2, h'.x3 + Δ.x3, h'.x4 + Δ.x4⟩ → h' = h := by
  obtain ⟨h, h1, h2⟩ := Bij.foldl (f := fun v t => sha1Round (sha1Schedule (beWords 32 buf) 64) t v)
    (fun t => sha1Round_bij _ t) (List.range 80) Δ
  refine ⟨h, ?_, fun h' e => h2 h' ?_⟩
  · simp only at h1
    simp only [compress1, h1]
  · simp only [compress1, Arr5.mk.injEq, BitVec.add_right_inj] at e
    obtain ⟨e0, e1, e2, e3, e4⟩ := e
    cases Δ
    simp only at e0 e1 e2 e3 e4
    subst e0 e1 e2 e3 e4
    rfl

/-- C53: the same for SHA-1. -/
theorem C53_sha1_difference (c : Cfg) (buf : List Byte) (hb : buf.length = 64) (Δ : Arr5 (BitVec 32)) :
    ∃ h, Sha1.processBlock c buf h =
        .ok ⟨h.x0 + Δ.x0, h.x1 + Δ.x1, h.x2 + Δ.x2, h.x3 + Δ.x3, h.x4 + Δ.x4⟩ ∧
      ∀ h', Sha1.processBlock c buf h' =
        .ok ⟨h'.x0 + Δ.x0, h'.x1 + Δ.x1, h'.x2 + Δ.x2, h'.x3 + Δ.x3, h'.x4 + Δ.x4⟩ → h' = h := by
  simp only [Sha1.processBlock_eq c buf _ hb, Except.ok.injEq]
  exact sha1_delta buf Δ

/-- An engine resumed from `μ` has the midstate `ν` after inputting `data`. -/
def Leads (E : HashEngine) (n : Nat) (data : List Byte) (μ ν : E.Midstate) : Prop :=
  (do let e ← E.fromMidstate μ n
      let e ← E.input e data
      E.midstate e) = .ok ν

theorem leads_iff {c : Cfg} (hc : c.Valid) (a : Alg) (ok : a.Ok c) {n : Nat} {data : List Byte}
    {μ ν : (a.engine c).Midstate} {s} (ht : (a.log c).typed μ n) (hr : (a.log c).resume μ n = .ok s)
    (hd : data.length < c.usizeMod) (hacc : (a.log c).accepts s data.length = true) :
    Leads (a.engine c) n data μ ν ↔ (a.log c).mid s data = ν := by
  obtain ⟨e, he, R⟩ := (a.lawful hc ok).resume_ok ht hr
  obtain ⟨e', he', R'⟩ := (a.lawful hc ok).input_ok data (a.log_slice hd) R
    (by rw [List.length_nil, Nat.zero_add]; exact hacc)
  have hm := (a.lawful hc ok).mid R'
  rw [List.nil_append] at hm
  simp only [Leads, he, he', hm, bind, Except.bind, Except.ok.injEq]

/-- C53: for every 64-byte block there is exactly one midstate that inputting the block leaves as it
is, for SHA-256. -/
theorem C53_sha256_fixed_point {c : Cfg} (hc : c.Valid) (block : List Byte) (hb : block.length = 64)
    (n : Nat) (hn : 64 ∣ n) (hlen : n + 64 < c.usizeMod) :
    ∃ μ : List Byte, μ.length = 32 ∧ Leads (Sha256.engine c) n block μ μ ∧
      ∀ μ' : List Byte, μ'.length = 32 → Leads (Sha256.engine c) n block μ' μ' → μ' = μ := by
  have key : ∀ μ : List Byte, μ.length = 32 → (Leads (Sha256.engine c) n block μ μ ↔
      compress256 (parse8 μ) block = parse8 μ) := by
    intro μ hμ
    have ht : (Alg.log c .sha256).typed μ n :=
      ⟨by show _ = (serialize8 iv256).length; rw [hμ, length_serialize8_32], by
        show _ < c.usizeMod; omega⟩
    have hr : (Alg.log c .sha256).resume μ n = .ok (parse8 μ, n) := by
      simp only [Alg.log, log256, Md.log, md256, Nat.mod_eq_zero_of_dvd hn]
      rfl
    rw [show Leads (Sha256.engine c) n block μ μ ↔ _ from leads_iff hc .sha256 trivial ht hr (by omega) (by
      simp only [Alg.log, log256, Md.log, Bool.or_eq_true, decide_eq_true_eq, hb]; exact .inr hlen)]
    show serialize8 (chain 64 compress256 (parse8 μ) block) = μ ↔ _
    rw [chain_one (by decide) _ _ hb]
    constructor
    · intro h
      have := congrArg parse8 h
      rwa [parse8_serialize8] at this
    · intro h
      rw [h, serialize8_parse8 μ hμ]
  have z : ∀ h : Arr8 (BitVec 32), Sha2.add h ⟨0, 0, 0, 0, 0, 0, 0, 0⟩ = h := by
    intro h; cases h; simp [Sha2.add]
  obtain ⟨h, h1, h2⟩ := sha2_delta sha256Fns block ⟨0, 0, 0, 0, 0, 0, 0, 0⟩
  rw [z] at h1
  have hl := length_serialize8_32 h
  refine ⟨serialize8 h, hl, (key _ hl).2 (by rw [parse8_serialize8]; exact h1), fun μ' hμ' hf => ?_⟩
  rw [← h2 (parse8 μ') (by rw [z]; exact (key _ hμ').1 hf), serialize8_parse8 μ' hμ']

/-- C53: the same for SHA-1. -/
theorem C53_sha1_fixed_point {c : Cfg} (hc : c.Valid) (block : List Byte) (hb : block.length = 64)
    (n : Nat) (hn : 64 ∣ n) (hlen : n + 64 < c.usizeMod) :
    ∃ μ : List Byte, μ.length = 20 ∧ Leads (Sha1.engine c) n block μ μ ∧
      ∀ μ' : List Byte, μ'.length = 20 → Leads (Sha1.engine c) n block μ' μ' → μ' = μ := by
  have key : ∀ μ : List Byte, μ.length = 20 → (Leads (Sha1.engine c) n block μ μ ↔
      compress1 (parse5 μ) block = parse5 μ) := by
    intro μ hμ
    have ht : (Alg.log c .sha1).typed μ n :=
      ⟨by show _ = (serialize5 iv1).length; rw [hμ, length_serialize5], by
        show _ < c.usizeMod; omega⟩
    have hr : (Alg.log c .sha1).resume μ n = .ok (parse5 μ, n) := by
      simp only [Alg.log, log1, Md.log, md1, Nat.mod_eq_zero_of_dvd hn]
      rfl
    rw [show Leads (Sha1.engine c) n block μ μ ↔ _ from leads_iff hc .sha1 trivial ht hr (by omega) (by
      simp only [Alg.log, log1, Md.log, Bool.or_eq_true, decide_eq_true_eq, hb]; exact .inr hlen)]
    show serialize5 (chain 64 compress1 (parse5 μ) block) = μ ↔ _
    rw [chain_one (by decide) _ _ hb]
    constructor
    · intro h
      have := congrArg parse5 h
      rwa [parse5_serialize5] at this
    · intro h
      rw [h, serialize5_parse5 μ hμ]
  obtain ⟨h, h1, h2⟩ := sha1_delta block ⟨0, 0, 0, 0, 0⟩
  have z : ∀ h : Arr5 (BitVec 32), (⟨h.x0 + 0, h.x1 + 0, h.x2 + 0, h.x3 + 0, h.x4 + 0⟩ : Arr5 (BitVec 32)) = h := by
    intro h; cases h; simp
  rw [z] at h1
  have hl := length_serialize5 h
  refine ⟨serialize5 h, hl, (key _ hl).2 (by rw [parse5_serialize5]; exact h1), fun μ' hμ' hf => ?_⟩
  rw [← h2 (parse5 μ') (by rw [z]; exact (key _ hμ').1 hf), serialize5_parse5 μ' hμ']

example : Cfg.release32.Valid ∧ (List.replicate 64 (0 : Byte)).length = 64 ∧ 64 ∣ 128 ∧
    128 + 64 < Cfg.release32.usizeMod := by decide

instance {E : HashEngine} [DecidableEq E.Midstate] {n : Nat} {data : List Byte} {μ ν : E.Midstate} :
    Decidable (Leads E n data μ ν) := inferInstanceAs (Decidable (_ = _))

instance {c : Cfg} : DecidableEq (Sha256.engine c).Midstate := inferInstanceAs (DecidableEq (List Byte))

instance {c : Cfg} : DecidableEq (Sha1.engine c).Midstate := inferInstanceAs (DecidableEq (List Byte))

def zeroFixed256 (c : Cfg) : (Sha256.engine c).Midstate :=
  ([248, 201, 37, 159, 164, 245, 215, 135, 181, 112, 175, 169, 33, 145, 102, 166, 54, 54, 252, 92, 48,
    172, 40, 145, 85, 208, 204, 79, 252, 180, 176, 61] : List Byte)

def zeroFixed1 (c : Cfg) : (Sha1.engine c).Midstate :=
  ([35, 40, 250, 211, 117, 16, 155, 64, 63, 18, 20, 129, 2, 225, 222, 246, 207, 215, 78, 152] : List Byte)

/-- The fixed points of the all-zero block. -/
example :
    Leads (Sha256.engine .debug64) 0 (List.replicate 64 0) (zeroFixed256 _) (zeroFixed256 _) ∧
    Leads (Sha1.engine .release32) 64 (List.replicate 64 0) (zeroFixed1 _) (zeroFixed1 _) := by
  decide +kernel

/-! ## C54 -/

/-- C54: for any data, every state of a SipHash engine is reached by inputting that data from exactly
one state. -/
theorem C54_bijection {c : Cfg} (hc : c.Valid) (data : List Byte) (hd : data.length < c.usizeMod)
    (n : Nat) (hn : n < c.usizeMod) (ν : Siphash24.State) :
    ∃ μ, Leads (Siphash24.engine c) n data μ ν ∧
      ∀ μ', Leads (Siphash24.engine c) n data μ' ν → μ' = μ := by
  have key : ∀ μ : Siphash24.State, Leads (Siphash24.engine c) n data μ ν ↔
      (leWords 64 data).foldl sipAbsorb (Siphash24.toSip μ) = Siphash24.toSip ν := by
    intro μ
    rw [show Leads (Siphash24.engine c) n data μ ν ↔ _ from
      leads_iff hc .siphash24 trivial (s := ⟨0, 0, Siphash24.toSip μ⟩) hn rfl hd (by
        simp only [Alg.log, logSip, Bool.or_eq_true, decide_eq_true_eq]; exact .inr hd)]
    constructor
    · intro h
      exact congrArg Siphash24.toSip h
    · intro h
      exact congrArg Siphash24.ofSip h
  obtain ⟨s, h1, h2⟩ := Bij.foldl sipAbsorb_bij (leWords 64 data) (Siphash24.toSip ν)
  exact ⟨Siphash24.ofSip s, (key _).2 h1, fun μ' h =>
    congrArg Siphash24.ofSip (h2 _ ((key _).1 h))⟩

example : Cfg.release32.Valid ∧ (List.replicate 21 (3 : Byte)).length < Cfg.release32.usizeMod := by decide

/-- C54: engines with different keys never get the same state from the same data. -/
theorem C54_keys {c : Cfg} (hc : c.Valid) (k0 k1 k0' k1' : BitVec 64) (chunks : List (List Byte))
    (hs : ∀ d ∈ chunks, d.length < c.usizeMod) {e e' : Siphash24.Engine}
    (h : (Siphash24.engine c).inputs (Siphash24.withKeys k0 k1) chunks = .ok e)
    (h' : (Siphash24.engine c).inputs (Siphash24.withKeys k0' k1') chunks = .ok e')
    (hm : (Siphash24.engine c).midstate e = (Siphash24.engine c).midstate e') :
    k0 = k0' ∧ k1 = k1' := by
  have mid : ∀ k0 k1 (e : Siphash24.Engine),
      (Siphash24.engine c).inputs (Siphash24.withKeys k0 k1) chunks = .ok e →
      (Siphash24.engine c).midstate e = .ok (Siphash24.ofSip
        ((leWords 64 chunks.flatten).foldl sipAbsorb (sipInit k0 k1))) := by
    intro k0 k1 e h
    have R := Siphash24.withKeys_rel hc k0 k1
    have hs' : ∀ d ∈ chunks, (Alg.log c .siphash24).slice d.length := hs
    cases hacc : (Alg.log c .siphash24).accepts ⟨k0, k1, sipInit k0 k1⟩
        (([] : List Byte).length + chunks.flatten.length) with
    | true =>
      obtain ⟨e', h', R'⟩ := (Siphash24.lawful hc).inputs_ok chunks hs' R hacc
      have : e = e' := Except.ok.inj (h.symm.trans h')
      subst this
      exact (Siphash24.lawful hc).mid R'
    | false =>
      have h' := (Siphash24.lawful hc).inputs_err chunks hs' R hacc
      exact absurd (h.symm.trans h') (by simp)
  rw [mid _ _ _ h, mid _ _ _ h'] at hm
  have := congrArg Siphash24.toSip (Except.ok.inj hm)
  exact sipInit_inj (Bij.inj (Bij.foldl sipAbsorb_bij _) this)

example : ∃ e, (Siphash24.engine .debug64).inputs (Siphash24.withKeys 5 6) [[1, 2, 3], []] = .ok e :=
  ⟨_, rfl⟩

end Chf.Props
