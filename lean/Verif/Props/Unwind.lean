import Verif.Proofs.Unwind

/-!
# Property C62: an engine whose `input` panicked is still a consistent engine
-/

namespace Chf.Props
open Spec

/-- C62: the transcription that keeps `self` across a panic is the same function as `input`: on every
engine value it returns, or panics, as `input` does. -/
theorem C62_agrees (c : Cfg) (a : Alg) (e : (a.engine c).State) (d : List Byte) :
    (∀ e', a.inputMut c e d = (e', none) ↔ (a.engine c).input e d = .ok e') ∧
    ∀ f, (a.inputMut c e d).2 = some f ↔ (a.engine c).input e d = .error f := by
  rw [← a.inputMut_agrees c e d]
  generalize a.inputMut c e d = r
  obtain ⟨e1, r⟩ := r
  cases r with
  | none =>
    refine ⟨fun e' => ⟨fun h => ?_, fun h => ?_⟩, fun f => ⟨fun h => ?_, fun h => ?_⟩⟩
    · cases h; rfl
    · cases h; rfl
    · cases h
    · cases h
  | some f' =>
    refine ⟨fun e' => ⟨fun h => ?_, fun h => ?_⟩, fun f => ⟨fun h => ?_, fun h => ?_⟩⟩
    · cases h
    · cases h
    · cases h; rfl
    · cases h; rfl

/-- The engines that buffer blocks. -/
def buffersBlocks : Alg → Bool
  | .siphash24 => false
  | .hmac a => buffersBlocks a
  | _ => true

/-- The counter of an engine, and when it overflows. -/
theorem log_total {c : Cfg} : (a : Alg) → (s : (a.log c).Start) → ∃ t, ∀ n,
    (a.log c).accepts s n = (!c.overflowChecks || decide (t + n < 2 ^ c.usizeBits)) ∧
    (a.log c).count s n = (t + n) % 2 ^ c.usizeBits
  | .sha1, s | .sha256, s | .sha384, s | .sha512, s | .sha512_256, s | .ripemd160, s =>
      ⟨s.2, fun _ => ⟨rfl, rfl⟩⟩
  | .sha256t _ _ _, s => ⟨s.2, fun _ => ⟨rfl, rfl⟩⟩
  | .siphash24, _ => ⟨0, fun n => ⟨by rw [Nat.zero_add]; rfl, by rw [Nat.zero_add]; rfl⟩⟩
  | .hmac a, s => by
      obtain ⟨t, h⟩ := log_total a s.inner
      refine ⟨t + s.innerLog.length, fun n => ?_⟩
      have := h (s.innerLog.length + n)
      rw [← Nat.add_assoc] at this
      exact this

theorem kept_eq (c : Cfg) : (a : Alg) → (n : Nat) →
    kept c a n = if buffersBlocks a then 2 ^ c.usizeBits - a.blockSize - n else 0
  | .sha1, _ | .sha256, _ | .sha384, _ | .sha512, _ | .sha512_256, _ | .ripemd160, _
  | .siphash24, _ => rfl
  | .sha256t _ _ _, _ => rfl
  | .hmac a, n => kept_eq c a n

theorem blockSize_pos : (a : Alg) → 0 < a.blockSize
  | .sha1 | .sha256 | .sha384 | .sha512 | .sha512_256 | .ripemd160 | .siphash24 => by decide
  | .sha256t _ _ _ => by show 0 < 64; decide
  | .hmac a => blockSize_pos a

/-- C62: `input` of a reachable engine can panic only by overflowing the length counter.  The engine a
caller still holds if it catches the panic cannot be told apart from one that was given a proper
prefix of the slice and did not panic: no byte is absorbed twice, skipped or reordered.  How long the
prefix is, its count tells: the block engines stop at the last block boundary below `2 ^ usizeBits`, or
where they were if they were past it; `siphash24` stays where it was. -/
theorem C62_left {c : Cfg} (hc : c.Valid) (a : Alg) (ok : a.Ok c) {e e' : (a.engine c).State}
    (h : Reachable c a e) (d : List Byte) (hd : d.length < c.usizeMod) {f : Fault}
    (hp : a.inputMut c e d = (e', some f)) :
    f = .overflow ∧ ∃ k < d.length, ∃ e'', (a.engine c).input e (d.take k) = .ok e'' ∧
      ObsEq c (a.engine c) e' e'' ∧
      (a.engine c).nBytesHashed e' =
        if buffersBlocks a then
          max ((a.engine c).nBytesHashed e) (2 ^ c.usizeBits - a.blockSize)
        else (a.engine c).nBytesHashed e := by
  obtain ⟨_, h⟩ := h
  obtain ⟨s, m, R, _⟩ := h.rel hc ok
  obtain ⟨t, ht⟩ := log_total a s
  have herr : (a.engine c).input e d = .error f := ((C62_agrees c a e d).2 f).mp (by rw [hp])
  cases hacc : (a.log c).accepts s (m.length + d.length) with
  | true =>
    obtain ⟨e1, h1, _⟩ := (a.lawful hc ok).input_ok d (a.log_slice hd) R hacc
    rw [h1] at herr
    cases herr
  | false =>
    obtain ⟨e1, h1, R1⟩ := a.left hc ok R d hacc
    rw [hp] at h1
    cases h1
    refine ⟨rfl, ?_⟩
    rw [(ht _).1, Bool.or_eq_false_iff, Bool.not_eq_false', decide_eq_false_iff_not] at hacc
    have hnow := (a.lawful hc ok).accepted R
    rw [(ht _).1, hacc.1, Bool.not_true, Bool.false_or, decide_eq_true_eq] at hnow
    have hcnt : (a.log c).count s m.length = t + m.length := by
      rw [(ht _).2, Nat.mod_eq_of_lt hnow]
    have hkl : kept c a ((a.log c).count s m.length) < d.length := by
      have := blockSize_pos a
      rw [kept_eq, hcnt]
      split <;> omega
    have hacc' : (a.log c).accepts s (m.length +
        (d.take (kept c a ((a.log c).count s m.length))).length) = true := by
      have := (a.lawful hc ok).accepted R1
      rw [List.length_append] at this
      exact this
    obtain ⟨e2, h2, R2⟩ := (a.lawful hc ok).input_ok (d.take (kept c a ((a.log c).count s m.length)))
      (a.log_slice (by rw [List.length_take]; omega)) R hacc'
    refine ⟨_, hkl, e2, h2, obsEq_of hc ok R1 R2 fun _ => rfl, ?_⟩
    rw [(ht _).1, hacc.1, Bool.not_true, Bool.false_or, decide_eq_true_eq, List.length_take,
      Nat.min_eq_left (by omega)] at hacc'
    rw [(a.lawful hc ok).count R1, (a.lawful hc ok).count R, List.length_append, List.length_take,
      Nat.min_eq_left (by omega), (ht _).2, Nat.mod_eq_of_lt hacc', hcnt, kept_eq]
    split <;> omega

/-- C62: `siphash24` changes nothing before it panics. -/
theorem C62_siphash {c : Cfg} (hc : c.Valid) {e e' : Siphash24.Engine}
    (h : Reachable c .siphash24 e) (d : List Byte) (hd : d.length < c.usizeMod) {f : Fault}
    (hp : Siphash24.inputMut c e d = (e', some f)) : e' = e := by
  obtain ⟨_, h⟩ := h
  obtain ⟨s, m, R, _⟩ := h.rel hc trivial
  have herr : (Alg.siphash24.engine c).input e d = .error f :=
    ((C62_agrees c .siphash24 e d).2 f).mp (by
      rw [show Alg.inputMut c .siphash24 e d = _ from hp])
  cases hacc : (Alg.siphash24.log c).accepts s (m.length + d.length) with
  | true =>
    obtain ⟨e1, h1, _⟩ := (Alg.siphash24.lawful hc trivial).input_ok d
      (Alg.siphash24.log_slice hd) R hacc
    rw [h1] at herr
    cases herr
  | false =>
    simp only [Alg.log, logSip, Bool.or_eq_false_iff, Bool.not_eq_false',
      decide_eq_false_iff_not] at hacc
    rw [Siphash24.left R d hacc.1 (Nat.le_of_not_lt hacc.2)] at hp
    cases hp
    rfl

/-- C62: every program that catches the panics of `input` and keeps using the engines, any number of
them of any types, gets the same answers from the crate as from logs that have grown by the prefix
absorbed. -/
theorem C62_programs {c : Cfg} (hc : c.Valid) (calls : List Call) (ht : ∀ x ∈ calls, x.Typed c) :
    (CatchImpl.crate c).answers [] calls = (catchLogs c).answers [] calls :=
  catch_answers_same hc calls PoolRel.nil ht

/-- On a 16-bit target: an engine 100 bytes below the limit is given 120 bytes.  It absorbs 36 of them,
to the last block boundary, and then behaves like an engine that was given those 36. -/
def caught : List Call :=
  [.make .sha256 (.resume (.bytes (List.replicate 32 7)) (65536 - 128)), .input 0 (List.replicate 28 1),
   .clone 0, .input 0 (List.replicate 120 2), .count 0, .input 1 (List.replicate 36 2), .count 1,
   .midstate 0, .midstate 1, .input 0 [3], .count 0]

set_option maxRecDepth 10000 in
example :
    let c := { Cfg.debug64 with usizeBits := 16 }
    c.Valid ∧ (∀ x ∈ caught, x.Typed c) ∧ ∃ v, (CatchImpl.crate c).answers [] caught =
      [.done, .done, .done, .panic .overflow, .count 65472, .done, .count 65472,
       .midstate v, .midstate v, .done, .count 65473] := by
  refine ⟨by decide, ?_, ?_⟩
  · intro x hx
    simp only [caught, List.mem_cons, List.not_mem_nil, or_false] at hx
    rcases hx with rfl | rfl | rfl | rfl | rfl | rfl | rfl | rfl | rfl | rfl | rfl
    all_goals first
      | exact trivial
      | (show _ < _; decide)
      | exact ⟨trivial, by show _ < _; decide⟩
  · exact ⟨.bytes ((chain 64 compress256 (parse8 (List.replicate 32 7))
      (List.replicate 28 1 ++ List.replicate 36 2)) |> serialize8), by decide +kernel⟩

end Chf.Props
