import Verif.Proofs.Left.Programs
import Verif.Proofs.Source.Reach
import Verif.Props.Unwind

/-!
# C88: an engine of the translated text whose `input` panicked is still a consistent engine
-/

namespace Chf.Props
open Chf Chf.Spec

/-- C88: the text that keeps `self` across a panic is the same function as the text of `input`: on every
engine value it returns, or panics, as `input` does. -/
theorem C88_agrees (c : Cfg) (a : Alg) (e : (Source.engineOf c a).State) (d : List Byte) :
    (∀ e', Source.inputLeft c a e d = .ok e' ↔ (Source.engineOf c a).input e d = .ok e') ∧
    ∀ f, (∃ e', Source.inputLeft c a e d = .error (f, e')) ↔ (Source.engineOf c a).input e d = .error f := by
  rw [← Source.inputLeft_res c a e d]
  cases Source.inputLeft c a e d with
  | ok e1 =>
    refine ⟨fun e' => ⟨fun h => ?_, fun h => ?_⟩, fun f => ⟨fun h => ?_, fun h => ?_⟩⟩
    · cases h; rfl
    · cases h; rfl
    · obtain ⟨_, h⟩ := h; cases h
    · cases h
  | error x =>
    obtain ⟨f', e1⟩ := x
    refine ⟨fun e' => ⟨fun h => ?_, fun h => ?_⟩, fun f => ⟨fun h => ?_, fun h => ?_⟩⟩
    · cases h
    · cases h
    · obtain ⟨_, h⟩ := h; cases h; rfl
    · cases h; exact ⟨e1, rfl⟩

/-- A panicking `input` of a translated engine, and the model's. -/
theorem left_model {c : Cfg} (hc : c.Valid) (a : Alg) (ok : a.Ok c) {m : (a.engine c).State}
    (h : Reachable c a m) (d : List Byte) (hd : d.length < c.usizeMod) {f : Fault}
    {e' : (Source.engineOf c a).State}
    (hp : Source.inputLeft c a ((Source.algSim hc a (fits_of_ok a ok)).st m) d = .error (f, e')) :
    ∃ m', a.inputMut c m d = (m', some f) ∧ e' = (Source.algSim hc a (fits_of_ok a ok)).st m' := by
  obtain ⟨_, h⟩ := h
  obtain ⟨s, l, R, _⟩ := h.rel hc ok
  have herr := (((C88_agrees c a _ d).2 f).1 ⟨e', hp⟩)
  rw [(Source.algSim hc a (fits_of_ok a ok)).input m d hd] at herr
  have hacc : (a.log c).accepts s (l.length + d.length) = false := by
    cases hacc : (a.log c).accepts s (l.length + d.length) with
    | false => rfl
    | true =>
      obtain ⟨e1, h1, _⟩ := (a.lawful hc ok).input_ok d (a.log_slice hd) R hacc
      rw [h1] at herr
      cases herr
  rw [Source.inputLeft_eq hc a ok (fits_of_ok a ok) R d hd hacc] at hp
  generalize a.inputMut c m d = r at hp
  obtain ⟨m', r⟩ := r
  cases r with
  | none => cases hp
  | some f' => cases hp; exact ⟨m', rfl, rfl⟩

/-- C88: `input` of an engine that a caller can obtain from the text can panic only by overflowing the
length counter.  The engine a caller still holds if it catches the panic cannot be told apart from one
that was given a proper prefix of the slice and did not panic: no byte is absorbed twice, skipped or
reordered.  How long the prefix is, its count tells: the block engines stop at the last block boundary
below `2 ^ usizeBits`, or where they were if they were past it; `siphash24` stays where it was. -/
theorem C88_left {c : Cfg} (hc : c.Valid) (a : Alg) (ok : a.Ok c) {e e' : (Source.engineOf c a).State}
    (h : Source.Reach c a e) (d : List Byte) (hd : d.length < c.usizeMod) {f : Fault}
    (hp : Source.inputLeft c a e d = .error (f, e')) :
    f = .overflow ∧ ∃ k < d.length, ∃ e'', (Source.engineOf c a).input e (d.take k) = .ok e'' ∧
      ObsEq c (Source.engineOf c a) e' e'' ∧
      (Source.engineOf c a).nBytesHashed e' =
        if buffersBlocks a then
          max ((Source.engineOf c a).nBytesHashed e) (2 ^ c.usizeBits - a.blockSize)
        else (Source.engineOf c a).nBytesHashed e := by
  obtain ⟨m, hm, rfl⟩ := h.model hc (fits_of_ok a ok)
  obtain ⟨m', hm', rfl⟩ := left_model hc a ok hm d hd hp
  obtain ⟨rfl, k, hk, m'', h1, h2, h3⟩ := C62_left hc a ok hm d hd hm'
  refine ⟨rfl, k, hk, (Source.algSim hc a (fits_of_ok a ok)).st m'', ?_,
    ((Source.algSim hc a (fits_of_ok a ok)).obsEq m' m'').2 h2, ?_⟩
  · rw [(Source.algSim hc a (fits_of_ok a ok)).input m _ (by rw [List.length_take]; omega), h1]
    rfl
  · rw [(Source.algSim hc a (fits_of_ok a ok)).nBytesHashed, (Source.algSim hc a (fits_of_ok a ok)).nBytesHashed]
    exact h3

/-- C88: `siphash24` assigns to no field before it panics. -/
theorem C88_siphash {c : Cfg} (hc : c.Valid) {e e' : Source.Siphash24.Engine}
    (h : Source.Reach c .siphash24 e) (d : List Byte) (hd : d.length < c.usizeMod) {f : Fault}
    (hp : Source.Siphash24.Engine.input_left c e d = .error (f, e')) : e' = e := by
  obtain ⟨m, hm, rfl⟩ := Source.Reach.model (a := .siphash24) hc trivial h
  obtain ⟨m', hm', rfl⟩ := left_model hc .siphash24 trivial hm d hd hp
  exact congrArg _ (C62_siphash hc hm d hd hm')

/-- C88: a panic of `input` of an HMAC engine leaves the outer engine alone, whatever state the engine is
in. -/
theorem C88_hmac (c : Cfg) (a : Alg) (e e' : Source.Hmac.Engine (Source.engineOf c a)) (d : List Byte)
    {f : Fault} (hp : Source.inputLeft c (.hmac a) e d = .error (f, e')) :
    e'.oengine = e.oengine ∧ Source.inputLeft c a e.iengine d = .error (f, e'.iengine) := by
  have hp' : (Left.field (fun i => Source.Hmac.Engine.mk (E := Source.engineOf c a) i e.oengine)
      (Source.inputLeft c a e.iengine d) >>= fun i =>
        pure (Source.Hmac.Engine.mk (E := Source.engineOf c a) i e.oengine)) = .error (f, e') := hp
  cases hx : Source.inputLeft c a e.iengine d with
  | ok i => rw [hx] at hp'; cases hp'
  | error x =>
    obtain ⟨g, i⟩ := x
    rw [hx] at hp'
    cases hp'
    exact ⟨rfl, rfl⟩

/-- C88: every program that catches the panics of `input` and keeps using the engines, any number of
them of any types, gets the same answers from the text as from logs that have grown by the prefix
absorbed. -/
theorem C88_programs {c : Cfg} (hc : c.Valid) (calls : List Call) (ht : ∀ x ∈ calls, x.Typed c) :
    (Source.catchText c).answers [] calls = (catchLogs c).answers [] calls :=
  (Source.catch_answers_sim hc calls .nil .nil ht fun x hx => callFits_of_typed x (ht x hx)).symm.trans
    (C62_programs hc calls ht)

set_option maxRecDepth 10000 in
/-- The program of C62, run over the text: 36 of the 120 bytes are absorbed. -/
example :
    let c := { Cfg.debug64 with usizeBits := 16 }
    ∃ v, (Source.catchText c).answers [] caught =
      [.done, .done, .done, .panic .overflow, .count 65472, .done, .count 65472,
       .midstate v, .midstate v, .done, .count 65473] :=
  ⟨.bytes ((chain 64 compress256 (parse8 (List.replicate 32 7))
      (List.replicate 28 1 ++ List.replicate 36 2)) |> serialize8), by decide +kernel⟩

end Chf.Props
