import Verif.Proofs.Seen.EngineCosts
import Verif.Spec.TextWork
import Verif.Seen.Hmac
import Verif.Seen.Sha256t
import Verif.Seen.Sha384
import Verif.Seen.Sha512_256
import Verif.Seen.Siphash24

/-!
# How much is seen of an engine

`Linear`: the numbers of a `Work` bound what is seen of each method.
-/

namespace Chf.Seen
open Chf Tr

/-- `w` bounds what is seen of the methods; `Ok p e` holds of engines with `p` bytes in the buffer. -/
structure Linear (c : Cfg) {E : HashEngine} (E' : Tr.HashEngine E) (w : Work)
    (Ok : Nat → E.State → Prop) : Prop where
  blockSize : E.blockSize = w.size
  blocks : w.size = w.block * (w.size / w.block)
  fresh : w.fresh < w.block
  small : w.size ≤ 128 ∧ w.digest ≤ 128
  pos : ∀ p e, Ok p e → E.nBytesHashed e % w.block = p
  default : Costs w.start (fun e => Ok w.fresh e) E'.default
  new : Costs w.start (fun e => Ok w.fresh e) E'.new
  input : ∀ p e d, Ok p e → d.length < c.usizeMod →
    Costs (w.input p d.length) (fun e' => Ok ((p + d.length) % w.block) e') (E'.input e d)
  finalize : ∀ p e, Ok p e → Costs (w.finalize p) (fun h => h.length = w.digest) (E'.finalize e)
  midstate : ∀ p e, Ok p e → Costs w.mid (fun _ => True) (E'.midstate e)
  fromMidstate : ∀ μ n, Costs w.resume (fun e => Ok 0 e) (E'.fromMidstate μ n)

theorem copyFromSlice_costs {α : Type} {s t : List α} :
    Costs 2 (fun r => r.length = s.length) (Tr.copyFromSlice s t) :=
  Costs.op (Nat.le_refl _) fun r hr => by
    unfold Rs.copyFromSlice at hr
    split at hr
    · cases hr; omega
    · cases hr

theorem mulU_costs {w : Nat} {c : Cfg} {a b : BitVec w} : Costs 0 (fun _ => True) (Tr.mulU c a b) :=
  Costs.op (Nat.le_refl _) fun _ _ => trivial

theorem debugAssert_costs {c : Cfg} {b : Bool} : Costs 0 (fun _ => True) (Tr.debugAssert c b) :=
  Costs.op (Nat.le_refl _) fun _ _ => trivial

theorem assertR_costs {b : Bool} : Costs 0 (fun _ => b = true) (Tr.assertR b) :=
  Costs.op (Nat.le_refl _) fun _ h => by
    unfold Chf.assertR at h
    split at h
    · assumption
    · cases h

theorem tryInto_costs {α : Type} {s : List α} {n : Nat} : Costs 1 (fun _ => True) (Tr.tryInto n s) :=
  Costs.op (Nat.le_refl _) fun _ _ => trivial

theorem toLeBytes_length (x : BitVec 64) : (Rs.toLeBytes x).length = 8 := rfl

theorem toBeBytes_length (x : BitVec 64) : (Rs.toBeBytes x).length = 8 := rfl

namespace Sha1

/-- An engine with `p` bytes in the buffer. -/
def Ok (p : Nat) (e : Source.Sha1.Engine) : Prop := Sized e ∧ e.length % 64 = p

theorem input_ok {c : Cfg} (hc : c.Valid) {p : Nat} {e : Source.Sha1.Engine} (h : Ok p e) (d : List Byte) :
    Costs (8 + 921 * ((p + d.length) / 64)) (Ok ((p + d.length) % 64)) (Engine.input c e d) := by
  obtain ⟨h, rfl⟩ := h
  refine (input_costs hc h d).mono (inputRoom_le 64 914 _ _) fun e' he' => ⟨he'.1, ?_⟩
  rw [he'.2]
  omega

theorem midstate_costs (c : Cfg) {e : Source.Sha1.Engine} (h : Sized e) :
    Costs 16 (fun m => m.length = 20) (Engine.midstate c e) := by
  unfold Engine.midstate
  refine (Costs.zipChunksMut (fun v b => copyFromSlice_costs) e.h _).mono ?_ fun r hr => by simpa using hr
  rw [h.2]
  decide

theorem from_midstate_costs (c : Cfg) (μ : List Byte) (n : Nat) :
    Costs 11 (Ok 0) (Engine.from_midstate c μ n) := by
  unfold Engine.from_midstate
  refine Costs.bind' (n := 0) (m := 11) assertR_costs (fun _ ha => ?_) (by omega)
  refine Costs.bind' (m := 0) (Costs.zipMut (fun v b => Costs.bind (m := 0) tryInto_costs fun b' hb' =>
    Costs.pure trivial) _ _) (fun r hr => Costs.pure ⟨⟨rfl, by simpa using hr⟩, ?_⟩) ?_
  · exact beq_iff_eq.mp ha
  · rw [List.length_replicate]
    omega

theorem finalize_costs {c : Cfg} (hc : c.Valid) {p : Nat} {e : Source.Sha1.Engine} (h : Ok p e) :
    Costs (50 + 921 * ((p + 8) / 64 + 1)) (fun r => r.length = 20) (Engine.finalize c e) := by
  have hp : p < 64 := h.2 ▸ Nat.mod_lt _ (by decide)
  unfold Engine.finalize
  have hz : (List.replicate 56 0#8).length = 56 := List.length_replicate ..
  have hB : Source.Sha1.BLOCK_SIZE = 64 := rfl
  simp only [hz, hB]
  refine Costs.bind' (m := 50 - 8 + 921 * (((p + 1) % 64 + (8 - 1)) / 64 + 1)) (input_ok hc h [0x80#8])
    (fun e h => ?_) (by simp only [List.length_cons, List.length_nil]; omega)
  simp only [List.length_cons, List.length_nil, Nat.zero_add] at h
  generalize (p + 1) % 64 = q at h ⊢
  have hq : q < 64 := h.2 ▸ Nat.mod_lt _ (by decide)
  refine Costs.bind' (n := 1 + (8 + 921 * ((q + (8 - 1)) / 64))) (m := 50 - 17 + 921)
    (P := fun e => ∃ q, q ≤ 56 ∧ Ok q e) (Costs.testThen (fun ht => ?_) fun hf => Costs.pure ⟨q, ?_, h⟩)
    (fun e he => ?_) (by omega)
  · have hq' : q > 56 := by
      rw [← h.2]
      exact of_decide_eq_true ht
    refine (input_ok hc h (List.replicate 56 0#8)).mono ?_ fun e h => ⟨_, ?_, h⟩
    · rw [hz]; omega
    · rw [hz]; omega
  · have := of_decide_eq_false hf
    rw [h.2] at this
    omega
  obtain ⟨q, hq, h⟩ := he
  refine Costs.bind' (m := 50 - 17 + 921) (subUsize_exact (by rw [h.2]; exact hq)) (fun n hn => ?_) (by omega)
  rw [h.2] at hn
  refine Costs.bind' (m := 50 - 18 + 921) sliceTo_costs (fun z hz' => ?_) (by omega)
  refine Costs.bind' (m := 50 - 26 + 921) (input_ok hc h z) (fun e h => ?_) (by rw [hz'.1]; omega)
  have h : Ok 56 e := by
    have : (q + z.length) % 64 = 56 := by rw [hz'.1]; omega
    exact this ▸ h
  refine Costs.bind' (m := 50 - 26 + 921) debugAssert_costs (fun _ _ => ?_) (by omega)
  refine Costs.bind' (m := 50 - 26 + 921) mulU_costs (fun x _ => ?_) (by omega)
  refine Costs.bind' (m := 16) (input_ok hc h (Rs.toBeBytes x)) (fun e h => ?_) (by
    rw [toBeBytes_length]
    omega)
  refine Costs.bind' (m := 16) debugAssert_costs (fun _ _ => ?_) (by omega)
  exact midstate_costs c h.1

theorem linear {c : Cfg} (hc : c.Valid) : Linear c (engine c) work Ok where
  blockSize := rfl
  fresh := by decide
  blocks := by decide
  small := by decide
  pos p e h := h.2
  default := Costs.pure ⟨⟨rfl, rfl⟩, rfl⟩
  new := Costs.pure ⟨⟨rfl, rfl⟩, rfl⟩
  input _ _ d h _ := input_ok hc h d
  finalize _ _ h := finalize_costs hc h
  midstate _ _ h := (midstate_costs c h.1).mono (Nat.le_refl _) fun _ _ => trivial
  fromMidstate μ n := from_midstate_costs c μ n

end Sha1

namespace Ripemd160

/-- An engine with `p` bytes in the buffer. -/
def Ok (p : Nat) (e : Source.Ripemd160.Engine) : Prop := Sized e ∧ e.length % 64 = p

theorem input_ok {c : Cfg} (hc : c.Valid) {p : Nat} {e : Source.Ripemd160.Engine} (h : Ok p e) (d : List Byte) :
    Costs (8 + 1886 * ((p + d.length) / 64)) (Ok ((p + d.length) % 64)) (Engine.input c e d) := by
  obtain ⟨h, rfl⟩ := h
  refine (input_costs hc h d).mono (inputRoom_le 64 1879 _ _) fun e' he' => ⟨he'.1, ?_⟩
  rw [he'.2]
  omega

theorem midstate_costs (c : Cfg) {e : Source.Ripemd160.Engine} (h : Sized e) :
    Costs 16 (fun m => m.length = 20) (Engine.midstate c e) := by
  unfold Engine.midstate
  refine (Costs.zipChunksMut (fun v b => copyFromSlice_costs) e.h _).mono ?_ fun r hr => by simpa using hr
  rw [h.2]
  decide

theorem from_midstate_costs (c : Cfg) (μ : List Byte) (n : Nat) :
    Costs 11 (Ok 0) (Engine.from_midstate c μ n) := by
  unfold Engine.from_midstate
  refine Costs.bind' (n := 0) (m := 11) assertR_costs (fun _ ha => ?_) (by omega)
  refine Costs.bind' (m := 0) (Costs.zipMut (fun v b => Costs.bind (m := 0) tryInto_costs fun b' hb' =>
    Costs.pure trivial) _ _) (fun r hr => Costs.pure ⟨⟨rfl, by simpa using hr⟩, ?_⟩) ?_
  · exact beq_iff_eq.mp ha
  · rw [List.length_replicate]
    omega

theorem finalize_costs {c : Cfg} (hc : c.Valid) {p : Nat} {e : Source.Ripemd160.Engine} (h : Ok p e) :
    Costs (50 + 1886 * ((p + 8) / 64 + 1)) (fun r => r.length = 20) (Engine.finalize c e) := by
  have hp : p < 64 := h.2 ▸ Nat.mod_lt _ (by decide)
  unfold Engine.finalize
  have hz : (List.replicate 56 0#8).length = 56 := List.length_replicate ..
  have hB : Source.Ripemd160.BLOCK_SIZE = 64 := rfl
  simp only [hz, hB]
  refine Costs.bind' (m := 50 - 8 + 1886 * (((p + 1) % 64 + (8 - 1)) / 64 + 1)) (input_ok hc h [0x80#8])
    (fun e h => ?_) (by simp only [List.length_cons, List.length_nil]; omega)
  simp only [List.length_cons, List.length_nil, Nat.zero_add] at h
  generalize (p + 1) % 64 = q at h ⊢
  have hq : q < 64 := h.2 ▸ Nat.mod_lt _ (by decide)
  refine Costs.bind' (n := 1 + (8 + 1886 * ((q + (8 - 1)) / 64))) (m := 50 - 17 + 1886)
    (P := fun e => ∃ q, q ≤ 56 ∧ Ok q e) (Costs.testThen (fun ht => ?_) fun hf => Costs.pure ⟨q, ?_, h⟩)
    (fun e he => ?_) (by omega)
  · have hq' : q > 56 := by
      rw [← h.2]
      exact of_decide_eq_true ht
    refine (input_ok hc h (List.replicate 56 0#8)).mono ?_ fun e h => ⟨_, ?_, h⟩
    · rw [hz]; omega
    · rw [hz]; omega
  · have := of_decide_eq_false hf
    rw [h.2] at this
    omega
  obtain ⟨q, hq, h⟩ := he
  refine Costs.bind' (m := 50 - 17 + 1886) (subUsize_exact (by rw [h.2]; exact hq)) (fun n hn => ?_) (by omega)
  rw [h.2] at hn
  refine Costs.bind' (m := 50 - 18 + 1886) sliceTo_costs (fun z hz' => ?_) (by omega)
  refine Costs.bind' (m := 50 - 26 + 1886) (input_ok hc h z) (fun e h => ?_) (by rw [hz'.1]; omega)
  have h : Ok 56 e := by
    have : (q + z.length) % 64 = 56 := by rw [hz'.1]; omega
    exact this ▸ h
  refine Costs.bind' (m := 50 - 26 + 1886) debugAssert_costs (fun _ _ => ?_) (by omega)
  refine Costs.bind' (m := 50 - 26 + 1886) mulU_costs (fun x _ => ?_) (by omega)
  refine Costs.bind' (m := 16) (input_ok hc h (Rs.toLeBytes x)) (fun e h => ?_) (by
    rw [toLeBytes_length]
    omega)
  refine Costs.bind' (m := 16) debugAssert_costs (fun _ _ => ?_) (by omega)
  exact midstate_costs c h.1

theorem linear {c : Cfg} (hc : c.Valid) : Linear c (engine c) work Ok where
  blockSize := rfl
  fresh := by decide
  blocks := by decide
  small := by decide
  pos p e h := h.2
  default := Costs.pure ⟨⟨rfl, rfl⟩, rfl⟩
  new := Costs.pure ⟨⟨rfl, rfl⟩, rfl⟩
  input _ _ d h _ := input_ok hc h d
  finalize _ _ h := finalize_costs hc h
  midstate _ _ h := (midstate_costs c h.1).mono (Nat.le_refl _) fun _ _ => trivial
  fromMidstate μ n := from_midstate_costs c μ n

end Ripemd160

namespace Sha512

/-- An engine with `p` bytes in the buffer. -/
def Ok (p : Nat) (e : Source.Sha512.Engine) : Prop := Sized e ∧ e.length % 128 = p

theorem input_ok {c : Cfg} (hc : c.Valid) {p : Nat} {e : Source.Sha512.Engine} (h : Ok p e) (d : List Byte) :
    Costs (8 + 464 * ((p + d.length) / 128)) (Ok ((p + d.length) % 128)) (Engine.input c e d) := by
  obtain ⟨h, rfl⟩ := h
  refine (input_costs hc h d).mono (inputRoom_le 128 457 _ _) fun e' he' => ⟨he'.1, ?_⟩
  rw [he'.2]
  omega

theorem midstate_costs (c : Cfg) {e : Source.Sha512.Engine} (h : Sized e) :
    Costs 25 (fun m => m.length = 64) (Engine.midstate c e) := by
  unfold Engine.midstate
  refine (Costs.zipChunksMut (fun v b => copyFromSlice_costs) e.h _).mono ?_ fun r hr => by simpa using hr
  rw [h.2]
  decide

theorem from_midstate_costs (c : Cfg) (μ : List Byte) (n : Nat) :
    Costs 17 (Ok 0) (Engine.from_midstate c μ n) := by
  unfold Engine.from_midstate
  refine Costs.bind' (n := 0) (m := 17) assertR_costs (fun _ ha => ?_) (by omega)
  refine Costs.bind' (m := 0) (Costs.zipMut (fun v b => Costs.bind (m := 0) tryInto_costs fun b' hb' =>
    Costs.pure trivial) _ _) (fun r hr => Costs.pure ⟨⟨rfl, by simpa using hr⟩, ?_⟩) ?_
  · exact beq_iff_eq.mp ha
  · rw [List.length_replicate]
    omega

theorem finalize_costs {c : Cfg} (hc : c.Valid) {p : Nat} {e : Source.Sha512.Engine} (h : Ok p e) :
    Costs (67 + 464 * ((p + 16) / 128 + 1)) (fun r => r.length = 64) (Engine.finalize c e) := by
  have hp : p < 128 := h.2 ▸ Nat.mod_lt _ (by decide)
  unfold Engine.finalize
  have hz : (List.replicate 112 0#8).length = 112 := List.length_replicate ..
  have hB : Source.Sha512.BLOCK_SIZE = 128 := rfl
  simp only [hz, hB]
  refine Costs.bind' (m := 67 - 8 + 464 * (((p + 1) % 128 + (16 - 1)) / 128 + 1)) (input_ok hc h [0x80#8])
    (fun e h => ?_) (by simp only [List.length_cons, List.length_nil]; omega)
  simp only [List.length_cons, List.length_nil, Nat.zero_add] at h
  generalize (p + 1) % 128 = q at h ⊢
  have hq : q < 128 := h.2 ▸ Nat.mod_lt _ (by decide)
  refine Costs.bind' (n := 1 + (8 + 464 * ((q + (16 - 1)) / 128))) (m := 67 - 17 + 464)
    (P := fun e => ∃ q, q ≤ 112 ∧ Ok q e) (Costs.testThen (fun ht => ?_) fun hf => Costs.pure ⟨q, ?_, h⟩)
    (fun e he => ?_) (by omega)
  · have hq' : q > 112 := by
      rw [← h.2]
      exact of_decide_eq_true ht
    refine (input_ok hc h (List.replicate 112 0#8)).mono ?_ fun e h => ⟨_, ?_, h⟩
    · rw [hz]; omega
    · rw [hz]; omega
  · have := of_decide_eq_false hf
    rw [h.2] at this
    omega
  obtain ⟨q, hq, h⟩ := he
  refine Costs.bind' (m := 67 - 17 + 464) (subUsize_exact (by rw [h.2]; exact hq)) (fun n hn => ?_) (by omega)
  rw [h.2] at hn
  refine Costs.bind' (m := 67 - 18 + 464) sliceTo_costs (fun z hz' => ?_) (by omega)
  refine Costs.bind' (m := 67 - 26 + 464) (input_ok hc h z) (fun e h => ?_) (by rw [hz'.1]; omega)
  have h : Ok 112 e := by
    have : (q + z.length) % 128 = 112 := by rw [hz'.1]; omega
    exact this ▸ h
  refine Costs.bind' (m := 67 - 26 + 464) debugAssert_costs (fun _ _ => ?_) (by omega)
  refine Costs.bind' (m := 67 - 34 + 464) (input_ok hc h (List.replicate 8 0#8)) (fun e h => ?_) (by
    rw [List.length_replicate]; omega)
  rw [List.length_replicate] at h
  refine Costs.bind' (m := 67 - 34 + 464) mulU_costs (fun x _ => ?_) (by omega)
  refine Costs.bind' (m := 25) (input_ok hc h (Rs.toBeBytes x)) (fun e h => ?_) (by
    rw [toBeBytes_length]
    omega)
  refine Costs.bind' (m := 25) debugAssert_costs (fun _ _ => ?_) (by omega)
  exact midstate_costs c h.1

theorem linear {c : Cfg} (hc : c.Valid) : Linear c (engine c) work Ok where
  blockSize := rfl
  fresh := by decide
  blocks := by decide
  small := by decide
  pos p e h := h.2
  default := Costs.pure ⟨⟨rfl, rfl⟩, rfl⟩
  new := Costs.pure ⟨⟨rfl, rfl⟩, rfl⟩
  input _ _ d h _ := input_ok hc h d
  finalize _ _ h := finalize_costs hc h
  midstate _ _ h := (midstate_costs c h.1).mono (Nat.le_refl _) fun _ _ => trivial
  fromMidstate μ n := from_midstate_costs c μ n

end Sha512

namespace Sha256

/-- An engine with `p` bytes in the buffer. -/
def Ok (p : Nat) (e : Source.Sha256.Engine) : Prop := Sized e ∧ e.length % 64 = p

theorem input_ok {c : Cfg} (hc : c.Valid) {p : Nat} {e : Source.Sha256.Engine} (h : Ok p e) (d : List Byte) :
    Costs (8 + 368 * ((p + d.length) / 64)) (Ok ((p + d.length) % 64)) (Engine.input c e d) := by
  obtain ⟨h, rfl⟩ := h
  refine (input_costs hc h d).mono (inputRoom_le 64 361 _ _) fun e' he' => ⟨he'.1, ?_⟩
  rw [he'.2]
  omega

theorem midstate_costs (c : Cfg) {e : Source.Sha256.Engine} (h : Sized e) :
    Costs 25 (fun m => m.f0.length = 32) (Engine.midstate c e) := by
  unfold Engine.midstate
  refine Costs.bind' (m := 0) (Costs.zipChunksMut (fun v b => copyFromSlice_costs) e.h _)
    (fun r hr => Costs.pure (by simpa using hr)) ?_
  rw [h.2]
  decide

theorem from_midstate_costs (c : Cfg) (μ : Source.Sha256.Midstate) (n : Nat) :
    Costs 17 (Ok 0) (Engine.from_midstate c μ n) := by
  unfold Engine.from_midstate
  refine Costs.bind' (n := 0) (m := 17) assertR_costs (fun _ ha => ?_) (by omega)
  refine Costs.bind' (m := 0) (Costs.zipMut (fun v b => Costs.bind (m := 0) tryInto_costs fun b' hb' =>
    Costs.pure trivial) _ _) (fun r hr => Costs.pure ⟨⟨rfl, by simpa using hr⟩, ?_⟩) ?_
  · exact beq_iff_eq.mp ha
  · rw [List.length_replicate]
    omega

theorem finalize_costs {c : Cfg} (hc : c.Valid) {p : Nat} {e : Source.Sha256.Engine} (h : Ok p e) :
    Costs (59 + 368 * ((p + 8) / 64 + 1)) (fun r => r.length = 32) (Engine.finalize c e) := by
  have hp : p < 64 := h.2 ▸ Nat.mod_lt _ (by decide)
  unfold Engine.finalize
  have hz : (List.replicate 56 0#8).length = 56 := List.length_replicate ..
  have hB : Source.Sha256.BLOCK_SIZE = 64 := rfl
  simp only [hz, hB]
  refine Costs.bind' (m := 59 - 8 + 368 * (((p + 1) % 64 + (8 - 1)) / 64 + 1)) (input_ok hc h [0x80#8])
    (fun e h => ?_) (by simp only [List.length_cons, List.length_nil]; omega)
  simp only [List.length_cons, List.length_nil, Nat.zero_add] at h
  generalize (p + 1) % 64 = q at h ⊢
  have hq : q < 64 := h.2 ▸ Nat.mod_lt _ (by decide)
  refine Costs.bind' (n := 1 + (8 + 368 * ((q + (8 - 1)) / 64))) (m := 59 - 17 + 368)
    (P := fun e => ∃ q, q ≤ 56 ∧ Ok q e) (Costs.testThen (fun ht => ?_) fun hf => Costs.pure ⟨q, ?_, h⟩)
    (fun e he => ?_) (by omega)
  · have hq' : q > 56 := by
      rw [← h.2]
      exact of_decide_eq_true ht
    refine (input_ok hc h (List.replicate 56 0#8)).mono ?_ fun e h => ⟨_, ?_, h⟩
    · rw [hz]; omega
    · rw [hz]; omega
  · have := of_decide_eq_false hf
    rw [h.2] at this
    omega
  obtain ⟨q, hq, h⟩ := he
  refine Costs.bind' (m := 59 - 17 + 368) (subUsize_exact (by rw [h.2]; exact hq)) (fun n hn => ?_) (by omega)
  rw [h.2] at hn
  refine Costs.bind' (m := 59 - 18 + 368) sliceTo_costs (fun z hz' => ?_) (by omega)
  refine Costs.bind' (m := 59 - 26 + 368) (input_ok hc h z) (fun e h => ?_) (by rw [hz'.1]; omega)
  have h : Ok 56 e := by
    have : (q + z.length) % 64 = 56 := by rw [hz'.1]; omega
    exact this ▸ h
  refine Costs.bind' (m := 59 - 26 + 368) debugAssert_costs (fun _ _ => ?_) (by omega)
  refine Costs.bind' (m := 59 - 26 + 368) mulU_costs (fun x _ => ?_) (by omega)
  refine Costs.bind' (m := 25) (input_ok hc h (Rs.toBeBytes x)) (fun e h => ?_) (by
    rw [toBeBytes_length]
    omega)
  refine Costs.bind' (m := 25) debugAssert_costs (fun _ _ => ?_) (by omega)
  exact Costs.bind' (m := 0) (midstate_costs c h.1) (fun r hr => Costs.pure hr) (by omega)

theorem linear {c : Cfg} (hc : c.Valid) : Linear c (engine c) work Ok where
  blockSize := rfl
  fresh := by decide
  blocks := by decide
  small := by decide
  pos p e h := h.2
  default := Costs.pure ⟨⟨rfl, rfl⟩, rfl⟩
  new := Costs.pure ⟨⟨rfl, rfl⟩, rfl⟩
  input _ _ d h _ := input_ok hc h d
  finalize _ _ h := finalize_costs hc h
  midstate _ _ h := (midstate_costs c h.1).mono (Nat.le_refl _) fun _ _ => trivial
  fromMidstate μ n := from_midstate_costs c μ n

end Sha256

end Chf.Seen
