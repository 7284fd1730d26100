import Verif.Proofs.Seen.SipCosts
import Verif.Model.TextSeen

/-!
# How much is seen of the engines made from other engines
-/

namespace Chf.Seen
open Chf Tr

namespace Sha384

def Ok (p : Nat) (e : Source.Sha384.Engine) : Prop := Sha512.Ok p e.f0

theorem linear {c : Cfg} (hc : c.Valid) : Linear c (engine c) work Ok where
  blockSize := rfl
  fresh := by decide
  blocks := by decide
  small := by decide
  pos p e h := h.2
  default := Costs.pure ⟨⟨rfl, rfl⟩, rfl⟩
  new := Costs.pure ⟨⟨rfl, rfl⟩, rfl⟩
  input _ _ d h _ := Costs.bind' (m := 0) (Sha512.input_ok hc h d) (fun _ h => Costs.pure h) (Nat.le_refl _)
  finalize p _ h := by
    refine Costs.bind' (m := 3) (Sha512.finalize_costs hc h) (fun x _ => ?_)
      (by simp only [Work.finalize, work]; omega)
    exact Costs.bind' (n := 1) (m := 2) sliceTo_costs (fun x _ =>
      copyFromSlice_costs.mono (Nat.le_refl _) fun r hr => hr.trans (List.length_replicate ..)) (by omega)
  midstate _ _ h := (Sha512.midstate_costs c h.1).mono (Nat.le_refl _) fun _ _ => trivial
  fromMidstate μ n := Costs.bind' (m := 0) (Sha512.from_midstate_costs c μ n) (fun _ h => Costs.pure h) (Nat.le_refl _)

end Sha384

namespace Sha512_256

def Ok (p : Nat) (e : Source.Sha512_256.Engine) : Prop := Sha512.Ok p e.f0

theorem linear {c : Cfg} (hc : c.Valid) : Linear c (engine c) work Ok where
  blockSize := rfl
  fresh := by decide
  blocks := by decide
  small := by decide
  pos p e h := h.2
  default := Costs.pure ⟨⟨rfl, rfl⟩, rfl⟩
  new := Costs.pure ⟨⟨rfl, rfl⟩, rfl⟩
  input _ _ d h _ := Costs.bind' (m := 0) (Sha512.input_ok hc h d) (fun _ h => Costs.pure h) (Nat.le_refl _)
  finalize p _ h := by
    refine Costs.bind' (m := 3) (Sha512.finalize_costs hc h) (fun x _ => ?_)
      (by simp only [Work.finalize, work]; omega)
    exact Costs.bind' (n := 1) (m := 2) sliceTo_costs (fun x _ =>
      copyFromSlice_costs.mono (Nat.le_refl _) fun r hr => hr.trans (List.length_replicate ..)) (by omega)
  midstate _ _ h := (Sha512.midstate_costs c h.1).mono (Nat.le_refl _) fun _ _ => trivial
  fromMidstate μ n := Costs.bind' (m := 0) (Sha512.from_midstate_costs c μ n) (fun _ h => Costs.pure h) (Nat.le_refl _)

end Sha512_256

namespace Sha256t

def Ok (p : Nat) (e : Source.Sha256t.Engine) : Prop := Sha256.Ok p e.f0

theorem linear {c : Cfg} (hc : c.Valid) (mid : List Byte) (len : Nat) (data : List Byte) :
    Linear c (engine c (.ofMidstate c mid len data) (Source.Sha256t.Tag.ofMidstateSeen c mid len data))
      (work data.length) Ok := by
  have start : Costs (17 + 8 + 368 * (data.length / 64)) (Ok (data.length % 64))
      (Source.Sha256t.Tag.ofMidstateSeen c mid len data).engine := by
    refine Costs.bind' (m := 8 + 368 * (data.length / 64)) (Sha256.from_midstate_costs c ⟨mid⟩ len)
      (fun e h => ?_) (by omega)
    refine Costs.bind' (m := 0) (Sha256.input_ok hc h data) (fun e h => Costs.pure ?_) (by rw [Nat.zero_add]; omega)
    rw [Nat.zero_add] at h
    exact h
  exact {
    blockSize := rfl
    fresh := Nat.mod_lt _ (by decide)
    blocks := show 64 = 64 * (64 / 64) by decide
    small := show 64 ≤ 128 ∧ 32 ≤ 128 by decide
    pos := fun p e h => h.2
    default := start
    new := start
    input := fun _ _ d h _ =>
      Costs.bind' (m := 0) (Sha256.input_ok hc h d) (fun _ h => Costs.pure h) (Nat.le_refl _)
    finalize := fun _ _ h => Sha256.finalize_costs hc h
    midstate := fun _ _ h => (Sha256.midstate_costs c h.1).mono (Nat.le_refl _) fun _ _ => trivial
    fromMidstate := fun μ n =>
      Costs.bind' (m := 0) (Sha256.from_midstate_costs c μ n) (fun _ h => Costs.pure h) (Nat.le_refl _) }

end Sha256t

theorem Linear.hash {c : Cfg} {E : HashEngine} {E' : Tr.HashEngine E} {w : Work}
    {Ok : Nat → E.State → Prop} (L : Linear c E' w Ok) {d : List Byte} (hd : d.length < c.usizeMod) :
    Costs (w.hash d.length) (fun h => h.length = w.digest) (E'.hash d) := by
  have hb : 0 < w.block := Nat.lt_of_le_of_lt (Nat.zero_le _) L.fresh
  have key : (w.fresh + d.length) / w.block + ((w.fresh + d.length) % w.block + w.pad) / w.block =
      (w.fresh + d.length + w.pad) / w.block := by
    have h := Nat.div_add_mod (w.fresh + d.length) w.block
    have h2 : w.fresh + d.length + w.pad =
        ((w.fresh + d.length) % w.block + w.pad) + w.block * ((w.fresh + d.length) / w.block) := by omega
    rw [h2, Nat.add_mul_div_left _ _ hb, Nat.add_comm]
  refine Costs.bind' L.new (fun e he => Costs.bind (L.input _ e d he hd) fun e he => L.finalize _ e he) ?_
  unfold Work.hash Work.input Work.finalize
  rw [← key, Nat.mul_add, Nat.mul_add, Nat.mul_add]
  omega

namespace Hmac

variable {c : Cfg} {E : HashEngine} {E' : Tr.HashEngine E} {w : Work} {Ok : Nat → E.State → Prop}

def Ok' (w : Work) (Ok : Nat → E.State → Prop) (p : Nat) (e : Source.Hmac.Engine E) : Prop :=
  Ok p e.iengine ∧ ∃ q, q ≤ w.fresh ∧ Ok q e.oengine

theorem new_costs (L : Linear c E' w Ok) (hc : c.Valid) {key : List Byte} (hk : key.length < c.usizeMod) :
    Costs (keyed w key.length) (Ok' w Ok w.fresh) (Engine.new c E E' key) := by
  have hx : ∀ (xs ys : List Byte), Costs (1 + ys.length) (fun zs => zs.length = xs.length)
      (Tr.zipMut xs ys fun b h => pure (b ^^^ h)) := fun xs ys =>
    (Costs.zipMut (n := 0) (fun _ _ => Costs.pure trivial) xs ys).mono
      (by simp only [Nat.add_zero, Nat.one_mul]; omega) fun _ h => h
  have hb : 0 < w.block := Nat.lt_of_le_of_lt (Nat.zero_le _) L.fresh
  have one : (w.fresh + w.size) / w.block = w.size / w.block := by
    rw [L.blocks, Nat.add_mul_div_left _ _ hb, Nat.div_eq_of_lt L.fresh, Nat.zero_add,
      Nat.mul_div_cancel_left _ hb]
  have fr : (w.fresh + w.size) % w.block = w.fresh := by
    rw [L.blocks, Nat.add_mul_mod_self_left, Nat.mod_eq_of_lt L.fresh]
  have hu := usizeMod_ge hc
  obtain ⟨hs1, hs2⟩ := L.small
  have hB := L.blockSize
  unfold Engine.new
  refine Costs.bind' (n := 0) (m := keyed w key.length) debugAssert_costs (fun _ _ => ?_) (by omega)
  have hk1 : keyed w key.length = 2 * w.start + 1 + (if w.size < key.length then w.hash key.length + 2 * (1 + w.digest) else 2 * (1 + key.length))
      + 2 + 2 * (w.call + w.perBlock * (w.size / w.block)) := by
    unfold keyed work
    dsimp only
    split <;> omega
  rw [hk1]
  generalize hX : (if w.size < key.length then w.hash key.length + 2 * (1 + w.digest) else 2 * (1 + key.length)) = X
  refine Costs.bind' (m := w.start + 1 + X + 2 + 2 * (w.call + w.perBlock * (w.size / w.block))) L.default (fun e1 h1 => ?_) (by omega)
  refine Costs.bind' (m := 1 + X + 2 + 2 * (w.call + w.perBlock * (w.size / w.block))) L.default (fun e2 h2 => ?_) (by omega)
  refine Costs.bind' (n := 1 + X) (m := 2 + 2 * (w.call + w.perBlock * (w.size / w.block)))
    (P := fun p => p.1.length = 128 ∧ p.2.length = 128) (Costs.testThen (fun ht => ?_) fun hf => ?_) (fun p hp => ?_) (by omega)
  · have ht := of_decide_eq_true ht
    rw [hB] at ht
    rw [if_pos ht] at hX
    refine Costs.bind' (m := 2 * (1 + w.digest)) (L.hash hk) (fun h hh => ?_) (by omega)
    refine Costs.bind' (m := 1 + w.digest) (hx _ h) (fun i hi => ?_) (by omega)
    exact Costs.bind' (m := 0) (hx _ h) (fun o ho => Costs.pure ⟨hi.trans (List.length_replicate ..), ho.trans (List.length_replicate ..)⟩) (by omega)
  · have hf := of_decide_eq_false hf
    rw [hB] at hf
    rw [if_neg hf] at hX
    refine Costs.bind' (m := 1 + key.length) (hx _ key) (fun i hi => ?_) (by omega)
    exact Costs.bind' (m := 0) (hx _ key) (fun o ho => Costs.pure ⟨hi.trans (List.length_replicate ..), ho.trans (List.length_replicate ..)⟩) (by omega)
  refine Costs.bind' (m := 1 + 2 * (w.call + w.perBlock * (w.size / w.block))) sliceTo_costs (fun s hs => ?_) (by omega)
  refine Costs.bind' (n := w.call + w.perBlock * (w.size / w.block)) (m := 1 + (w.call + w.perBlock * (w.size / w.block))) (P := Ok w.fresh)
    ((L.input _ _ s h1 (by omega)).mono (by unfold Work.input; rw [hs.1, hB, one]; omega)
      fun e h => by rw [hs.1, hB, fr] at h; exact h) (fun e1 h1 => ?_) (by omega)
  refine Costs.bind' (m := w.call + w.perBlock * (w.size / w.block)) sliceTo_costs (fun s hs => ?_) (by omega)
  exact Costs.bind' (n := w.call + w.perBlock * (w.size / w.block)) (m := 0) (P := Ok w.fresh)
    ((L.input _ _ s h2 (by omega)).mono (by unfold Work.input; rw [hs.1, hB, one]; omega)
      fun e h => by rw [hs.1, hB, fr] at h; exact h)
    (fun e2 h2 => Costs.pure ⟨h1, w.fresh, Nat.le_refl _, h2⟩) (by omega)

theorem linear (L : Linear c E' w Ok) (hc : c.Valid) : Linear c (engine c E E') (work w) (Ok' w Ok) := by
  have start : Costs (work w).start (Ok' w Ok w.fresh) (Engine.new c E E' []) := by
    refine (new_costs L hc (key := []) (Nat.lt_of_lt_of_le (by decide) (usizeMod_ge hc))).mono ?_ fun _ h => h
    unfold keyed
    rw [if_neg (by simp)]
    exact Nat.le_refl _
  exact {
    blockSize := L.blockSize
    fresh := L.fresh
    blocks := L.blocks
    small := L.small
    pos := fun p e h => L.pos p _ h.1
    default := start
    new := start
    input := fun p e d h hd => Costs.bind' (m := 0) (L.input p _ d h.1 hd)
      (fun e' h' => Costs.pure ⟨h', h.2⟩) (Nat.le_refl _)
    finalize := fun p e h => by
      obtain ⟨h1, q, hq, h2⟩ := h
      have hb : 0 < w.block := Nat.lt_of_le_of_lt (Nat.zero_le _) L.fresh
      have hu := usizeMod_ge hc
      have hs := L.small.2
      refine Costs.bind' (m := w.call + w.finish + w.perBlock * ((w.fresh + w.digest + w.pad) / w.block + 1))
        (L.finalize p _ h1) (fun d hd => ?_) (by unfold Work.finalize work; simp only; omega)
      refine Costs.bind' (L.input q _ d h2 (by omega)) (fun e' he' => L.finalize _ _ he') ?_
      have key : (q + d.length) / w.block + ((q + d.length) % w.block + w.pad) / w.block =
          (q + d.length + w.pad) / w.block := by
        have h := Nat.div_add_mod (q + d.length) w.block
        have h2 : q + d.length + w.pad =
            ((q + d.length) % w.block + w.pad) + w.block * ((q + d.length) / w.block) := by omega
        rw [h2, Nat.add_mul_div_left _ _ hb, Nat.add_comm]
      have le : (q + d.length + w.pad) / w.block ≤ (w.fresh + w.digest + w.pad) / w.block :=
        Nat.div_le_div_right (by omega)
      have := Nat.mul_le_mul_left w.perBlock le
      rw [← key, Nat.mul_add] at this
      unfold Work.finalize Work.input
      rw [Nat.mul_add, Nat.mul_add]
      omega
    midstate := fun p e h => by
      obtain ⟨h1, q, _, h2⟩ := h
      exact Costs.bind' (m := w.mid) (L.midstate p _ h1) (fun _ _ => Costs.bind' (m := 0) (L.midstate q _ h2)
        (fun _ _ => Costs.pure trivial) (Nat.le_refl _)) (by unfold work; simp only; omega)
    fromMidstate := fun μ n =>
      Costs.bind' (m := w.resume) (L.fromMidstate _ n) (fun _ h1 => Costs.bind' (m := 0) (L.fromMidstate _ n)
        (fun _ h2 => Costs.pure ⟨h1, 0, Nat.zero_le _, h2⟩) (Nat.le_refl _)) (by unfold work; simp only; omega) }

end Hmac

end Chf.Seen
