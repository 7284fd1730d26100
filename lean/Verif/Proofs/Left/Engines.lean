import Verif.Proofs.Left.Block
import Verif.Model.TextLeft
import Verif.Proofs.Source.Programs

/-!
# What the translated `input`s leave, and what the model's leave
-/

namespace Chf.Source
open Chf Chf.Left Chf.Spec

theorem Sha1.input_left_eq {cfg : Cfg} (hc : cfg.Valid) (e : Chf.Sha1.Engine) (d : List Byte)
    (hd : d.length < cfg.usizeMod) (hb : e.buffer.length = 64) :
    Sha1.Engine.input_left cfg (emb e) d =
      ofLeaves emb (BlockEngine.inputMut cfg (Chf.Sha1.ops cfg) e d) :=
  whileR_inputLoopMut cfg (Chf.Sha1.ops cfg) _ emb (Nat.succ_pos 63) (Chf.Sha1.facts hc).process
    (Sha1.Engine.process_block_left cfg) (fun e => (process_block_res cfg _).trans (process_block_eq cfg e))
    _ _ (fun _ _ _ => rfl) d.length _ e d hb (Nat.le_refl _) hd

theorem Sha256.input_left_eq {cfg : Cfg} (hc : cfg.Valid) (e : Chf.Sha256.Engine) (d : List Byte)
    (hd : d.length < cfg.usizeMod) (hb : e.buffer.length = 64) :
    Sha256.Engine.input_left cfg (emb e) d =
      ofLeaves emb (BlockEngine.inputMut cfg (Chf.Sha256.ops cfg) e d) :=
  whileR_inputLoopMut cfg (Chf.Sha256.ops cfg) _ emb (Nat.succ_pos 63) (Chf.Sha256.facts hc).process
    (Sha256.Engine.process_block_left cfg) (fun e => (process_block_res cfg _).trans (process_block_eq cfg hc e))
    _ _ (fun _ _ _ => rfl) d.length _ e d hb (Nat.le_refl _) hd

theorem Ripemd160.input_left_eq {cfg : Cfg} (hc : cfg.Valid) (e : Chf.Ripemd160.Engine) (d : List Byte)
    (hd : d.length < cfg.usizeMod) (hb : e.buffer.length = 64) :
    Ripemd160.Engine.input_left cfg (emb e) d =
      ofLeaves emb (BlockEngine.inputMut cfg (Chf.Ripemd160.ops cfg) e d) :=
  whileR_inputLoopMut cfg (Chf.Ripemd160.ops cfg) _ emb (Nat.succ_pos 63) (Chf.Ripemd160.facts hc).process
    (Ripemd160.Engine.process_block_left cfg) (fun e => (process_block_res cfg _).trans (process_block_eq cfg e))
    _ _ (fun _ _ _ => rfl) d.length _ e d hb (Nat.le_refl _) hd

theorem Sha512.input_left_eq {cfg : Cfg} (hc : cfg.Valid) (e : Chf.Sha512.Engine) (d : List Byte)
    (hd : d.length < cfg.usizeMod) (hb : e.buffer.length = 128) :
    Sha512.Engine.input_left cfg (emb e) d =
      ofLeaves emb (BlockEngine.inputMut cfg (Chf.Sha512.ops cfg) e d) :=
  whileR_inputLoopMut cfg (Chf.Sha512.ops cfg) _ emb (Nat.succ_pos 127) (Chf.Sha512.facts hc).process
    (Sha512.Engine.process_block_left cfg) (fun e => (process_block_res cfg _).trans (process_block_eq cfg e))
    _ _ (fun _ _ _ => rfl) d.length _ e d hb (Nat.le_refl _) hd

/-- A wrapper around another engine. -/
theorem field_ofLeaves {σ τ ρ : Type} (emb : τ → σ) (put : σ → ρ) (x : Leaves τ) :
    (field put (ofLeaves emb x) >>= fun s => pure (put s)) = ofLeaves (fun e => put (emb e)) x := by
  obtain ⟨e, f⟩ := x
  cases f <;> rfl

theorem Sha384.input_left_eq {cfg : Cfg} (hc : cfg.Valid) (e : Chf.Sha512.Engine) (d : List Byte)
    (hd : d.length < cfg.usizeMod) (hb : e.buffer.length = 128) :
    Sha384.Engine.input_left cfg (emb e) d =
      ofLeaves emb (BlockEngine.inputMut cfg (Chf.Sha512.ops cfg) e d) := by
  rw [show (emb : Chf.Sha512.Engine → Sha384.Engine) = fun e => { f0 := Sha512.emb e } from rfl, ← field_ofLeaves,
    ← Sha512.input_left_eq hc e d hd hb]
  rfl

theorem Sha512_256.input_left_eq {cfg : Cfg} (hc : cfg.Valid) (e : Chf.Sha512.Engine) (d : List Byte)
    (hd : d.length < cfg.usizeMod) (hb : e.buffer.length = 128) :
    Sha512_256.Engine.input_left cfg (emb e) d =
      ofLeaves emb (BlockEngine.inputMut cfg (Chf.Sha512.ops cfg) e d) := by
  rw [show (emb : Chf.Sha512.Engine → Sha512_256.Engine) = fun e => { f0 := Sha512.emb e } from rfl,
    ← field_ofLeaves, ← Sha512.input_left_eq hc e d hd hb]
  rfl

theorem Sha256t.input_left_eq {cfg : Cfg} (hc : cfg.Valid) (T : Tag) (e : Chf.Sha256.Engine) (d : List Byte)
    (hd : d.length < cfg.usizeMod) (hb : e.buffer.length = 64) :
    Sha256t.Engine.input_left cfg T (emb e) d =
      ofLeaves emb (BlockEngine.inputMut cfg (Chf.Sha256.ops cfg) e d) := by
  rw [show (emb : Chf.Sha256.Engine → Sha256t.Engine) = fun e => { f0 := Sha256.emb e, f1 := () } from rfl,
    ← field_ofLeaves Sha256.emb fun e => ({ f0 := e, f1 := () } : Sha256t.Engine),
    ← Sha256.input_left_eq hc e d hd hb]
  rfl

theorem Siphash24.input_left_overflow {cfg : Cfg} {e : Chf.Siphash24.Engine} {s : SipStart} {m : List Byte}
    (R : Chf.Siphash24.SipRel cfg e s m) (d : List Byte) (ho : cfg.overflowChecks = true)
    (h : cfg.usizeMod ≤ m.length + d.length) :
    Siphash24.Engine.input_left cfg (emb e) d = .error (.overflow, emb e) := by
  have hlen : addUsize cfg e.length d.length = .error .overflow := by
    rw [R.len, Nat.mod_eq_of_lt (R.nowrap ho)]
    unfold addUsize
    rw [if_neg (by omega), if_pos ho]
  unfold Engine.input_left
  simp only [show (emb e).length = e.length from rfl, hlen]
  rfl

/-- The translated `input` does what `inputLeft` says. -/
theorem inputLeft_res (c : Cfg) : (a : Alg) → (e : (engineOf c a).State) → (d : List Byte) →
    res (inputLeft c a e d) = (engineOf c a).input e d
  | .sha1, e, d => Sha1.input_res c e d
  | .sha256, e, d => Sha256.input_res c e d
  | .sha384, e, d => Sha384.input_res c e d
  | .sha512, e, d => Sha512.input_res c e d
  | .sha512_256, e, d => Sha512_256.input_res c e d
  | .ripemd160, e, d => Ripemd160.input_res c e d
  | .siphash24, e, d => Siphash24.input_res c e d
  | .sha256t _ _ _, e, d => Sha256t.input_res c _ e d
  | .hmac a, e, d => Hmac.input_res c ⟨inputLeft c a⟩ (inputLeft_res c a) e d

/-- A panicking `input` of the text leaves the engine that the model's leaves. -/
theorem inputLeft_eq {c : Cfg} (hc : c.Valid) : (a : Alg) → (ok : a.Ok c) → (h : Fits c a) →
    {e : (a.engine c).State} → {s : (a.log c).Start} → {m : List Byte} → (a.lawful hc ok).Rel e s m →
    (d : List Byte) → d.length < c.usizeMod → (a.log c).accepts s (m.length + d.length) = false →
    inputLeft c a ((algSim hc a h).st e) d = ofLeaves (algSim hc a h).st (a.inputMut c e d)
  | .sha1, _, _, e, _, _, R, d, hd, _ => Sha1.input_left_eq hc e d hd R.2.buf
  | .sha256, _, _, e, _, _, R, d, hd, _ => Sha256.input_left_eq hc e d hd R.2.buf
  | .sha384, _, _, e, _, _, R, d, hd, _ => Sha384.input_left_eq hc e d hd R.2.buf
  | .sha512, _, _, e, _, _, R, d, hd, _ => Sha512.input_left_eq hc e d hd R.2.buf
  | .sha512_256, _, _, e, _, _, R, d, hd, _ => Sha512_256.input_left_eq hc e d hd R.2.buf
  | .ripemd160, _, _, e, _, _, R, d, hd, _ => Ripemd160.input_left_eq hc e d hd R.2.buf
  | .siphash24, _, _, e, s, m, R, d, hd, h => by
      simp only [Alg.log, logSip, Bool.or_eq_false_iff, Bool.not_eq_false', decide_eq_false_iff_not] at h
      refine (Siphash24.input_left_overflow R d h.1 (Nat.le_of_not_lt h.2)).trans ?_
      show _ = ofLeaves _ (Chf.Siphash24.inputMut c e d)
      rw [Chf.Siphash24.left R d h.1 (Nat.le_of_not_lt h.2)]
      rfl
  | .sha256t _ _ _, _, _, e, _, _, R, d, hd, _ => Sha256t.input_left_eq hc _ e d hd R.2.buf
  | .hmac a, ok, hf, e, s, m, R, d, hd, h => by
      have := inputLeft_eq hc a ok.1 hf R.1 d hd (by rw [List.length_append, Nat.add_assoc]; exact h)
      refine (congrArg (fun x => field (fun i => Hmac.Engine.mk (E := engineOf c a) i
        ((algSim hc a hf).st e.oengine)) x >>= fun i => pure (Hmac.Engine.mk (E := engineOf c a) i
        ((algSim hc a hf).st e.oengine))) this).trans ?_
      show _ = ofLeaves (Hmac.emb (algSim hc a hf)) (Chf.Hmac.inputMut (a.inputMut c) e d)
      unfold Chf.Hmac.inputMut
      generalize a.inputMut c e.iengine d = r
      obtain ⟨i, f⟩ := r
      cases f <;> rfl

end Chf.Source
