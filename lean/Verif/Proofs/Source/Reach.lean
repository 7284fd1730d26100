import Verif.Proofs.Source.Programs
import Verif.Proofs.Builds
import Verif.Props.Text
import Verif.Props.Midstate

/-!
# Engines of the translated text that callers can obtain, and the model's engines for them
-/

namespace Chf.Source
open Chf Chf.Rs

/-- A caller of the public API can obtain the translated engine `e`. -/
inductive Reach (c : Cfg) (a : Alg) : (engineOf c a).State → Prop
  /-- A constructor. -/
  | made (how : Make) {e} : how.Typed c → make c a how = some (.ok e) → Reach c a e
  /-- `input` of a slice. -/
  | input (d : List Byte) {e e'} : Reach c a e → d.length < c.usizeMod →
      (engineOf c a).input e d = .ok e' → Reach c a e'

/-- `from_midstate(e.midstate(), e.n_bytes_hashed())` succeeds and gives an engine that no caller can
tell from `e`. -/
def Resumes (c : Cfg) (a : Alg) (e : (engineOf c a).State) : Prop :=
  ∃ μ e', (engineOf c a).midstate e = .ok μ ∧
    (engineOf c a).fromMidstate μ ((engineOf c a).nBytesHashed e) = .ok e' ∧
    ObsEq c (engineOf c a) e e'

theorem readMid_typed {c : Cfg} {a : Alg} {v : MidVal} {μ} (h : a.readMid c v = some μ) {n : Nat}
    (hn : n < c.usizeMod) : a.Typed c μ n := by
  rcases Alg.readMid_same (c := c) rfl a v n hn with ⟨e, _⟩ | ⟨μ', _, e, _, _, t, _⟩
  · rw [h] at e; cases e
  · rw [h] at e; cases e; exact t

theorem make_reachable {c : Cfg} {a : Alg} {how : Make} (ht : how.Typed c) {e}
    (h : a.make c how = some (.ok e)) : Reachable c a e := by
  cases how with
  | new =>
    have : a.make c .new = some (a.engine c).new := by cases a <;> rfl
    rw [this] at h
    exact ⟨_, .new (Option.some.inj h)⟩
  | default =>
    have : a.make c .default = some (a.engine c).default := by cases a <;> rfl
    rw [this] at h
    exact ⟨_, .default (Option.some.inj h)⟩
  | sipKeys k0 k1 =>
    cases a with
    | siphash24 => cases h; exact ⟨_, .sipKeys k0 k1⟩
    | _ => cases h
  | hmacKey key =>
    cases a with
    | hmac a => exact ⟨_, .hmacKey key ht (Option.some.inj h)⟩
    | _ => cases h
  | resume v n =>
    have h2 : a.make c (.resume v n) =
      (a.readMid c v).map fun μ => (a.engine c).fromMidstate μ n := by cases a <;> rfl
    rw [h2] at h
    cases hv : a.readMid c v with
    | none => rw [hv] at h; cases h
    | some μ =>
      rw [hv] at h
      exact ⟨_, .resume (readMid_typed hv ht) (Option.some.inj h)⟩

/-- Every translated engine that can be obtained stands for one of the model's. -/
theorem Reach.model {c : Cfg} (hc : c.Valid) {a : Alg} (h : Fits c a) {e} (r : Reach c a e) :
    ∃ m, Reachable c a m ∧ e = (algSim hc a h).st m := by
  induction r with
  | made how ht hm =>
    rw [make_sim hc a h how ht] at hm
    cases hx : a.make c how with
    | none => rw [hx] at hm; cases hm
    | some r =>
      rw [hx] at hm
      cases r with
      | error f => cases hm
      | ok m => exact ⟨m, make_reachable ht hx, (Except.ok.inj (Option.some.inj hm)).symm⟩
  | @input d e e' _ hd hi ih =>
    obtain ⟨m, ⟨k, hm⟩, rfl⟩ := ih
    rw [(algSim hc a h).input m d hd] at hi
    cases hx : (a.engine c).input m d with
    | error f => rw [hx] at hi; cases hi
    | ok m' =>
      rw [hx] at hi
      exact ⟨m', ⟨_, .input d hm hd hx⟩, (Except.ok.inj hi).symm⟩

theorem Sim.observe {c : Cfg} {S M : HashEngine} (s : Sim c S M) (e : M.State) (ds : List (List Byte))
    (h : ∀ d ∈ ds, d.length < c.usizeMod) :
    S.observe (s.st e) ds = (M.observe e ds).map fun x => (x.1, x.2.1.map s.mid, x.2.2) := by
  unfold HashEngine.observe
  rw [s.inputs e ds h, map_bind_left, Rs.map_bind]
  refine bind_congr' fun e' _ => ?_
  rw [s.nBytesHashed, s.midstate, s.finalize]
  rfl

theorem Sim.mid_inj {c : Cfg} {S M : HashEngine} (s : Sim c S M) {x y : M.Midstate} (h : s.mid x = s.mid y) :
    x = y := by
  rw [← s.midInv_mid x, h, s.midInv_mid]

theorem map_inj {α β : Type} {f : α → β} (hf : ∀ x y, f x = f y → x = y) {r r' : Res α}
    (h : r.map f = r'.map f) : r = r' := by
  match r, r', h with
  | .error _, .error _, h => exact congrArg _ (Except.error.inj h)
  | .ok x, .ok y, h => exact congrArg _ (hf x y (Except.ok.inj h))

theorem Sim.obsEq {c : Cfg} {S M : HashEngine} (s : Sim c S M) (e e' : M.State) :
    ObsEq c S (s.st e) (s.st e') ↔ ObsEq c M e e' := by
  constructor
  · intro h ds hd
    have := h ds hd
    rw [s.observe e ds hd, s.observe e' ds hd] at this
    refine map_inj ?_ this
    rintro ⟨a, b, d⟩ ⟨a', b', d'⟩ k
    simp only [Prod.mk.injEq] at k ⊢
    exact ⟨k.1, map_inj (fun x y => s.mid_inj) k.2.1, k.2.2⟩
  · intro h ds hd
    rw [s.observe e ds hd, s.observe e' ds hd, h ds hd]

/-- Resuming the translated engine is resuming the model's. -/
theorem resumes_sim {c : Cfg} (hc : c.Valid) {a : Alg} (h : Fits c a) (m : (a.engine c).State) :
    Resumes c a ((algSim hc a h).st m) ↔ Props.Resumes c a m := by
  unfold Resumes Props.Resumes
  constructor
  · rintro ⟨μ, e', h1, h2, h3⟩
    rw [(algSim hc a h).midstate] at h1
    rw [(algSim hc a h).nBytesHashed] at h2
    cases hx : (a.engine c).midstate m with
    | error f => rw [hx] at h1; cases h1
    | ok ν =>
      rw [hx] at h1
      cases h1
      rw [(algSim hc a h).fromMidstate] at h2
      cases hy : (a.engine c).fromMidstate ν ((a.engine c).nBytesHashed m) with
      | error f => rw [hy] at h2; cases h2
      | ok m' =>
        rw [hy] at h2
        cases h2
        exact ⟨ν, m', rfl, hy, ((algSim hc a h).obsEq m m').1 h3⟩
  · rintro ⟨ν, m', h1, h2, h3⟩
    refine ⟨(algSim hc a h).mid ν, (algSim hc a h).st m', ?_, ?_, ((algSim hc a h).obsEq m m').2 h3⟩
    · rw [(algSim hc a h).midstate, h1]; rfl
    · rw [(algSim hc a h).nBytesHashed, (algSim hc a h).fromMidstate, h2]; rfl

/-- An engine made in the way `how` and given `d`, found by running the text. -/
theorem Reach.of_run {c : Cfg} {a : Alg} (how : Make) (ht : how.Typed c) (d : List Byte)
    (hd : d.length < c.usizeMod) {P : (engineOf c a).State → Bool}
    (h : (match make c a how with
      | some (.ok e) => match (engineOf c a).input e d with
        | .ok e => P e
        | .error _ => false
      | _ => false) = true) : ∃ e, Reach c a e ∧ P e = true := by
  split at h
  · next e hm =>
    split at h
    · next e' hi => exact ⟨e', .input d (.made how ht hm) hd hi, h⟩
    · cases h
  · cases h

/-- A midstate read from a value is shown as that value. -/
theorem showMid_readMid {c : Cfg} : (a : Alg) → (v : MidVal) → ∀ {μ}, readMid c a v = some μ → showMid c a μ = v
  | .sha1, .bytes _, _, h | .sha256, .bytes _, _, h | .sha384, .bytes _, _, h | .sha512, .bytes _, _, h
  | .sha512_256, .bytes _, _, h | .ripemd160, .bytes _, _, h | .sha256t _ _ _, .bytes _, _, h => by
      simp only [readMid] at h
      split at h
      · cases h; rfl
      · cases h
  | .siphash24, .sip _, _, h => by cases h; rfl
  | .hmac a, .pair i o, μ, h => by
      simp only [readMid] at h
      cases hi : readMid c a i with
      | none => rw [hi] at h; cases h
      | some i' =>
        cases ho : readMid c a o with
        | none => rw [hi, ho] at h; cases h
        | some o' =>
          rw [hi, ho] at h
          cases h
          show MidVal.pair _ _ = _
          rw [showMid_readMid a i hi, showMid_readMid a o ho]
  | .sha1, .sip _, _, h | .sha256, .sip _, _, h | .sha384, .sip _, _, h | .sha512, .sip _, _, h
  | .sha512_256, .sip _, _, h | .ripemd160, .sip _, _, h | .sha256t _ _ _, .sip _, _, h
  | .sha1, .pair _ _, _, h | .sha256, .pair _ _, _, h | .sha384, .pair _ _, _, h | .sha512, .pair _ _, _, h
  | .sha512_256, .pair _ _, _, h | .ripemd160, .pair _ _, _, h | .sha256t _ _ _, .pair _ _, _, h
  | .siphash24, .bytes _, _, h | .siphash24, .pair _ _, _, h | .hmac _, .bytes _, _, h | .hmac _, .sip _, _, h => by
      cases h

end Chf.Source
