import Verif.Proofs.Source.Sims

/-!
# Programs over the translated engines and over the model's
-/

namespace Chf.Source
open Chf Chf.Rs

theorem showMid_sim {cfg : Cfg} (hc : cfg.Valid) : (a : Alg) → (h : Fits cfg a) →
    (m : (a.engine cfg).Midstate) → showMid cfg a ((algSim hc a h).mid m) = a.showMid cfg m
  | .sha1, _, _ | .sha256, _, _ | .sha384, _, _ | .sha512, _, _ | .sha512_256, _, _ => rfl
  | .ripemd160, _, _ | .siphash24, _, _ | .sha256t _ _ _, _, _ => rfl
  | .hmac a, h, m => by
    show MidVal.pair _ _ = MidVal.pair _ _
    exact congr (congrArg _ (showMid_sim hc a h _)) (showMid_sim hc a h _)

theorem readMid_sim {cfg : Cfg} (hc : cfg.Valid) : (a : Alg) → (h : Fits cfg a) → (v : MidVal) →
    readMid cfg a v = (a.readMid cfg v).map (algSim hc a h).mid
  | .sha1, _, v | .sha256, _, v | .sha384, _, v | .sha512, _, v | .sha512_256, _, v
  | .ripemd160, _, v | .sha256t _ _ _, _, v => by
    cases v with
    | bytes bs =>
      unfold readMid Alg.readMid
      split <;> rfl
    | sip s => rfl
    | pair i o => rfl
  | .siphash24, _, v => by cases v <;> rfl
  | .hmac a, h, v => by
    cases v with
    | bytes bs => rfl
    | sip s => rfl
    | pair i o =>
      unfold readMid Alg.readMid
      rw [readMid_sim hc a h i, readMid_sim hc a h o]
      cases a.readMid cfg i with
      | none => rfl
      | some x => cases a.readMid cfg o with
        | none => rfl
        | some y => rfl

theorem make_sim {cfg : Cfg} (hc : cfg.Valid) (a : Alg) (h : Fits cfg a) (mk : Make)
    (ht : mk.Typed cfg) :
    make cfg a mk = (a.make cfg mk).map fun r => r.map (algSim hc a h).st := by
  cases mk with
  | new =>
    have : make cfg a .new = some (engineOf cfg a).new := by cases a <;> rfl
    rw [this, (algSim hc a h).new]
    cases a <;> rfl
  | default =>
    have : make cfg a .default = some (engineOf cfg a).default := by cases a <;> rfl
    rw [this, (algSim hc a h).default]
    cases a <;> rfl
  | sipKeys k0 k1 => cases a <;> rfl
  | hmacKey key =>
    cases a with
    | hmac a => exact congrArg some (Hmac.new_eq hc (algSim hc a h) key ht)
    | _ => rfl
  | resume v n =>
    have h1 : make cfg a (.resume v n) =
      (readMid cfg a v).map fun μ => (engineOf cfg a).fromMidstate μ n := by cases a <;> rfl
    have h2 : a.make cfg (.resume v n) =
      (a.readMid cfg v).map fun μ => (a.engine cfg).fromMidstate μ n := by cases a <;> rfl
    rw [h1, h2, readMid_sim hc a h v]
    cases a.readMid cfg v with
    | none => rfl
    | some m => exact congrArg some ((algSim hc a h).fromMidstate m n)

/-- An engine of the model and the translated engine for it. -/
inductive SlotSim {cfg : Cfg} (hc : cfg.Valid) : Option ((a : Alg) × (Impl.crate cfg).State a) →
    Option ((a : Alg) × (text cfg).State a) → Prop
  | gone : SlotSim hc none none
  | live (a : Alg) (h : Fits cfg a) (e : (a.engine cfg).State) :
      SlotSim hc (some ⟨a, e⟩) (some ⟨a, (algSim hc a h).st e⟩)

/-- Related pools. -/
structure PoolSim {cfg : Cfg} (hc : cfg.Valid) (p : (Impl.crate cfg).Pool) (q : (text cfg).Pool) :
    Prop where
  len : p.length = q.length
  slot : ∀ i, SlotSim hc ((Impl.crate cfg).slot p i) ((text cfg).slot q i)

namespace PoolSim
variable {cfg : Cfg} {hc : cfg.Valid} {p : (Impl.crate cfg).Pool} {q : (text cfg).Pool}

theorem nil : PoolSim hc [] [] := ⟨rfl, fun _ => .gone⟩

theorem push (h : PoolSim hc p q) {x y} (hx : SlotSim hc x y) : PoolSim hc (p ++ [x]) (q ++ [y]) := by
  refine ⟨by simp [h.len], fun i => ?_⟩
  have := h.slot i
  simp only [Impl.slot] at *
  rcases Nat.lt_trichotomy i p.length with hi | hi | hi
  · rw [List.getElem?_append_left hi, List.getElem?_append_left (by rw [← h.len]; exact hi)]
    exact this
  · subst hi
    rw [List.getElem?_concat_length, h.len, List.getElem?_concat_length]
    exact hx
  · rw [List.getElem?_eq_none (by simp; omega), List.getElem?_eq_none (by simp [← h.len]; omega)]
    exact .gone

theorem set (h : PoolSim hc p q) (i : Nat) {x y} (hx : SlotSim hc x y) :
    PoolSim hc (p.set i x) (q.set i y) := by
  refine ⟨by simp [h.len], fun j => ?_⟩
  have := h.slot j
  simp only [Impl.slot, List.getElem?_set, h.len] at *
  split
  · split
    · exact hx
    · exact .gone
  · exact this

end PoolSim

/-- The values of the Rust types: slices and lengths are below `2 ^ usizeBits`. -/
def CallFits (cfg : Cfg) : Call → Prop
  | .make a how => Fits cfg a ∧ how.Typed cfg
  | .input _ data => data.length < cfg.usizeMod
  | _ => True

theorem step_sim {cfg : Cfg} (hc : cfg.Valid) {p : (Impl.crate cfg).Pool} {q : (text cfg).Pool}
    (h : PoolSim hc p q) (x : Call) (hx : CallFits cfg x) :
    ((Impl.crate cfg).step p x).2 = ((text cfg).step q x).2 ∧
      PoolSim hc ((Impl.crate cfg).step p x).1 ((text cfg).step q x).1 := by
  cases x with
  | make a mk =>
    have hm : (text cfg).make a mk = _ := make_sim hc a hx.1 mk hx.2
    simp only [Impl.step, hm, show (Impl.crate cfg).make a mk = a.make cfg mk from rfl]
    cases a.make cfg mk with
    | none => exact ⟨rfl, h⟩
    | some r =>
      cases r with
      | error f => exact ⟨rfl, h⟩
      | ok e => exact ⟨rfl, h.push (.live a hx.1 e)⟩
  | clone i =>
    have := h.slot i
    simp only [Impl.step]
    generalize (Impl.crate cfg).slot p i = x, (text cfg).slot q i = y at this ⊢
    cases this with
    | gone => exact ⟨rfl, h⟩
    | live a ha e => exact ⟨rfl, h.push (.live a ha e)⟩
  | input i d =>
    have := h.slot i
    simp only [Impl.step]
    generalize (Impl.crate cfg).slot p i = x, (text cfg).slot q i = y at this ⊢
    cases this with
    | gone => exact ⟨rfl, h⟩
    | live a ha e =>
      have hi : (text cfg).input a ((algSim hc a ha).st e) d = _ := (algSim hc a ha).input e d hx
      simp only [hi, show (Impl.crate cfg).input a e d = (a.engine cfg).input e d from rfl]
      cases (a.engine cfg).input e d with
      | error f => exact ⟨rfl, h.set i .gone⟩
      | ok e' => exact ⟨rfl, h.set i (.live a ha e')⟩
  | count i =>
    have := h.slot i
    simp only [Impl.step]
    generalize (Impl.crate cfg).slot p i = x, (text cfg).slot q i = y at this ⊢
    cases this with
    | gone => exact ⟨rfl, h⟩
    | live a ha e => exact ⟨congrArg Answer.count ((algSim hc a ha).nBytesHashed e).symm, h⟩
  | midstate i =>
    have := h.slot i
    simp only [Impl.step]
    generalize (Impl.crate cfg).slot p i = x, (text cfg).slot q i = y at this ⊢
    cases this with
    | gone => exact ⟨rfl, h⟩
    | live a ha e =>
      have hm : (text cfg).mid a ((algSim hc a ha).st e) = (Impl.crate cfg).mid a e := by
        show Except.map _ _ = Except.map _ _
        rw [(algSim hc a ha).midstate e]
        cases (a.engine cfg).midstate e with
        | error f => rfl
        | ok m => exact congrArg Except.ok (showMid_sim hc a ha m)
      simp only [hm]
      cases (Impl.crate cfg).mid a e with
      | error f => exact ⟨rfl, h⟩
      | ok v => exact ⟨rfl, h⟩
  | finalize i =>
    have := h.slot i
    simp only [Impl.step]
    generalize (Impl.crate cfg).slot p i = x, (text cfg).slot q i = y at this ⊢
    cases this with
    | gone => exact ⟨rfl, h⟩
    | live a ha e =>
      have hf : (text cfg).fin a ((algSim hc a ha).st e) = (Impl.crate cfg).fin a e :=
        (algSim hc a ha).finalize e
      simp only [hf]
      cases (Impl.crate cfg).fin a e with
      | error f => exact ⟨rfl, h.set i .gone⟩
      | ok d => exact ⟨rfl, h.set i .gone⟩

theorem answers_sim {cfg : Cfg} (hc : cfg.Valid) (xs : List Call) : ∀ {p : (Impl.crate cfg).Pool}
    {q : (text cfg).Pool}, PoolSim hc p q → (∀ x ∈ xs, CallFits cfg x) →
    (Impl.crate cfg).answers p xs = (text cfg).answers q xs := by
  induction xs with
  | nil => intros; rfl
  | cons x xs ih =>
    intro p q h hx
    have := step_sim hc h x (hx x (by simp))
    rw [Impl.answers, Impl.answers, this.1, ih this.2 fun y hy => hx y (by simp [hy])]

end Chf.Source
