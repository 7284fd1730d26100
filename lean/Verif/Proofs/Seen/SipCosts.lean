import Verif.Proofs.Seen.Linear

/-!
# How much is seen of SipHash
-/

namespace Chf.Seen.Siphash24
open Chf Tr

theorem op_costs {α : Type} {r : Res α} : Costs 0 (fun _ => True) (Tr.op [] r) :=
  Costs.op (Nat.le_refl _) fun _ _ => trivial

theorem addU_costs {c : Cfg} {a b : Nat} : Costs 0 (fun _ => True) (Tr.addUsize c a b) := op_costs

theorem copyNonoverlapping_costs {w : Nat} {c : Cfg} {src : List Byte} {i n : Nat} {dst : BitVec w} :
    Costs 1 (fun _ => True) (Tr.copyNonoverlapping c src i dst n) :=
  Costs.op (Nat.le_refl _) fun _ _ => trivial

theorem bind0 {α β : Type} {n : Nat} {P : α → Prop} {Q : β → Prop} {x : Tr α} {f : α → Tr β}
    (hx : Costs 0 P x) (hf : ∀ a, P a → Costs n Q (f a)) : Costs n Q (x >>= f) :=
  Costs.bind' hx hf (by omega)

theorem u8to64_le_costs (c : Cfg) (buf : List Byte) (start len : Nat) :
    Costs 6 (fun _ => True) (u8to64_le c buf start len) := by
  unfold u8to64_le
  refine bind0 debugAssert_costs fun _ _ => bind0 addU_costs fun _ _ => ?_
  refine Costs.bind' (n := 1 + 1) (m := 4) (P := fun _ => True) (Costs.testThen (fun _ => ?_) fun _ => Costs.pure trivial) (fun x _ => ?_) (by omega)
  · refine Costs.ite (fun _ => bind0 addU_costs fun _ _ => bind0 addU_costs fun _ _ => bind0 debugAssert_costs
      fun _ _ => bind0 addU_costs fun _ _ => ?_) fun _ => bind0 addU_costs fun _ _ => ?_
    all_goals
     exact Costs.bind' (m := 0) copyNonoverlapping_costs (fun _ _ => bind0 addU_costs fun _ _ => Costs.pure trivial) (by omega)
  obtain ⟨i, out⟩ := x
  refine bind0 addU_costs fun _ _ => ?_
  refine Costs.bind' (n := 1 + 1) (m := 2) (P := fun _ => True) (Costs.testThen (fun _ => ?_) fun _ => Costs.pure trivial) (fun x _ => ?_) (by omega)
  · refine Costs.ite (fun _ => bind0 addU_costs fun _ _ => bind0 addU_costs fun _ _ => bind0 debugAssert_costs
      fun _ _ => bind0 addU_costs fun _ _ => ?_) fun _ => bind0 addU_costs fun _ _ => ?_
    all_goals
     exact Costs.bind' (m := 0) copyNonoverlapping_costs (fun _ _ => bind0 op_costs fun _ _ => bind0 op_costs fun _ _ =>
      bind0 addU_costs fun _ _ => Costs.pure trivial) (by omega)
  obtain ⟨i, out⟩ := x
  refine Costs.bind' (n := 1 + 1) (m := 0) (P := fun _ => True) (Costs.testThen (fun _ => ?_) fun _ => Costs.pure trivial) (fun x _ => ?_) (by omega)
  · refine bind0 addU_costs fun _ _ => ?_
    exact Costs.bind' (n := 1) (m := 0) (Costs.op (Nat.le_refl _) fun _ _ => trivial) (fun _ _ => bind0 op_costs fun _ _ => bind0 op_costs fun _ _ =>
      bind0 addU_costs fun _ _ => Costs.pure trivial) (by omega)
  obtain ⟨i, out⟩ := x
  exact bind0 debugAssert_costs fun _ _ => Costs.pure trivial

/-- An engine with `p` bytes in the tail. -/
def Ok (p : Nat) (e : Source.Siphash24.Engine) : Prop := e.ntail = p ∧ e.length % 8 = p

/-- What follows once the bytes in the tail, if any, are dealt with. -/
theorem rest_costs {c : Cfg} (e : Source.Siphash24.Engine) (data : List Byte) {needed : Nat}
    (hn : needed < 8) (hd : data.length < c.usizeMod) (hl : needed ≤ data.length) :
    Costs (7 + 2 * ((data.length - needed) / 8)) (fun e' => e'.ntail = (data.length - needed) % 8 ∧ e'.length = e.length)
      (do
        let len ← Tr.subUsize c data.length needed
        let left : Nat := len &&& 0x7
        let i : Nat := needed
        let (self, i) ← Tr.whileR c.usizeMod
          (fun ((_, i) : Source.Siphash24.Engine × Nat) => do
            let x_11 ← Tr.subUsize c len left
            pure (decide (i < x_11)))
          (fun (self, i) => do
            let _ ←
              if c.debugAssertions then do
                let x_12 ← Tr.addUsize c i 8
                Tr.debugAssert c (decide (x_12 ≤ data.length))
              else pure ()
            let data' : BitVec 64 := 0#64
            let data' ← Tr.copyNonoverlapping c data i data' 8
            let mi : BitVec 64 := Rs.toLe c data'
            let self := { self with state := { self.state with v3 := self.state.v3 ^^^ mi } }
            let x_14 := Source.Siphash24.Engine.c_rounds c self.state
            let self := { self with state := x_14 }
            let self := { self with state := { self.state with v0 := self.state.v0 ^^^ mi } }
            let i ← Tr.addUsize c i 8
            pure (self, i)) (e, i)
        let x_16 ← Seen.Siphash24.u8to64_le c data i left
        let self := { self with tail := x_16 }
        let self := { self with ntail := left }
        pure self) := by
  refine bind0 (subUsize_exact hl) fun len hlen => ?_
  have hleft : len &&& 0x7 = len % 8 := Nat.and_two_pow_sub_one_eq_mod len 3
  rw [hleft]
  subst hlen
  generalize hm : (data.length - needed) / 8 = m
  have hm' : (data.length - needed) - (data.length - needed) % 8 = 8 * m := by omega
  refine Costs.bind' (n := 1 + 2 * m) (m := 6) (P := fun s => s.1.length = e.length) ?_ (fun s hs => ?_) (by omega)
  · refine (Costs.whileR (I := fun s => s.1.length = e.length ∧ ∃ t, t ≤ m ∧ s.2 = needed + 8 * t)
      (J := fun s => s.1.length = e.length)
      (Φ := fun s => 1 + 2 * ((8 * m + 7 - s.2) / 8)) ?_ _ (e, needed) ⟨rfl, 0, Nat.zero_le _, rfl⟩).mono
      (by dsimp only; omega) fun _ h => h
    rintro ⟨s, i⟩ ⟨hs, t, ht, rfl⟩
    refine ⟨decide (needed + 8 * t < 8 * m), ?_, ?_, fun _ => hs, fun hb => ⟨1, ?_, ?_⟩⟩
    · refine bind0 (subUsize_exact (Nat.mod_le ..)) fun x hx => Costs.pure ?_
      rw [hx, hm']
    · dsimp only
      omega
    · have := of_decide_eq_true hb
      dsimp only
      omega
    · have hb := of_decide_eq_true hb
      have hx : Costs 0 (fun r => r = needed + 8 * t + 8) (Tr.addUsize c (needed + 8 * t) 8) :=
        Costs.op (Nat.le_refl _) fun r hr => by
          rw [addUsize_ok hr, Nat.mod_eq_of_lt (by omega)]
      refine Costs.ite (fun _ => bind0 hx fun _ _ => bind0 debugAssert_costs fun _ _ => ?_) fun _ => ?_
      all_goals
        refine Costs.bind' (n := 1) (m := 0) copyNonoverlapping_costs (fun _ _ => ?_) (by omega)
        refine bind0 hx fun i hi => Costs.pure ⟨⟨hs, t + 1, ?_, ?_⟩, ?_⟩
        · omega
        · dsimp only
          omega
        · dsimp only
          omega
  · obtain ⟨s, i⟩ := s
    exact Costs.bind' (m := 0) (u8to64_le_costs c data i _) (fun _ _ => Costs.pure ⟨rfl, hs⟩) (by omega)

theorem input_costs {c : Cfg} (hc : c.Valid) {p : Nat} {e : Source.Siphash24.Engine} (h : Ok p e) {d : List Byte}
    (hd : d.length < c.usizeMod) :
    Costs (13 + 2 * ((p + d.length) / 8)) (Ok ((p + d.length) % 8)) (Engine.input c e d) := by
  obtain ⟨k0, k1, l0, st, tl, nt⟩ := e
  obtain ⟨rfl, hp⟩ := h
  unfold Engine.input
  refine bind0 (addUsize_costs hc (by decide : 8 ∣ 65536) _ _) fun l hl => ?_
  dsimp only at *
  by_cases hz : nt = 0
  · refine Costs.bind' (n := 1 + 0) (m := 7 + 2 * ((d.length - 0) / 8)) (P := fun x => ∃ e', x = .next (e', 0) ∧ e'.length = l)
      (Costs.testThen (fun ht => ?_) fun _ => Costs.pure ⟨_, rfl, rfl⟩) ?_ (by omega)
    · simp [hz] at ht
    · rintro x ⟨e', rfl, he'⟩
      refine (rest_costs e' d (by omega) hd (by omega)).mono (Nat.le_refl _) fun r hr => ⟨?_, by omega⟩
      rw [hr.1]
      omega
  · refine Costs.bind' (n := 1 + 7) (m := 5 + 2 * ((nt + d.length) / 8))
      (P := fun x => (∃ e', x = .ret e' ∧ e'.ntail = nt + d.length ∧ nt + d.length < 8 ∧ e'.length = l) ∨
        ∃ e', x = .next (e', 8 - nt) ∧ 8 - nt ≤ d.length ∧ e'.length = l)
      (Costs.testThen (fun _ => ?_) fun ht => ?_) ?_ (by omega)
    · refine bind0 (subUsize_exact (by omega)) fun needed hn => ?_
      refine Costs.bind' (m := 1) (u8to64_le_costs c d 0 _) (fun x _ => ?_) (by omega)
      refine bind0 op_costs fun _ _ => bind0 op_costs fun _ _ => ?_
      refine Costs.bind' (n := 1 + 0) (m := 0)
        (P := fun x => (∃ e', x = .ret e' ∧ e'.ntail = nt + d.length ∧ nt + d.length < 8 ∧ e'.length = l) ∨
          ∃ e', x = .next e' ∧ 8 - nt ≤ d.length ∧ e'.length = l)
        (Costs.testThen (fun hb => ?_) fun hb => Costs.pure (.inr ⟨_, rfl, ?_, rfl⟩)) ?_ (by omega)
      · have hb := of_decide_eq_true hb
        exact bind0 (addUsize_exact hc (by omega)) fun r hr => Costs.pure (.inl ⟨_, rfl, hr, by omega, rfl⟩)
      · have hb := of_decide_eq_false hb
        omega
      · rintro x (⟨e', rfl, h1⟩ | ⟨e', rfl, h1⟩)
        · exact Costs.pure (.inl ⟨e', rfl, h1⟩)
        · exact Costs.pure (.inr ⟨e', by rw [hn], h1⟩)
    · simp [hz] at ht
    · rintro x (⟨e', rfl, h1, h2, h3⟩ | ⟨e', rfl, h1, h3⟩)
      · exact Costs.pure ⟨by omega, by omega⟩
      · refine (rest_costs e' d (by omega) hd h1).mono ?_ fun r hr => ⟨?_, by omega⟩
        · omega
        · rw [hr.1]
          omega

theorem linear {c : Cfg} (hc : c.Valid) : Linear c (engine c) work Ok where
  blockSize := rfl
  fresh := by decide
  blocks := by decide
  small := by decide
  pos p e h := h.2
  default := Costs.pure ⟨rfl, rfl⟩
  new := Costs.pure ⟨rfl, rfl⟩
  input _ _ _ h hd := input_costs hc h hd
  finalize _ _ h := Costs.pure rfl
  midstate _ _ h := Costs.pure trivial
  fromMidstate μ n := Costs.pure ⟨rfl, rfl⟩

end Chf.Seen.Siphash24
