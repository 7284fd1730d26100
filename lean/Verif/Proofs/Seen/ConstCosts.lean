import Verif.Proofs.Seen.Linear
import Verif.Proofs.Seen.Sha256Const
import Verif.Seen.Sha256

/-!
# How much is seen of `const_hash` and `hash_tag`
-/

namespace Chf.Tr
open Chf
variable {α β σ : Type}

namespace Costs
variable {n m k : Nat} {P Q : α → Prop}

/-- A loop with `break`: `Φ` is what may still be seen and `I` the invariant. -/
theorem whileBreak {cond : σ → Tr Bool} {body : σ → Tr (Rs.Flow σ σ)} {I : σ → Prop} {Φ : σ → Nat}
    (h : ∀ s, I s → ∃ b : Bool, Costs 0 (fun x => x = b) (cond s) ∧ 1 ≤ Φ s ∧
      (b = true → ∃ n, 1 + n ≤ Φ s ∧ Costs n (fun r => ∀ s', r = .next s' → I s' ∧ 1 + n + Φ s' ≤ Φ s) (body s))) :
    ∀ (fuel : Nat) (s : σ), I s → Costs (Φ s) (fun _ => True) (Tr.whileBreak fuel cond body s)
  | 0, _, _ => fail
  | fuel + 1, s, hs => by
      obtain ⟨b, hc, h1, hb⟩ := h s hs
      unfold Tr.whileBreak
      refine bind' (m := Φ s) hc (fun x hx => ?_) (by omega)
      subst hx
      cases x with
      | false => exact bind' (n := 1) (m := 0) test (fun x hx => by subst hx; exact pure trivial) (by omega)
      | true =>
        obtain ⟨n, hp, hn⟩ := hb rfl
        refine bind' (n := 1) (m := Φ s - 1) test (fun x hx => ?_) (by omega)
        subst hx
        simp only [if_true]
        cases hr : (body s).res with
        | error f =>
          refine bind' (m := 0) (P := fun _ => False) (hn.of_res fun a ha => ?_) (fun _ h => h.elim) (by omega)
          rw [hr] at ha; cases ha
        | ok r =>
          have hq := hn.res r hr
          have h2 : Costs n (fun x => x = r) (body s) := hn.of_res fun a ha => by
            rw [hr] at ha; exact (Except.ok.inj ha).symm
          refine bind' (m := Φ s - 1 - n) h2 (fun x hx => ?_) (by omega)
          subst hx
          cases x with
          | ret s' => exact pure trivial
          | next s' =>
            obtain ⟨hi, hle⟩ := hq s' rfl
            exact (whileBreak h fuel s' hi).mono (by omega) fun _ h => h

theorem runLines {ls : List (σ → Tr σ)} (h : ∀ l ∈ ls, ∀ s, Costs n (fun _ => True) (l s)) :
    ∀ s, Costs (n * ls.length) (fun _ => True) (Tr.runLines ls s) := by
  induction ls with
  | nil => exact fun s => pure trivial
  | cons l ls ih =>
    intro s
    unfold Tr.runLines
    rw [List.foldlM_cons]
    refine bind' (h l (by simp) s) (fun s' _ => ih (fun l hl => h l (by simp [hl])) s') ?_
    rw [List.length_cons, Nat.mul_succ]
    omega

end Costs
end Chf.Tr

namespace Chf.Seen
open Chf Chf.Tr

theorem step0 {α β : Type} {k : Nat} {R : β → Prop} {r : Res α} {f : α → Tr β}
    (h : ∀ a, r = .ok a → Costs k R (f a)) : Costs k R (Tr.op [] r >>= f) :=
  Costs.bind' (n := 0) (P := fun a => r = .ok a) (Costs.op (Nat.le_refl 0) fun _ h => h) h (by omega)

theorem step1 {α β : Type} {k : Nat} {R : β → Prop} {e : Tr.Ev} {r : Res α} {f : α → Tr β}
    (h : ∀ a, r = .ok a → Costs k R (f a)) : Costs (k + 1) R (Tr.op [e] r >>= f) :=
  Costs.bind' (n := 1) (P := fun a => r = .ok a) (Costs.op (Nat.le_refl 1) fun _ h => h) h (by omega)

/-- An operation of which nothing or one access is seen. -/
macro "cost" : tactic => `(tactic|
  first
  | exact Costs.pure trivial
  | (refine step0 fun _ _ => ?_)
  | (refine step1 fun _ _ => ?_))

namespace Sha256

theorem read_u32_costs (c : Cfg) (d : List Byte) (i : Nat) : Costs 4 (fun _ => True) (Midstate.read_u32 c d i) := by
  unfold Midstate.read_u32
  repeat cost

theorem addUsize_one {c : Cfg} {a n x : Nat} (h : addUsize c a 1 = .ok x) (ha : a < n) (hn : n < c.usizeMod) :
    x = a + 1 := by
  rw [addUsize_ok h, Nat.mod_eq_of_lt (by omega)]

theorem indexSet_len {α : Type} {l l' : List α} {i : Nat} {x : α} (h : Chf.indexSet l i x = .ok l') :
    i < l.length ∧ l'.length = l.length := by
  unfold Chf.indexSet at h
  split at h
  · cases h
    exact ⟨by assumption, List.length_set⟩
  · cases h

theorem copy_w_costs {c : Cfg} (hc : c.Valid) (d : List Byte) (i : Nat) :
    Costs 97 (fun w => w.length = 16) (Midstate.copy_w c d i) := by
  unfold Midstate.copy_w
  refine Costs.bind' (n := 97) (m := 0) (Costs.whileR (I := fun s => s.1.length = 16 ∧ s.2 ≤ 16)
    (J := fun s => s.1.length = 16) (Φ := fun s => 6 * (16 - s.2) + 1) ?_ c.usizeMod (List.replicate 16 0#32, 0)
    ⟨List.length_replicate, Nat.zero_le _⟩) (fun _ h => Costs.pure h) (by decide)
  rintro ⟨w, j⟩ ⟨hw, hj⟩
  dsimp only at *
  refine ⟨decide (j < 16), Costs.pure rfl, by omega, fun _ => hw, fun h => ⟨5, ?_, ?_⟩⟩
  · have := of_decide_eq_true h
    omega
  · have hj := of_decide_eq_true h
    cost
    cost
    refine Costs.bind' (n := 4) (m := 1) (read_u32_costs c d _) (fun _ _ => ?_) (by decide)
    refine step1 fun w' hw' => ?_
    refine step0 fun k hk => ?_
    have := addUsize_one hk hj (by have := usizeMod_ge hc; omega)
    subst this
    exact Costs.pure (by dsimp only; have := (indexSet_len hw').2; omega)

/-- The last chunks: what is left of the message, the padding and the length. -/
theorem pad_loop_costs {c : Cfg} (hc : c.Valid) (d : List Byte) (offset : Nat) :
    Costs 196 (fun s => s.1.length = 64) (Tr.whileR c.usizeMod
      (fun ((_, i) : List Byte × Nat) => do
        let x ← Tr.addUsize c offset i
        pure (decide (x < d.length)))
      (fun (buf, i) => do
        let x ← Tr.addUsize c offset i
        let b ← Tr.index d x
        let buf ← Tr.indexSet buf i b
        let i ← Tr.addUsize c i 1
        pure (buf, i)) (List.replicate 64 0#8, 0)) := by
  refine Costs.whileR (I := fun s => s.1.length = 64 ∧ s.2 ≤ 64) (Φ := fun s => 3 * (65 - s.2) + 1) ?_ c.usizeMod
    (List.replicate 64 0#8, 0) ⟨List.length_replicate, Nat.zero_le _⟩
  rintro ⟨buf, i⟩ ⟨hb, hi⟩
  dsimp only at *
  have body : Costs 2 (fun s' : List Byte × Nat => (s'.1.length = 64 ∧ s'.2 ≤ 64) ∧
      1 + 2 + (3 * (65 - s'.2) + 1) ≤ 3 * (65 - i) + 1) (do
        let x ← Tr.addUsize c offset i
        let b ← Tr.index d x
        let buf ← Tr.indexSet buf i b
        let i ← Tr.addUsize c i 1
        pure (buf, i)) := by
    cost
    cost
    refine step1 fun b' hb' => ?_
    refine step0 fun k hk => ?_
    obtain ⟨h1, h2⟩ := indexSet_len hb'
    have := addUsize_one hk (n := 64) (by omega) (by have := usizeMod_ge hc; omega)
    subst this
    exact Costs.pure (by dsimp only; omega)
  cases hx : Chf.addUsize c offset i with
  | error f =>
    exact ⟨true, step0 fun x h => (by rw [hx] at h; cases h), by omega, fun h => (by cases h),
      fun _ => ⟨2, by omega, body⟩⟩
  | ok v =>
    exact ⟨decide (v < d.length), step0 fun x h => Costs.pure (by rw [hx] at h; cases h; rfl), by omega, fun _ => hb,
      fun _ => ⟨2, by omega, body⟩⟩

theorem fast_lines_costs (c : Cfg) (w : List (BitVec 32)) (hw : w.length = 16) (a b d e f g h i : BitVec 32) :
    Costs 304 (fun _ => True) (Tr.runLines (Midstate.const_hash_fast.lines1 c) (w, a, b, d, e, f, g, h, i)) := by
  have hl : Midstate.const_hash_fast.lines1 c = Midstate.const_hash_fast.lines1 .release64 := rfl
  rw [hl]
  refine SameSeen.costs (p := fun _ => true) (SameSeen.runLines (R := Midstate.const_hash_fast.Alike1)
    (Midstate.const_hash_fast.lines1_same .release64)
    (b := (List.replicate 16 0, 0, 0, 0, 0, 0, 0, 0, 0)) hw) ?_ fun _ _ _ _ => trivial
  decide +kernel

theorem const_hash_fast_costs {c : Cfg} (hc : c.Valid) (d : List Byte) (fin : Bool) :
    Costs (637 * ((d.length + 72) / 64) + 74) (fun _ => True) (Midstate.const_hash_fast c d fin) := by
  unfold Midstate.const_hash_fast
  refine step0 fun x1 h1 => ?_
  refine step0 fun x2 h2 => ?_
  have hM : 0 < c.usizeMod := by have := usizeMod_ge hc; omega
  have l1 : x1 ≤ d.length + 9 := by rw [addUsize_ok h1]; exact Nat.mod_le _ _
  have l2 : x2 ≤ d.length + 72 ∧ x2 < c.usizeMod := by
    rw [addUsize_ok h2]
    exact ⟨Nat.le_trans (Nat.mod_le _ _) (by omega), Nat.mod_lt _ hM⟩
  have l3 : x2 / 64 ≤ (d.length + 72) / 64 := Nat.div_le_div_right l2.1
  have l4 : x2 / 64 < c.usizeMod := Nat.lt_of_le_of_lt (Nat.div_le_self _ _) l2.2
  generalize x2 / 64 = num at l3 l4
  refine Costs.bind' (n := 637 * (num - 0) + 1) (m := 73) (P := fun _ => True) (Costs.whileBreak
    (I := fun s : List (BitVec 32) × Nat => s.2 ≤ num) (Φ := fun s => 637 * (num - s.2) + 1) ?_ c.usizeMod (_, 0) (Nat.zero_le _))
    (fun s _ => ?_) (by omega)
  · rintro ⟨state, chunk⟩ hs
    dsimp only at *
    refine ⟨decide (chunk < num), Costs.pure rfl, by omega, fun h => ⟨636, ?_, ?_⟩⟩
    · have := of_decide_eq_true h
      omega
    have hlt := of_decide_eq_true h
    refine Costs.bind' (n := 1) (m := 635) (P := fun _ => True) (Costs.testThen (n := 0) (fun _ => ?_) fun _ => ?_) (fun b _ => ?_) (by decide)
    · cost
      exact Costs.pure trivial
    · exact Costs.pure trivial
    refine Costs.bind' (n := 1) (m := 634) (P := fun _ => True) (Costs.testThen (n := 0) (fun _ => ?_) fun _ => ?_) (fun r _ => ?_) (by decide)
    · exact Costs.pure trivial
    · exact Costs.pure trivial
    cases r with
    | ret r => exact Costs.pure fun _ h => by cases h
    | next _ =>
      dsimp only
      cost
      cost
      refine Costs.bind' (n := 306) (m := 328) (P := fun w => w.length = 16) (Costs.testThen (n := 305) (fun _ => ?_) fun _ => ?_) (fun w hw => ?_) (by decide)
      · cost
        exact (copy_w_costs hc _ _).mono (by decide) fun _ h => h
      · refine step0 fun offset _ => ?_
        refine Costs.bind' (n := 196) (m := 109) (pad_loop_costs hc d offset) (fun s hs => ?_) (by decide)
        obtain ⟨buf, i⟩ := s
        dsimp only
        refine Costs.bind' (n := 1) (m := 108) (P := fun _ => True) (Costs.testThen (n := 0) (fun _ => ?_) fun _ => ?_) (fun _ _ => ?_) (by decide)
        · cost
          exact Costs.pure trivial
        · exact Costs.pure trivial
        refine Costs.bind' (n := 2) (m := 106) (P := fun _ => True) (Costs.testThen (n := 1) (fun _ => ?_) fun _ => ?_) (fun _ _ => ?_) (by decide)
        · exact Costs.op (Nat.le_refl 1) fun _ _ => trivial
        · exact Costs.pure trivial
        cost
        refine Costs.bind' (n := 9) (m := 97) (P := fun _ => True) (Costs.testThen (n := 8) (fun _ => ?_) fun _ => ?_) (fun _ _ => ?_) (by decide)
        · iterate 8 cost
          exact Costs.op (Nat.le_refl 1) fun _ _ => trivial
        · exact Costs.pure trivial
        exact copy_w_costs hc _ _
      · refine step0 fun k hk => ?_
        have := addUsize_one hk hlt l4
        subst this
        iterate 8 cost
        refine Costs.bind' (n := 304) (m := 16) (fast_lines_costs c w hw _ _ _ _ _ _ _ _) (fun s _ => ?_) (by decide)
        obtain ⟨w, a, b, c, d, e, f, g, h⟩ := s
        dsimp only
        iterate 16 cost
        refine Costs.pure fun s' h => ?_
        cases h
        dsimp only
        omega
  · obtain ⟨state, chunk⟩ := s
    dsimp only
    refine Costs.bind' (n := 73) (m := 0) (P := fun _ => True) (Costs.whileR (I := fun s => s.2 ≤ 8)
      (Φ := fun s => 9 * (8 - s.2) + 1) ?_ c.usizeMod (List.replicate 32 0#8, 0) (Nat.zero_le _))
      (fun _ _ => Costs.pure trivial) (by decide)
    rintro ⟨out, i⟩ hi
    dsimp only at *
    refine ⟨decide (i < 8), Costs.pure rfl, by omega, fun _ => trivial, fun h => ⟨8, ?_, ?_⟩⟩
    · have := of_decide_eq_true h
      omega
    · have hi := of_decide_eq_true h
      iterate 20 cost
      refine step0 fun k hk => ?_
      have := addUsize_one hk hi (by have := usizeMod_ge hc; omega)
      subst this
      exact Costs.pure (by dsimp only; omega)

theorem small_lines_costs (c : Cfg) (w : List (BitVec 32)) (hw : w.length = 16) (a b d e f g h i : BitVec 32) :
    Costs 256 (fun _ => True) (Tr.runLines (Midstate.const_hash_small.lines1 c) (w, a, b, d, e, f, g, h, i)) := by
  have hl : Midstate.const_hash_small.lines1 c = Midstate.const_hash_small.lines1 .release64 := rfl
  rw [hl]
  refine SameSeen.costs (p := fun _ => true) (SameSeen.runLines (R := Midstate.const_hash_small.Alike1)
    (Midstate.const_hash_small.lines1_same .release64)
    (b := (List.replicate 16 0, 0, 0, 0, 0, 0, 0, 0, 0)) hw) ?_ fun _ _ _ _ => trivial
  decide +kernel

theorem const_hash_small_costs {c : Cfg} (hc : c.Valid) (d : List Byte) (fin : Bool) :
    Costs (637 * ((d.length + 72) / 64) + 74) (fun _ => True) (Midstate.const_hash_small c d fin) := by
  unfold Midstate.const_hash_small
  refine step0 fun x1 h1 => ?_
  refine step0 fun x2 h2 => ?_
  have hM : 0 < c.usizeMod := by have := usizeMod_ge hc; omega
  have l1 : x1 ≤ d.length + 9 := by rw [addUsize_ok h1]; exact Nat.mod_le _ _
  have l2 : x2 ≤ d.length + 72 ∧ x2 < c.usizeMod := by
    rw [addUsize_ok h2]
    exact ⟨Nat.le_trans (Nat.mod_le _ _) (by omega), Nat.mod_lt _ hM⟩
  have l3 : x2 / 64 ≤ (d.length + 72) / 64 := Nat.div_le_div_right l2.1
  have l4 : x2 / 64 < c.usizeMod := Nat.lt_of_le_of_lt (Nat.div_le_self _ _) l2.2
  generalize x2 / 64 = num at l3 l4
  refine Costs.bind' (n := 637 * (num - 0) + 1) (m := 73) (P := fun _ => True) (Costs.whileBreak
    (I := fun s : List (BitVec 32) × Nat => s.2 ≤ num) (Φ := fun s => 637 * (num - s.2) + 1) ?_ c.usizeMod (_, 0) (Nat.zero_le _))
    (fun s _ => ?_) (by omega)
  · rintro ⟨state, chunk⟩ hs
    dsimp only at *
    refine ⟨decide (chunk < num), Costs.pure rfl, by omega, fun h => ⟨636, ?_, ?_⟩⟩
    · have := of_decide_eq_true h
      omega
    have hlt := of_decide_eq_true h
    refine Costs.bind' (n := 1) (m := 635) (P := fun _ => True) (Costs.testThen (n := 0) (fun _ => ?_) fun _ => ?_) (fun b _ => ?_) (by decide)
    · cost
      exact Costs.pure trivial
    · exact Costs.pure trivial
    refine Costs.bind' (n := 1) (m := 634) (P := fun _ => True) (Costs.testThen (n := 0) (fun _ => ?_) fun _ => ?_) (fun r _ => ?_) (by decide)
    · exact Costs.pure trivial
    · exact Costs.pure trivial
    cases r with
    | ret r => exact Costs.pure fun _ h => by cases h
    | next _ =>
      dsimp only
      cost
      cost
      refine Costs.bind' (n := 306) (m := 328) (P := fun w => w.length = 16) (Costs.testThen (n := 305) (fun _ => ?_) fun _ => ?_) (fun w hw => ?_) (by decide)
      · cost
        exact (copy_w_costs hc _ _).mono (by decide) fun _ h => h
      · refine step0 fun offset _ => ?_
        refine Costs.bind' (n := 196) (m := 109) (pad_loop_costs hc d offset) (fun s hs => ?_) (by decide)
        obtain ⟨buf, i⟩ := s
        dsimp only
        refine Costs.bind' (n := 1) (m := 108) (P := fun _ => True) (Costs.testThen (n := 0) (fun _ => ?_) fun _ => ?_) (fun _ _ => ?_) (by decide)
        · cost
          exact Costs.pure trivial
        · exact Costs.pure trivial
        refine Costs.bind' (n := 2) (m := 106) (P := fun _ => True) (Costs.testThen (n := 1) (fun _ => ?_) fun _ => ?_) (fun _ _ => ?_) (by decide)
        · exact Costs.op (Nat.le_refl 1) fun _ _ => trivial
        · exact Costs.pure trivial
        cost
        refine Costs.bind' (n := 9) (m := 97) (P := fun _ => True) (Costs.testThen (n := 8) (fun _ => ?_) fun _ => ?_) (fun _ _ => ?_) (by decide)
        · iterate 8 cost
          exact Costs.op (Nat.le_refl 1) fun _ _ => trivial
        · exact Costs.pure trivial
        exact copy_w_costs hc _ _
      · refine step0 fun k hk => ?_
        have := addUsize_one hk hlt l4
        subst this
        iterate 8 cost
        refine Costs.bind' (n := 256) (m := 16) (small_lines_costs c w hw _ _ _ _ _ _ _ _) (fun s _ => ?_) (by decide)
        obtain ⟨w, a, b, c, d, e, f, g, h⟩ := s
        dsimp only
        iterate 16 cost
        refine Costs.pure fun s' h => ?_
        cases h
        dsimp only
        omega
  · obtain ⟨state, chunk⟩ := s
    dsimp only
    refine Costs.bind' (n := 73) (m := 0) (P := fun _ => True) (Costs.whileR (I := fun s => s.2 ≤ 8)
      (Φ := fun s => 9 * (8 - s.2) + 1) ?_ c.usizeMod (List.replicate 32 0#8, 0) (Nat.zero_le _))
      (fun _ _ => Costs.pure trivial) (by decide)
    rintro ⟨out, i⟩ hi
    dsimp only at *
    refine ⟨decide (i < 8), Costs.pure rfl, by omega, fun _ => trivial, fun h => ⟨8, ?_, ?_⟩⟩
    · have := of_decide_eq_true h
      omega
    · have hi := of_decide_eq_true h
      iterate 20 cost
      refine step0 fun k hk => ?_
      have := addUsize_one hk hi (by have := usizeMod_ge hc; omega)
      subst this
      exact Costs.pure (by dsimp only; omega)

theorem const_hash_costs {c : Cfg} (hc : c.Valid) (d : List Byte) (fin : Bool) :
    Costs (637 * ((d.length + 72) / 64) + 74) (fun _ => True) (Midstate.const_hash c d fin) := by
  unfold Midstate.const_hash
  split
  · exact const_hash_small_costs hc d fin
  · exact const_hash_fast_costs hc d fin

theorem hash_tag_costs {c : Cfg} (hc : c.Valid) (tag : List Byte) :
    Costs (637 * ((tag.length + 72) / 64) + 1615) (fun _ => True) (Midstate.hash_tag c tag) := by
  unfold Midstate.hash_tag Hash.const_hash
  refine Costs.bind' (n := 637 * ((tag.length + 72) / 64) + 74) (m := 1541) (P := fun _ => True)
    (Costs.bind' (m := 0) (P := fun _ => True) (const_hash_costs hc tag true) (fun _ _ => Costs.pure trivial) (by omega))
    (fun hash _ => ?_) (by omega)
  refine Costs.bind' (n := 193) (m := 1348) (P := fun s => s.1.length = 64) (Costs.whileR
    (I := fun s => s.1.length = 64 ∧ s.2 ≤ 64) (Φ := fun s => 3 * (64 - s.2) + 1) ?_ c.usizeMod
    (List.replicate 64 0#8, 0) ⟨List.length_replicate, Nat.zero_le _⟩) (fun s hs => ?_) (by decide)
  · rintro ⟨buf, i⟩ ⟨hb, hi⟩
    dsimp only at *
    rw [hb]
    refine ⟨decide (i < 64), Costs.pure rfl, by omega, fun _ => rfl, fun h => ⟨2, ?_, ?_⟩⟩
    · have := of_decide_eq_true h
      omega
    · have hi := of_decide_eq_true h
      cost
      cost
      refine step1 fun b' hb' => ?_
      refine step0 fun k hk => ?_
      have := addUsize_one hk hi (by have := usizeMod_ge hc; omega)
      subst this
      exact Costs.pure (by dsimp only; have := (indexSet_len hb').2; omega)
  · have h := const_hash_costs hc s.1 false
    rw [hs] at h
    exact h

end Sha256
end Chf.Seen
