import Verif.Proofs.Seen.BlockCosts

/-!
# How much is seen of the engines with a buffer
-/

namespace Chf.Seen
open Chf Tr

theorem addUsize_ok {c : Cfg} {a b r : Nat} (h : Chf.addUsize c a b = .ok r) : r = (a + b) % c.usizeMod := by
  unfold Chf.addUsize at h
  split at h
  · cases h; rw [Nat.mod_eq_of_lt ‹_›]
  · split at h
    · cases h
    · cases h; rfl

theorem dvd_usizeMod {c : Cfg} (hc : c.Valid) {n : Nat} (h : n ∣ 65536) : n ∣ c.usizeMod := by
  refine Nat.dvd_trans h ?_
  unfold Cfg.usizeMod
  rcases hc with h | h | h <;> rw [h] <;> decide

theorem addUsize_costs {c : Cfg} (hc : c.Valid) {B : Nat} (hB : B ∣ 65536) (a b : Nat) :
    Costs 0 (fun r => r % B = (a + b) % B) (Tr.addUsize c a b) :=
  Costs.op (Nat.le_refl _) fun r h => by
    rw [addUsize_ok h, Nat.mod_mod_of_dvd _ (dvd_usizeMod hc hB)]

theorem addUsize_exact {c : Cfg} (hc : c.Valid) {a b : Nat} (h : a + b < 65536) :
    Costs 0 (fun r => r = a + b) (Tr.addUsize c a b) :=
  Costs.op (Nat.le_refl _) fun r hr => by
    have := usizeMod_ge hc
    rw [addUsize_ok hr, Nat.mod_eq_of_lt (by omega)]

theorem subUsize_exact {c : Cfg} {a b : Nat} (h : b ≤ a) :
    Costs 0 (fun r => r = a - b) (Tr.subUsize c a b) :=
  Costs.op (Nat.le_refl _) fun r hr => by
    unfold Chf.subUsize at hr
    rw [if_pos h] at hr
    exact (Except.ok.inj hr).symm

theorem sliceTo_costs {α : Type} {s : List α} {n : Nat} :
    Costs 1 (fun r => r.length = n ∧ n ≤ s.length) (Tr.sliceTo s n) :=
  Costs.op (Nat.le_refl _) fun r hr => by
    unfold Chf.sliceTo at hr
    split at hr
    · cases hr
      exact ⟨by rw [List.length_take]; omega, ‹_›⟩
    · cases hr

theorem sliceFrom_costs {α : Type} {s : List α} {n : Nat} :
    Costs 1 (fun r => r.length = s.length - n) (Tr.sliceFrom s n) :=
  Costs.op (Nat.le_refl _) fun r hr => by
    unfold Chf.sliceFrom at hr
    split at hr
    · cases hr
      rw [List.length_drop]
    · cases hr

theorem checkRange_costs {α : Type} {s : List α} {i j : Nat} :
    Costs 1 (fun _ => True) (Tr.checkRange s i j) :=
  Costs.op (Nat.le_refl _) fun _ _ => trivial

theorem copyIntoRange_costs {α : Type} {s t : List α} {i j : Nat} :
    Costs 2 (fun r => r.length = s.length) (Tr.copyIntoRange s i j t) :=
  Costs.op (Nat.le_refl _) fun r hr => by
    unfold Chf.copyIntoRange at hr
    split at hr
    · split at hr
      · cases hr
        simp only [List.length_append, List.length_take, List.length_drop]
        omega
      · cases hr
    · cases hr

/-- What may be seen of the loop of `input`, with `p` bytes waiting and `r` to come. -/
def inputRoom (B K p r : Nat) : Nat := 1 + (7 + K) * ((p + r) / B) + if r = 0 then 0 else 7

theorem inputRoom_le (B K p r : Nat) : inputRoom B K p r ≤ 8 + (7 + K) * ((p + r) / B) := by
  unfold inputRoom
  split <;> omega

/-- A step that fills the buffer. -/
theorem inputRoom_full {B K p r : Nat} (hp : p < B) (h : B ≤ p + r) :
    7 + K + inputRoom B K 0 (r - (B - p)) ≤ inputRoom B K p r := by
  unfold inputRoom
  have h1 : (p + r) / B = (0 + (r - (B - p))) / B + 1 := by
    have : p + r = (0 + (r - (B - p))) + B := by omega
    rw [this, Nat.add_div_right _ (by omega)]
  rw [h1, Nat.mul_succ]
  split <;> split <;> omega

/-- A step that does not. -/
theorem inputRoom_part {B K p r : Nat} (hr : 0 < r) (h : p + r < B) :
    7 + inputRoom B K (p + r) 0 ≤ inputRoom B K p r := by
  unfold inputRoom
  rw [Nat.div_eq_of_lt h, Nat.add_zero, Nat.div_eq_of_lt h, if_pos rfl, if_neg (by omega)]
  omega

namespace Sha1

theorem input_costs {c : Cfg} (hc : c.Valid) {e : Source.Sha1.Engine} (h : Sized e) (d : List Byte) :
    Costs (inputRoom 64 914 (e.length % 64) d.length)
      (fun e' => Sized e' ∧ e'.length % 64 = (e.length + d.length) % 64) (Engine.input c e d) := by
  unfold Engine.input
  refine Costs.bind' (n := inputRoom 64 914 (e.length % 64) d.length) (m := 0) (Costs.whileR
    (I := fun s => Sized s.1 ∧ (s.1.length + s.2.length) % 64 = (e.length + d.length) % 64)
    (J := fun s => Sized s.1 ∧ s.1.length % 64 = (e.length + d.length) % 64)
    (Φ := fun s => inputRoom 64 914 (s.1.length % 64) s.2.length) ?_ c.usizeMod (e, d) ⟨h, rfl⟩)
    (fun s hs => Costs.pure hs) (by omega)
  rintro ⟨⟨b, g, l⟩, inp⟩ ⟨⟨hb, hg⟩, hl⟩
  dsimp only at *
  refine ⟨!inp.isEmpty, Costs.pure rfl, by unfold inputRoom; omega, fun he => ?_, fun hne => ?_⟩
  · have : inp = [] := by simpa using he
    subst this
    exact ⟨⟨hb, hg⟩, hl⟩
  have hr : 0 < inp.length := by
    cases inp with
    | nil => cases hne
    | cons _ _ => simp
  have hp : l % 64 < 64 := Nat.mod_lt _ (by decide)
  have hB : Source.Sha1.Engine.BLOCK_SIZE = 64 := rfl
  rw [hB]
  have room : 7 ≤ inputRoom 64 914 (l % 64) inp.length := by
    unfold inputRoom
    rw [if_neg (by omega)]
    omega
  by_cases hfull : 64 ≤ l % 64 + inp.length
  · have hroom := inputRoom_full (K := 914) hp hfull
    refine ⟨6 + 914, by omega, ?_⟩
    refine Costs.bind' (m := 6 + 914) (subUsize_exact (by omega)) (fun x hx => ?_) (by omega)
    subst hx
    refine Costs.bind' (m := 6 + 914) (addUsize_exact hc (by omega)) (fun x hx => ?_) (by omega)
    refine Costs.bind' (m := 5 + 914) checkRange_costs (fun _ _ => ?_) (by omega)
    refine Costs.bind' (m := 4 + 914) sliceTo_costs (fun s hs => ?_) (by omega)
    refine Costs.bind' (m := 2 + 914) copyIntoRange_costs (fun b' hb' => ?_) (by omega)
    refine Costs.bind' (m := 2 + 914) (addUsize_costs hc (by decide : 64 ∣ 65536) _ _) (fun l' hl' => ?_) (by omega)
    have h0 : l' % 64 = 0 := by omega
    refine Costs.bind' (n := 1 + 914) (m := 1) (P := fun e' => Sized e' ∧ e'.length = l')
      (Costs.testThen (fun _ => process_block_costs (e := ⟨b', g, l'⟩) c ⟨hb'.trans hb, hg⟩) fun hf => ?_) (fun e' he' => ?_) (by omega)
    · simp [h0] at hf
    · refine Costs.bind' (m := 0) sliceFrom_costs (fun i hi => Costs.pure ⟨⟨he'.1, ?_⟩, ?_⟩) (by omega)
      · dsimp only
        rw [he'.2]
        omega
      · dsimp only
        have h1 : e'.length % 64 = 0 := by rw [he'.2]; exact h0
        have h2 : i.length = inp.length - (64 - l % 64) := by omega
        rw [h1, h2]
        omega
  · have hroom := inputRoom_part (K := 914) hr (by omega : l % 64 + inp.length < 64)
    refine ⟨6, by omega, ?_⟩
    refine Costs.bind' (m := 6) (subUsize_exact (by omega)) (fun x hx => ?_) (by omega)
    subst hx
    refine Costs.bind' (m := 6) (addUsize_exact hc (by omega)) (fun x hx => ?_) (by omega)
    refine Costs.bind' (m := 5) checkRange_costs (fun _ _ => ?_) (by omega)
    refine Costs.bind' (m := 4) sliceTo_costs (fun s hs => ?_) (by omega)
    refine Costs.bind' (m := 2) copyIntoRange_costs (fun b' hb' => ?_) (by omega)
    refine Costs.bind' (m := 2) (addUsize_costs hc (by decide : 64 ∣ 65536) _ _) (fun l' hl' => ?_) (by omega)
    have h0 : l' % 64 = l % 64 + inp.length := by omega
    refine Costs.bind' (n := 1 + 0) (m := 1) (P := fun e' => Sized e' ∧ e'.length = l')
      (Costs.testThen (fun hf => ?_) fun _ => Costs.pure ⟨⟨hb'.trans hb, hg⟩, rfl⟩) (fun e' he' => ?_) (by omega)
    · have : l' % 64 = 0 := by simpa using hf
      omega
    · refine Costs.bind' (m := 0) sliceFrom_costs (fun i hi => Costs.pure ⟨⟨he'.1, ?_⟩, ?_⟩) (by omega)
      · dsimp only
        rw [he'.2]
        omega
      · dsimp only
        have h1 : e'.length % 64 = l % 64 + inp.length := by rw [he'.2]; exact h0
        have h2 : i.length = 0 := by omega
        rw [h1, h2]
        omega

end Sha1

namespace Ripemd160

theorem input_costs {c : Cfg} (hc : c.Valid) {e : Source.Ripemd160.Engine} (h : Sized e) (d : List Byte) :
    Costs (inputRoom 64 1879 (e.length % 64) d.length)
      (fun e' => Sized e' ∧ e'.length % 64 = (e.length + d.length) % 64) (Engine.input c e d) := by
  unfold Engine.input
  refine Costs.bind' (n := inputRoom 64 1879 (e.length % 64) d.length) (m := 0) (Costs.whileR
    (I := fun s => Sized s.1 ∧ (s.1.length + s.2.length) % 64 = (e.length + d.length) % 64)
    (J := fun s => Sized s.1 ∧ s.1.length % 64 = (e.length + d.length) % 64)
    (Φ := fun s => inputRoom 64 1879 (s.1.length % 64) s.2.length) ?_ c.usizeMod (e, d) ⟨h, rfl⟩)
    (fun s hs => Costs.pure hs) (by omega)
  rintro ⟨⟨b, g, l⟩, inp⟩ ⟨⟨hb, hg⟩, hl⟩
  dsimp only at *
  refine ⟨!inp.isEmpty, Costs.pure rfl, by unfold inputRoom; omega, fun he => ?_, fun hne => ?_⟩
  · have : inp = [] := by simpa using he
    subst this
    exact ⟨⟨hb, hg⟩, hl⟩
  have hr : 0 < inp.length := by
    cases inp with
    | nil => cases hne
    | cons _ _ => simp
  have hp : l % 64 < 64 := Nat.mod_lt _ (by decide)
  have hB : Source.Ripemd160.Engine.BLOCK_SIZE = 64 := rfl
  rw [hB]
  have room : 7 ≤ inputRoom 64 1879 (l % 64) inp.length := by
    unfold inputRoom
    rw [if_neg (by omega)]
    omega
  by_cases hfull : 64 ≤ l % 64 + inp.length
  · have hroom := inputRoom_full (K := 1879) hp hfull
    refine ⟨6 + 1879, by omega, ?_⟩
    refine Costs.bind' (m := 6 + 1879) (subUsize_exact (by omega)) (fun x hx => ?_) (by omega)
    subst hx
    refine Costs.bind' (m := 6 + 1879) (addUsize_exact hc (by omega)) (fun x hx => ?_) (by omega)
    refine Costs.bind' (m := 5 + 1879) checkRange_costs (fun _ _ => ?_) (by omega)
    refine Costs.bind' (m := 4 + 1879) sliceTo_costs (fun s hs => ?_) (by omega)
    refine Costs.bind' (m := 2 + 1879) copyIntoRange_costs (fun b' hb' => ?_) (by omega)
    refine Costs.bind' (m := 2 + 1879) (addUsize_costs hc (by decide : 64 ∣ 65536) _ _) (fun l' hl' => ?_) (by omega)
    have h0 : l' % 64 = 0 := by omega
    refine Costs.bind' (n := 1 + 1879) (m := 1) (P := fun e' => Sized e' ∧ e'.length = l')
      (Costs.testThen (fun _ => process_block_costs (e := ⟨b', g, l'⟩) c ⟨hb'.trans hb, hg⟩) fun hf => ?_) (fun e' he' => ?_) (by omega)
    · simp [h0] at hf
    · refine Costs.bind' (m := 0) sliceFrom_costs (fun i hi => Costs.pure ⟨⟨he'.1, ?_⟩, ?_⟩) (by omega)
      · dsimp only
        rw [he'.2]
        omega
      · dsimp only
        have h1 : e'.length % 64 = 0 := by rw [he'.2]; exact h0
        have h2 : i.length = inp.length - (64 - l % 64) := by omega
        rw [h1, h2]
        omega
  · have hroom := inputRoom_part (K := 1879) hr (by omega : l % 64 + inp.length < 64)
    refine ⟨6, by omega, ?_⟩
    refine Costs.bind' (m := 6) (subUsize_exact (by omega)) (fun x hx => ?_) (by omega)
    subst hx
    refine Costs.bind' (m := 6) (addUsize_exact hc (by omega)) (fun x hx => ?_) (by omega)
    refine Costs.bind' (m := 5) checkRange_costs (fun _ _ => ?_) (by omega)
    refine Costs.bind' (m := 4) sliceTo_costs (fun s hs => ?_) (by omega)
    refine Costs.bind' (m := 2) copyIntoRange_costs (fun b' hb' => ?_) (by omega)
    refine Costs.bind' (m := 2) (addUsize_costs hc (by decide : 64 ∣ 65536) _ _) (fun l' hl' => ?_) (by omega)
    have h0 : l' % 64 = l % 64 + inp.length := by omega
    refine Costs.bind' (n := 1 + 0) (m := 1) (P := fun e' => Sized e' ∧ e'.length = l')
      (Costs.testThen (fun hf => ?_) fun _ => Costs.pure ⟨⟨hb'.trans hb, hg⟩, rfl⟩) (fun e' he' => ?_) (by omega)
    · have : l' % 64 = 0 := by simpa using hf
      omega
    · refine Costs.bind' (m := 0) sliceFrom_costs (fun i hi => Costs.pure ⟨⟨he'.1, ?_⟩, ?_⟩) (by omega)
      · dsimp only
        rw [he'.2]
        omega
      · dsimp only
        have h1 : e'.length % 64 = l % 64 + inp.length := by rw [he'.2]; exact h0
        have h2 : i.length = 0 := by omega
        rw [h1, h2]
        omega

end Ripemd160

namespace Sha512

theorem input_costs {c : Cfg} (hc : c.Valid) {e : Source.Sha512.Engine} (h : Sized e) (d : List Byte) :
    Costs (inputRoom 128 457 (e.length % 128) d.length)
      (fun e' => Sized e' ∧ e'.length % 128 = (e.length + d.length) % 128) (Engine.input c e d) := by
  unfold Engine.input
  refine Costs.bind' (n := inputRoom 128 457 (e.length % 128) d.length) (m := 0) (Costs.whileR
    (I := fun s => Sized s.1 ∧ (s.1.length + s.2.length) % 128 = (e.length + d.length) % 128)
    (J := fun s => Sized s.1 ∧ s.1.length % 128 = (e.length + d.length) % 128)
    (Φ := fun s => inputRoom 128 457 (s.1.length % 128) s.2.length) ?_ c.usizeMod (e, d) ⟨h, rfl⟩)
    (fun s hs => Costs.pure hs) (by omega)
  rintro ⟨⟨g, l, b⟩, inp⟩ ⟨⟨hb, hg⟩, hl⟩
  dsimp only at *
  refine ⟨!inp.isEmpty, Costs.pure rfl, by unfold inputRoom; omega, fun he => ?_, fun hne => ?_⟩
  · have : inp = [] := by simpa using he
    subst this
    exact ⟨⟨hb, hg⟩, hl⟩
  have hr : 0 < inp.length := by
    cases inp with
    | nil => cases hne
    | cons _ _ => simp
  have hp : l % 128 < 128 := Nat.mod_lt _ (by decide)
  have hB : Source.Sha512.Engine.BLOCK_SIZE = 128 := rfl
  rw [hB]
  have room : 7 ≤ inputRoom 128 457 (l % 128) inp.length := by
    unfold inputRoom
    rw [if_neg (by omega)]
    omega
  by_cases hfull : 128 ≤ l % 128 + inp.length
  · have hroom := inputRoom_full (K := 457) hp hfull
    refine ⟨6 + 457, by omega, ?_⟩
    refine Costs.bind' (m := 6 + 457) (subUsize_exact (by omega)) (fun x hx => ?_) (by omega)
    subst hx
    refine Costs.bind' (m := 6 + 457) (addUsize_exact hc (by omega)) (fun x hx => ?_) (by omega)
    refine Costs.bind' (m := 5 + 457) checkRange_costs (fun _ _ => ?_) (by omega)
    refine Costs.bind' (m := 4 + 457) sliceTo_costs (fun s hs => ?_) (by omega)
    refine Costs.bind' (m := 2 + 457) copyIntoRange_costs (fun b' hb' => ?_) (by omega)
    refine Costs.bind' (m := 2 + 457) (addUsize_costs hc (by decide : 128 ∣ 65536) _ _) (fun l' hl' => ?_) (by omega)
    have h0 : l' % 128 = 0 := by omega
    refine Costs.bind' (n := 1 + 457) (m := 1) (P := fun e' => Sized e' ∧ e'.length = l')
      (Costs.testThen (fun _ => process_block_costs (e := ⟨g, l', b'⟩) c ⟨hb'.trans hb, hg⟩) fun hf => ?_) (fun e' he' => ?_) (by omega)
    · simp [h0] at hf
    · refine Costs.bind' (m := 0) sliceFrom_costs (fun i hi => Costs.pure ⟨⟨he'.1, ?_⟩, ?_⟩) (by omega)
      · dsimp only
        rw [he'.2]
        omega
      · dsimp only
        have h1 : e'.length % 128 = 0 := by rw [he'.2]; exact h0
        have h2 : i.length = inp.length - (128 - l % 128) := by omega
        rw [h1, h2]
        omega
  · have hroom := inputRoom_part (K := 457) hr (by omega : l % 128 + inp.length < 128)
    refine ⟨6, by omega, ?_⟩
    refine Costs.bind' (m := 6) (subUsize_exact (by omega)) (fun x hx => ?_) (by omega)
    subst hx
    refine Costs.bind' (m := 6) (addUsize_exact hc (by omega)) (fun x hx => ?_) (by omega)
    refine Costs.bind' (m := 5) checkRange_costs (fun _ _ => ?_) (by omega)
    refine Costs.bind' (m := 4) sliceTo_costs (fun s hs => ?_) (by omega)
    refine Costs.bind' (m := 2) copyIntoRange_costs (fun b' hb' => ?_) (by omega)
    refine Costs.bind' (m := 2) (addUsize_costs hc (by decide : 128 ∣ 65536) _ _) (fun l' hl' => ?_) (by omega)
    have h0 : l' % 128 = l % 128 + inp.length := by omega
    refine Costs.bind' (n := 1 + 0) (m := 1) (P := fun e' => Sized e' ∧ e'.length = l')
      (Costs.testThen (fun hf => ?_) fun _ => Costs.pure ⟨⟨hb'.trans hb, hg⟩, rfl⟩) (fun e' he' => ?_) (by omega)
    · have : l' % 128 = 0 := by simpa using hf
      omega
    · refine Costs.bind' (m := 0) sliceFrom_costs (fun i hi => Costs.pure ⟨⟨he'.1, ?_⟩, ?_⟩) (by omega)
      · dsimp only
        rw [he'.2]
        omega
      · dsimp only
        have h1 : e'.length % 128 = l % 128 + inp.length := by rw [he'.2]; exact h0
        have h2 : i.length = 0 := by omega
        rw [h1, h2]
        omega

end Sha512

namespace Sha256

theorem input_costs {c : Cfg} (hc : c.Valid) {e : Source.Sha256.Engine} (h : Sized e) (d : List Byte) :
    Costs (inputRoom 64 361 (e.length % 64) d.length)
      (fun e' => Sized e' ∧ e'.length % 64 = (e.length + d.length) % 64) (Engine.input c e d) := by
  unfold Engine.input
  refine Costs.bind' (n := inputRoom 64 361 (e.length % 64) d.length) (m := 0) (Costs.whileR
    (I := fun s => Sized s.1 ∧ (s.1.length + s.2.length) % 64 = (e.length + d.length) % 64)
    (J := fun s => Sized s.1 ∧ s.1.length % 64 = (e.length + d.length) % 64)
    (Φ := fun s => inputRoom 64 361 (s.1.length % 64) s.2.length) ?_ c.usizeMod (e, d) ⟨h, rfl⟩)
    (fun s hs => Costs.pure hs) (by omega)
  rintro ⟨⟨b, g, l⟩, inp⟩ ⟨⟨hb, hg⟩, hl⟩
  dsimp only at *
  refine ⟨!inp.isEmpty, Costs.pure rfl, by unfold inputRoom; omega, fun he => ?_, fun hne => ?_⟩
  · have : inp = [] := by simpa using he
    subst this
    exact ⟨⟨hb, hg⟩, hl⟩
  have hr : 0 < inp.length := by
    cases inp with
    | nil => cases hne
    | cons _ _ => simp
  have hp : l % 64 < 64 := Nat.mod_lt _ (by decide)
  have hB : Source.Sha256.Engine.BLOCK_SIZE = 64 := rfl
  rw [hB]
  have room : 7 ≤ inputRoom 64 361 (l % 64) inp.length := by
    unfold inputRoom
    rw [if_neg (by omega)]
    omega
  by_cases hfull : 64 ≤ l % 64 + inp.length
  · have hroom := inputRoom_full (K := 361) hp hfull
    refine ⟨6 + 361, by omega, ?_⟩
    refine Costs.bind' (m := 6 + 361) (subUsize_exact (by omega)) (fun x hx => ?_) (by omega)
    subst hx
    refine Costs.bind' (m := 6 + 361) (addUsize_exact hc (by omega)) (fun x hx => ?_) (by omega)
    refine Costs.bind' (m := 5 + 361) checkRange_costs (fun _ _ => ?_) (by omega)
    refine Costs.bind' (m := 4 + 361) sliceTo_costs (fun s hs => ?_) (by omega)
    refine Costs.bind' (m := 2 + 361) copyIntoRange_costs (fun b' hb' => ?_) (by omega)
    refine Costs.bind' (m := 2 + 361) (addUsize_costs hc (by decide : 64 ∣ 65536) _ _) (fun l' hl' => ?_) (by omega)
    have h0 : l' % 64 = 0 := by omega
    refine Costs.bind' (n := 1 + 361) (m := 1) (P := fun e' => Sized e' ∧ e'.length = l')
      (Costs.testThen (fun _ => process_block_costs (e := ⟨b', g, l'⟩) hc ⟨hb'.trans hb, hg⟩) fun hf => ?_) (fun e' he' => ?_) (by omega)
    · simp [h0] at hf
    · refine Costs.bind' (m := 0) sliceFrom_costs (fun i hi => Costs.pure ⟨⟨he'.1, ?_⟩, ?_⟩) (by omega)
      · dsimp only
        rw [he'.2]
        omega
      · dsimp only
        have h1 : e'.length % 64 = 0 := by rw [he'.2]; exact h0
        have h2 : i.length = inp.length - (64 - l % 64) := by omega
        rw [h1, h2]
        omega
  · have hroom := inputRoom_part (K := 361) hr (by omega : l % 64 + inp.length < 64)
    refine ⟨6, by omega, ?_⟩
    refine Costs.bind' (m := 6) (subUsize_exact (by omega)) (fun x hx => ?_) (by omega)
    subst hx
    refine Costs.bind' (m := 6) (addUsize_exact hc (by omega)) (fun x hx => ?_) (by omega)
    refine Costs.bind' (m := 5) checkRange_costs (fun _ _ => ?_) (by omega)
    refine Costs.bind' (m := 4) sliceTo_costs (fun s hs => ?_) (by omega)
    refine Costs.bind' (m := 2) copyIntoRange_costs (fun b' hb' => ?_) (by omega)
    refine Costs.bind' (m := 2) (addUsize_costs hc (by decide : 64 ∣ 65536) _ _) (fun l' hl' => ?_) (by omega)
    have h0 : l' % 64 = l % 64 + inp.length := by omega
    refine Costs.bind' (n := 1 + 0) (m := 1) (P := fun e' => Sized e' ∧ e'.length = l')
      (Costs.testThen (fun hf => ?_) fun _ => Costs.pure ⟨⟨hb'.trans hb, hg⟩, rfl⟩) (fun e' he' => ?_) (by omega)
    · have : l' % 64 = 0 := by simpa using hf
      omega
    · refine Costs.bind' (m := 0) sliceFrom_costs (fun i hi => Costs.pure ⟨⟨he'.1, ?_⟩, ?_⟩) (by omega)
      · dsimp only
        rw [he'.2]
        omega
      · dsimp only
        have h1 : e'.length % 64 = l % 64 + inp.length := by rw [he'.2]; exact h0
        have h2 : i.length = 0 := by omega
        rw [h1, h2]
        omega

end Sha256

end Chf.Seen
