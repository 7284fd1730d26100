import Verif.Proofs.Seen.Costs
import Verif.Proofs.Seen.Blocks
import Verif.Proofs.Alg

/-!
# How much is seen of the block functions

What is seen does not depend on the contents of the engine, so one engine is evaluated.
-/

namespace Chf.Seen
open Chf Tr

/-- `x` does not panic, `n` things are seen of it, and its result passes the test `p`. -/
def sees {α : Type} (n : Nat) (p : α → Bool) (x : Tr α) : Bool :=
  x.seen.length == n && match x.res with
    | .ok a => p a
    | .error _ => false

theorem SameSeen.costs {α β : Type} {n : Nat} {p : β → Bool} {R : α → β → Prop} {x : Tr α} {y : Tr β}
    {Q : α → Prop} (h : SameSeen R x y) (hy : sees n p y = true) (hq : ∀ a b, p b = true → R a b → Q a) :
    Costs n Q x := by
  unfold sees at hy
  obtain ⟨hs, hr⟩ := h
  rw [Bool.and_eq_true, beq_iff_eq] at hy
  cases hx : x.res with
  | error f =>
    cases hy' : y.res with
    | error g => rw [hy'] at hy; cases hy.2
    | ok b => rw [hx, hy'] at hr; exact hr.elim
  | ok a =>
    cases hy' : y.res with
    | error g => rw [hx, hy'] at hr; exact hr.elim
    | ok b =>
      rw [hx, hy'] at hr
      rw [hy'] at hy
      refine ⟨?_, fun a' ha => ?_⟩
      · rw [hs, hy.1, hx]
        exact Nat.le_refl _
      · rw [hx] at ha
        exact Except.ok.inj ha ▸ hq a b hy.2 hr

theorem debugAssert_true (c : Cfg) : Tr.debugAssert c true = Tr.debugAssert .release64 true := by
  unfold Tr.debugAssert Chf.debugAssert
  simp

theorem subUsize_le (c : Cfg) {a b : Nat} (h : b ≤ a) : Tr.subUsize c a b = Tr.subUsize .release64 a b := by
  unfold Tr.subUsize Chf.subUsize
  simp [h]

theorem each_congr {α σ : Type} {f g : σ → α → Tr σ} : ∀ {xs : List α} {s : σ},
    (∀ x ∈ xs, ∀ s, f s x = g s x) → Tr.each xs f s = Tr.each xs g s
  | [], _, _ => rfl
  | x :: xs, s, h => by
      unfold Tr.each
      rw [h x (List.mem_cons_self ..)]
      refine congrArg (Tr.test true >>= ·) (funext fun _ => congrArg (g s x >>= ·) (funext fun s' => ?_))
      exact each_congr fun y hy => h y (List.mem_cons_of_mem _ hy)

namespace Sha1

/-- An engine to evaluate. -/
def blank : Source.Sha1.Engine := ⟨List.replicate 64 0, List.replicate 5 0, 0⟩

/-- The sizes of the arrays. -/
abbrev Sized (e : Source.Sha1.Engine) : Prop := e.buffer.length = 64 ∧ e.h.length = 5

theorem process_block_cfg (c : Cfg) :
    Engine.process_block c blank = Engine.process_block .release64 blank := by
  unfold Engine.process_block
  have h : (blank.buffer.length == Source.Sha1.BLOCK_SIZE) = true := by decide
  rw [h, debugAssert_true c]
  dsimp only
  refine congrArg (_ >>= ·) (funext fun _ => congrArg (_ >>= ·) (funext fun w => ?_))
  refine congrArg (· >>= _) (each_congr fun i hi w => ?_)
  have : 16 ≤ i := by
    unfold Rs.range at hi
    exact (List.mem_range'_1.1 hi).1
  rw [subUsize_le c (by omega : 3 ≤ i), subUsize_le c (by omega : 8 ≤ i), subUsize_le c (by omega : 14 ≤ i),
    subUsize_le c this]

theorem process_block_costs (c : Cfg) {e : Source.Sha1.Engine} (h : Sized e) :
    Costs 914 (fun e' => Sized e' ∧ e'.length = e.length) (Engine.process_block c e) := by
  have hs := process_block_same c (R := fun n _ => n = e.length) (e := e) (e' := blank) ⟨h.1, h.2, rfl⟩
  refine SameSeen.costs (p := fun e => decide (Sized e)) hs ?_ fun a b hb hr => ?_
  · rw [process_block_cfg]
    decide +kernel
  · have hb := of_decide_eq_true hb
    exact ⟨⟨hr.1.trans hb.1, hr.2.1.trans hb.2⟩, hr.2.2⟩

end Sha1

namespace Ripemd160

/-- An engine to evaluate. -/
def blank : Source.Ripemd160.Engine := ⟨List.replicate 64 0, List.replicate 5 0, 0⟩

/-- The sizes of the arrays. -/
abbrev Sized (e : Source.Ripemd160.Engine) : Prop := e.buffer.length = 64 ∧ e.h.length = 5

theorem process_block_fast_cfg (c : Cfg) :
    Engine.process_block_fast c blank = Engine.process_block_fast .release64 blank := by
  unfold Engine.process_block_fast
  have h : (blank.buffer.length == Source.Ripemd160.BLOCK_SIZE) = true := by decide
  rw [h, debugAssert_true c]
  have hl : Engine.process_block_fast.lines1 c = Engine.process_block_fast.lines1 .release64 := rfl
  rw [hl]

theorem process_block_fast_costs (c : Cfg) {e : Source.Ripemd160.Engine} (h : Sized e) :
    Costs 1879 (fun e' => Sized e' ∧ e'.length = e.length) (Engine.process_block_fast c e) := by
  have hs := process_block_fast_same c (R := fun n _ => n = e.length) (e := e) (e' := blank) ⟨h.1, h.2, rfl⟩
  refine SameSeen.costs (p := fun e => decide (Sized e)) hs ?_ fun a b hb hr => ?_
  · rw [process_block_fast_cfg]
    decide +kernel
  · have hb := of_decide_eq_true hb
    exact ⟨⟨hr.1.trans hb.1, hr.2.1.trans hb.2⟩, hr.2.2⟩

theorem process_block_small_cfg (c : Cfg) :
    Engine.process_block_small c blank = Engine.process_block_small .release64 blank := by
  unfold Engine.process_block_small
  have h : (blank.buffer.length == Source.Ripemd160.BLOCK_SIZE) = true := by decide
  rw [h, debugAssert_true c]
  have hl : Engine.process_block_small.lines1 c = Engine.process_block_small.lines1 .release64 := rfl
  rw [hl]

theorem process_block_small_costs (c : Cfg) {e : Source.Ripemd160.Engine} (h : Sized e) :
    Costs 1879 (fun e' => Sized e' ∧ e'.length = e.length) (Engine.process_block_small c e) := by
  have hs := process_block_small_same c (R := fun n _ => n = e.length) (e := e) (e' := blank) ⟨h.1, h.2, rfl⟩
  refine SameSeen.costs (p := fun e => decide (Sized e)) hs ?_ fun a b hb hr => ?_
  · rw [process_block_small_cfg]
    decide +kernel
  · have hb := of_decide_eq_true hb
    exact ⟨⟨hr.1.trans hb.1, hr.2.1.trans hb.2⟩, hr.2.2⟩

theorem process_block_costs (c : Cfg) {e : Source.Ripemd160.Engine} (h : Sized e) :
    Costs 1879 (fun e' => Sized e' ∧ e'.length = e.length) (Engine.process_block c e) := by
  unfold Engine.process_block
  exact Costs.ite (fun _ => (process_block_small_costs c h).mono (by decide) fun _ h => h)
    fun _ => (process_block_fast_costs c h).mono (by decide) fun _ h => h

end Ripemd160

namespace Sha512

/-- An engine to evaluate. -/
def blank : Source.Sha512.Engine := ⟨List.replicate 8 0, 0, List.replicate 128 0⟩

/-- The sizes of the arrays. -/
abbrev Sized (e : Source.Sha512.Engine) : Prop := e.buffer.length = 128 ∧ e.h.length = 8

set_option maxRecDepth 4000 in
theorem process_block_fast_cfg (c : Cfg) :
    Engine.process_block_fast c blank = Engine.process_block_fast .release64 blank := by
  unfold Engine.process_block_fast
  have h : (blank.buffer.length == Source.Sha512.BLOCK_SIZE) = true := by decide
  rw [h, debugAssert_true c]
  have hl : Engine.process_block_fast.lines1 c = Engine.process_block_fast.lines1 .release64 := rfl
  rw [hl]

theorem process_block_fast_costs (c : Cfg) {e : Source.Sha512.Engine} (h : Sized e) :
    Costs 457 (fun e' => Sized e' ∧ e'.length = e.length) (Engine.process_block_fast c e) := by
  have hs := process_block_fast_same c (R := fun n _ => n = e.length) (e := e) (e' := blank) ⟨h.1, h.2, rfl⟩
  refine SameSeen.costs (p := fun e => decide (Sized e)) hs ?_ fun a b hb hr => ?_
  · rw [process_block_fast_cfg]
    decide +kernel
  · have hb := of_decide_eq_true hb
    exact ⟨⟨hr.1.trans hb.1, hr.2.1.trans hb.2⟩, hr.2.2⟩

set_option maxRecDepth 4000 in
theorem process_block_small_cfg (c : Cfg) :
    Engine.process_block_small c blank = Engine.process_block_small .release64 blank := by
  unfold Engine.process_block_small
  have h : (blank.buffer.length == Source.Sha512.BLOCK_SIZE) = true := by decide
  rw [h, debugAssert_true c]
  have hl : Engine.process_block_small.lines1 c = Engine.process_block_small.lines1 .release64 := rfl
  rw [hl]

theorem process_block_small_costs (c : Cfg) {e : Source.Sha512.Engine} (h : Sized e) :
    Costs 393 (fun e' => Sized e' ∧ e'.length = e.length) (Engine.process_block_small c e) := by
  have hs := process_block_small_same c (R := fun n _ => n = e.length) (e := e) (e' := blank) ⟨h.1, h.2, rfl⟩
  refine SameSeen.costs (p := fun e => decide (Sized e)) hs ?_ fun a b hb hr => ?_
  · rw [process_block_small_cfg]
    decide +kernel
  · have hb := of_decide_eq_true hb
    exact ⟨⟨hr.1.trans hb.1, hr.2.1.trans hb.2⟩, hr.2.2⟩

theorem process_block_costs (c : Cfg) {e : Source.Sha512.Engine} (h : Sized e) :
    Costs 457 (fun e' => Sized e' ∧ e'.length = e.length) (Engine.process_block c e) := by
  unfold Engine.process_block
  exact Costs.ite (fun _ => (process_block_small_costs c h).mono (by decide) fun _ h => h)
    fun _ => (process_block_fast_costs c h).mono (by decide) fun _ h => h

end Sha512

namespace Sha256

/-- An engine to evaluate. -/
def blank : Source.Sha256.Engine := ⟨List.replicate 64 0, List.replicate 8 0, 0⟩

/-- The sizes of the arrays. -/
abbrev Sized (e : Source.Sha256.Engine) : Prop := e.buffer.length = 64 ∧ e.h.length = 8

theorem software_process_block_fast_cfg (c : Cfg) :
    Engine.software_process_block_fast c blank = Engine.software_process_block_fast .release64 blank := by
  unfold Engine.software_process_block_fast
  have h : (blank.buffer.length == Source.Sha256.BLOCK_SIZE) = true := by decide
  rw [h, debugAssert_true c]
  have hl : Engine.software_process_block_fast.lines1 c = Engine.software_process_block_fast.lines1 .release64 := rfl
  rw [hl]

theorem software_process_block_fast_costs (c : Cfg) {e : Source.Sha256.Engine} (h : Sized e) :
    Costs 361 (fun e' => Sized e' ∧ e'.length = e.length) (Engine.software_process_block_fast c e) := by
  have hs := software_process_block_fast_same c (R := fun n _ => n = e.length) (e := e) (e' := blank) ⟨h.1, h.2, rfl⟩
  refine SameSeen.costs (p := fun e => decide (Sized e)) hs ?_ fun a b hb hr => ?_
  · rw [software_process_block_fast_cfg]
    decide +kernel
  · have hb := of_decide_eq_true hb
    exact ⟨⟨hr.1.trans hb.1, hr.2.1.trans hb.2⟩, hr.2.2⟩

theorem software_process_block_small_cfg (c : Cfg) :
    Engine.software_process_block_small c blank = Engine.software_process_block_small .release64 blank := by
  unfold Engine.software_process_block_small
  have h : (blank.buffer.length == Source.Sha256.BLOCK_SIZE) = true := by decide
  rw [h, debugAssert_true c]
  have hl : Engine.software_process_block_small.lines1 c = Engine.software_process_block_small.lines1 .release64 := rfl
  rw [hl]

theorem software_process_block_small_costs (c : Cfg) {e : Source.Sha256.Engine} (h : Sized e) :
    Costs 313 (fun e' => Sized e' ∧ e'.length = e.length) (Engine.software_process_block_small c e) := by
  have hs := software_process_block_small_same c (R := fun n _ => n = e.length) (e := e) (e' := blank) ⟨h.1, h.2, rfl⟩
  refine SameSeen.costs (p := fun e => decide (Sized e)) hs ?_ fun a b hb hr => ?_
  · rw [software_process_block_small_cfg]
    decide +kernel
  · have hb := of_decide_eq_true hb
    exact ⟨⟨hr.1.trans hb.1, hr.2.1.trans hb.2⟩, hr.2.2⟩

theorem addUsize_small {c : Cfg} (hc : c.Valid) {n : Nat} (h : n < 65536) :
    Tr.addUsize c 0 n = Tr.addUsize .release64 0 n := by
  have hM := usizeMod_ge hc
  have h1 : 0 + n < c.usizeMod := by omega
  have h2 : 0 + n < Cfg.release64.usizeMod := by have : 65536 ≤ Cfg.release64.usizeMod := by decide
                                                 omega
  unfold Tr.addUsize Chf.addUsize
  rw [if_pos h1, if_pos h2]

theorem process_block_simd_x86_intrinsics_cfg {c : Cfg} (hc : c.Valid) :
    Engine.process_block_simd_x86_intrinsics c blank =
      Engine.process_block_simd_x86_intrinsics .release64 blank := by
  have h8 : ∀ m, Engine.process_block_simd_x86_intrinsics.line1_8 c blank m 0 =
      Engine.process_block_simd_x86_intrinsics.line1_8 .release64 blank m 0 := fun m => by
    unfold Engine.process_block_simd_x86_intrinsics.line1_8
    rw [addUsize_small hc (by decide)]
  have h15 : ∀ m, Engine.process_block_simd_x86_intrinsics.line1_15 c blank m 0 =
      Engine.process_block_simd_x86_intrinsics.line1_15 .release64 blank m 0 := fun m => by
    unfold Engine.process_block_simd_x86_intrinsics.line1_15
    rw [addUsize_small hc (by decide)]
  have h22 : ∀ m, Engine.process_block_simd_x86_intrinsics.line1_22 c blank m 0 =
      Engine.process_block_simd_x86_intrinsics.line1_22 .release64 blank m 0 := fun m => by
    unfold Engine.process_block_simd_x86_intrinsics.line1_22
    rw [addUsize_small hc (by decide)]
  have hl : ∀ m, Engine.process_block_simd_x86_intrinsics.lines1 c blank m 0 =
      Engine.process_block_simd_x86_intrinsics.lines1 .release64 blank m 0 := fun m => by
    unfold Engine.process_block_simd_x86_intrinsics.lines1
    rw [h8, h15, h22]
    rfl
  unfold Engine.process_block_simd_x86_intrinsics
  dsimp only
  rw [hl]

theorem process_block_simd_x86_intrinsics_costs {c : Cfg} (hc : c.Valid) {e : Source.Sha256.Engine} (h : Sized e) :
    Costs 8 (fun e' => Sized e' ∧ e'.length = e.length) (Engine.process_block_simd_x86_intrinsics c e) := by
  have hs := process_block_simd_same c (R := fun n _ => n = e.length) (e := e) (e' := blank) ⟨h.1, h.2, rfl⟩
  refine SameSeen.costs (p := fun e => decide (Sized e)) hs ?_ fun a b hb hr => ?_
  · rw [process_block_simd_x86_intrinsics_cfg hc]
    decide +kernel
  · have hb := of_decide_eq_true hb
    exact ⟨⟨hr.1.trans hb.1, hr.2.1.trans hb.2⟩, hr.2.2⟩

theorem software_process_block_costs (c : Cfg) {e : Source.Sha256.Engine} (h : Sized e) :
    Costs 361 (fun e' => Sized e' ∧ e'.length = e.length) (Engine.software_process_block c e) := by
  unfold Engine.software_process_block
  exact Costs.ite (fun _ => (software_process_block_small_costs c h).mono (by decide) fun _ h => h)
    fun _ => (software_process_block_fast_costs c h).mono (by decide) fun _ h => h

theorem process_block_costs {c : Cfg} (hc : c.Valid) {e : Source.Sha256.Engine} (h : Sized e) :
    Costs 361 (fun e' => Sized e' ∧ e'.length = e.length) (Engine.process_block c e) := by
  unfold Engine.process_block
  by_cases hs : (((c.shaNi && c.shaNi) && c.shaNi) && c.shaNi) = true
  · simp only [hs, if_true]
    refine Costs.bind' (m := 0) (process_block_simd_x86_intrinsics_costs hc h) (fun e' h' => ?_) (by decide)
    exact Costs.pure h'
  · simp only [hs]
    exact software_process_block_costs c h

end Sha256

end Chf.Seen
