import Verif.Proofs.Programs
import Verif.Spec.Panics
import Verif.Proofs.Sha256Simd

/-!
# Property C59: the panics there are, and no undefined behaviour
-/

namespace Chf.Props
open Spec

theorem accepts_false {c : Cfg} : ∀ (a : Alg) (s : (a.log c).Start) (n : Nat),
    (a.log c).accepts s n = false → c.overflowChecks = true
  | .sha1, s, n, h | .sha256, s, n, h | .sha384, s, n, h | .sha512, s, n, h | .sha512_256, s, n, h
  | .ripemd160, s, n, h | .siphash24, s, n, h | .sha256t _ _ _, s, n, h => by
      cases hc : c.overflowChecks with
      | true => rfl
      | false =>
        have h' : (!c.overflowChecks || _) = false := h
        rw [hc] at h'
        cases h'
  | .hmac a, s, n, h => accepts_false a s.inner _ h

theorem md_digest_error {H : Type} (P : Md H) {c : Cfg} {r : List Byte → Nat → Res H} {s : H × Nat}
    {m : List Byte} {f : Fault} (h : (P.log c r).digest s m = .error f) :
    f = .overflow ∧ c.overflowChecks = true := by
  simp only [Md.log] at h
  split at h
  · next hp => cases h; exact ⟨rfl, hp.1⟩
  · cases h

theorem digest_error {c : Cfg} : ∀ (a : Alg) (s : (a.log c).Start) (m : List Byte) {f : Fault},
    (a.log c).digest s m = .error f → f = .overflow ∧ c.overflowChecks = true
  | .sha1, _, _, _, h | .sha256, _, _, _, h | .sha384, _, _, _, h | .sha512, _, _, _, h
  | .sha512_256, _, _, _, h | .ripemd160, _, _, _, h => md_digest_error _ h
  | .sha256t _ _ _, _, _, _, h => md_digest_error md256 (r := fun μ _ => .ok (parse8 μ)) h
  | .siphash24, s, m, f, h => by
      have h' : (Except.ok _ : Res (List Byte)) = .error f := h
      cases h'
  | .hmac a, s, m, f, h => by
      have h' : (do
        let ih ← (a.log c).digest s.inner (s.innerLog ++ m)
        if (a.log c).accepts s.outer (s.outerLog.length + ih.length) then
          (a.log c).digest s.outer (s.outerLog ++ ih)
        else .error .overflow : Res (List Byte)) = .error f := h
      simp only [bind, Except.bind] at h'
      split at h'
      · next f' h1 => cases h'; exact digest_error a _ _ h1
      · split at h'
        · exact digest_error a _ _ h'
        · next ih _ hacc => cases h'; exact ⟨rfl, accepts_false a _ _ (by simpa using hacc)⟩

theorem md_resume_error {H : Type} (P : Md H) {c : Cfg} {r : List Byte → Nat → Res H} {μ : List Byte}
    {n : Nat} {f : Fault} (h : (P.log c r).resume μ n = .error f) :
    (n % P.B = 0 → r μ n = .error f) ∧ (¬ n % P.B = 0 → f = .assertion) := by
  simp only [Md.log, bind, Except.bind, pure, Except.pure] at h
  constructor
  · intro hn
    rw [if_pos hn] at h
    split at h
    · next h1 => cases h; exact h1
    · cases h
  · intro hn
    rw [if_neg hn] at h
    cases h; rfl

theorem resume_error {c : Cfg} : ∀ (a : Alg) (μ : (a.engine c).Midstate) (n : Nat) {f : Fault},
    (a.log c).resume μ n = .error f → resumePanic a n = some f
  | .sha1, μ, n, f, h | .sha256, μ, n, f, h | .ripemd160, μ, n, f, h => by
      have h' := md_resume_error _ h
      simp only [resumePanic]
      split
      · next hn => have := h'.1 hn; cases this
      · next hn => rw [h'.2 hn]
  | .sha256t _ _ _, μ, n, f, h => by
      have h' := md_resume_error md256 (c := c) (r := fun μ _ => .ok (parse8 μ)) (μ := μ) h
      simp only [resumePanic]
      split
      · next hn => have := h'.1 hn; cases this
      · next hn => rw [h'.2 hn]
  | .sha384, μ, n, f, h | .sha512, μ, n, f, h | .sha512_256, μ, n, f, h => by
      have h' := md_resume_error _ h
      simp only [resumePanic]
      split
      · next hn => have := h'.1 hn; cases this; rfl
      · next hn => rw [h'.2 hn]
  | .siphash24, μ, n, f, h => by
      have h' : (Except.ok _ : Res SipStart) = .error f := h
      cases h'
  | .hmac a, μ, n, f, h => by
      have h' : (do
        let i ← (a.log c).resume (Hmac.Midstate.inner (E := a.engine c) μ) n
        let o ← (a.log c).resume (Hmac.Midstate.outer (E := a.engine c) μ) n
        pure ⟨i, [], o, []⟩ : Res (HmacStart (a.log c).Start)) = .error f := h
      simp only [bind, Except.bind, pure, Except.pure] at h'
      split at h'
      · next h1 => cases h'; exact resume_error a _ _ h1
      · split at h'
        · next h1 => cases h'; exact resume_error a _ _ h1
        · cases h'

theorem logHash_error {c : Cfg} (a : Alg) (m : List Byte) {f : Fault} (h : logHash c a m = .error f) :
    f = .overflow ∧ c.overflowChecks = true := by
  simp only [logHash] at h
  split at h
  · exact digest_error a _ _ h
  · next hacc => cases h; exact ⟨rfl, accepts_false a _ _ (by simpa using hacc)⟩

theorem logMake_error {c : Cfg} (a : Alg) (mk : Make) {f : Fault} (h : logMake c a mk = some (.error f)) :
    mayPanic c (.make a mk) f := by
  cases mk with
  | new => cases a <;> cases h
  | default => cases a <;> cases h
  | sipKeys k0 k1 => cases a <;> cases h
  | resume v n =>
    have h' : ((a.readMid c v).map fun μ => do
        let s ← (a.log c).resume μ n
        pure (s, ([] : List Byte))) = some (.error f) := by cases a <;> exact h
    cases hr : a.readMid c v with
    | none => rw [hr] at h'; cases h'
    | some μ =>
      rw [hr] at h'
      simp only [Option.map_some, Option.some.injEq, bind, Except.bind, pure, Except.pure] at h'
      split at h'
      · next h1 => cases h'; exact resume_error a _ _ h1
      · cases h'
  | hmacKey key =>
    cases a with
    | hmac a =>
      have h' : (some (do
        let s ← logHmacKey c a key
        pure (s, [])) : Option (Res (HmacStart (a.log c).Start × List Byte))) = some (.error f) := h
      simp only [Option.some.injEq, logHmacKey, shortKey, bind, Except.bind, pure, Except.pure] at h'
      split at h'
      · next f' h1 =>
        cases h'
        split at h1
        · next h2 =>
          cases h1
          split at h2
          · exact logHash_error a _ h2
          · cases h2
        · cases h1
      · cases h'
    | _ => cases h

theorem step_panic {c : Cfg} (p : (logs c).Pool) (x : Call) {f : Fault}
    (h : ((logs c).step p x).2 = .panic f) : mayPanic c x f := by
  cases x with
  | make a mk =>
    simp only [Impl.step] at h
    split at h
    · cases h
    · next f' h1 => cases h; exact logMake_error a mk h1
    · cases h
  | clone i =>
    simp only [Impl.step] at h
    split at h <;> cases h
  | count i =>
    simp only [Impl.step] at h
    split at h <;> cases h
  | midstate i =>
    simp only [Impl.step] at h
    split at h
    · cases h
    · split at h
      · next h1 => cases h1
      · cases h
  | input i d =>
    simp only [Impl.step] at h
    split at h
    · cases h
    · next a e _ =>
      split at h
      · next f' h1 =>
        cases h
        simp only [logs] at h1
        split at h1
        · cases h1
        · next hacc => cases h1; exact ⟨rfl, accepts_false a _ _ (by simpa using hacc)⟩
      · cases h
  | finalize i =>
    simp only [Impl.step] at h
    split at h
    · cases h
    · next a e _ =>
      split at h
      · next f' h1 => cases h; exact digest_error a _ _ h1
      · cases h

theorem answers_panic {c : Cfg} : ∀ (calls : List Call) (p : (logs c).Pool) (i : Nat) {f : Fault},
    ((logs c).answers p calls)[i]? = some (.panic f) → ∃ x, calls[i]? = some x ∧ mayPanic c x f
  | [], _, _, _, h => by simp [Impl.answers] at h
  | x :: xs, p, 0, f, h => ⟨x, rfl, step_panic p x (by simpa [Impl.answers] using h)⟩
  | x :: xs, p, i + 1, f, h => by
      have := answers_panic xs _ i (f := f) (by simpa [Impl.answers] using h)
      simpa using this

/-- C59: whatever a program does with any number of engines, a call fails only in one of the ways of
`mayPanic`. So no call reads or writes outside a buffer, no slice index or slice length is ever wrong,
no debug assertion fails and no loop fails to end. -/
theorem C59_panics {c : Cfg} (hc : c.Valid) (calls : List Call) (ht : ∀ x ∈ calls, x.Typed c) (i : Nat)
    {f : Fault} (h : ((Impl.crate c).answers [] calls)[i]? = some (.panic f)) :
    ∃ x, calls[i]? = some x ∧ mayPanic c x f := by
  rw [answers_same hc calls PoolRel.nil ht] at h
  exact answers_panic calls _ i h

/-- Calls of which the first and the last panic. -/
def panicking : List Call :=
  [.make .sha256 (.resume (.bytes (List.replicate 32 0)) 65),
   .make .sha1 (.resume (.bytes (List.replicate 20 0)) (2 ^ 64 - 64)), .input 0 (List.replicate 63 1),
   .input 0 [1]]

example : Cfg.debug64.Valid ∧ ∀ x ∈ panicking, x.Typed .debug64 := by
  refine ⟨by decide, ?_⟩
  intro x hx
  simp only [panicking, List.mem_cons, List.not_mem_nil, or_false] at hx
  rcases hx with rfl | rfl | rfl | rfl
  all_goals first
    | (show _ < _; decide)
    | exact ⟨trivial, by show _ < _; decide⟩

set_option maxRecDepth 10000 in
example : (Impl.crate .debug64).answers [] panicking = [.panic .assertion, .done, .done, .panic .overflow] ∧
    (Impl.crate .release64).answers [] panicking = [.panic .assertion, .done, .done, .done] := by
  decide +kernel

/-- C59: so a program that does not call `from_midstate` never panics in a build without overflow
checks. -/
theorem C59_release {c : Cfg} (hc : c.Valid) (ho : c.overflowChecks = false) (calls : List Call)
    (ht : ∀ x ∈ calls, x.Typed c) (hr : ∀ a μ n, .make a (.resume μ n) ∉ calls) (f : Fault) :
    .panic f ∉ (Impl.crate c).answers [] calls := by
  intro h
  obtain ⟨i, hi⟩ := List.mem_iff_getElem?.1 h
  obtain ⟨x, hx, hp⟩ := C59_panics hc calls ht i hi
  have hm : x ∈ calls := List.mem_of_getElem? hx
  unfold mayPanic at hp
  split at hp
  all_goals first
    | (rw [ho] at hp; exact Bool.noConfusion hp.2)
    | exact absurd hm (hr _ _ _)
    | exact hp

example : Cfg.release64.overflowChecks = false ∧ ∀ a μ n, Call.make a (.resume μ n) ∉
    [Call.make .sha256 .new, .input 0 [1], .finalize 0] := by
  refine ⟨rfl, ?_⟩
  intro a μ n h
  simp at h

/-! ### The raw pointer accesses of the SHA-NI code -/

open Sha256.Simd in
theorem loadBytes_take {n : Nat} (h : n + 16 ≤ 64) (buffer : List Byte) :
    loadBytes (buffer.take 64) n = loadBytes buffer n := by
  unfold loadBytes
  have e : List.take 16 (List.drop n (List.take 64 buffer)) = List.take 16 (List.drop n buffer) := by
    rw [List.drop_take, List.take_take, Nat.min_eq_left (by omega)]
  rw [e, List.length_take]
  by_cases hl : n + 16 ≤ buffer.length
  · rw [if_pos hl, if_pos (by omega)]
  · rw [if_neg hl, if_neg (by omega)]

open Sha256.Simd in
/-- C59: the SHA-NI block function accesses memory outside its arrays exactly if the buffer has fewer
than 64 bytes, and no byte after the first 64 matters. The engine's buffer has 64. -/
theorem C59_simd (buffer : List Byte) (h : Arr8 (BitVec 32)) :
    (processBlock buffer h = .error .ub ↔ buffer.length < 64) ∧
    processBlock (buffer.take 64) h = processBlock buffer h := by
  have ht : processBlock (buffer.take 64) h = processBlock buffer h := by
    simp only [processBlock, rounds0_3, rounds4_7, rounds8_11, rounds12_15,
      loadBytes_take (show 0 + 16 ≤ 64 by omega), loadBytes_take (show 16 + 16 ≤ 64 by omega),
      loadBytes_take (show 32 + 16 ≤ 64 by omega), loadBytes_take (show 48 + 16 ≤ 64 by omega)]
  refine ⟨⟨?_, ?_⟩, ht⟩
  · intro hub
    rw [← ht] at hub
    apply Nat.lt_of_not_le
    intro hl
    rw [processBlock_eq _ _ (by simp [hl])] at hub
    cases hub
  · intro hl
    have hlast : loadBytes buffer 48 = .error .ub := if_neg (by omega)
    obtain ⟨s, hs, -⟩ := loadState_eq h ⟨0, 0, 0, 0, 0, 0, 0, 0⟩
    have hload (n : Nat) : (∃ m, loadBytes buffer n = .ok m) ∨ loadBytes buffer n = .error .ub := by
      unfold loadBytes
      split
      · exact .inl ⟨_, rfl⟩
      · exact .inr rfl
    simp only [processBlock, hs, rounds0_3, rounds4_7, rounds8_11, rounds12_15, bind, Except.bind, pure,
      Except.pure, hlast]
    rcases hload 0 with ⟨m, h0⟩ | h0 <;> simp only [h0]
    rcases hload 16 with ⟨m, h1⟩ | h1 <;> simp only [h1]
    rcases hload 32 with ⟨m, h2⟩ | h2 <;> simp only [h2]

example : (List.replicate 63 (0 : Byte)).length < 64 ∧ ¬ (List.replicate 64 (0 : Byte)).length < 64 := by decide

end Chf.Props
