import Verif.Check.Sound
import Verif.Check.Limits
import Verif.Props.Padding
import Verif.Props.Overflow

/-! # Every check of `Verif.Check.Limits` is an instance of its theorem -/

namespace Chf.Check
open Spec Props

attribute [local irreducible] msg

theorem pair_lt {m n k : Nat} (hm : m < k) (hn : n < k) : ∀ d ∈ [msg m, msg n], d.length < k := by
  simp only [List.forall_mem_cons, List.not_mem_nil, false_implies, implies_true, and_true, msg_length]
  exact ⟨hm, hn⟩

theorem around16_lt : ∀ ds ∈ around16, ∀ d ∈ ds, d.length < 2 ^ 16 := by
  simp only [around16, List.forall_mem_cons, List.not_mem_nil, false_implies, implies_true, and_true,
    msg_length]
  decide

theorem sound_C38a : check_C38_panics () = true :=
  forall2_true fun a ha ds hd => by
    have ha' : plain a = true := by
      simp only [List.mem_cons, List.not_mem_nil, or_false] at ha
      rcases ha with rfl | rfl <;> rfl
    obtain ⟨e, h1, h2, h3⟩ := C38_panics (c := debug16) (by decide) a ha' rfl ds (around16_lt ds hd)
    have h2 : (∃ e', (a.engine debug16).inputs e ds = .ok e') ↔ ds.flatten.length < 2 ^ 16 := h2
    have h3 : 2 ^ 16 ≤ ds.flatten.length → (a.engine debug16).inputs e ds = .error .overflow := h3
    simp only [h1]
    cases hi : (a.engine debug16).inputs e ds with
    | ok e' => exact decide_eq_true (h2.1 ⟨e', hi⟩)
    | error f =>
      have hl : 2 ^ 16 ≤ ds.flatten.length := Nat.le_of_not_lt fun h => by
        obtain ⟨e', he⟩ := h2.2 h
        rw [hi] at he; cases he
      have := h3 hl
      rw [hi] at this
      cases this
      exact decide_eq_true ⟨rfl, hl⟩

theorem sound_C38b : check_C38_wraps () = true :=
  List.all_eq_true.2 fun a ha => by
    have ha' : plain a = true := by
      simp only [List.mem_cons, List.not_mem_nil, or_false] at ha
      rcases ha with rfl | rfl | rfl <;> rfl
    obtain ⟨e, e', h1, h2, h3, h4⟩ := C38_wraps (c := release16) (by decide) a ha' rfl
      [msg 40000, msg 25606] (pair_lt (by decide) (by decide))
    have hl : [msg 40000, msg 25606].flatten.length = 65606 := by
      simp only [List.flatten_cons, List.flatten_nil, List.append_nil, List.length_append, msg_length]
    rw [hl] at h3 h4
    dsimp only
    simp only [h1, bind, Except.bind, h2]
    exact decide_eq_true ⟨h3, h4⟩

/-- An engine of the samples is reachable. -/
theorem limit_facts {c : Cfg} (hc : c ∈ cfgs) {x : Alg × Nat × List (List Byte)} (hx : x ∈ atLimits) :
    x.1.Ok c ∧ x.2.1 < 2 ^ 64 ∧ ∀ d ∈ x.2.2, d.length < 1000 := by
  simp only [atLimits, List.mem_flatMap, List.mem_map] at hx
  obtain ⟨a, ha, y, hy, rfl⟩ := hx
  refine ⟨?_, ?_, ?_⟩
  · simp only [List.mem_cons, List.not_mem_nil, or_false] at ha
    rcases ha with rfl | rfl | rfl | rfl <;> simp [Alg.Ok, msg_length, mod64 hc]
  · simp only [List.mem_cons, List.not_mem_nil, or_false] at hy
    rcases hy with rfl | rfl | rfl | rfl | rfl | rfl | rfl | rfl | rfl | rfl <;> simp
  · simp only [List.mem_cons, List.not_mem_nil, or_false] at hy
    rcases hy with rfl | rfl | rfl | rfl | rfl | rfl | rfl | rfl | rfl | rfl <;> simp [msg_length]

theorem sound_C39a : check_C39_finalize_panics_iff () = true :=
  forall2_true fun c hc x hx => by
    obtain ⟨ok, hn, hd⟩ := limit_facts hc hx
    obtain ⟨μ, hμ, ht⟩ := readMid_mem hc x.1
    simp only [hμ]
    cases hb : blockAndField x.1 with
    | none => rfl
    | some BL =>
      obtain ⟨B, L⟩ := BL
      simp only
      cases hf : (x.1.engine c).fromMidstate μ x.2.1 with
      | error f => rfl
      | ok e0 =>
        simp only [bind, Except.bind]
        cases hi : (x.1.engine c).inputs e0 x.2.2 with
        | error f => rfl
        | ok e =>
          have hr : Reachable c x.1 e :=
            reach_inputs _ (small_chunks hc hd) ⟨_, .resume (ht _ hn) hf⟩ hi
          obtain ⟨h1, h2⟩ := C39_finalize_panics_iff (valid hc) x.1 ok hb hr
          rw [cfg64 c hc] at h1
          simp only
          cases hfin : (x.1.engine c).finalize e with
          | ok d =>
            simp only
            rw [Bool.not_eq_true', Bool.eq_false_iff]
            intro h
            rw [Bool.and_eq_true, Bool.not_eq_true', decide_eq_false_iff_not] at h
            obtain ⟨f, hf⟩ := h1.2 h
            rw [hfin] at hf; cases hf
          | error f =>
            have h3 := h2 ⟨f, hfin⟩
            rw [hfin] at h3; cases h3
            simp only
            rw [Bool.and_eq_true, Bool.and_eq_true, Bool.not_eq_true', decide_eq_false_iff_not]
            exact ⟨h1.1 ⟨_, hfin⟩, by simp⟩

theorem sound_C39b : check_C39_unchecked_never_panics () = true :=
  forall2_true fun c hc' x hx => by
    have hc : c ∈ cfgs ∧ c.overflowChecks = false := by
      simp only [List.mem_cons, List.not_mem_nil, or_false] at hc'
      rcases hc' with rfl | rfl <;> exact ⟨by decide, rfl⟩
    obtain ⟨hc, ho⟩ := hc
    obtain ⟨ok, hn, hd⟩ := limit_facts hc hx
    obtain ⟨μ, hμ, ht⟩ := readMid_mem hc x.1
    simp only [hμ]
    cases hf : (x.1.engine c).fromMidstate μ x.2.1 with
    | error f => rfl
    | ok e0 =>
      obtain ⟨e', μ', d, h1, h2, h3⟩ := C39_unchecked_never_panics (valid hc) x.1 ok ho
        ⟨_, .resume (ht _ hn) hf⟩ x.2.2 (small_chunks hc hd)
      simp only [h1, h2, h3]
      rfl

/-! ## C40 -/

theorem pendings_ok : ∀ p ∈ pendings, p.1 < 64 ∧ ∀ d ∈ p.2, d.length < 1000 := by decide +kernel

theorem samePendingMd_stale {H : Type} {c : Cfg} (hc : c ∈ cfgs) {B n : Nat} (hB : B = 64 ∨ B = 128)
    (hn : n < 64) (h : H) : SamePendingMd c B (stale B n h 0) (stale B n h 0xff) := by
  have hm : (2 * B + n) % B = n := by
    rw [Nat.mul_comm, Nat.mul_add_mod, Nat.mod_eq_of_lt (by omega)]
  refine ⟨rfl, rfl, ?_, ?_, ?_, ?_⟩
  · rw [mod64 hc]; simp only [stale]; omega
  · simp only [stale, List.length_append, msg_length, List.length_replicate]; omega
  · simp only [stale, List.length_append, msg_length, List.length_replicate]; omega
  · simp only [stale, hm]
    rw [List.take_left' (msg_length n), List.take_left' (msg_length n)]

theorem same_true {c : Cfg} (hc : c ∈ cfgs) (a : Alg) (ok : a.Ok c) {e e' : (a.engine c).State}
    {ds : List (List Byte)} (hd : ∀ d ∈ ds, d.length < 1000) (h : SamePending c a e e') :
    same c a e e' ds = true := by
  have := C40_stale_buffer (valid hc) a ok e e' h ds (small_chunks hc hd)
  rw [same, decide_eq_true_eq, seen, seen, this]

theorem sound_C40 : check_C40_stale_buffer () = true :=
  forall2_true fun c hc p hp => by
    obtain ⟨hn, hd⟩ := pendings_ok p hp
    simp only [Bool.and_eq_true]
    exact ⟨⟨⟨⟨⟨same_true hc .sha1 trivial hd (samePendingMd_stale hc (.inl rfl) hn _),
      same_true hc .sha256 trivial hd (samePendingMd_stale hc (.inl rfl) hn _)⟩,
      same_true hc .sha384 trivial hd (samePendingMd_stale hc (.inr rfl) hn _)⟩,
      same_true hc .sha512 trivial hd (samePendingMd_stale hc (.inr rfl) hn _)⟩,
      same_true hc .sha512_256 trivial hd (samePendingMd_stale hc (.inr rfl) hn _)⟩,
      same_true hc .ripemd160 trivial hd (samePendingMd_stale hc (.inl rfl) hn _)⟩

/-! ## C50 -/

theorem sound_C50a : check_C50_overflow_checks () = true :=
  List.all_eq_true.2 fun p hp => decide_eq_true fun h =>
    C50_overflow_checks (c := .debug64) (c' := .release64) (by decide) rfl rfl p
      (programs_typed (by decide) p hp) h

theorem sound_C50b : check_C50_unchecked () = true :=
  List.all_eq_true.2 fun p hp => List.all_eq_true.2 fun x hx => by
    have h := C50_unchecked (c := .release64) (by decide) rfl (fromStart p)
      (fun y hy => programs_typed (by decide) p hp y (List.mem_filter.1 hy).1)
      (fun a v n hm => by simpa using (List.mem_filter.1 hm).2)
    cases x with
    | panic f => exact absurd hx (h f)
    | _ => rfl

theorem limitChecks_true : ∀ x ∈ limitChecks, x.2 () = true := by
  unfold limitChecks
  simp only [List.forall_mem_cons, List.not_mem_nil, false_implies, implies_true, and_true]
  exact ⟨sound_C38a, sound_C38b, sound_C39a, sound_C39b, sound_C40, sound_C50a, sound_C50b⟩

end Chf.Check
