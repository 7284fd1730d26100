import Verif.Check.TextMid
import Verif.Check.SoundText
import Verif.Props.TextPrograms
import Verif.Props.TextMidstate

/-!
# The instances of C80 - C83 follow from the theorems
-/

namespace Chf.Check
open Chf Spec Props

theorem panicsOk_of {c : Cfg} : ∀ (xs : List Call) (as : List Answer),
    (∀ (i : Nat) (f : Fault), as[i]? = some (.panic f) → ∃ x, xs[i]? = some x ∧ mayPanic c x f) →
    panicsOk c xs as = true
  | [], _, _ => by unfold panicsOk; rfl
  | _ :: _, [], _ => by unfold panicsOk; rfl
  | x :: xs, a :: as, h => by
      have ih := panicsOk_of xs as fun i f hi => by
        obtain ⟨y, hy, hm⟩ := h (i + 1) f (by simpa using hi)
        exact ⟨y, by simpa using hy, hm⟩
      cases a with
      | panic f =>
        obtain ⟨y, hy, hm⟩ := h 0 f rfl
        cases hy
        simp only [panicsOk, hm, decide_true, Bool.true_and]
        exact ih
      | _ => simpa only [panicsOk] using ih

theorem sound_C80 : check_C80_panics () = true :=
  forall2_true fun _ hc p hp => panicsOk_of _ _ fun i _ h =>
    C80_panics (valid hc) p (programs_typed hc p hp) i h

theorem sound_C81_builds : check_C81_builds () = true :=
  forall2_true fun c hc p hp => decide_eq_true <|
    C81_builds (c := c) (c' := { c with shaNi := !c.shaNi, smallHash := !c.smallHash, bigEndian := !c.bigEndian })
      rfl rfl (valid hc) p (programs_typed hc p hp)

theorem sound_C81_checks : check_C81_overflow_checks () = true :=
  List.all_eq_true.2 fun p hp => by
    by_cases h : .panic .overflow ∈ (Source.text .debug64).answers [] p
    · simp only [h, decide_true, Bool.true_or]
    · exact Bool.or_eq_true_iff.2 <| .inr <| decide_eq_true <|
        C81_overflow_checks (c := .debug64) (c' := .release64) (by decide) rfl rfl p (programs_typed (by decide) p hp) h

theorem sound_C81_portable : check_C81_portable () = true :=
  List.all_eq_true.2 fun p hp => by
    by_cases h : .panic .overflow ∈ (Source.text debug16).answers [] p
    · simp only [h, decide_true, Bool.true_or]
    · exact Bool.or_eq_true_iff.2 <| .inr <| decide_eq_true <|
        C81_portable (c' := .release64) (by decide) (by decide) rfl (by decide) p (programs16_typed rfl p hp) h

theorem sound_C81_lengths : check_C81_lengths_decide () = true :=
  forall2_true fun c hc p hp => decide_eq_true <| by
    refine C81_lengths_decide (valid hc) p _ (fun x hx => callFits_of_typed x (programs_typed hc p hp x hx)) ?_
    rw [List.map_map]
    exact List.map_congr_left fun x _ => (blank_blank x).symm
where
  bytes (d : List Byte) : blankBytes (blankBytes d) = blankBytes d := by
    unfold blankBytes; rw [List.length_replicate]
  mid : (v : MidVal) → v.blank.blank = v.blank
    | .bytes b => congrArg MidVal.bytes (bytes b)
    | .sip _ => rfl
    | .pair i o => by
        show MidVal.pair _ _ = MidVal.pair _ _
        rw [mid i, mid o]
  blank_blank (x : Call) : x.blank.blank = x.blank := by
    cases x with
    | make a how =>
      cases how with
      | hmacKey key => exact congrArg (fun k => Call.make a (.hmacKey k)) (bytes key)
      | resume v n => exact congrArg (fun v => Call.make a (.resume v n)) (mid v)
      | _ => rfl
    | input i d => exact congrArg (Call.input i) (bytes d)
    | _ => rfl

theorem fromMid_of {c : Cfg} (hc : c.Valid) {a : Alg} {v : MidVal} {n : Nat} {k : Bool} (ok : a.Ok c)
    (hs : isSip a = false) (hn : n < 2 ^ c.usizeBits) {r} (hr : Source.make c a (.resume v n) = some r)
    (hk : k = true → keepsMid a = true) : fromMidOk c a v n k = true := by
  obtain ⟨h1, h2⟩ := C82_from_midstate hc a ok hs v n hn hr
  unfold fromMidOk
  rw [hr]
  cases hp : resumePanic a n with
  | some f => rw [h1 f hp]; simp
  | none =>
    obtain ⟨e, rfl, h3, h4⟩ := h2 hp
    simp only [h3, decide_true, Bool.true_and]
    cases k with
    | false => rfl
    | true => simp only [h4 (hk rfl), decide_true, Bool.or_true]

theorem mids_ok {c : Cfg} (hc : c ∈ cfgs) : ∀ x ∈ mids, x.1.Ok c ∧ isSip x.1 = false ∧
    (x.2.2 = true → keepsMid x.1 = true) ∧
    ∀ n, ∃ r, Source.make c x.1 (.resume x.2.1 n) = some r := by
  have h64 := cfg64 c hc
  intro x hx
  simp only [mids, List.mem_cons, List.not_mem_nil, or_false] at hx
  rcases hx with rfl | rfl | rfl | rfl | rfl | rfl | rfl | rfl | rfl | rfl
  all_goals refine ⟨?_, rfl, fun h => by cases h <;> rfl, fun n => ⟨_, rfl⟩⟩
  all_goals simp [Alg.Ok, msg_length, mod64 hc, Alg.blockSize, Alg.base]

theorem sound_C82_from : check_C82_from_midstate () = true :=
  forall2_true fun c hc x hx => List.all_eq_true.2 fun n hn => by
    obtain ⟨ok, hs, hk, hr⟩ := mids_ok hc x hx
    obtain ⟨r, hr⟩ := hr n
    have hn : n < 2 ^ 64 := by
      simp only [List.mem_cons, List.not_mem_nil, or_false] at hn
      omega
    exact fromMid_of (valid hc) ok hs (by rw [cfg64 c hc]; exact hn) hr hk

theorem resume_of {c : Cfg} (hc : c ∈ cfgs) {a : Alg} (ha : canGoOn a = true) (ok : a.Ok c) {n k : Nat}
    (hn : n < 2 ^ 64) (hk : k < 2 ^ 64) : resumeOk c a .new n (msg k) = true := by
  unfold resumeOk
  simp only
  split
  · next e he =>
    split
    · next e' he' =>
      by_cases h : 64 ∣ (Source.engineOf c a).nBytesHashed e'
      · simp only [h, decide_true, Bool.not_true, Bool.false_or]
        have hr : Source.Reach c a e' :=
          .input (msg n) (.made .new trivial he) (by rw [msg_length, mod64 hc]; exact hn) he'
        obtain ⟨μ, e2, h1, h2, h3⟩ := C82_resume (valid hc) a ha ok hr h
        simp only [h1, h2]
        refine decide_eq_true ?_
        rw [h3 [msg k] fun d hd => by
          rw [List.mem_singleton.1 hd, msg_length, mod64 hc]; exact hk]
      · simp [h]
    · rfl
  · rfl

theorem sound_C82_resume : check_C82_resume () = true :=
  forall2_true fun c hc a ha => forall2_true fun n hn k hk => by
    have h : canGoOn a = true ∧ a.Ok c := by
      simp only [List.mem_cons, List.not_mem_nil, or_false] at ha
      rcases ha with rfl | rfl | rfl <;> simp [canGoOn, Alg.Ok, msg_length, mod64 hc]
    simp only [List.mem_cons, List.not_mem_nil, or_false] at hn hk
    exact resume_of hc h.1 h.2 (by omega) (by omega)

theorem unchanged_of {c : Cfg} (hc : c ∈ cfgs) {a : Alg} (ok : a.Ok c) (hs : isSip a = false) {n k : Nat}
    (hn : n < 2 ^ 64) (hk : k < 2 ^ 64) : unchangedOk c a n k = true := by
  unfold unchangedOk
  simp only
  split
  · next e he =>
    split
    · next e' he' =>
      split
      · next e2 he2 =>
        by_cases h : (Source.engineOf c a).nBytesHashed e' % a.blockSize + k < a.blockSize
        · have hr : Source.Reach c a e' :=
            .input (msg n) (.made .new trivial (congrArg some he)) (by rw [msg_length, mod64 hc]; exact hn) he'
          rw [C82_unchanged (valid hc) a ok hs hr (msg k) (by rw [msg_length]; exact h)
            (by rw [msg_length, cfg64 c hc]; exact hk) he2]
          simp
        · simp [h]
      · rfl
    · rfl
  · rfl

theorem sound_C82_unchanged : check_C82_unchanged () = true :=
  forall2_true fun c hc a ha => forall2_true fun n hn k hk => by
    have h : a.Ok c ∧ isSip a = false := by
      simp only [List.mem_cons, List.not_mem_nil, or_false] at ha
      rcases ha with rfl | rfl | rfl | rfl | rfl | rfl <;> exact ⟨trivial, rfl⟩
    simp only [List.mem_cons, List.not_mem_nil, or_false] at hn hk
    exact unchanged_of hc h.1 h.2 (by omega) (by omega)

theorem sound_C83 : check_C83_wrong_digests () = true := by
  unfold check_C83_wrong_digests
  rw [List.all_cons, List.all_cons, List.all_nil, Bool.and_true, Bool.and_eq_true]
  exact ⟨decide_eq_true C83_wrong_digests.1, decide_eq_true C83_wrong_digests.2⟩

theorem sound_textMid : ∀ x ∈ textMidChecks, x.2 () = true := by
  unfold textMidChecks
  simp only [List.forall_mem_cons, List.not_mem_nil, false_implies, implies_true, and_true]
  exact ⟨sound_C80, sound_C81_builds, sound_C81_checks, sound_C81_portable, sound_C81_lengths, sound_C82_from,
    sound_C82_resume, sound_C82_unchanged, sound_C83⟩

end Chf.Check
