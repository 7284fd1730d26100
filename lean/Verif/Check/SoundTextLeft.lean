import Verif.Check.TextLeft
import Verif.Check.SoundStates
import Verif.Props.TextUnwind

/-!
# The instances of C88 follow from the theorems
-/

namespace Chf.Check
open Chf Spec Props

attribute [local irreducible] msg

theorem reach_limit88 {c : Cfg} (hc : c.usizeBits = 16) (a : Alg) :
    ∀ e ∈ limitEngines88 c a, Source.Reach c a e := by
  have h16 : c.usizeMod = 2 ^ 16 := by rw [Cfg.usizeMod, hc]
  intro e he
  rcases List.mem_append.1 he with he | he
  · obtain ⟨n, hn, h⟩ := List.mem_filterMap.1 he
    split at h
    · rename_i e0 h0
      refine .input (msg 30) (.made _ ?_ h0) (by rw [msg_length, h16]; decide) (toOption_some h)
      simp only [List.mem_cons, List.not_mem_nil, or_false] at hn
      show n < c.usizeMod
      rcases hn with rfl | rfl | rfl <;> rw [h16] <;> decide
    · cases h
  · unfold farInput88 at he
    split at he
    · rename_i e0 h0
      exact .input (msg 65300) (.made .new trivial h0) (by rw [msg_length, h16]; decide)
        (toOption_some (Option.mem_toList.1 he))
    · cases he

theorem same88_refl {c : Cfg} {a : Alg} (e : (Source.engineOf c a).State) (ds : List (List Byte)) :
    same88 c a e e ds = true := decide_eq_true rfl

theorem sound_C88_agrees : check_C88_agrees () = true :=
  forall2_true fun c _ a _ => forall2_true fun e _ d _ => by
    obtain ⟨h1, h2⟩ := C88_agrees c a e d
    generalize Source.inputLeft c a e d = r at *
    cases r with
    | ok e' =>
      rw [(h1 e').1 rfl]
      exact same88_refl _ _
    | error x =>
      obtain ⟨f, e'⟩ := x
      rw [(h2 f).1 ⟨e', rfl⟩]
      exact decide_eq_true rfl

theorem same88_of_obs {c : Cfg} {a : Alg} {e e' : (Source.engineOf c a).State}
    (h : ObsEq c (Source.engineOf c a) e e') (ds : List (List Byte)) (hd : ∀ d ∈ ds, d.length < c.usizeMod) :
    same88 c a e e' ds = true := by
  rw [same88, decide_eq_true_eq, seen88, seen88, h ds hd]

theorem leftAlgs_ok : ∀ a ∈ leftAlgs, a.Ok debug16 := by
  intro a ha
  simp only [leftAlgs, List.mem_cons, List.not_mem_nil, or_false] at ha
  rcases ha with rfl | rfl | rfl | rfl <;>
    simp [Alg.Ok, Alg.base, Alg.blockSize, show debug16.usizeMod = 2 ^ 16 from rfl]

theorem sound_C88_left : check_C88_left () = true :=
  List.all_eq_true.2 fun a ha => forall2_true fun e he d hd => by
    cases hp : Source.inputLeft debug16 a e d with
    | ok e' => rfl
    | error x =>
      obtain ⟨f, e'⟩ := x
      obtain ⟨rfl, k, hk, e'', h1, h2, -⟩ := C88_left (c := debug16) (by decide) a (leftAlgs_ok a ha)
        (reach_limit88 rfl a e he) d (slices62_lt d hd) hp
      dsimp only
      rw [Bool.and_eq_true]
      refine ⟨decide_eq_true rfl, List.any_eq_true.2 ⟨k, List.mem_range.2 hk, ?_⟩⟩
      rw [h1]
      have hc0 := h2 [] (by simp)
      have hn : (Source.engineOf debug16 a).nBytesHashed e' = (Source.engineOf debug16 a).nBytesHashed e'' := by
        simp only [HashEngine.observe, HashEngine.inputs, bind, Except.bind, pure, Except.pure,
          Except.ok.injEq, Prod.mk.injEq] at hc0
        exact hc0.1
      have lt : ∀ n, n < 2 ^ 16 → ∀ d ∈ [msg n], d.length < debug16.usizeMod := by
        intro n hn d hd
        rw [List.mem_singleton.1 hd, msg_length]
        exact hn
      dsimp only
      rw [same88_of_obs h2 [] (by simp), same88_of_obs h2 [msg 3] (lt 3 (by decide)),
        same88_of_obs h2 [msg 70] (lt 70 (by decide)), decide_eq_true hn]
      rfl

theorem sound_C88_siphash : check_C88_siphash () = true :=
  forall2_true fun e he d hd => by
    cases hp : Source.Siphash24.Engine.input_left debug16 e d with
    | ok e' => rfl
    | error x =>
      obtain ⟨f, e'⟩ := x
      have := C88_siphash (c := debug16) (by decide) (reach_limit88 rfl .siphash24 e he) d (slices62_lt d hd) hp
      exact decide_eq_true (congrArg fields88 this)

theorem sound_C88_hmac : check_C88_hmac () = true :=
  forall2_true fun e he d hd => by
    cases hp : Source.inputLeft debug16 (.hmac .sha256) e d with
    | ok e' => rfl
    | error x =>
      obtain ⟨f, e'⟩ := x
      have := (C88_hmac debug16 .sha256 e e' d hp).1
      dsimp only
      rw [this]
      exact same88_refl _ _

theorem programs88_typed {c : Cfg} (hc : c.usizeBits = 16) : ∀ p ∈ programs88, ∀ x ∈ p, Call.Typed c x := by
  have h : c.usizeMod = 2 ^ 16 := by rw [Cfg.usizeMod, hc]
  intro p hp
  simp only [programs88, List.mem_append, List.mem_map, List.mem_cons, List.not_mem_nil, or_false] at hp
  rcases hp with ⟨a, ha, rfl⟩ | rfl | rfl | rfl
  · have ok := ok16 hc a ha
    simp [loud16, Call.Typed, Make.Typed, h, msg_length, ok]
  all_goals
    simp [long16, Call.Typed, Make.Typed, Alg.Ok, Alg.base, Alg.blockSize, h, msg_length]

theorem sound_C88_programs : check_C88_programs () = true :=
  forall2_true fun c hc p hp => decide_eq_true <| by
    have h : c.Valid ∧ c.usizeBits = 16 := by
      simp only [List.mem_cons, List.not_mem_nil, or_false] at hc
      rcases hc with rfl | rfl | rfl <;> exact ⟨by decide, rfl⟩
    exact C88_programs h.1 p (programs88_typed h.2 p hp)

end Chf.Check
