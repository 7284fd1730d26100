import Verif.Check.TextDecides
import Verif.Check.SoundTextMid
import Verif.Props.TextDecides
import Verif.Props.TextShattered

/-!
# The instances of C97 follow from the theorems
-/

namespace Chf.Check
open Chf Spec Props Chf.Rs

attribute [local irreducible] msg

theorem reach_inputs97 {c : Cfg} {a : Alg} : ∀ {ds : List (List Byte)} {e e' : (Source.engineOf c a).State},
    (∀ d ∈ ds, d.length < c.usizeMod) → Source.Reach c a e → (Source.engineOf c a).inputs e ds = .ok e' →
    Source.Reach c a e' := by
  intro ds
  induction ds with
  | nil => intro e e' _ h hi; cases hi; exact h
  | cons d ds ih =>
    intro e e' hd h hi
    simp only [HashEngine.inputs] at hi
    cases h1 : (Source.engineOf c a).input e d with
    | error f => rw [h1] at hi; cases hi
    | ok e1 =>
      rw [h1] at hi
      exact ih (fun x hx => hd x (List.mem_cons_of_mem _ hx)) (.input d h (hd d (List.mem_cons_self ..)) h1) hi

theorem walk97_reach {c : Cfg} (hc : c ∈ cfgs) {a : Alg} {w : Make × List (List Byte)} (hw : w ∈ ways97)
    {e} (h : walk97 c a w = some e) : Source.Reach c a e := by
  have h16 := usizeMod_ge (valid hc)
  have ht : w.1.Typed c ∧ ∀ d ∈ w.2, d.length < c.usizeMod := by
    rw [mod64 hc]
    simp only [ways97, List.mem_cons, List.not_mem_nil, or_false] at hw
    rcases hw with rfl | rfl | rfl | rfl | rfl | rfl | rfl | rfl | rfl
    all_goals refine ⟨?_, ?_⟩
    all_goals first
      | exact trivial
      | (show _ < c.usizeMod; rw [mod64 hc]; decide)
      | (intro d hd; cases hd; done)
      | (intro d hd
         simp only [List.mem_cons, List.not_mem_nil, or_false] at hd
         first
           | (rcases hd with rfl | rfl | rfl <;>
               simp only [List.length_take, List.length_drop, List.length_nil, msg_length] <;> decide)
           | (rcases hd with rfl | rfl <;>
               simp only [List.length_take, List.length_drop, List.length_nil, msg_length] <;> decide)
           | (rw [hd, msg_length]; decide)
           | (rw [hd, List.length_replicate]; decide))
  unfold walk97 at h
  split at h
  · next x hx =>
    split at h
    · next y hy =>
      cases h
      exact reach_inputs97 ht.2 (.made w.1 ht.1 hx) hy
    · cases h
  · cases h

theorem decides97_true {c : Cfg} (hc : c.Valid) {a : Alg} (ok : a.Ok c) {B : Nat} (hB : stride a = some B)
    (hb : a.blockSize = B) (hsip : isSip a = false) {e e'} (he : Source.Reach c a e) (he' : Source.Reach c a e')
    {ds : List (List Byte)} (hd : ∀ d ∈ ds, d.length < c.usizeMod) : decides97 c a e e' ds = true := by
  unfold decides97
  rw [Bool.or_eq_true, Bool.not_eq_true', decide_eq_false_iff_not, decide_eq_true_iff, ← Decidable.imp_iff_not_or]
  rintro ⟨h1, h2, h3, h4⟩
  have inj : ∀ x y, Source.showMid c a x = Source.showMid c a y → x = y := fun x y => Props.showMid_inj a
  have hobs : ObsEq c (Source.engineOf c a) e e' :=
    (C97_midstates hc a ok hB hsip he he').2 ⟨h2, Source.map_inj inj h3, fun d hl hdv => by
      have : d.length = 0 := by
        rw [hb] at h1
        have h5 : B ∣ d.length := (Nat.dvd_add_right h1).1 hdv
        exact Nat.eq_zero_of_dvd_of_lt h5 hl
      rw [List.length_eq_zero_iff.1 this]
      exact Source.map_inj inj h4⟩
  unfold sees
  rw [hobs ds hd]

theorem more97 {c : Cfg} (hc : c ∈ cfgs) : ∀ ds ∈ [[], [msg 1], [msg 63, msg 2], [msg 130]],
    ∀ d ∈ ds, d.length < c.usizeMod := by
  intro ds hds d hd
  have h16 := usizeMod_ge (valid hc)
  simp only [List.mem_cons, List.not_mem_nil, or_false] at hds
  rcases hds with rfl | rfl | rfl | rfl <;>
    simp only [List.mem_cons, List.not_mem_nil, or_false] at hd
  · rw [hd, msg_length]; omega
  · rcases hd with rfl | rfl <;> rw [msg_length] <;> omega
  · rw [hd, msg_length]; omega

theorem sound_C97_resumed : check_C97_resumed () = true :=
  forall2_true fun c hc a ha => List.all_eq_true.2 fun w hw => by
    split
    · next e h =>
      split
      · next μ hμ =>
        split
        · next e' h' =>
          rw [Bool.or_eq_true, Bool.not_eq_true', decide_eq_false_iff_not]
          refine (Decidable.em _).symm.imp_right fun hn => List.all_eq_true.2 fun ds hds => ?_
          have hd := more97 hc ds hds
          have r := walk97_reach hc hw h
          have r' : Source.Reach c a e' := .made (.resume _ _) hn h'
          simp only [List.mem_cons, List.not_mem_nil, or_false] at ha
          rcases ha with rfl | rfl | rfl
          · exact decides97_true (valid hc) (a := .sha1) trivial rfl rfl rfl r r' hd
          · exact decides97_true (valid hc) (a := .sha256) trivial rfl rfl rfl r r' hd
          · refine decides97_true (valid hc) ?_ rfl rfl rfl r r' hd
            refine ⟨msg_length 32, ⟨1, rfl⟩, ?_⟩
            show 64 + (msg 5).length < 2 ^ c.usizeBits
            rw [msg_length, cfg64 c hc]
            decide
        · rfl
      · rfl
    · rfl

theorem sound_C97 : check_C97_midstates () = true :=
  forall2_true fun c hc a ha => forall2_true fun w hw w' hw' => by
    split
    · next e e' h h' =>
      refine List.all_eq_true.2 fun ds hds => ?_
      have h16 := usizeMod_ge (valid hc)
      have hd : ∀ d ∈ ds, d.length < c.usizeMod := by
        intro d hd
        simp only [List.mem_cons, List.not_mem_nil, or_false] at hds
        rcases hds with rfl | rfl | rfl | rfl <;>
          simp only [List.mem_cons, List.not_mem_nil, or_false] at hd
        · rw [hd, msg_length]; omega
        · rcases hd with rfl | rfl <;> rw [msg_length] <;> omega
        · rw [hd, msg_length]; omega
      have r := walk97_reach hc hw h
      have r' := walk97_reach hc hw' h'
      simp only [List.mem_cons, List.not_mem_nil, or_false] at ha
      rcases ha with rfl | rfl | rfl | rfl | rfl | rfl
      · exact decides97_true (valid hc) (a := .sha1) trivial rfl rfl rfl r r' hd
      · exact decides97_true (valid hc) (a := .sha256) trivial rfl rfl rfl r r' hd
      · exact decides97_true (valid hc) (a := .sha384) trivial rfl rfl rfl r r' hd
      · exact decides97_true (valid hc) (a := .sha512_256) trivial rfl rfl rfl r r' hd
      · exact decides97_true (valid hc) (a := .ripemd160) trivial rfl rfl rfl r r' hd
      · refine decides97_true (valid hc) ?_ rfl rfl rfl r r' hd
        refine ⟨msg_length 32, ⟨1, rfl⟩, ?_⟩
        show 64 + (msg 5).length < 2 ^ c.usizeBits
        rw [msg_length, cfg64 c hc]
        decide
    · rfl

end Chf.Check
