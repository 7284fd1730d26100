import Verif.Check.TextWork
import Verif.Check.SoundTextSeen
import Verif.Props.TextWork

/-!
# The instances of C87 follow from the theorems
-/

namespace Chf.Check
open Chf Spec Seen Props

theorem cfgs_valid : ∀ c ∈ cfgs, c.Valid := by decide

theorem small_usize {c : Cfg} (hc : c.Valid) {n : Nat} (h : n < 1000) : n < c.usizeMod :=
  Nat.lt_of_lt_of_le (by omega) (usizeMod_ge hc)

theorem makes87_typed {c : Cfg} (hc : c.Valid) : ∀ x ∈ makes87, x.2.Typed c := by
  have : makes87.all (fun x => match x.2 with
      | .hmacKey key => decide (key.length < 1000)
      | .resume _ n => decide (n < 1000)
      | _ => true) = true := by decide +kernel
  intro x hx
  have := List.all_eq_true.1 this x hx
  obtain ⟨a, how⟩ := x
  cases how <;> first | exact True.intro | exact small_usize hc (of_decide_eq_true this)

theorem sound_C87_make : check_C87_make () = true :=
  forall2_true fun c hc x hx => by
    cases h : Source.makeSeen c x.1 x.2 with
    | none => rfl
    | some y => exact decide_eq_true (C87_make (cfgs_valid c hc) x.1 x.2 (makes87_typed (cfgs_valid c hc) x hx) h)

theorem foldlM_reach {c : Cfg} {a : Alg} : ∀ (ds : List (List Byte)) (e e' : (Source.engineOf c a).State),
    Source.Reach c a e → (∀ d ∈ ds, d.length < c.usizeMod) →
    ds.foldlM (Source.engineOf c a).input e = .ok e' → Source.Reach c a e'
  | [], e, e', h, _, hx => by cases hx; exact h
  | d :: ds, e, e', h, hd, hx => by
      rw [List.foldlM_cons] at hx
      cases hi : (Source.engineOf c a).input e d with
      | error f => rw [hi] at hx; cases hx
      | ok e1 =>
        rw [hi] at hx
        exact foldlM_reach ds e1 e' (.input d h (hd d (by simp)) hi) (fun x hx => hd x (by simp [hx])) hx

theorem fed87_reach {c : Cfg} (hc : c.Valid) {x : Alg × Make} (hx : x ∈ makes87) {ds : List (List Byte)}
    (hd : ∀ d ∈ ds, d.length < 1000) {e} (h : fed87 c x.1 x.2 ds = some e) : Source.Reach c x.1 e := by
  unfold fed87 at h
  split at h
  · rename_i e0 hm
    split at h
    · rename_i e1 h1
      cases h
      exact foldlM_reach ds e0 _ (.made x.2 (makes87_typed hc x hx) hm) (fun d h => small_usize hc (hd d h)) h1
    · cases h
  · cases h

theorem sound_C87_input : check_C87_input () = true :=
  forall2_true fun c hc x hx => forall2_true fun ds hds d hd => by
    have hs : ∀ ds ∈ [[], [msg 1], [msg 3, msg 8], [msg 63, msg 1], [msg 127]], ∀ d ∈ ds, d.length < 1000 := by decide +kernel
    have hs' : ∀ d ∈ [msg 0, msg 1, msg 7, msg 8, msg 9, msg 64, msg 65, msg 130], d.length < 1000 := by decide +kernel
    cases h : fed87 c x.1 x.2 ds with
    | none => rfl
    | some e => exact decide_eq_true (C87_input (cfgs_valid c hc) (fed87_reach (cfgs_valid c hc) hx (hs ds hds) h)
        (small_usize (cfgs_valid c hc) (hs' d hd)))

theorem sound_C87_finalize : check_C87_finalize () = true :=
  forall2_true fun c hc x hx => List.all_eq_true.2 fun ds hds => by
    have hs : ∀ ds ∈ [[], [msg 1], [msg 55], [msg 56], [msg 63], [msg 64], [msg 111], [msg 112]],
      ∀ d ∈ ds, d.length < 1000 := by decide +kernel
    cases h : fed87 c x.1 x.2 ds with
    | none => rfl
    | some e => exact decide_eq_true (C87_finalize (cfgs_valid c hc) (fed87_reach (cfgs_valid c hc) hx (hs ds hds) h))

theorem sound_C87_midstate : check_C87_midstate () = true :=
  forall2_true fun c hc x hx => List.all_eq_true.2 fun ds hds => by
    have hs : ∀ ds ∈ [[], [msg 1], [msg 64], [msg 128]], ∀ d ∈ ds, d.length < 1000 := by decide +kernel
    cases h : fed87 c x.1 x.2 ds with
    | none => rfl
    | some e => exact decide_eq_true (C87_midstate (cfgs_valid c hc) (fed87_reach (cfgs_valid c hc) hx (hs ds hds) h))

theorem sound_C87_hash : check_C87_hash () = true :=
  forall2_true fun c hc a _ => List.all_eq_true.2 fun n hn => by
    have hs : ∀ n ∈ [0, 3, 8, 55, 56, 64, 111, 112, 130], n < 1000 := by decide
    have h := C87_hash (cfgs_valid c hc) a (d := msg n) (by
      rw [msg_length]; exact small_usize (cfgs_valid c hc) (hs n hn))
    rw [msg_length] at h
    exact decide_eq_true h

theorem sound_C87_hash_chunks : check_C87_hash_chunks () = true :=
  forall2_true fun c hc a _ => List.all_eq_true.2 fun ds hds => by
    have hs : ∀ ds ∈ [[], [[]], [msg 3, msg 0, msg 70], [msg 64, msg 1], List.replicate 40 [7]], ∀ d ∈ ds, d.length < 1000 := by
      decide +kernel
    exact decide_eq_true (C87_hash_chunks (cfgs_valid c hc) a fun d hd =>
      small_usize (cfgs_valid c hc) (hs ds hds d hd))

theorem sound_C87_const_hash : check_C87_const_hash () = true :=
  forall2_true fun c hc n _ => List.all_eq_true.2 fun fin _ => decide_eq_true (by
    have h := C87_const_hash (cfgs_valid c hc) (msg n) fin
    rw [msg_length] at h
    exact h)

end Chf.Check
