import Verif.Check.TextSerde
import Verif.Check.SoundTextTypes
import Verif.Props.TextSerde

/-!
# The instances of C76 - C79 follow from the theorems
-/

namespace Chf.Check
open Chf Spec Props Rs HashTy

theorem seeDe_ok {t : HashTy} {d : Deserializer} {h : (ty t).H} (e : (sd t).deserialize d = .ok (.ok h)) :
    seeDe (t := t) d = .ok (.ok ((ty t).toByteArray h)) := by
  unfold seeDe; rw [e]; rfl

theorem seeDe_err {t : HashTy} {d : Deserializer} {r : Rs.DeError} (e : (sd t).deserialize d = .ok (.error r)) :
    seeDe (t := t) d = .ok (.error r) := by
  unfold seeDe; rw [e]; rfl

theorem sound_C76a : check_C76_serialize () = true :=
  onTexts_true fun t bs hb => List.all_eq_true.2 fun mk hm => by
    have e : (Source.hashText .debug64 ⟨.error .ub⟩ t).toByteArray (mk bs) = bs := made hm bs
    obtain ⟨⟨lo, h1, h2⟩, h3⟩ := C76_serialize .debug64 ⟨.error .ub⟩ t (mk bs) (by rw [e, hb])
    rw [e] at h2 h3
    unfold sd
    rw [h1, h3, Bool.and_eq_true]
    exact ⟨decide_eq_true h2, decide_eq_true rfl⟩

theorem sound_C76b : check_C76_round_trip () = true :=
  onTexts_true fun t bs hb => List.all_eq_true.2 fun mk hm => by
    have e : (Source.hashText .debug64 ⟨.error .ub⟩ t).toByteArray (mk bs) = bs := made hm bs
    have hl : ((Source.hashText .debug64 ⟨.error .ub⟩ t).toByteArray (mk bs)).length = Source.bytesOf t := by
      rw [e, hb]
    obtain ⟨⟨lo, h1, -⟩, h3⟩ := C76_serialize .debug64 ⟨.error .ub⟩ t (mk bs) hl
    have key : ∀ b x out, (Source.serdeText .debug64 ⟨.error .ub⟩ t).serialize (mk bs) ⟨b⟩ = .ok out →
        Finds (giving b x) out → seeDe (t := t) (giving b x) = .ok (.ok bs) := by
      intro b x out h hf
      obtain ⟨out', h', hr⟩ := C76_round_trip .debug64 ⟨.error .ub⟩ t (mk bs) hl ⟨b⟩ (giving b x) rfl
      rw [h] at h'
      cases h'
      have := seeDe_ok (t := t) (hr hf)
      rwa [show (ty t).toByteArray (mk bs) = bs from e] at this
    unfold sd
    rw [h1, h3, Bool.and_eq_true]
    exact ⟨decide_eq_true ⟨key true _ _ h1 (.inl rfl), key true _ _ h1 (.inr rfl)⟩,
      decide_eq_true (key false _ _ h3 (by rw [e]; rfl))⟩

theorem deserialized_true {x : HashTy × Nat} (hx : x ∈ types) (s : List Byte) :
    deserialized x.2 s (seeDe (t := x.1) (giving true (.str s))) = true := by
  have h := C77_human_errors .debug64 ⟨.error .ub⟩ x.1 (giving true (.str s)) rfl s
  have hl := types_len x hx
  rw [hl] at h
  unfold deserialized
  split
  · next e => exact decide_eq_true (seeDe_err (h.1 rfl e))
  · next e =>
    have e := Decidable.not_not.1 e
    split
    · next hn =>
      have hd : ∀ b ∈ s, IsHexDigit b := fun b hb => by
        simpa using List.findIdx?_eq_none_iff.1 hn b hb
      obtain ⟨a, ha⟩ := C30_succeeds (.hmac (Source.bytesOf x.1)) s
        (show s.length = 2 * Source.bytesOf x.1 by rw [hl]; exact e) hd
      have hb := (C30_accepts _ s a).1 ha
      have p := Source.plain .debug64 ⟨.error .ub⟩ x.1
      have ac := (C77_accepts .debug64 ⟨.error .ub⟩ x.1 (giving true (.str s)) (p.make a.inner.val)).2
        (.inl ⟨rfl, s, .inl rfl, hb.1, hd, by rw [p.toByteArray_make]; exact ⟨a.inner.property, hb.2.2⟩⟩)
      have := seeDe_ok (t := x.1) ac
      refine okOk_true ⟨_, this, decide_eq_true ?_⟩
      rw [show (ty x.1).toByteArray (p.make a.inner.val) = a.inner.val from p.toByteArray_make _, ← hl]
      exact ⟨a.inner.property, hb.2.2⟩
    · next i hi =>
      split
      · rfl
      · next b hb =>
        obtain ⟨hlt, rfl⟩ := List.getElem?_eq_some_iff.1 hb
        obtain ⟨_, h3, h4⟩ := List.findIdx?_eq_some_iff_getElem.1 hi
        exact decide_eq_true (seeDe_err (h.2.1 rfl e i hlt (fun j hj => by simpa using h4 j hj) (by simpa using h3)))

theorem sound_C77a : check_C77_human () = true :=
  List.all_eq_true.2 fun x hx => List.all_eq_true.2 fun s _ => by
    rw [Bool.and_eq_true]
    refine ⟨deserialized_true hx s, ?_⟩
    have h := C77_human_errors .debug64 ⟨.error .ub⟩ x.1 (giving true (.bytes s)) rfl s
    split
    · next hu =>
      have hu := (utf8Valid_iff s).1 hu
      have e : seeDe (t := x.1) (giving true (.bytes s)) = seeDe (t := x.1) (giving true (.str s)) := by
        unfold seeDe sd
        rw [h.2.2.2.1 rfl hu]
        obtain ⟨parse, -, e⟩ := Source.parser_head .debug64 ⟨.error .ub⟩ x.1
        rw [e, e]
        rfl
      rw [e]
      exact deserialized_true hx s
    · next hu => exact decide_eq_true (seeDe_err (h.2.2.1 rfl fun k => hu ((utf8Valid_iff s).2 k)))

theorem sound_C77b : check_C77_binary () = true :=
  List.all_eq_true.2 fun x hx => all_true fun n => decide_eq_true <| by
    have hl := types_len x hx
    have hs : (some100 n).length = n := by simp [some100]
    split
    · next e =>
      have p := Source.plain .debug64 ⟨.error .ub⟩ x.1
      have := (C77_accepts .debug64 ⟨.error .ub⟩ x.1 (giving false (.bytes (some100 n))) (p.make (some100 n))).2
        (.inr ⟨rfl, by rw [p.toByteArray_make]; exact ⟨rfl, by rw [hs, hl, e]⟩⟩)
      have := seeDe_ok (t := x.1) this
      rwa [show (ty x.1).toByteArray (p.make (some100 n)) = some100 n from p.toByteArray_make _] at this
    · next e =>
      have := (C77_binary_errors .debug64 ⟨.error .ub⟩ x.1 (giving false (.bytes (some100 n))) rfl (some100 n)).1
        rfl (by rw [hs, hl]; exact e)
      rw [hs] at this
      exact seeDe_err this

theorem sound_C77c : check_C77_other () = true :=
  List.all_eq_true.2 fun x _ => all_true fun s => by
    have h (y : Rs.Data) := C77_human_errors .debug64 ⟨.error .ub⟩ x.1 (giving true y) rfl s
    have b (y : Rs.Data) := C77_binary_errors .debug64 ⟨.error .ub⟩ x.1 (giving false y) rfl s
    rw [Bool.and_eq_true]
    exact ⟨decide_eq_true ⟨seeDe_err ((h _).2.2.2.2.1 rfl), seeDe_err ((h _).2.2.2.2.2 rfl)⟩,
      decide_eq_true ⟨seeDe_err ((b _).2.2.1 rfl), seeDe_err ((b _).2.2.2 rfl), seeDe_err ((b _).2.1 rfl)⟩⟩

theorem sound_C78 : check_C78_feed () = true :=
  onTexts_true fun t bs hb => List.all_eq_true.2 fun mk hm => decide_eq_true <| by
    have e : (Source.hashText .debug64 ⟨.error .ub⟩ t).toByteArray (mk bs) = bs := made hm bs
    have h := (C78_feed .debug64 ⟨.error .ub⟩ t textRecorder (mk bs) (mk bs) [.inl 3]).1
    rw [e, hb] at h
    exact h

theorem types_small : ∀ x ∈ types, x.2 < 2 ^ 31 := by decide

theorem sound_C79a : check_C79_schema () = true :=
  forall2_true fun c _ x hx => by
    have hl := types_len x hx
    have hs := types_small x hx
    have h := C79_schema c ⟨.error .ub⟩ x.1
    rw [hl] at h
    obtain ⟨t, n⟩ := x
    split
    · next h1 =>
      cases h1
      rfl
    · next h2 h1 =>
      obtain ⟨f, hf, -⟩ := h (fun e => h1 e) hs ()
      rw [hf] at h2
      cases h2
    · next name f h2 h1 =>
      obtain ⟨f', hf, hg⟩ := h (fun e => h1 e) hs ()
      rw [hf] at h2
      cases h2
      exact decide_eq_true ⟨rfl, hg⟩

theorem sound_C79b : check_C79_hmac_u32 () = true :=
  all_true fun c => by
    split
    · rfl
    · next name f h =>
      have := C79_hmac_u32 c ⟨.error .ub⟩ f name h ()
      split
      · next e => exact decide_eq_true (this.1 e)
      · next e =>
        obtain ⟨p, hp⟩ := this.2 (by simpa using e)
        exact okAnd_true ⟨_, hp, decide_eq_true ⟨rfl, rfl⟩⟩

end Chf.Check
