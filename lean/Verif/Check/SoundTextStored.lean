import Verif.Check.SoundTextHash
import Verif.Check.TextStored
import Verif.Props.TextStored

/-!
# The instances of C101 follow from the theorems
-/

namespace Chf.Check
open Chf Spec Props Chf.Rs

attribute [local irreducible] msg

theorem sound_C101a : check_C101_serialized () = true :=
  forall2_true fun x hx ds hd => by
    obtain ⟨h1, h2, h3, h4⟩ := fits96 hx (inputs96_le hd)
    obtain ⟨s, p1, p2, p3, p4, p5, p6⟩ := C101_serialized h1 x.2 h2 ds h3 h4
    rw [p1, p2, p6]
    exact decide_eq_true ⟨rfl, p3, p4, p5, rfl⟩

theorem same101_iff (x : Cfg × Alg) (ds : List (List Byte)) (d : Deserializer) :
    same101 x ds d = true ↔ ∃ v w, Source.hashChunks x.1 x.2 ds = .ok v ∧ (storedAs x.1 x.2).deserialize d = .ok (.ok w) ∧
      (Source.typeOf x.1 x.2).eq v w = true := by
  unfold same101
  constructor
  · intro h
    split at h
    · next v w h1 h2 => exact ⟨v, w, h1, h2, h⟩
    · cases h
  · rintro ⟨v, w, h1, h2, h3⟩
    rw [h1, h2]
    exact h3

theorem sound_C101b : check_C101_human () = true :=
  forall2_true fun x hx ds hd => List.all_eq_true.2 fun s _ => List.all_eq_true.2 fun data hdata => by
    obtain ⟨h1, h2, h3, h4⟩ := fits96 hx (inputs96_le hd)
    rw [beq_iff_eq, Bool.eq_iff_iff, decide_eq_true_iff, same101_iff, C101_check h1 x.2 h2 ds h3 h4]
    constructor
    · rintro (⟨-, s', h, q⟩ | ⟨h, -⟩)
      · have : s' = s := by
          simp only [List.mem_cons, List.not_mem_nil, or_false] at hdata
          rcases hdata with rfl | rfl <;> rcases h with h | h <;> cases h <;> rfl
        exact this ▸ q
      · cases h
    · intro q
      refine .inl ⟨rfl, s, ?_, q⟩
      simp only [List.mem_cons, List.not_mem_nil, or_false] at hdata
      rcases hdata with rfl | rfl
      · exact .inl rfl
      · exact .inr rfl

theorem sound_C101c : check_C101_binary () = true :=
  forall2_true fun x hx ds hd => List.all_eq_true.2 fun s _ => by
    obtain ⟨h1, h2, h3, h4⟩ := fits96 hx (inputs96_le hd)
    rw [Bool.and_eq_true]
    constructor
    · rw [beq_iff_eq, Bool.eq_iff_iff, decide_eq_true_iff, same101_iff, C101_check h1 x.2 h2 ds h3 h4]
      constructor
      · rintro (⟨h, -⟩ | ⟨-, h⟩)
        · cases h
        · exact Data.bytes.inj h
      · rintro h
        exact .inr ⟨rfl, congrArg Data.bytes h⟩
    · rw [Bool.not_eq_true', ← Bool.not_eq_true, same101_iff, C101_check h1 x.2 h2 ds h3 h4]
      rintro (⟨h, -⟩ | ⟨-, h⟩) <;> cases h

theorem fits101_of {o : SchemaObject} {s : List Byte} (h : Conforms o s) : fits101 o s = true := by
  unfold fits101
  rw [h.type, Bool.true_and]
  split
  · rfl
  · next v hv =>
    rw [Bool.and_eq_true]
    constructor
    · split
      · rfl
      · next m hm => exact decide_eq_true (h.max v hv m hm)
    · split
      · rfl
      · next m hm => exact decide_eq_true (h.min v hv m hm)

theorem sound_C101d : check_C101_schema () = true :=
  forall2_true fun x hx ds hd => by
    obtain ⟨h1, h2, h3, h4⟩ := fits96 hx (inputs96_le hd)
    obtain ⟨name, f, sch, s, p1, p2, p3, p4⟩ := C101_schema h1 x.2 h2 ds h3 h4 ()
    rw [p1, p3]
    dsimp only
    rw [p2]
    exact fits101_of p4

theorem sound_C101e : check_C101_keys () = true :=
  forall2_true fun x hx ds hd => decide_eq_true <| by
    obtain ⟨h1, h2, h3, h4⟩ := fits96 hx (inputs96_le hd)
    exact C101_keys h1 x.2 h2 ds h3 h4 textRecorder [.inl 3]

end Chf.Check
