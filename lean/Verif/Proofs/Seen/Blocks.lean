import Verif.Proofs.Seen.LinesSha256
import Verif.Proofs.Seen.LinesSha512
import Verif.Proofs.Seen.LinesRipemd160
import Verif.Seen.Sha1

/-!
# The block functions of the translated text: what is seen of them
-/

namespace Chf.Seen
open Chf Tr

variable {R : Nat → Nat → Prop}

/-- The words of a block. -/
theorem zipChunks_same {k : Nat} {α : Type} {xs ys : List α} {b b' : List Byte} {f : α → List Byte → Tr α}
    (h : ∀ x y c c', Len c c' → Tr.SameSeen Any (f x c) (f y c')) (hx : Len xs ys) (hb : Len b b') :
    Tr.SameSeen Len (zipMut xs (chunksExact k b) f) (zipMut ys (chunksExact k b') f) :=
  SameSeen.zipMut (P := Len) h hx (SameSeen.Each.chunks hb)

namespace Sha1

/-- The two engines differ in contents and, as `R` allows, in counts. -/
abbrev Like (R : Nat → Nat → Prop) (e e' : Source.Sha1.Engine) : Prop :=
  Len e.buffer e'.buffer ∧ Len e.h e'.h ∧ R e.length e'.length

/-- The two engines differ in contents only. -/
abbrev Alike (e e' : Source.Sha1.Engine) : Prop :=
  Like Eq e e'

theorem process_block_same (cfg : Cfg) : ∀ {e e'}, Like R e e' →
    Tr.SameSeen (Like R) (Engine.process_block cfg e) (Engine.process_block cfg e') := by
  rintro ⟨b, h, l⟩ ⟨b', h', l'⟩ ⟨hb, hh, hl⟩
  unfold Engine.process_block
  dsimp only at *
  rw [hb]
  same_step
  refine SameSeen.bind (zipChunks_same (fun _ _ _ _ _ => ?_) rfl hb) fun w w' hw => ?_
  · repeat same_step
  refine SameSeen.bind (R := Len) (SameSeen.each (P := Eq) (fun v v' i j hv hij => ?_) (SameSeen.Each.eq _) hw)
    fun w w' hw => ?_
  · subst hij
    repeat same_step
  iterate 5 same_step
  refine SameSeen.bind (R := Any) (SameSeen.each (P := fun p q => p.1 = q.1) ?_ (SameSeen.Each.enumerate hw) trivial)
    fun _ _ _ => ?_
  · rintro ⟨_, _, _, _, _⟩ ⟨_, _, _, _, _⟩ ⟨i, _⟩ ⟨j, _⟩ - hij
    dsimp only at hij ⊢
    subst hij
    refine SameSeen.bind (R := fun x y => x.2 = y.2) ?_ fun _ _ _ => SameSeen.pure' trivial
    repeat same_step
  repeat same_step

end Sha1

namespace Ripemd160

/-- The two engines differ in contents and, as `R` allows, in counts. -/
abbrev Like (R : Nat → Nat → Prop) (e e' : Source.Ripemd160.Engine) : Prop :=
  Len e.buffer e'.buffer ∧ Len e.h e'.h ∧ R e.length e'.length

/-- The two engines differ in contents only. -/
abbrev Alike (e e' : Source.Ripemd160.Engine) : Prop :=
  Like Eq e e'

theorem process_block_fast_same (cfg : Cfg) : ∀ {e e'}, Like R e e' →
    Tr.SameSeen (Like R) (Engine.process_block_fast cfg e) (Engine.process_block_fast cfg e') := by
  rintro ⟨b, h, l⟩ ⟨b', h', l'⟩ ⟨hb, hh, hl⟩
  unfold Engine.process_block_fast
  dsimp only at *
  rw [hb]
  same_step
  refine SameSeen.bind (zipChunks_same (fun _ _ _ _ _ => ?_) rfl hb) fun w w' hw => ?_
  · repeat same_step
  refine SameSeen.bind (SameSeen.runLines (R := Engine.process_block_fast.Alike1)
    (Engine.process_block_fast.lines1_same cfg hw) ⟨hh, hh⟩) ?_
  rintro ⟨_, _⟩ ⟨_, _⟩ ⟨h1, h2⟩
  dsimp only at *
  repeat same_step

theorem process_block_small_same (cfg : Cfg) : ∀ {e e'}, Like R e e' →
    Tr.SameSeen (Like R) (Engine.process_block_small cfg e) (Engine.process_block_small cfg e') := by
  rintro ⟨b, h, l⟩ ⟨b', h', l'⟩ ⟨hb, hh, hl⟩
  unfold Engine.process_block_small
  dsimp only at *
  rw [hb]
  same_step
  refine SameSeen.bind (zipChunks_same (fun _ _ _ _ _ => ?_) rfl hb) fun w w' hw => ?_
  · repeat same_step
  refine SameSeen.bind (SameSeen.runLines (R := Engine.process_block_small.Alike1)
    (Engine.process_block_small.lines1_same cfg hw) ⟨hh, hh⟩) ?_
  rintro ⟨_, _⟩ ⟨_, _⟩ ⟨h1, h2⟩
  dsimp only at *
  repeat same_step

theorem process_block_same (cfg : Cfg) {e e'} (h : Like R e e') :
    Tr.SameSeen (Like R) (Engine.process_block cfg e) (Engine.process_block cfg e') := by
  unfold Engine.process_block
  exact SameSeen.ite (fun _ => process_block_small_same cfg h) fun _ => process_block_fast_same cfg h

end Ripemd160

namespace Sha512

/-- The two engines differ in contents and, as `R` allows, in counts. -/
abbrev Like (R : Nat → Nat → Prop) (e e' : Source.Sha512.Engine) : Prop :=
  Len e.buffer e'.buffer ∧ Len e.h e'.h ∧ R e.length e'.length

/-- The two engines differ in contents only. -/
abbrev Alike (e e' : Source.Sha512.Engine) : Prop :=
  Like Eq e e'

theorem process_block_fast_same (cfg : Cfg) : ∀ {e e'}, Like R e e' →
    Tr.SameSeen (Like R) (Engine.process_block_fast cfg e) (Engine.process_block_fast cfg e') := by
  rintro ⟨h, l, b⟩ ⟨h', l', b'⟩ ⟨hb, hh, hl⟩
  unfold Engine.process_block_fast
  dsimp only at *
  rw [hb]
  same_step
  refine SameSeen.bind (zipChunks_same (fun _ _ _ _ _ => ?_) rfl hb) fun w w' hw => ?_
  · repeat same_step
  iterate 8 same_step
  refine SameSeen.bind (SameSeen.runLines (R := Engine.process_block_fast.Alike1)
    (Engine.process_block_fast.lines1_same cfg) hw) ?_
  rintro ⟨_, _, _, _, _, _, _, _, _⟩ ⟨_, _, _, _, _, _, _, _, _⟩ h1
  dsimp only at *
  repeat same_step

theorem process_block_small_same (cfg : Cfg) : ∀ {e e'}, Like R e e' →
    Tr.SameSeen (Like R) (Engine.process_block_small cfg e) (Engine.process_block_small cfg e') := by
  rintro ⟨h, l, b⟩ ⟨h', l', b'⟩ ⟨hb, hh, hl⟩
  unfold Engine.process_block_small
  dsimp only at *
  rw [hb]
  same_step
  refine SameSeen.bind (zipChunks_same (fun _ _ _ _ _ => ?_) rfl hb) fun w w' hw => ?_
  · repeat same_step
  iterate 8 same_step
  refine SameSeen.bind (SameSeen.runLines (R := Engine.process_block_small.Alike1)
    (Engine.process_block_small.lines1_same cfg) hw) ?_
  rintro ⟨_, _, _, _, _, _, _, _, _⟩ ⟨_, _, _, _, _, _, _, _, _⟩ h1
  dsimp only at *
  repeat same_step

theorem process_block_same (cfg : Cfg) {e e'} (h : Like R e e') :
    Tr.SameSeen (Like R) (Engine.process_block cfg e) (Engine.process_block cfg e') := by
  unfold Engine.process_block
  exact SameSeen.ite (fun _ => process_block_small_same cfg h) fun _ => process_block_fast_same cfg h

end Sha512

namespace Sha256

/-- The two engines differ in contents and, as `R` allows, in counts. -/
abbrev Like (R : Nat → Nat → Prop) (e e' : Source.Sha256.Engine) : Prop :=
  Len e.buffer e'.buffer ∧ Len e.h e'.h ∧ R e.length e'.length

/-- The two engines differ in contents only. -/
abbrev Alike (e e' : Source.Sha256.Engine) : Prop :=
  Like Eq e e'

theorem software_process_block_fast_same (cfg : Cfg) : ∀ {e e'}, Like R e e' →
    Tr.SameSeen (Like R) (Engine.software_process_block_fast cfg e)
      (Engine.software_process_block_fast cfg e') := by
  rintro ⟨b, h, l⟩ ⟨b', h', l'⟩ ⟨hb, hh, hl⟩
  unfold Engine.software_process_block_fast
  dsimp only at *
  rw [hb]
  same_step
  refine SameSeen.bind (zipChunks_same (fun _ _ _ _ _ => ?_) rfl hb) fun w w' hw => ?_
  · repeat same_step
  iterate 8 same_step
  refine SameSeen.bind (SameSeen.runLines (R := Engine.software_process_block_fast.Alike1)
    (Engine.software_process_block_fast.lines1_same cfg) hw) ?_
  rintro ⟨_, _, _, _, _, _, _, _, _⟩ ⟨_, _, _, _, _, _, _, _, _⟩ h1
  dsimp only at *
  repeat same_step

theorem software_process_block_small_same (cfg : Cfg) : ∀ {e e'}, Like R e e' →
    Tr.SameSeen (Like R) (Engine.software_process_block_small cfg e)
      (Engine.software_process_block_small cfg e') := by
  rintro ⟨b, h, l⟩ ⟨b', h', l'⟩ ⟨hb, hh, hl⟩
  unfold Engine.software_process_block_small
  dsimp only at *
  rw [hb]
  same_step
  refine SameSeen.bind (zipChunks_same (fun _ _ _ _ _ => ?_) rfl hb) fun w w' hw => ?_
  · repeat same_step
  iterate 8 same_step
  refine SameSeen.bind (SameSeen.runLines (R := Engine.software_process_block_small.Alike1)
    (Engine.software_process_block_small.lines1_same cfg) hw) ?_
  rintro ⟨_, _, _, _, _, _, _, _, _⟩ ⟨_, _, _, _, _, _, _, _, _⟩ h1
  dsimp only at *
  repeat same_step

theorem process_block_simd_same (cfg : Cfg) : ∀ {e e'}, Like R e e' →
    Tr.SameSeen (Like R) (Engine.process_block_simd_x86_intrinsics cfg e)
      (Engine.process_block_simd_x86_intrinsics cfg e') := by
  rintro ⟨b, h, l⟩ ⟨b', h', l'⟩ ⟨hb, hh, hl⟩
  unfold Engine.process_block_simd_x86_intrinsics
  dsimp only at *
  iterate 2 same_step
  refine SameSeen.bind (SameSeen.runLines (R := Engine.process_block_simd_x86_intrinsics.Alike1)
    (Engine.process_block_simd_x86_intrinsics.lines1_same cfg ⟨hb, hh⟩ _ _) trivial) ?_
  rintro ⟨_, _, _, _, _, _, _, _, _⟩ ⟨_, _, _, _, _, _, _, _, _⟩ -
  dsimp only at *
  repeat same_step

theorem software_process_block_same (cfg : Cfg) {e e'} (h : Like R e e') :
    Tr.SameSeen (Like R) (Engine.software_process_block cfg e) (Engine.software_process_block cfg e') := by
  unfold Engine.software_process_block
  exact SameSeen.ite (fun _ => software_process_block_small_same cfg h)
    fun _ => software_process_block_fast_same cfg h

theorem process_block_same (cfg : Cfg) {e e'} (h : Like R e e') :
    Tr.SameSeen (Like R) (Engine.process_block cfg e) (Engine.process_block cfg e') := by
  unfold Engine.process_block
  have hf : ∀ x y, SameSeen.FlowRel (Like R) (Like R) x y → SameSeen (Like R)
      (match x with
        | .ret r => pure r
        | .next self => do
          let self ← Seen.Sha256.Engine.software_process_block cfg self
          pure self)
      (match y with
        | .ret r => pure r
        | .next self => do
          let self ← Seen.Sha256.Engine.software_process_block cfg self
          pure self)
    | .ret _, .ret _, h => SameSeen.pure' h
    | .next _, .next _, h => software_process_block_same cfg h
  dsimp only
  refine SameSeen.ite (fun _ => ?_) fun _ => ?_
  · exact SameSeen.bind (process_block_simd_same cfg h) fun _ _ h =>
      SameSeen.bind (R := SameSeen.FlowRel (Like R) (Like R)) (SameSeen.pure' (by exact h)) hf
  · exact SameSeen.bind (R := SameSeen.FlowRel (Like R) (Like R)) (SameSeen.pure' (by exact h)) hf

end Sha256

end Chf.Seen
