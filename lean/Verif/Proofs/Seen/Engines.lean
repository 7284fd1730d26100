import Verif.Proofs.Seen.Blocks
import Verif.Seen.Sha384
import Verif.Seen.Sha512_256
import Verif.Seen.Sha256t

/-!
# The engines of the translated text with a buffer: what is seen of them
-/

namespace Chf.Seen
open Chf Tr

theorem len_isEmpty {a b : List Byte} (h : Len a b) : a.isEmpty = b.isEmpty := by
  cases a <;> cases b <;> first | rfl | simp [Len] at h

theorem length_leOfNat : ∀ (n x : Nat), (leOfNat n x).length = n
  | 0, _ => rfl
  | n + 1, x => congrArg Nat.succ (length_leOfNat n (x / 256))

theorem toBeBytes_len {w : Nat} (x y : BitVec w) : Len (Rs.toBeBytes x) (Rs.toBeBytes y) := by
  unfold Len Rs.toBeBytes
  rw [List.length_reverse, List.length_reverse, length_leOfNat, length_leOfNat]

theorem toLeBytes_len {w : Nat} (x y : BitVec w) : Len (Rs.toLeBytes x) (Rs.toLeBytes y) := by
  unfold Len Rs.toLeBytes
  rw [length_leOfNat, length_leOfNat]

namespace Sha1

theorem input_same (cfg : Cfg) {e e'} {d d' : List Byte} (h : Alike e e') (hd : Len d d') :
    Tr.SameSeen Alike (Engine.input cfg e d) (Engine.input cfg e' d') := by
  unfold Engine.input
  refine SameSeen.bind (SameSeen.whileR (R := fun p q => Alike p.1 q.1 ∧ Len p.2 q.2) ?_ ?_ ⟨h, hd⟩)
    fun _ _ h => SameSeen.pure' h.1
  · rintro ⟨_, d⟩ ⟨_, d'⟩ ⟨-, hd⟩
    dsimp only at *
    exact SameSeen.pure' (by rw [len_isEmpty hd])
  · rintro ⟨⟨b, h, l⟩, d⟩ ⟨⟨b', h', l'⟩, d'⟩ ⟨⟨hb, hh, hl⟩, hd⟩
    dsimp only at *
    subst hl
    rw [hd]
    iterate 6 same_step
    refine SameSeen.bind (R := Alike) (SameSeen.testThen
      (fun _ => process_block_same cfg ?_) fun _ => SameSeen.pure' ?_)
      fun _ _ h => ?_
    · like
    · like
    · exact SameSeen.bind (SameSeen.sliceFrom hd) fun _ _ hd => SameSeen.pure' ⟨h, hd⟩

theorem midstate_same (cfg : Cfg) {e e'} (h : Alike e e') :
    Tr.SameSeen Len (Engine.midstate cfg e) (Engine.midstate cfg e') := by
  unfold Engine.midstate
  exact SameSeen.zipChunksMut (fun _ _ _ _ h => SameSeen.copyFromSlice h (toBeBytes_len _ _)) h.2.1 rfl

theorem from_midstate_same (cfg : Cfg) {m m'} (h : Len m m') (n : Nat) :
    Tr.SameSeen Alike (Engine.from_midstate cfg m n) (Engine.from_midstate cfg m' n) := by
  unfold Engine.from_midstate
  same_step
  refine SameSeen.bind (zipChunks_same (fun _ _ _ _ _ => ?_) rfl h) fun w w' hw => ?_
  · repeat same_step
  repeat same_step

theorem finalize_same (cfg : Cfg) : ∀ {e e'}, Alike e e' →
    Tr.SameSeen Len (Engine.finalize cfg e) (Engine.finalize cfg e') := by
  rintro ⟨b, h, l⟩ ⟨b', h', l'⟩ ⟨hb, hh, hl⟩
  unfold Engine.finalize
  dsimp only at *
  subst hl
  refine SameSeen.bind (input_same cfg ⟨hb, hh, rfl⟩ rfl) ?_
  rintro ⟨b, h, l⟩ ⟨b', h', l'⟩ ⟨hb, hh, hl⟩
  dsimp only at *
  subst hl
  refine SameSeen.bind (R := Alike) (SameSeen.testThen (fun _ => input_same cfg ⟨hb, hh, rfl⟩ rfl)
    fun _ => SameSeen.pure' ⟨hb, hh, rfl⟩) ?_
  rintro ⟨b, h, l⟩ ⟨b', h', l'⟩ ⟨hb, hh, hl⟩
  dsimp only at *
  subst hl
  iterate 2 same_step
  refine SameSeen.bind (input_same cfg ⟨hb, hh, rfl⟩ rfl) ?_
  rintro ⟨b, h, l⟩ ⟨b', h', l'⟩ ⟨hb, hh, hl⟩
  dsimp only at *
  subst hl
  same_step
  same_step
  refine SameSeen.bind (input_same cfg ⟨hb, hh, rfl⟩ rfl) ?_
  rintro ⟨b, h, l⟩ ⟨b', h', l'⟩ ⟨hb, hh, hl⟩
  dsimp only at *
  subst hl
  same_step
  exact midstate_same cfg ⟨hb, hh, rfl⟩

end Sha1

namespace Ripemd160

theorem input_same (cfg : Cfg) {e e'} {d d' : List Byte} (h : Alike e e') (hd : Len d d') :
    Tr.SameSeen Alike (Engine.input cfg e d) (Engine.input cfg e' d') := by
  unfold Engine.input
  refine SameSeen.bind (SameSeen.whileR (R := fun p q => Alike p.1 q.1 ∧ Len p.2 q.2) ?_ ?_ ⟨h, hd⟩)
    fun _ _ h => SameSeen.pure' h.1
  · rintro ⟨_, d⟩ ⟨_, d'⟩ ⟨-, hd⟩
    dsimp only at *
    exact SameSeen.pure' (by rw [len_isEmpty hd])
  · rintro ⟨⟨b, h, l⟩, d⟩ ⟨⟨b', h', l'⟩, d'⟩ ⟨⟨hb, hh, hl⟩, hd⟩
    dsimp only at *
    subst hl
    rw [hd]
    iterate 6 same_step
    refine SameSeen.bind (R := Alike) (SameSeen.testThen
      (fun _ => process_block_same cfg ?_) fun _ => SameSeen.pure' ?_)
      fun _ _ h => ?_
    · like
    · like
    · exact SameSeen.bind (SameSeen.sliceFrom hd) fun _ _ hd => SameSeen.pure' ⟨h, hd⟩

theorem midstate_same (cfg : Cfg) {e e'} (h : Alike e e') :
    Tr.SameSeen Len (Engine.midstate cfg e) (Engine.midstate cfg e') := by
  unfold Engine.midstate
  exact SameSeen.zipChunksMut (fun _ _ _ _ h => SameSeen.copyFromSlice h (toLeBytes_len _ _)) h.2.1 rfl

theorem from_midstate_same (cfg : Cfg) {m m'} (h : Len m m') (n : Nat) :
    Tr.SameSeen Alike (Engine.from_midstate cfg m n) (Engine.from_midstate cfg m' n) := by
  unfold Engine.from_midstate
  same_step
  refine SameSeen.bind (zipChunks_same (fun _ _ _ _ _ => ?_) rfl h) fun w w' hw => ?_
  · repeat same_step
  repeat same_step

theorem finalize_same (cfg : Cfg) : ∀ {e e'}, Alike e e' →
    Tr.SameSeen Len (Engine.finalize cfg e) (Engine.finalize cfg e') := by
  rintro ⟨b, h, l⟩ ⟨b', h', l'⟩ ⟨hb, hh, hl⟩
  unfold Engine.finalize
  dsimp only at *
  subst hl
  refine SameSeen.bind (input_same cfg ⟨hb, hh, rfl⟩ rfl) ?_
  rintro ⟨b, h, l⟩ ⟨b', h', l'⟩ ⟨hb, hh, hl⟩
  dsimp only at *
  subst hl
  refine SameSeen.bind (R := Alike) (SameSeen.testThen (fun _ => input_same cfg ⟨hb, hh, rfl⟩ rfl)
    fun _ => SameSeen.pure' ⟨hb, hh, rfl⟩) ?_
  rintro ⟨b, h, l⟩ ⟨b', h', l'⟩ ⟨hb, hh, hl⟩
  dsimp only at *
  subst hl
  iterate 2 same_step
  refine SameSeen.bind (input_same cfg ⟨hb, hh, rfl⟩ rfl) ?_
  rintro ⟨b, h, l⟩ ⟨b', h', l'⟩ ⟨hb, hh, hl⟩
  dsimp only at *
  subst hl
  same_step
  same_step
  refine SameSeen.bind (input_same cfg ⟨hb, hh, rfl⟩ rfl) ?_
  rintro ⟨b, h, l⟩ ⟨b', h', l'⟩ ⟨hb, hh, hl⟩
  dsimp only at *
  subst hl
  same_step
  exact midstate_same cfg ⟨hb, hh, rfl⟩

end Ripemd160

namespace Sha512

theorem input_same (cfg : Cfg) {e e'} {d d' : List Byte} (h : Alike e e') (hd : Len d d') :
    Tr.SameSeen Alike (Engine.input cfg e d) (Engine.input cfg e' d') := by
  unfold Engine.input
  refine SameSeen.bind (SameSeen.whileR (R := fun p q => Alike p.1 q.1 ∧ Len p.2 q.2) ?_ ?_ ⟨h, hd⟩)
    fun _ _ h => SameSeen.pure' h.1
  · rintro ⟨_, d⟩ ⟨_, d'⟩ ⟨-, hd⟩
    dsimp only at *
    exact SameSeen.pure' (by rw [len_isEmpty hd])
  · rintro ⟨⟨h, l, b⟩, d⟩ ⟨⟨h', l', b'⟩, d'⟩ ⟨⟨hb, hh, hl⟩, hd⟩
    dsimp only at *
    subst hl
    rw [hd]
    iterate 6 same_step
    refine SameSeen.bind (R := Alike) (SameSeen.testThen
      (fun _ => process_block_same cfg ?_) fun _ => SameSeen.pure' ?_)
      fun _ _ h => ?_
    · like
    · like
    · exact SameSeen.bind (SameSeen.sliceFrom hd) fun _ _ hd => SameSeen.pure' ⟨h, hd⟩

theorem midstate_same (cfg : Cfg) {e e'} (h : Alike e e') :
    Tr.SameSeen Len (Engine.midstate cfg e) (Engine.midstate cfg e') := by
  unfold Engine.midstate
  exact SameSeen.zipChunksMut (fun _ _ _ _ h => SameSeen.copyFromSlice h (toBeBytes_len _ _)) h.2.1 rfl

theorem from_midstate_same (cfg : Cfg) {m m'} (h : Len m m') (n : Nat) :
    Tr.SameSeen Alike (Engine.from_midstate cfg m n) (Engine.from_midstate cfg m' n) := by
  unfold Engine.from_midstate
  same_step
  refine SameSeen.bind (zipChunks_same (fun _ _ _ _ _ => ?_) rfl h) fun w w' hw => ?_
  · repeat same_step
  repeat same_step

theorem finalize_same (cfg : Cfg) : ∀ {e e'}, Alike e e' →
    Tr.SameSeen Len (Engine.finalize cfg e) (Engine.finalize cfg e') := by
  rintro ⟨h, l, b⟩ ⟨h', l', b'⟩ ⟨hb, hh, hl⟩
  unfold Engine.finalize
  dsimp only at *
  subst hl
  refine SameSeen.bind (input_same cfg ⟨hb, hh, rfl⟩ rfl) ?_
  rintro ⟨h, l, b⟩ ⟨h', l', b'⟩ ⟨hb, hh, hl⟩
  dsimp only at *
  subst hl
  refine SameSeen.bind (R := Alike) (SameSeen.testThen (fun _ => input_same cfg ⟨hb, hh, rfl⟩ rfl)
    fun _ => SameSeen.pure' ⟨hb, hh, rfl⟩) ?_
  rintro ⟨h, l, b⟩ ⟨h', l', b'⟩ ⟨hb, hh, hl⟩
  dsimp only at *
  subst hl
  iterate 2 same_step
  refine SameSeen.bind (input_same cfg ⟨hb, hh, rfl⟩ rfl) ?_
  rintro ⟨h, l, b⟩ ⟨h', l', b'⟩ ⟨hb, hh, hl⟩
  dsimp only at *
  subst hl
  same_step
  refine SameSeen.bind (input_same cfg ⟨hb, hh, rfl⟩ rfl) ?_
  rintro ⟨h, l, b⟩ ⟨h', l', b'⟩ ⟨hb, hh, hl⟩
  dsimp only at *
  subst hl
  same_step
  refine SameSeen.bind (input_same cfg ⟨hb, hh, rfl⟩ rfl) ?_
  rintro ⟨h, l, b⟩ ⟨h', l', b'⟩ ⟨hb, hh, hl⟩
  dsimp only at *
  subst hl
  same_step
  exact midstate_same cfg ⟨hb, hh, rfl⟩

end Sha512

namespace Sha256

theorem input_same (cfg : Cfg) {e e'} {d d' : List Byte} (h : Alike e e') (hd : Len d d') :
    Tr.SameSeen Alike (Engine.input cfg e d) (Engine.input cfg e' d') := by
  unfold Engine.input
  refine SameSeen.bind (SameSeen.whileR (R := fun p q => Alike p.1 q.1 ∧ Len p.2 q.2) ?_ ?_ ⟨h, hd⟩)
    fun _ _ h => SameSeen.pure' h.1
  · rintro ⟨_, d⟩ ⟨_, d'⟩ ⟨-, hd⟩
    dsimp only at *
    exact SameSeen.pure' (by rw [len_isEmpty hd])
  · rintro ⟨⟨b, h, l⟩, d⟩ ⟨⟨b', h', l'⟩, d'⟩ ⟨⟨hb, hh, hl⟩, hd⟩
    dsimp only at *
    subst hl
    rw [hd]
    iterate 6 same_step
    refine SameSeen.bind (R := Alike) (SameSeen.testThen
      (fun _ => process_block_same cfg ?_) fun _ => SameSeen.pure' ?_)
      fun _ _ h => ?_
    · like
    · like
    · exact SameSeen.bind (SameSeen.sliceFrom hd) fun _ _ hd => SameSeen.pure' ⟨h, hd⟩

theorem midstate_same (cfg : Cfg) {e e'} (h : Alike e e') :
    Tr.SameSeen (fun m m' => Len m.f0 m'.f0) (Engine.midstate cfg e) (Engine.midstate cfg e') := by
  unfold Engine.midstate
  exact SameSeen.bind (SameSeen.zipChunksMut (fun _ _ _ _ h => SameSeen.copyFromSlice h (toBeBytes_len _ _)) h.2.1 rfl)
    fun _ _ h => SameSeen.pure' h

theorem from_midstate_same (cfg : Cfg) {m m'} (h : (fun m m' => Len m.f0 m'.f0) m m') (n : Nat) :
    Tr.SameSeen Alike (Engine.from_midstate cfg m n) (Engine.from_midstate cfg m' n) := by
  unfold Engine.from_midstate
  same_step
  refine SameSeen.bind (zipChunks_same (fun _ _ _ _ _ => ?_) rfl h) fun w w' hw => ?_
  · repeat same_step
  repeat same_step

theorem finalize_same (cfg : Cfg) : ∀ {e e'}, Alike e e' →
    Tr.SameSeen Len (Engine.finalize cfg e) (Engine.finalize cfg e') := by
  rintro ⟨b, h, l⟩ ⟨b', h', l'⟩ ⟨hb, hh, hl⟩
  unfold Engine.finalize
  dsimp only at *
  subst hl
  refine SameSeen.bind (input_same cfg ⟨hb, hh, rfl⟩ rfl) ?_
  rintro ⟨b, h, l⟩ ⟨b', h', l'⟩ ⟨hb, hh, hl⟩
  dsimp only at *
  subst hl
  refine SameSeen.bind (R := Alike) (SameSeen.testThen (fun _ => input_same cfg ⟨hb, hh, rfl⟩ rfl)
    fun _ => SameSeen.pure' ⟨hb, hh, rfl⟩) ?_
  rintro ⟨b, h, l⟩ ⟨b', h', l'⟩ ⟨hb, hh, hl⟩
  dsimp only at *
  subst hl
  iterate 2 same_step
  refine SameSeen.bind (input_same cfg ⟨hb, hh, rfl⟩ rfl) ?_
  rintro ⟨b, h, l⟩ ⟨b', h', l'⟩ ⟨hb, hh, hl⟩
  dsimp only at *
  subst hl
  same_step
  same_step
  refine SameSeen.bind (input_same cfg ⟨hb, hh, rfl⟩ rfl) ?_
  rintro ⟨b, h, l⟩ ⟨b', h', l'⟩ ⟨hb, hh, hl⟩
  dsimp only at *
  subst hl
  same_step
  exact SameSeen.bind (midstate_same cfg ⟨hb, hh, rfl⟩) fun _ _ h => SameSeen.pure' h

end Sha256

end Chf.Seen
