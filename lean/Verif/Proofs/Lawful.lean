import Verif.Spec.Log

/-!
# Lemmas: engines that simulate a message log
-/

namespace Chf
open Spec

/-- `Rel` is a simulation between the engine `E` and the log specification `S`. -/
structure Lawful (E : HashEngine) (S : LogSpec E.Midstate) where
  Rel : E.State → S.Start → List Byte → Prop
  accepted : ∀ {e s m}, Rel e s m → S.accepts s m.length = true
  new_rel : ∃ e, E.new = .ok e ∧ Rel e S.fresh.1 S.fresh.2
  default_rel : ∃ e, E.default = .ok e ∧ Rel e S.fresh.1 S.fresh.2
  input_ok : ∀ {e s m} (d : List Byte), S.slice d.length → Rel e s m →
    S.accepts s (m.length + d.length) = true → ∃ e', E.input e d = .ok e' ∧ Rel e' s (m ++ d)
  input_err : ∀ {e s m} (d : List Byte), S.slice d.length → Rel e s m →
    S.accepts s (m.length + d.length) = false → E.input e d = .error .overflow
  count : ∀ {e s m}, Rel e s m → E.nBytesHashed e = S.count s m.length
  digest : ∀ {e s m}, Rel e s m → E.finalize e = S.digest s m
  mid : ∀ {e s m}, Rel e s m → E.midstate e = .ok (S.mid s m)
  resume_ok : ∀ {μ n s}, S.typed μ n → S.resume μ n = .ok s →
    ∃ e, E.fromMidstate μ n = .ok e ∧ Rel e s []
  resume_err : ∀ {μ n f}, S.typed μ n → S.resume μ n = .error f → E.fromMidstate μ n = .error f
  digest_len : ∀ {s m d}, S.digest s m = .ok d → d.length = S.outLen
  out_le : S.outLen ≤ 64
  small : ∀ {n}, n ≤ 128 → S.slice n
  /-- Longer logs are no more acceptable than shorter ones. -/
  mono : ∀ {s a b}, a ≤ b → S.accepts s b = true → S.accepts s a = true

namespace Lawful
variable {E : HashEngine} {S : LogSpec E.Midstate} (W : Lawful E S)
include W

theorem inputs_ok {e s m} (ds : List (List Byte)) (hs : ∀ d ∈ ds, S.slice d.length) (R : W.Rel e s m)
    (h : S.accepts s (m.length + ds.flatten.length) = true) :
    ∃ e', E.inputs e ds = .ok e' ∧ W.Rel e' s (m ++ ds.flatten) := by
  induction ds generalizing e m with
  | nil => exact ⟨e, rfl, by simpa using R⟩
  | cons d ds ih =>
    rw [List.flatten_cons, List.length_append] at h
    obtain ⟨e', h1, R'⟩ := W.input_ok d (hs d (by simp)) R (W.mono (by omega) h)
    obtain ⟨e'', h2, R''⟩ := ih (fun d hd => hs d (by simp [hd])) R' (by rw [List.length_append, Nat.add_assoc]; exact h)
    refine ⟨e'', ?_, by rw [List.flatten_cons, ← List.append_assoc]; exact R''⟩
    simp only [HashEngine.inputs, h1, bind, Except.bind, h2]

theorem inputs_err {e s m} (ds : List (List Byte)) (hs : ∀ d ∈ ds, S.slice d.length) (R : W.Rel e s m)
    (h : S.accepts s (m.length + ds.flatten.length) = false) :
    E.inputs e ds = .error .overflow := by
  induction ds generalizing e m with
  | nil =>
    have := W.accepted R
    simp [this] at h
  | cons d ds ih =>
    rw [List.flatten_cons, List.length_append] at h
    cases hd : S.accepts s (m.length + d.length) with
    | true =>
      obtain ⟨e', h1, R'⟩ := W.input_ok d (hs d (by simp)) R hd
      have := ih (fun d hd => hs d (by simp [hd])) R' (by rw [List.length_append, Nat.add_assoc]; exact h)
      simp only [HashEngine.inputs, h1, bind, Except.bind, this]
    | false =>
      have := W.input_err d (hs d (by simp)) R hd
      simp only [HashEngine.inputs, this, bind, Except.bind]

theorem inputs_finalize {e s m} (ds : List (List Byte)) (hs : ∀ d ∈ ds, S.slice d.length) (R : W.Rel e s m) :
    (E.inputs e ds >>= E.finalize) =
    if S.accepts s (m.length + ds.flatten.length) then S.digest s (m ++ ds.flatten)
    else .error .overflow := by
  cases h : S.accepts s (m.length + ds.flatten.length) with
  | true =>
    obtain ⟨e', h1, R'⟩ := W.inputs_ok ds hs R h
    rw [h1, if_pos rfl, ← W.digest R']
    rfl
  | false => rw [W.inputs_err ds hs R h]; rfl

/-- `hash_byte_chunks` hashes the concatenation. -/
theorem hashByteChunks (ds : List (List Byte)) (hs : ∀ d ∈ ds, S.slice d.length) :
    E.hashByteChunks ds =
      if S.accepts S.fresh.1 (S.fresh.2.length + ds.flatten.length)
      then S.digest S.fresh.1 (S.fresh.2 ++ ds.flatten) else .error .overflow := by
  obtain ⟨e, he, R⟩ := W.new_rel
  rw [← W.inputs_finalize ds hs R, HashEngine.hashByteChunks, he]
  rfl

omit W in
theorem hash_eq_chunks (m : List Byte) : E.hash m = E.hashByteChunks [m] := by
  simp only [HashEngine.hash, HashEngine.hashByteChunks, HashEngine.inputs, bind_assoc]
  rfl

theorem hash (m : List Byte) (hs : S.slice m.length) :
    E.hash m =
      if S.accepts S.fresh.1 (S.fresh.2.length + m.length)
      then S.digest S.fresh.1 (S.fresh.2 ++ m) else .error .overflow := by
  rw [hash_eq_chunks, W.hashByteChunks _ (by simpa using hs)]; simp

end Lawful
end Chf
