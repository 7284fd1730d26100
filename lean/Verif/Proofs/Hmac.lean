import Verif.Model.Hmac
import Verif.Spec.Hmac
import Verif.Proofs.Lawful

/-!
# Lemmas: the HMAC engine simulates its log
-/

namespace Chf.Hmac
open Spec

theorem xorZip_eq (x : Byte) (k : List Byte) : ∀ n, k.length ≤ n →
    xorZip (List.replicate n x) k = (k ++ List.replicate (n - k.length) 0).map (· ^^^ x) := by
  induction k with
  | nil =>
    intro n _
    cases n <;> simp [xorZip, List.replicate_succ]
  | cons b k ih =>
    intro n hn
    obtain ⟨n, rfl⟩ : ∃ n', n = n' + 1 := ⟨n - 1, by simp at hn; omega⟩
    simp only [List.length_cons, Nat.add_le_add_iff_right] at hn
    simp only [List.replicate_succ, xorZip, ih n hn, List.length_cons, Nat.add_sub_add_right,
      List.cons_append, List.map_cons]
    rw [BitVec.xor_comm]

theorem xorZip_take (x : Byte) {k : List Byte} {B : Nat} (hk : k.length ≤ B) (hB : B ≤ 128) :
    sliceTo (xorZip (List.replicate 128 x) k) B =
      .ok ((k ++ List.replicate (B - k.length) 0).map (· ^^^ x)) := by
  rw [xorZip_eq x k 128 (by omega), sliceTo, if_pos (by simp; omega)]
  congr 1
  rw [← List.map_take, List.take_append, List.take_of_length_le (by omega), List.take_replicate,
    Nat.min_eq_left (by omega)]

variable {c : Cfg} {E : HashEngine} {S : LogSpec E.Midstate}

/-- The log specification of `hmac::Engine<E>`. -/
def log (E : HashEngine) (S : LogSpec E.Midstate) : LogSpec (Midstate E) :=
  hmacLog S E.blockSize (fun i o => { inner := i, outer := o }) (·.inner) (·.outer)

/-- Engine state `e` stands for the log `m` from start `s`. -/
def HmacRel (W : Lawful E S) (e : Engine E) (s : HmacStart S.Start) (m : List Byte) : Prop :=
  W.Rel e.iengine s.inner (s.innerLog ++ m) ∧ W.Rel e.oengine s.outer s.outerLog

/-- Construction from the block key `k`, before it is extended with zeroes. -/
theorem new_of_key (W : Lawful E S) (hB : E.blockSize ≤ 128)
    (hacc : S.accepts S.fresh.1 (S.fresh.2.length + E.blockSize) = true)
    {key k : List Byte} (hkl : k.length ≤ E.blockSize)
    (hk : (if key.length > E.blockSize then E.hash key else .ok key) = .ok k) :
    ∃ e, new c E key = .ok e ∧
      HmacRel W e (.ofKey S.fresh (k ++ List.replicate (E.blockSize - k.length) 0)) [] := by
  have hda : debugAssert c (decide (E.blockSize ≤ 128)) = .ok () := by simp [debugAssert, hB]
  obtain ⟨i, hi, Ri⟩ := W.default_rel
  have hlen : ∀ x : Byte,
      ((k ++ List.replicate (E.blockSize - k.length) 0).map (· ^^^ x)).length = E.blockSize := by
    intro x; simp; omega
  have hin : ∀ x : Byte, ∃ e', E.input i ((k ++ List.replicate (E.blockSize - k.length) 0).map
      (· ^^^ x)) = .ok e' ∧ W.Rel e' S.fresh.1
        (S.fresh.2 ++ (k ++ List.replicate (E.blockSize - k.length) 0).map (· ^^^ x)) := by
    intro x
    exact W.input_ok _ (by rw [hlen]; exact W.small hB) Ri (by rw [hlen]; exact hacc)
  obtain ⟨ei, hei, Rei⟩ := hin 0x36
  obtain ⟨eo, heo, Reo⟩ := hin 0x5c
  refine ⟨{ iengine := ei, oengine := eo }, ?_, ?_⟩
  · unfold new
    simp only [hda, hi, bind, Except.bind]
    by_cases hgt : key.length > E.blockSize
    · rw [if_pos hgt] at hk
      simp only [if_pos hgt, hk, pure, Except.pure, xorZip_take _ hkl hB, hei, heo]
    · rw [if_neg hgt] at hk
      cases hk
      simp only [if_neg hgt, pure, Except.pure, xorZip_take _ hkl hB, hei, heo]
  · exact ⟨by simpa [HmacStart.ofKey] using Rei, Reo⟩

/-- If hashing a long key fails, so does construction. -/
theorem new_err (W : Lawful E S) (hB : E.blockSize ≤ 128) {key : List Byte} {f : Fault}
    (hgt : key.length > E.blockSize) (hk : E.hash key = .error f) : new c E key = .error f := by
  have hda : debugAssert c (decide (E.blockSize ≤ 128)) = .ok () := by simp [debugAssert, hB]
  obtain ⟨i, hi, Ri⟩ := W.default_rel
  unfold new
  simp only [hda, hi, bind, Except.bind, if_pos hgt, hk]

/-- `hmac::Engine<E>` simulates the HMAC log of `E`'s log. -/
def lawful (W : Lawful E S) (hB : E.blockSize ≤ 128)
    (hacc : S.accepts S.fresh.1 (S.fresh.2.length + E.blockSize) = true) :
    Lawful (engine c E) (log E S) where
  Rel := HmacRel W
  accepted {e s m} R := by
    have := W.accepted R.1
    rw [List.length_append] at this
    exact this
  new_rel := by
    obtain ⟨e, h, R⟩ := new_of_key (c := c) W hB hacc (key := []) (k := []) (by simp) (by simp)
    exact ⟨e, h, by simpa [log, hmacLog] using R⟩
  default_rel := by
    obtain ⟨e, h, R⟩ := new_of_key (c := c) W hB hacc (key := []) (k := []) (by simp) (by simp)
    exact ⟨e, h, by simpa [log, hmacLog] using R⟩
  input_ok {e s m} d hd R h := by
    obtain ⟨i', h1, R1⟩ := W.input_ok d hd R.1 (by
      rw [List.length_append, Nat.add_assoc]; exact h)
    refine ⟨{ e with iengine := i' }, ?_, by rw [← List.append_assoc]; exact R1, R.2⟩
    show (do let i ← E.input e.iengine d; pure { e with iengine := i } : Res (Engine E)) = _
    rw [h1]
    rfl
  input_err {e s m} d hd R h := by
    have h1 := W.input_err d hd R.1 (by rw [List.length_append, Nat.add_assoc]; exact h)
    show (do let i ← E.input e.iengine d; pure { e with iengine := i } : Res (Engine E)) = _
    rw [h1]
    rfl
  count {e s m} R := by
    have := W.count R.1
    rw [List.length_append] at this
    exact this
  digest {e s m} R := by
    have h1 := W.digest R.1
    show (do
      let ihash ← E.finalize e.iengine
      let o ← E.input e.oengine ihash
      E.finalize o : Res (List Byte)) = (do
      let ih ← S.digest s.inner (s.innerLog ++ m)
      if S.accepts s.outer (s.outerLog.length + ih.length) then S.digest s.outer (s.outerLog ++ ih)
      else .error .overflow : Res (List Byte))
    rw [h1]
    cases hd : S.digest s.inner (s.innerLog ++ m) with
    | error f => rfl
    | ok ih =>
      have hsl : S.slice ih.length := W.small (by
        rw [W.digest_len hd]; have := W.out_le; omega)
      simp only [bind, Except.bind]
      cases ha : S.accepts s.outer (s.outerLog.length + ih.length) with
      | true =>
        obtain ⟨o, h2, R2⟩ := W.input_ok ih hsl R.2 ha
        rw [h2, if_pos rfl]
        exact W.digest R2
      | false =>
        rw [W.input_err ih hsl R.2 ha]
        rfl
  mid {e s m} R := by
    have h1 := W.mid R.1
    have h2 := W.mid R.2
    show (do
      let i ← E.midstate e.iengine
      let o ← E.midstate e.oengine
      pure { inner := i, outer := o } : Res (Midstate E)) = _
    rw [h1, h2]
    rfl
  resume_ok {μ n s} ht h := by
    have h' : (do
      let i ← S.resume μ.inner n
      let o ← S.resume μ.outer n
      pure ⟨i, [], o, []⟩ : Res (HmacStart S.Start)) = .ok s := h
    show ∃ e, (do
      let i ← E.fromMidstate μ.inner n
      let o ← E.fromMidstate μ.outer n
      pure { iengine := i, oengine := o } : Res (Engine E)) = .ok e ∧ HmacRel W e s []
    cases hi : S.resume μ.inner n with
    | error f => rw [hi] at h'; cases h'
    | ok si =>
      cases ho : S.resume μ.outer n with
      | error f => rw [hi, ho] at h'; cases h'
      | ok so =>
        rw [hi, ho] at h'
        cases h'
        obtain ⟨ei, h1, R1⟩ := W.resume_ok ht.1 hi
        obtain ⟨eo, h2, R2⟩ := W.resume_ok ht.2 ho
        refine ⟨{ iengine := ei, oengine := eo }, ?_, R1, R2⟩
        rw [h1, h2]
        rfl
  resume_err {μ n f} ht h := by
    have h' : (do
      let i ← S.resume μ.inner n
      let o ← S.resume μ.outer n
      pure ⟨i, [], o, []⟩ : Res (HmacStart S.Start)) = .error f := h
    show (do
      let i ← E.fromMidstate μ.inner n
      let o ← E.fromMidstate μ.outer n
      pure { iengine := i, oengine := o } : Res (Engine E)) = .error f
    cases hi : S.resume μ.inner n with
    | error f' =>
      rw [hi] at h'
      cases h'
      rw [W.resume_err ht.1 hi]
      rfl
    | ok si =>
      obtain ⟨ei, h1, R1⟩ := W.resume_ok ht.1 hi
      cases ho : S.resume μ.outer n with
      | error f' =>
        rw [hi, ho] at h'
        cases h'
        rw [h1, W.resume_err ht.2 ho]
        rfl
      | ok so => rw [hi, ho] at h'; cases h'
  digest_len {s m d} h := by
    have h' : (do
      let ih ← S.digest s.inner (s.innerLog ++ m)
      if S.accepts s.outer (s.outerLog.length + ih.length) then S.digest s.outer (s.outerLog ++ ih)
      else .error .overflow : Res (List Byte)) = .ok d := h
    show d.length = S.outLen
    cases hd : S.digest s.inner (s.innerLog ++ m) with
    | error f => rw [hd] at h'; cases h'
    | ok ih =>
      rw [hd] at h'
      simp only [bind, Except.bind] at h'
      split at h'
      · exact W.digest_len h'
      · cases h'
  out_le := W.out_le
  small := W.small
  mono {s a b} hab h := W.mono (Nat.add_le_add_left hab _) h

end Chf.Hmac
