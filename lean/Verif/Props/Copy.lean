import Verif.Props.Write
import Verif.Props.Inputs

/-!
# Property C58: hashing what a reader gives
-/

namespace Chf.Props
open Spec

/-- `read` gave bytes, or is to be called again. -/
def goesOn : Writer.ReadResult → Bool
  | .ok [] => false
  | .ok (_ :: _) => true
  | .error x => x = .interrupted

/-- The bytes of one `read`. -/
def bytesOfRead : Writer.ReadResult → List Byte
  | .ok bs => bs
  | .error _ => []

/-- The bytes read until the end of the data or an error. -/
def bytesRead (reads : List Writer.ReadResult) : List Byte :=
  ((reads.takeWhile goesOn).map bytesOfRead).flatten

/-- What `copy` is to return: the error that ended the reading, or else the number of bytes. -/
def copied (n : Nat) (reads : List Writer.ReadResult) : Except IoError Nat :=
  match (reads.dropWhile goesOn).head? with
  | some (.error x) => .error x
  | _ => .ok ((n + (bytesRead reads).length) % 2 ^ 64)

theorem bytesOfRead_ok (bs : List Byte) : bytesOfRead (.ok bs) = bs := rfl
theorem bytesOfRead_error (x : IoError) : bytesOfRead (.error x) = [] := rfl

theorem copy_steps (E : HashEngine) : ∀ (reads : List Writer.ReadResult) (e : E.State) (n : Nat), n < 2 ^ 64 →
    E.writer.copy e n reads = (do
      let (e, _) ← E.writer.steps e ((reads.takeWhile goesOn).map fun r => .writeAll (bytesOfRead r))
      pure (e, copied n reads))
  | [], e, n, hn => by
      simp only [Writer.copy, List.takeWhile_nil, List.map_nil, Writer.steps, bind, Except.bind, pure,
        Except.pure, copied, List.dropWhile_nil, List.head?_nil, bytesRead, List.flatten_nil,
        List.length_nil, Nat.add_zero, Nat.mod_eq_of_lt hn]
  | .ok [] :: reads, e, n, hn => by
      simp [Writer.copy, List.takeWhile, goesOn, Writer.steps, bind, Except.bind, pure,
        Except.pure, copied, List.dropWhile, bytesRead, Nat.mod_eq_of_lt hn]
  | .ok (b :: bs) :: reads, e, n, hn => by
      have hc : copied n (.ok (b :: bs) :: reads) = copied ((n + (b :: bs).length) % 2 ^ 64) reads := by
        simp only [copied, List.dropWhile, goesOn, bytesRead, List.takeWhile, List.map_cons, bytesOfRead,
          List.flatten_cons, List.length_append]
        rw [Nat.mod_add_mod, ← Nat.add_assoc]
      simp only [Writer.copy, List.takeWhile, goesOn, List.map_cons, bytesOfRead_ok, Writer.steps, Writer.step,
        writeAll_eq E e (b :: bs) (by simp), hc]
      cases E.input e (b :: bs) with
      | error f => rfl
      | ok e' =>
        have ih := copy_steps E reads e' ((n + (b :: bs).length) % 2 ^ 64) (Nat.mod_lt _ (by decide))
        simp only [bind, Except.bind, pure, Except.pure] at ih ⊢
        rw [ih]
        cases E.writer.steps e' _ <;> rfl
  | .error .interrupted :: reads, e, n, hn => by
      have hc : copied n (.error .interrupted :: reads) = copied n reads := by
        simp [copied, List.dropWhile, goesOn, bytesRead, List.takeWhile, bytesOfRead]
      have ih := copy_steps E reads e n hn
      simp only [Writer.copy, List.takeWhile, goesOn, decide_true, List.map_cons, bytesOfRead_error, Writer.steps,
        Writer.step, hc]
      simp only [Writer.writeAll, List.length_nil, Writer.writeAllLoop, bind, Except.bind, pure,
        Except.pure] at ih ⊢
      rw [ih]
      cases E.writer.steps e _ <;> rfl
  | .error .writeZero :: reads, e, n, hn => by
      simp [Writer.copy, List.takeWhile, goesOn, Writer.steps, bind, Except.bind, pure,
        Except.pure, copied, List.dropWhile]
  | .error .other :: reads, e, n, hn => by
      simp [Writer.copy, List.takeWhile, goesOn, Writer.steps, bind, Except.bind, pure,
        Except.pure, copied, List.dropWhile]

theorem observe_flatten {c : Cfg} (hc : c.Valid) (a : Alg) (ok : a.Ok c) {e : (a.engine c).State}
    (he : Reachable c a e) (xs : List (List Byte)) (h : xs.flatten.length < c.usizeMod) :
    (a.engine c).observe e xs = (a.engine c).observe e [xs.flatten] :=
  C08_chunking hc a ok he xs [xs.flatten] (by simp)
    (fun _ hd => Nat.lt_of_le_of_lt (length_le_flatten hd) h) (by simpa using h)

/-- C58: `std::io::copy` from any reader into a reachable engine does what one `input` of the bytes read
does, however the reader cuts them and however often it is interrupted; it returns their number, or the
error that ended the reading; it panics exactly if that `input` does. -/
theorem C58_copy {c : Cfg} (hc : c.Valid) (a : Alg) (ok : a.Ok c) {w : Writer (a.engine c).State}
    (hw : a.writer c = some w) {e : (a.engine c).State} (he : Reachable c a e)
    (reads : List Writer.ReadResult) (hs : (bytesRead reads).length < c.usizeMod) :
    (do let (e', r) ← w.copy e 0 reads
        let o ← (a.engine c).observe e' []
        pure (r, o)) =
    (do let o ← (a.engine c).observe e [bytesRead reads]
        pure (copied 0 reads, o)) := by
  have hmap : ((reads.takeWhile goesOn).map fun r => Writer.Op.writeAll (bytesOfRead r)).map passed =
      (reads.takeWhile goesOn).map bytesOfRead := by
    rw [List.map_map]; rfl
  have seq := C33_sequence hc a ok hw he ((reads.takeWhile goesOn).map fun r => .writeAll (bytesOfRead r))
    (by
      intro op ho
      refine Nat.lt_of_le_of_lt (length_le_flatten (ds := (reads.takeWhile goesOn).map bytesOfRead) ?_) hs
      rw [← hmap]
      exact List.mem_map_of_mem ho)
  rw [hmap, observe_flatten hc a ok he _ hs] at seq
  rw [writer_eq hw] at seq ⊢
  rw [copy_steps _ _ _ _ (by decide)]
  show _ = ((a.engine c).observe e [((reads.takeWhile goesOn).map bytesOfRead).flatten] >>= _)
  cases h1 : (a.engine c).writer.steps e
      ((reads.takeWhile goesOn).map fun r => .writeAll (bytesOfRead r)) with
  | error f =>
    rw [h1] at seq
    cases h2 : (a.engine c).observe e [((reads.takeWhile goesOn).map bytesOfRead).flatten] with
    | error f' =>
      rw [h2] at seq
      simp only [bind, Except.bind] at seq
      cases seq
      rfl
    | ok o =>
      rw [h2] at seq
      cases seq
  | ok x =>
    rw [h1] at seq
    simp only [bind, Except.bind, pure, Except.pure] at seq ⊢
    cases h2 : (a.engine c).observe e [((reads.takeWhile goesOn).map bytesOfRead).flatten] with
    | error f =>
      rw [h2] at seq
      cases h3 : (a.engine c).observe x.1 [] with
      | error f' =>
        rw [h3] at seq
        simp only at seq
        cases seq
        rfl
      | ok o => rw [h3] at seq; cases seq
    | ok o =>
      rw [h2] at seq
      cases h3 : (a.engine c).observe x.1 [] with
      | error f' => rw [h3] at seq; cases seq
      | ok o' =>
        rw [h3] at seq
        simp only at seq ⊢
        injection seq with h
        injection h with _ h
        rw [h]

/-- Three reads, an interruption, an error. -/
def someReads : List Writer.ReadResult :=
  [.ok [1, 2], .error .interrupted, .ok [3], .error .other, .ok [4]]

example : bytesRead someReads = [1, 2, 3] ∧ copied 0 someReads = .error .other ∧
    copied 0 (someReads.take 3) = .ok 3 := by decide

example : Cfg.debug64.Valid ∧ Alg.sha256.Ok .debug64 ∧ (Alg.sha256.writer .debug64).isSome ∧
    (bytesRead someReads).length < Cfg.debug64.usizeMod :=
  ⟨by decide, trivial, rfl, by decide⟩

theorem copied_ok {reads : List Writer.ReadResult} (h : ∀ x, .error x ∈ reads → x = .interrupted) :
    copied 0 reads = .ok ((bytesRead reads).length % 2 ^ 64) := by
  unfold copied
  split
  · next x hx =>
    have h1 : (Except.error x : Writer.ReadResult) ∈ reads.dropWhile goesOn := List.mem_of_head? hx
    have h2 := h x ((List.dropWhile_sublist _).subset h1)
    have h3 : goesOn (.error x) = false := by
      cases hl : reads.dropWhile goesOn with
      | nil => rw [hl] at hx; cases hx
      | cons y ys =>
        rw [hl] at hx
        cases hx
        have := List.head_dropWhile_not (l := reads) goesOn (by rw [hl]; simp)
        simpa [hl] using this
    rw [h2] at h3
    cases h3
  · rw [Nat.zero_add]

/-- C58: so, for a reader without errors, the program of the crate's documentation computes the hash of
the bytes read. -/
theorem C58_digest {c : Cfg} (hc : c.Valid) (a : Alg) (ok : a.Ok c) {w : Writer (a.engine c).State}
    (hw : a.writer c = some w) (reads : List Writer.ReadResult)
    (hs : (bytesRead reads).length < c.usizeMod) (hend : ∀ x, .error x ∈ reads → x = .interrupted) :
    (do let e ← (a.engine c).default
        let (e, r) ← w.copy e 0 reads
        let d ← (a.engine c).finalize e
        pure (r, d)) =
    (do let d ← (a.engine c).hash (bytesRead reads)
        pure (.ok (bytesRead reads).length, d)) := by
  obtain ⟨e, he, -⟩ := (a.lawful hc ok).new_rel
  have hdef : (a.engine c).default = .ok e := by rw [← he]; cases a <;> rfl
  have hlt : (bytesRead reads).length % 2 ^ 64 = (bytesRead reads).length :=
    Nat.mod_eq_of_lt (Nat.lt_of_lt_of_le hs (Nat.pow_le_pow_right (by decide)
      (by rcases hc with h | h | h <;> omega)))
  have hcopy := C58_copy hc a ok hw ⟨_, .new he⟩ reads hs
  rw [copied_ok hend, hlt] at hcopy
  unfold HashEngine.hash
  rw [he, hdef]
  simp only [HashEngine.observe, HashEngine.inputs, bind, Except.bind, pure, Except.pure] at hcopy ⊢
  cases h1 : w.copy e 0 reads with
  | error f =>
    rw [h1] at hcopy
    cases h2 : (a.engine c).input e (bytesRead reads) with
    | error f' =>
      rw [h2] at hcopy
      simp only [Except.error.injEq] at hcopy
      rw [hcopy]
    | ok e' => rw [h2] at hcopy; cases hcopy
  | ok er =>
    rw [h1] at hcopy
    cases h2 : (a.engine c).input e (bytesRead reads) with
    | error f' => rw [h2] at hcopy; cases hcopy
    | ok e' =>
      rw [h2] at hcopy
      simp only [Except.ok.injEq, Prod.mk.injEq] at hcopy
      simp only [hcopy.1, hcopy.2.2.2]

example : ∀ x, Except.error x ∈ someReads.take 3 → x = IoError.interrupted := by
  intro x hx
  simpa [someReads] using hx

set_option maxRecDepth 10000 in
/-- The program, run on these reads. -/
example : ((do
    let e ← (Sha1.engine .debug64).default
    let (e, r) ← (Sha1.engine .debug64).writer.copy e 0 (someReads.take 3)
    let d ← (Sha1.engine .debug64).finalize e
    pure (r, d)) : Res (Except IoError Nat × List Byte)) = .ok (.ok 3, sha1 [1, 2, 3]) := by
  decide +kernel

end Chf.Props
