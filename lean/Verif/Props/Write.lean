import Verif.Model.Write
import Verif.Proofs.History

/-!
# Property C33: `io::Write`
-/

namespace Chf.Props
open Spec

/-- The bytes that a call passes on. -/
def passed : Writer.Op → List Byte
  | .write buf => buf
  | .writeAll buf => buf
  | .flush => []

/-- What a call is to return: everything is always written. -/
def expected : Writer.Op → Writer.Answer
  | .write buf => .written (.ok buf.length)
  | .writeAll _ => .done (.ok ())
  | .flush => .done (.ok ())

theorem writer_eq {c : Cfg} {a : Alg} {w : Writer (a.engine c).State} (hw : a.writer c = some w) :
    w = (a.engine c).writer := by
  cases a <;> first | (exact (Option.some.inj hw).symm) | cases hw

/-- C33: `write` is `input`, and reports the whole buffer as written. -/
theorem C33_write {c : Cfg} {a : Alg} {w : Writer (a.engine c).State} (hw : a.writer c = some w)
    (e : (a.engine c).State) (buf : List Byte) :
    (∀ e', (a.engine c).input e buf = .ok e' → w.write e buf = .ok (e', .ok buf.length)) ∧
      (∀ f, (a.engine c).input e buf = .error f → w.write e buf = .error f) := by
  rw [writer_eq hw]
  constructor
  · intro e' h; simp [HashEngine.writer, h, bind, Except.bind, pure, Except.pure]
  · intro f h; simp [HashEngine.writer, h, bind, Except.bind]

/-- C33: `flush` does nothing. -/
theorem C33_flush {c : Cfg} {a : Alg} {w : Writer (a.engine c).State} (hw : a.writer c = some w)
    (e : (a.engine c).State) : w.flush e = .ok (e, .ok ()) := by
  rw [writer_eq hw]; rfl

example (c : Cfg) : ∃ w, (Alg.hmac .sha384).writer c = some w := ⟨_, rfl⟩

theorem writeAll_eq (E : HashEngine) (e : E.State) (buf : List Byte) (hne : buf ≠ []) :
    E.writer.writeAll e buf = (do let e ← E.input e buf; pure (e, .ok ())) := by
  cases buf with
  | nil => exact absurd rfl hne
  | cons b bs =>
    simp only [Writer.writeAll, List.length_cons, Writer.writeAllLoop, HashEngine.writer]
    cases E.input e (b :: bs) with
    | error f => rfl
    | ok e' =>
      simp only [bind, Except.bind, pure, Except.pure, List.length_cons, sliceFrom, Nat.le_refl, if_true]
      have : (b :: bs).drop (bs.length + 1) = [] := by simp
      rw [this]
      cases bs <;> rfl

/-- C33: after any sequence of `write`, `write_all` and `flush` calls on a reachable engine, every call
has succeeded in full, and count, midstate and digest are those after `input` of all the bytes; a
sequence panics exactly if that `input` does. -/
theorem C33_sequence {c : Cfg} (hc : c.Valid) (a : Alg) (ok : a.Ok c) {w : Writer (a.engine c).State}
    (hw : a.writer c = some w) {e : (a.engine c).State} (he : Reachable c a e) (ops : List Writer.Op)
    (hs : ∀ op ∈ ops, (passed op).length < c.usizeMod) :
    (do let (e', rs) ← w.steps e ops
        let o ← (a.engine c).observe e' []
        pure (rs, o)) =
    (do let o ← (a.engine c).observe e (ops.map passed)
        pure (ops.map expected, o)) := by
  rw [writer_eq hw]
  obtain ⟨k, he⟩ := he
  obtain ⟨s, m, R, -⟩ := he.rel hc ok
  have main : ∀ (ops : List Writer.Op), (∀ op ∈ ops, (passed op).length < c.usizeMod) →
      ∀ {e m}, (a.lawful hc ok).Rel e s m →
      ((a.log c).accepts s (m.length + (ops.map passed).flatten.length) = true →
        ∃ e', (a.engine c).writer.steps e ops = .ok (e', ops.map expected) ∧
          (a.lawful hc ok).Rel e' s (m ++ (ops.map passed).flatten)) ∧
      ((a.log c).accepts s (m.length + (ops.map passed).flatten.length) = false →
        (a.engine c).writer.steps e ops = .error .overflow) := by
    intro ops
    induction ops with
    | nil =>
      intro _ e m R
      refine ⟨fun _ => ⟨e, rfl, by simpa using R⟩, fun h => ?_⟩
      have := (a.lawful hc ok).accepted R
      simp only [List.map_nil, List.flatten_nil, List.length_nil, Nat.add_zero] at h
      rw [h] at this; cases this
    | cons op ops ih =>
      intro hs e m R
      have hs' : ∀ op ∈ ops, (passed op).length < c.usizeMod := fun o ho => hs o (by simp [ho])
      have hop := a.log_slice (hs op (by simp))
      -- what one step does
      have one : ((a.log c).accepts s (m.length + (passed op).length) = true →
            ∃ e', (a.engine c).writer.step e op = .ok (e', expected op) ∧
              (a.lawful hc ok).Rel e' s (m ++ passed op)) ∧
          ((a.log c).accepts s (m.length + (passed op).length) = false →
            (a.engine c).writer.step e op = .error .overflow) := by
        have bad : ∀ m' : List Byte, m' = [] → ¬ (a.log c).accepts s (m.length + m'.length) = false := by
          rintro m' rfl h
          have := (a.lawful hc ok).accepted R
          simp only [List.length_nil, Nat.add_zero] at h
          rw [h] at this; cases this
        cases op with
        | flush =>
          refine ⟨fun _ => ⟨e, rfl, by simpa [passed] using R⟩, fun h => absurd h (bad _ rfl)⟩
        | write buf =>
          constructor
          · intro h
            obtain ⟨e', h', R'⟩ := (a.lawful hc ok).input_ok buf hop R h
            exact ⟨e', by simp [Writer.step, HashEngine.writer, h', bind, Except.bind, pure, Except.pure,
              expected], R'⟩
          · intro h
            have h' := (a.lawful hc ok).input_err buf hop R h
            simp [Writer.step, HashEngine.writer, h', bind, Except.bind]
        | writeAll buf =>
          by_cases hne : buf = []
          · subst hne
            refine ⟨fun _ => ⟨e, ?_, by simpa [passed] using R⟩, fun h => absurd h (bad _ rfl)⟩
            simp [Writer.step, Writer.writeAll, Writer.writeAllLoop, bind, Except.bind, pure, Except.pure,
              expected]
          · constructor
            · intro h
              obtain ⟨e', h', R'⟩ := (a.lawful hc ok).input_ok buf hop R h
              exact ⟨e', by simp [Writer.step, writeAll_eq _ _ _ hne, h', bind, Except.bind, pure,
                Except.pure, expected], R'⟩
            · intro h
              have h' := (a.lawful hc ok).input_err buf hop R h
              simp [Writer.step, writeAll_eq _ _ _ hne, h', bind, Except.bind]
      have hlen : m.length + ((op :: ops).map passed).flatten.length =
          (m ++ passed op).length + (ops.map passed).flatten.length := by simp; omega
      rw [hlen]
      cases h1 : (a.log c).accepts s (m.length + (passed op).length) with
      | true =>
        obtain ⟨e1, h2, R1⟩ := one.1 h1
        have := ih hs' R1
        constructor
        · intro h
          obtain ⟨e2, h3, R2⟩ := this.1 h
          refine ⟨e2, ?_, by simpa [List.append_assoc] using R2⟩
          simp [Writer.steps, h2, h3, bind, Except.bind, pure, Except.pure]
        · intro h
          simp [Writer.steps, h2, this.2 h, bind, Except.bind]
      | false =>
        constructor
        · intro h
          have : (a.log c).accepts s (m.length + (passed op).length) = true :=
            (a.lawful hc ok).mono (by rw [List.length_append]; omega) h
          rw [h1] at this; cases this
        · intro _
          simp [Writer.steps, one.2 h1, bind, Except.bind]
  have hsl : ∀ d ∈ ops.map passed, (a.log c).slice d.length := by
    intro d hd
    obtain ⟨op, ho, rfl⟩ := List.mem_map.1 hd
    exact a.log_slice (hs op ho)
  rw [(a.lawful hc ok).observe_eq R _ hsl]
  cases hacc : (a.log c).accepts s (m.length + (ops.map passed).flatten.length) with
  | true =>
    obtain ⟨e', h', R'⟩ := (main ops hs R).1 hacc
    simp only [h', bind, Except.bind, pure, Except.pure]
    rw [(a.lawful hc ok).observe_eq R' [] (by simp)]
    simp only [LogSpec.observe, List.flatten_nil, List.length_nil, Nat.add_zero, List.append_nil, hacc,
      if_true, List.length_append]
  | false =>
    simp only [LogSpec.observe, (main ops hs R).2 hacc, hacc, bind, Except.bind]
    rfl

example : Cfg.debug64.Valid ∧ (Alg.hmac .sha1).Ok .debug64 ∧
    Reachable .debug64 .siphash24 (Siphash24.withKeys 1 2) ∧
    (∀ op ∈ [Writer.Op.write [1, 2], .flush, .writeAll [3], .writeAll []],
      (passed op).length < Cfg.debug64.usizeMod) :=
  ⟨by decide, ⟨trivial, by decide⟩, ⟨_, .sipKeys 1 2⟩, by decide⟩

/-- C33: `write_all` over any buffers into a new engine computes `hash` of their concatenation and
never fails. -/
theorem C33_digest {c : Cfg} (hc : c.Valid) (a : Alg) (ok : a.Ok c) {w : Writer (a.engine c).State}
    (hw : a.writer c = some w) (bufs : List (List Byte)) (hs : bufs.flatten.length < c.usizeMod) :
    (do let e ← (a.engine c).new
        let (e, rs) ← w.steps e (bufs.map .writeAll)
        let d ← (a.engine c).finalize e
        pure (rs, d)) =
    (do let d ← (a.engine c).hash bufs.flatten
        pure (bufs.map fun _ => .done (.ok ()), d)) := by
  obtain ⟨e, he, R⟩ := (a.lawful hc ok).new_rel
  have hseq := C33_sequence hc a ok hw ⟨_, .new he⟩ (bufs.map .writeAll) (by
    intro op ho
    obtain ⟨b, hb, rfl⟩ := List.mem_map.1 ho
    exact Nat.lt_of_le_of_lt (length_le_flatten hb) hs)
  rw [List.map_map, show passed ∘ Writer.Op.writeAll = id from rfl, List.map_id, List.map_map,
    show expected ∘ Writer.Op.writeAll = fun _ => .done (.ok ()) from rfl] at hseq
  have hh : (a.engine c).hash bufs.flatten = (a.engine c).hashByteChunks bufs := by
    rw [(a.lawful hc ok).hash _ (a.log_slice hs), (a.lawful hc ok).hashByteChunks bufs fun d hd =>
      a.log_slice (Nat.lt_of_le_of_lt (length_le_flatten hd) hs)]
  rw [hh]
  unfold HashEngine.hashByteChunks
  rw [he]
  simp only [HashEngine.observe, HashEngine.inputs, bind, Except.bind, pure, Except.pure] at hseq ⊢
  cases h1 : w.steps e (bufs.map .writeAll) with
  | error f =>
    rw [h1] at hseq
    cases h2 : (a.engine c).inputs e bufs with
    | error f' => rw [h2] at hseq; simp only [Except.error.injEq] at hseq; rw [hseq]
    | ok e' => rw [h2] at hseq; cases hseq
  | ok er =>
    rw [h1] at hseq
    cases h2 : (a.engine c).inputs e bufs with
    | error f' => rw [h2] at hseq; cases hseq
    | ok e' =>
      rw [h2] at hseq
      simp only [Except.ok.injEq, Prod.mk.injEq] at hseq
      simp only [hseq.1, hseq.2.2.2]

example : Cfg.release32.Valid ∧ Alg.sha256.Ok .release32 ∧
    ([[1], [2, 3], []] : List (List Byte)).flatten.length < Cfg.release32.usizeMod :=
  ⟨by decide, trivial, by decide⟩

/-- C33: the engines of sha384 and sha512_256 are the only ones without `Write`. -/
theorem C33_which (c : Cfg) (a : Alg) : a.writer c = none ↔ a = .sha384 ∨ a = .sha512_256 := by
  cases a <;> simp [Alg.writer]

end Chf.Props
