import Verif.Model.TextTypes
import Verif.Props.Text
import Verif.Props.Write

/-!
# C74 and C75: provided methods, `from_engine` and `Write` of the translated text
-/

namespace Chf.Props
open Chf Chf.Rs Chf.Spec

/-! ## C74 -/

theorem inputs_foldlM (E : HashEngine) : (ds : List (List Byte)) → (e : E.State) →
    ds.foldlM (fun e d => E.input e d) e = E.inputs e ds
  | [], _ => rfl
  | d :: ds, e => by
    rw [List.foldlM_cons]
    unfold HashEngine.inputs
    exact bind_congr' fun e' _ => inputs_foldlM E ds e'

theorem hash_byte_chunks_eq (c : Cfg) (E : HashEngine) (ds : List (List Byte)) :
    Source.Lib.HashEngine.hash_byte_chunks c E ds = E.hashByteChunks ds := by
  unfold Source.Lib.HashEngine.hash_byte_chunks HashEngine.hashByteChunks
  exact bind_congr' fun e _ => by rw [← inputs_foldlM]

/-- C74: the text of the provided methods `hash` and `hash_byte_chunks` of the trait `HashEngine`, on
every engine type of the text, is the standard's digest of the concatenated pieces. -/
theorem C74_provided {c : Cfg} (hc : c.Valid) (a : Alg) (ok : a.Ok c) (chunks : List (List Byte))
    (hbits : 8 * (a.base + chunks.flatten.length + a.slack) < 2 ^ 64)
    (hbytes : a.base + chunks.flatten.length + a.slack + 144 < 2 ^ c.usizeBits) :
    Source.Lib.HashEngine.hash_byte_chunks c (Source.engineOf c a) chunks =
      .ok (a.hashSpec chunks.flatten) ∧
    Source.Lib.HashEngine.hash c (Source.engineOf c a) chunks.flatten =
      .ok (a.hashSpec chunks.flatten) := by
  refine ⟨(hash_byte_chunks_eq c _ chunks).trans (C67_engines hc a ok chunks hbits hbytes), ?_⟩
  have h := C67_engines hc a ok [chunks.flatten] (by rwa [List.flatten_singleton])
    (by rwa [List.flatten_singleton])
  rw [List.flatten_singleton, ← Lawful.hash_eq_chunks] at h
  exact h

/-- C74: no chunking makes a difference, even where the message is too long for the standard or a call
panics, as long as the pieces fit the address space together. -/
theorem C74_chunking {c : Cfg} (hc : c.Valid) (a : Alg) (ok : a.Ok c) (chunks : List (List Byte))
    (hs : chunks.flatten.length < c.usizeMod) :
    Source.Lib.HashEngine.hash_byte_chunks c (Source.engineOf c a) chunks =
      Source.Lib.HashEngine.hash c (Source.engineOf c a) chunks.flatten := by
  have hl : ∀ d ∈ chunks, d.length < c.usizeMod := fun d hd =>
    Nat.lt_of_le_of_lt (length_le_flatten hd) hs
  have s := Source.algSim hc a (fits_of_ok a ok)
  rw [hash_byte_chunks_eq, s.hashByteChunks chunks hl]
  show _ = (Source.engineOf c a).hash chunks.flatten
  rw [Lawful.hash_eq_chunks, s.hashByteChunks [chunks.flatten] fun d hd => by
    rw [List.mem_singleton.1 hd]; exact hs]
  rw [(a.lawful hc ok).hashByteChunks chunks fun d hd => a.log_slice (hl d hd),
    (a.lawful hc ok).hashByteChunks [chunks.flatten] fun d hd => by
      rw [List.mem_singleton.1 hd]; exact a.log_slice hs,
    List.flatten_singleton]

set_option maxRecDepth 10000 in
example : Cfg.debug64.Valid ∧ Alg.sha1.Ok .debug64 ∧
    (Source.Lib.HashEngine.hash_byte_chunks .debug64 (Source.engineOf .debug64 .sha1)
      [[0x61], [], [0x62, 0x63]]).map (·.take 4) = .ok [0xa9, 0x99, 0x3e, 0x36] :=
  ⟨by decide, trivial, by decide +kernel⟩

/-- C74: the text of `hmac::Hash::from_engine`, on an engine with a key and a message, is RFC 2104's
HMAC. -/
theorem C74_hmac {c : Cfg} (h64 : c.usizeBits = 64) (a : Alg) (ok : (Alg.hmac a).Ok c) (N : Nat)
    (key : List Byte) (chunks : List (List Byte)) (hk : a.base + key.length + a.slack < 2 ^ 60)
    (hm : a.base + chunks.flatten.length + a.slack < 2 ^ 60) :
    (do
      let e ← Source.Hmac.Engine.new c (Source.engineOf c a) key
      let e ← (Source.engineOf c (.hmac a)).inputs e chunks
      Source.Hmac.Hash.from_engine c N (Source.engineOf c (.hmac a)) e) =
    .ok ⟨hmac a.hashSpec a.blockSize key chunks.flatten⟩ := by
  have h := congrArg (Except.map Source.Hmac.Hash.mk) (C67_hmac h64 a ok key chunks hk hm)
  refine Eq.trans ?_ h
  rw [Rs.map_bind]
  refine bind_congr' fun e _ => ?_
  rw [Rs.map_bind]
  exact bind_congr' fun e _ => (map_eq_bind _ _).symm

/-- C74: the provided `new` is `Default`, and the engine that every algorithm's own `new` makes. -/
theorem C74_new (c : Cfg) (a : Alg) :
    Source.Lib.HashEngine.new c (Source.engineOf c a) = (Source.engineOf c a).default ∧
    Source.Lib.HashEngine.new c (Source.engineOf c a) = (Source.engineOf c a).new := by
  have h : Source.Lib.HashEngine.new c (Source.engineOf c a) = (Source.engineOf c a).default := by
    unfold Source.Lib.HashEngine.new
    cases (Source.engineOf c a).default <;> rfl
  refine ⟨h, h.trans ?_⟩
  cases a <;> rfl

/-- C74: `from_engine` of the other types, and the engine that `engine` gives. -/
theorem C74_from_engine (c : Cfg) (T : Source.Sha256t.Tag) (m : List Byte) :
    (Source.Sha1.Engine.input c (Source.Sha1.Hash.engine c) m >>= Source.Sha1.Hash.from_engine c) =
      Source.Sha1.Hash.hash c m ∧
    (Source.Sha256.Engine.input c (Source.Sha256.Hash.engine c) m >>= Source.Sha256.Hash.from_engine c) =
      Source.Sha256.Hash.hash c m ∧
    (Source.Sha384.Engine.input c (Source.Sha384.Hash.engine c) m >>= Source.Sha384.Hash.from_engine c) =
      Source.Sha384.Hash.hash c m ∧
    (Source.Sha512.Engine.input c (Source.Sha512.Hash.engine c) m >>= Source.Sha512.Hash.from_engine c) =
      Source.Sha512.Hash.hash c m ∧
    (Source.Sha512_256.Engine.input c (Source.Sha512_256.Hash.engine c) m >>=
      Source.Sha512_256.Hash.from_engine c) = Source.Sha512_256.Hash.hash c m ∧
    (Source.Ripemd160.Engine.input c (Source.Ripemd160.Hash.engine c) m >>=
      Source.Ripemd160.Hash.from_engine c) = Source.Ripemd160.Hash.hash c m ∧
    (Source.Siphash24.Engine.input c (Source.Siphash24.Hash.engine c) m).map
      (Source.Siphash24.Hash.from_engine c) = Source.Siphash24.Hash.hash c m ∧
    (do let e ← Source.Sha256t.Hash.engine c T
        let e ← Source.Sha256t.Engine.input c T e m
        Source.Sha256t.Hash.from_engine c T e) = Source.Sha256t.Hash.hash c T m :=
  ⟨rfl, rfl, rfl, rfl, rfl, rfl, rfl, rfl⟩

/-! ## C75 -/

/-- The pieces that a call passes to `input`. -/
def pieces : Writer.Op → List (List Byte)
  | .write buf => [buf]
  | .writeAll [] => []
  | .writeAll (b :: bs) => [b :: bs]
  | .flush => []

theorem pieces_flatten (op : Writer.Op) : (pieces op).flatten = passed op := by
  cases op with
  | write buf => exact List.flatten_singleton
  | writeAll buf => cases buf <;> simp [pieces, passed]
  | flush => rfl

theorem inputs_append (E : HashEngine) : (xs ys : List (List Byte)) → (e : E.State) →
    E.inputs e (xs ++ ys) = E.inputs e xs >>= fun e => E.inputs e ys
  | [], _, _ => rfl
  | x :: xs, ys, e => by
    rw [List.cons_append]
    show (E.input e x >>= fun e => E.inputs e (xs ++ ys)) =
      ((E.input e x >>= fun e => E.inputs e xs) >>= fun e => E.inputs e ys)
    rw [bind_assoc]
    exact bind_congr' fun e _ => inputs_append E xs ys e

theorem inputs_single (E : HashEngine) (x : List Byte) (e : E.State) : E.inputs e [x] = E.input e x := by
  show (E.input e x >>= fun e => .ok e) = _
  cases E.input e x <;> rfl

theorem step_pieces (E : HashEngine) (e : E.State) (op : Writer.Op) :
    E.writer.step e op = (E.inputs e (pieces op)).map fun e => (e, expected op) := by
  cases op with
  | write buf =>
    rw [show pieces (.write buf) = [buf] from rfl, inputs_single]
    show ((E.input e buf >>= fun e => pure (e, Except.ok buf.length)) >>= fun p => pure (p.1, Writer.Answer.written p.2)) = _
    cases E.input e buf <;> rfl
  | writeAll buf =>
    cases buf with
    | nil => rfl
    | cons b bs =>
      rw [show pieces (.writeAll (b :: bs)) = [b :: bs] from rfl, inputs_single]
      show (E.writer.writeAll e (b :: bs) >>= fun p => pure (p.1, Writer.Answer.done p.2)) = _
      rw [writeAll_eq E e (b :: bs) (List.cons_ne_nil _ _)]
      cases E.input e (b :: bs) <;> rfl
  | flush => rfl

theorem steps_pieces (E : HashEngine) : (ops : List Writer.Op) → (e : E.State) →
    E.writer.steps e ops = (E.inputs e (ops.flatMap pieces)).map fun e => (e, ops.map expected)
  | [], _ => rfl
  | op :: ops, e => by
    show (E.writer.step e op >>= fun p => E.writer.steps p.1 ops >>= fun q => pure (q.1, p.2 :: q.2)) = _
    rw [step_pieces, List.flatMap_cons, inputs_append]
    cases E.inputs e (pieces op) with
    | error f => rfl
    | ok e' =>
      show (E.writer.steps e' ops >>= fun q => pure (q.1, expected op :: q.2)) = _
      rw [steps_pieces E ops e', ok_bind]
      cases E.inputs e' (ops.flatMap pieces) <;> rfl

theorem writerOf_eq (E : HashEngine) (write : E.State → List Byte → Res ((Except Rs.IoError Nat) × E.State))
    (flush : E.State → (Except Rs.IoError Unit) × E.State)
    (hw : ∀ e buf, write e buf = E.input e buf >>= fun e => pure (.ok buf.length, e))
    (hf : ∀ e, flush e = (.ok (), e)) : Source.writerOf write flush = E.writer := by
  unfold Source.writerOf HashEngine.writer
  congr 1
  · funext e buf
    rw [hw]
    cases E.input e buf <;> rfl
  · funext e
    rw [hf]
    rfl

theorem textWriter_eq {c : Cfg} {a : Alg} {w : Writer (Source.engineOf c a).State}
    (hw : Source.writer c a = some w) : w = (Source.engineOf c a).writer := by
  cases a with
  | sha384 => cases hw
  | sha512_256 => cases hw
  | hmac b =>
    rw [← Option.some.inj hw]
    exact writerOf_eq (Source.engineOf c (.hmac b)) _ _ (fun _ _ => rfl) fun _ => rfl
  | sha256t mid len data =>
    rw [← Option.some.inj hw]
    exact writerOf_eq (Source.engineOf c (.sha256t mid len data)) _ _ (fun _ _ => rfl) fun _ => rfl
  | sha1 => rw [← Option.some.inj hw]; exact writerOf_eq (Source.engineOf c .sha1) _ _ (fun _ _ => rfl) fun _ => rfl
  | sha256 => rw [← Option.some.inj hw]; exact writerOf_eq (Source.engineOf c .sha256) _ _ (fun _ _ => rfl) fun _ => rfl
  | sha512 => rw [← Option.some.inj hw]; exact writerOf_eq (Source.engineOf c .sha512) _ _ (fun _ _ => rfl) fun _ => rfl
  | ripemd160 => rw [← Option.some.inj hw]; exact writerOf_eq (Source.engineOf c .ripemd160) _ _ (fun _ _ => rfl) fun _ => rfl
  | siphash24 => rw [← Option.some.inj hw]; exact writerOf_eq (Source.engineOf c .siphash24) _ _ (fun _ _ => rfl) fun _ => rfl

theorem textStdWriter_eq (c : Cfg) (a : Alg) :
    Source.stdWriter c a = (Source.engineOf c (.hmac a)).writer :=
  writerOf_eq (Source.engineOf c (.hmac a)) _ _ (fun _ _ => rfl) fun _ => rfl

theorem steps_digest (E : HashEngine) (ops : List Writer.Op) {d : List Byte}
    (h : E.hashByteChunks (ops.flatMap pieces) = .ok d) :
    (do let e ← E.new
        let (e, rs) ← E.writer.steps e ops
        let d ← E.finalize e
        pure (rs, d)) = .ok (ops.map expected, d) := by
  unfold HashEngine.hashByteChunks at h
  cases hn : E.new with
  | error f => rw [hn] at h; cases h
  | ok s =>
    rw [hn, ok_bind] at h
    rw [ok_bind, steps_pieces]
    cases hi : E.inputs s (ops.flatMap pieces) with
    | error f => rw [hi] at h; cases h
    | ok s' =>
      rw [hi, ok_bind] at h
      show (E.finalize s' >>= fun d => pure (ops.map expected, d)) = _
      rw [h]
      rfl

theorem digest_pieces {c : Cfg} (hc : c.Valid) (a : Alg) (ok : a.Ok c) (ops : List Writer.Op)
    (hbits : 8 * (a.base + (ops.map passed).flatten.length + a.slack) < 2 ^ 64)
    (hbytes : a.base + (ops.map passed).flatten.length + a.slack + 144 < 2 ^ c.usizeBits) :
    (do let e ← (Source.engineOf c a).new
        let (e, rs) ← (Source.engineOf c a).writer.steps e ops
        let d ← (Source.engineOf c a).finalize e
        pure (rs, d)) = .ok (ops.map expected, a.hashSpec (ops.map passed).flatten) := by
  have e : (ops.flatMap pieces).flatten = (ops.map passed).flatten := by
    induction ops with
    | nil => rfl
    | cons op ops ih =>
      rw [List.flatMap_cons, List.flatten_append, pieces_flatten, List.map_cons, List.flatten_cons,
        ih (by rw [List.map_cons, List.flatten_cons, List.length_append] at hbits; omega)
          (by rw [List.map_cons, List.flatten_cons, List.length_append] at hbytes; omega)]
  have h := C67_engines hc a ok (ops.flatMap pieces) (by rwa [e]) (by rwa [e])
  rw [e] at h
  exact steps_digest _ ops h

/-- C75: the text of `write` is `input` and reports the whole buffer as written; `flush` does nothing.
So it is for `bitcoin_io::Write` of every engine type that has it, and for `std::io::Write` of
`hmac::Engine`. -/
theorem C75_write {c : Cfg} {a : Alg} {w : Writer (Source.engineOf c a).State}
    (hw : Source.writer c a = some w ∨ ∃ b, ∃ h : a = .hmac b, w = h ▸ Source.stdWriter c b)
    (e : (Source.engineOf c a).State) (buf : List Byte) :
    (∀ e', (Source.engineOf c a).input e buf = .ok e' → w.write e buf = .ok (e', .ok buf.length)) ∧
    (∀ f, (Source.engineOf c a).input e buf = .error f → w.write e buf = .error f) ∧
    w.flush e = .ok (e, .ok ()) := by
  have : w = (Source.engineOf c a).writer := by
    rcases hw with hw | ⟨b, rfl, hw⟩
    · exact textWriter_eq hw
    · exact hw.trans (textStdWriter_eq c b)
  rw [this]
  refine ⟨fun e' h => ?_, fun f h => ?_, rfl⟩
  · show ((Source.engineOf c a).input e buf >>= fun e => pure (e, Except.ok buf.length)) = _
    rw [h]; rfl
  · show ((Source.engineOf c a).input e buf >>= fun e => pure (e, Except.ok buf.length)) = _
    rw [h]; rfl

/-- C75: any sequence of `write`, `write_all` and `flush` on a new engine of the text succeeds in full,
and the digest is the standard's of the bytes written. -/
theorem C75_digest {c : Cfg} (hc : c.Valid) (a : Alg) (ok : a.Ok c) {w : Writer (Source.engineOf c a).State}
    (hw : Source.writer c a = some w) (ops : List Writer.Op)
    (hbits : 8 * (a.base + (ops.map passed).flatten.length + a.slack) < 2 ^ 64)
    (hbytes : a.base + (ops.map passed).flatten.length + a.slack + 144 < 2 ^ c.usizeBits) :
    (do let e ← (Source.engineOf c a).new
        let (e, rs) ← w.steps e ops
        let d ← (Source.engineOf c a).finalize e
        pure (rs, d)) = .ok (ops.map expected, a.hashSpec (ops.map passed).flatten) := by
  rw [textWriter_eq hw]
  exact digest_pieces hc a ok ops hbits hbytes

/-- C75: the same through `std::io::Write` of `hmac::Engine`. -/
theorem C75_std_digest {c : Cfg} (hc : c.Valid) (a : Alg) (ok : (Alg.hmac a).Ok c) (ops : List Writer.Op)
    (hbits : 8 * ((Alg.hmac a).base + (ops.map passed).flatten.length + (Alg.hmac a).slack) < 2 ^ 64)
    (hbytes : (Alg.hmac a).base + (ops.map passed).flatten.length + (Alg.hmac a).slack + 144 <
      2 ^ c.usizeBits) :
    (do let e ← (Source.engineOf c (.hmac a)).new
        let (e, rs) ← (Source.stdWriter c a).steps e ops
        let d ← (Source.engineOf c (.hmac a)).finalize e
        pure (rs, d)) = .ok (ops.map expected, (Alg.hmac a).hashSpec (ops.map passed).flatten) := by
  rw [textStdWriter_eq]
  exact digest_pieces hc (.hmac a) ok ops hbits hbytes

/-- C75: which engines are writers. -/
theorem C75_which (c : Cfg) (a : Alg) : Source.writer c a = none ↔ a = .sha384 ∨ a = .sha512_256 := by
  cases a <;> simp [Source.writer]

example : Cfg.debug64.Valid ∧ (Alg.hmac .sha1).Ok .debug64 ∧
    8 * ((Alg.hmac .sha1).base + ([Writer.Op.write [1, 2], .flush, .writeAll [3]].map passed).flatten.length +
      (Alg.hmac .sha1).slack) < 2 ^ 64 ∧
    (Alg.hmac .sha1).base + ([Writer.Op.write [1, 2], .flush, .writeAll [3]].map passed).flatten.length +
      (Alg.hmac .sha1).slack + 144 < 2 ^ Cfg.debug64.usizeBits :=
  ⟨by decide, ⟨trivial, by decide⟩, by decide, by decide⟩

end Chf.Props
