import Verif.Props.Copy
import Verif.Props.TextHash
import Verif.Props.TextWrite
import Verif.Proofs.Source.Reach

/-!
# C98: from what a reader gives to a printed digest, in the translated text
-/

namespace Chf.Props
open Chf Chf.Rs Chf.Spec

/-- The non-empty slices that the reads give, until the end of the data or an error. -/
def slicesRead (reads : List Writer.ReadResult) : List (List Byte) :=
  ((reads.takeWhile goesOn).map bytesOfRead).filter fun d => !d.isEmpty

theorem flatten_filter (xs : List (List Byte)) : (xs.filter fun d => !d.isEmpty).flatten = xs.flatten := by
  induction xs with
  | nil => rfl
  | cons x xs ih =>
    cases x with
    | nil => exact ih
    | cons b bs => simp [ih]

theorem slicesRead_flatten (reads : List Writer.ReadResult) : (slicesRead reads).flatten = bytesRead reads :=
  flatten_filter _

theorem slicesRead_lt {reads : List Writer.ReadResult} {n : Nat} (h : (bytesRead reads).length < n) :
    ∀ d ∈ slicesRead reads, d.length < n := fun d hd =>
  Nat.lt_of_le_of_lt (length_le_flatten hd) (by rw [slicesRead_flatten]; exact h)

/-- `io::copy` into an engine is one `input` for each read that gave something. -/
theorem copy_inputs (E : HashEngine) : ∀ (reads : List Writer.ReadResult) (e : E.State) (n : Nat), n < 2 ^ 64 →
    E.writer.copy e n reads = (E.inputs e (slicesRead reads)).map fun e => (e, copied n reads) := by
  intro reads e n hn
  rw [copy_steps E reads e n hn]
  generalize copied n reads = r
  unfold slicesRead
  generalize reads.takeWhile goesOn = rs
  induction rs generalizing e with
  | nil => rfl
  | cons x rs ih =>
    cases hx : bytesOfRead x with
    | nil =>
      have := ih e
      simp only [List.map_cons, hx, Writer.steps, Writer.step, Writer.writeAll, List.length_nil,
        Writer.writeAllLoop, bind, Except.bind, pure, Except.pure, List.filter, List.isEmpty, Bool.not_true] at this ⊢
      rw [← this]
      cases E.writer.steps e _ <;> rfl
    | cons b bs =>
      simp only [List.map_cons, hx, Writer.steps, Writer.step, writeAll_eq E e (b :: bs) (by simp),
        List.filter_cons, List.isEmpty_cons, Bool.not_false, HashEngine.inputs, if_true]
      cases E.input e (b :: bs) with
      | error f => rfl
      | ok e' =>
        have := ih e'
        simp only [bind, Except.bind, pure, Except.pure] at this ⊢
        rw [← this]
        cases E.writer.steps e' _ <;> rfl

/-- A writer of the text, of `bitcoin_io` or of `std`. -/
def IsWriter (c : Cfg) (a : Alg) (w : Writer (Source.engineOf c a).State) : Prop :=
  Source.writer c a = some w ∨ ∃ b, ∃ h : a = .hmac b, w = h ▸ Source.stdWriter c b

theorem IsWriter.eq {c : Cfg} {a : Alg} {w : Writer (Source.engineOf c a).State} (hw : IsWriter c a w) :
    w = (Source.engineOf c a).writer := by
  rcases hw with hw | ⟨b, rfl, hw⟩
  · exact textWriter_eq hw
  · exact hw.trans (textStdWriter_eq c b)

/-- C98: `io::copy` from any reader into an engine of the text that a caller can have does what one
`input` of the bytes read does, however the reader cuts them and however often it is interrupted; it
returns their number, or the error that ended the reading; it panics exactly if that `input` does. -/
theorem C98_copy {c : Cfg} (hc : c.Valid) (a : Alg) (ok : a.Ok c) {w : Writer (Source.engineOf c a).State}
    (hw : IsWriter c a w) {e} (he : Source.Reach c a e) (reads : List Writer.ReadResult)
    (hs : (bytesRead reads).length < c.usizeMod) :
    (do let (e', r) ← w.copy e 0 reads
        let o ← (Source.engineOf c a).observe e' []
        pure (r, o)) =
    (do let o ← (Source.engineOf c a).observe e [bytesRead reads]
        pure (copied 0 reads, o)) := by
  obtain ⟨m, hm, rfl⟩ := he.model hc (fits_of_ok a ok)
  have hob : (Source.engineOf c a).observe ((Source.algSim hc a (fits_of_ok a ok)).st m) [bytesRead reads] =
      (Source.engineOf c a).observe ((Source.algSim hc a (fits_of_ok a ok)).st m) (slicesRead reads) := by
    rw [(Source.algSim hc a (fits_of_ok a ok)).observe m _ (slicesRead_lt hs),
      (Source.algSim hc a (fits_of_ok a ok)).observe m _ (by
        intro d hd; rw [List.mem_singleton.1 hd]; exact hs),
      observe_flatten hc a ok hm (slicesRead reads) (by rw [slicesRead_flatten]; exact hs), slicesRead_flatten]
  rw [hw.eq, copy_inputs _ _ _ _ (by decide), hob]
  unfold HashEngine.observe
  cases (Source.engineOf c a).inputs _ (slicesRead reads) <;> rfl

/-- It is hashing the slices read. -/
theorem hashReader_eq {c : Cfg} {a : Alg} {w : Writer (Source.engineOf c a).State} (hw : IsWriter c a w)
    (reads : List Writer.ReadResult) :
    Source.hashReader c a w reads = (Source.hashChunks c a (slicesRead reads)).map fun v => (copied 0 reads, v) := by
  unfold Source.hashReader Source.hashChunks
  rw [hw.eq, ← (C96_engine c a).2]
  cases Source.hashEngine c a with
  | error f => rfl
  | ok e =>
    simp only [ok_bind]
    rw [copy_inputs _ _ _ _ (by decide)]
    cases (Source.engineOf c a).inputs e (slicesRead reads) with
    | error f => rfl
    | ok e' =>
      show (Source.hashFrom c a e' >>= fun v => pure (copied 0 reads, v)) = (Source.hashFrom c a e').map _
      cases Source.hashFrom c a e' <;> rfl

/-- C98: the program of the crate's documentation prints the digest of the bytes read: two lower-case
digits for each byte of the digest, and their value. -/
theorem C98_printed {c : Cfg} (hc : c.Valid) (a : Alg) (ok : a.Ok c) {w : Writer (Source.engineOf c a).State}
    (hw : IsWriter c a w) (reads : List Writer.ReadResult)
    (hend : ∀ x, .error x ∈ reads → x = .interrupted)
    (hbits : 8 * (a.base + (bytesRead reads).length + a.slack) < 2 ^ 64)
    (hbytes : a.base + (bytesRead reads).length + a.slack + 144 < 2 ^ c.usizeBits) :
    ∃ s, (do
        let (r, v) ← Source.hashReader c a w reads
        let s ← (Source.typeOf c a).display v ⟨false⟩
        pure (r, s)) = .ok (.ok (bytesRead reads).length, s) ∧
      s.length = 2 * (a.hashSpec (bytesRead reads)).length ∧ (∀ x ∈ s, IsLowerDigit x) ∧
      value16 s = beNat (a.hashSpec (bytesRead reads)) := by
  obtain ⟨s, h1, -, h2, h3, h4⟩ := C96_printed hc a ok (slicesRead reads)
    (by rw [slicesRead_flatten]; exact hbits) (by rw [slicesRead_flatten]; exact hbytes)
  rw [slicesRead_flatten] at h2 h4
  refine ⟨s, ?_, h2, h3, h4⟩
  rw [hashReader_eq hw, copied_ok hend, Nat.mod_eq_of_lt (by omega)]
  cases hv : Source.hashChunks c a (slicesRead reads) with
  | error f => rw [hv] at h1; cases h1
  | ok v =>
    rw [hv] at h1
    show ((Source.typeOf c a).display v ⟨false⟩ >>= fun s => pure (_, s)) = _
    rw [show (Source.typeOf c a).display v ⟨false⟩ = .ok s from h1]
    rfl

/-- C98: checking what a reader gives against a digest in base 16, with any of the parsers of the text
(`FromStr` among them): it is accepted exactly if the text is the digest's digits, in either case. -/
theorem C98_check {c : Cfg} (hc : c.Valid) (a : Alg) (ok : a.Ok c) {w : Writer (Source.engineOf c a).State}
    (hw : IsWriter c a w) (reads : List Writer.ReadResult)
    (hbits : 8 * (a.base + (bytesRead reads).length + a.slack) < 2 ^ 64)
    (hbytes : a.base + (bytesRead reads).length + a.slack + 144 < 2 ^ c.usizeBits)
    (parse : List Byte → Res (Except Hex.Error (Source.typeOf c a).H))
    (hp : parse ∈ (Source.typeOf c a).parsers) (s : List Byte) :
    (∃ r v w', Source.hashReader c a w reads = .ok (r, v) ∧ parse s = .ok (.ok w') ∧
        (Source.typeOf c a).eq v w' = true) ↔
      s.length = 2 * (a.hashSpec (bytesRead reads)).length ∧ (∀ x ∈ s, IsHexDigit x) ∧
      value16 s = beNat (a.hashSpec (bytesRead reads)) := by
  have h := C96_check hc a ok (slicesRead reads) (by rw [slicesRead_flatten]; exact hbits)
    (by rw [slicesRead_flatten]; exact hbytes) parse hp s
  rw [slicesRead_flatten] at h
  rw [← h, hashReader_eq hw]
  constructor
  · rintro ⟨r, v, w', h1, h2, h3⟩
    cases hv : Source.hashChunks c a (slicesRead reads) with
    | error f => rw [hv] at h1; cases h1
    | ok v' =>
      rw [hv] at h1
      cases h1
      exact ⟨_, w', rfl, h2, h3⟩
  · rintro ⟨v, w', h1, h2, h3⟩
    exact ⟨copied 0 reads, v, w', by rw [h1]; rfl, h2, h3⟩

/-- C98: a reader that fails: what it gave before is in the engine and the error is returned. -/
theorem C98_error {c : Cfg} (hc : c.Valid) (a : Alg) (ok : a.Ok c) {w : Writer (Source.engineOf c a).State}
    (hw : IsWriter c a w) (before after : List Writer.ReadResult) (x : IoError)
    (hgo : ∀ r ∈ before, goesOn r = true) (hx : x ≠ .interrupted)
    (hbits : 8 * (a.base + (bytesRead before).length + a.slack) < 2 ^ 64)
    (hbytes : a.base + (bytesRead before).length + a.slack + 144 < 2 ^ c.usizeBits) :
    ∃ v, Source.hashReader c a w (before ++ .error x :: after) = .ok (.error x, v) ∧
      (Source.typeOf c a).toByteArray v = a.hashSpec (bytesRead before) := by
  have hstop : goesOn (.error x) = false := by simp [goesOn, hx]
  have ht : (before ++ .error x :: after).takeWhile goesOn = before.takeWhile goesOn := by
    have h := List.takeWhile_append_of_pos (l₂ := []) hgo
    rw [List.append_nil, List.takeWhile_nil, List.append_nil] at h
    rw [List.takeWhile_append_of_pos hgo, List.takeWhile_cons, hstop, h]
    simp
  have hd : (before ++ .error x :: after).dropWhile goesOn = .error x :: after := by
    rw [List.dropWhile_append_of_pos hgo, List.dropWhile_cons, hstop]
    simp
  have hsl : slicesRead (before ++ .error x :: after) = slicesRead before := by unfold slicesRead; rw [ht]
  have hcp : copied 0 (before ++ .error x :: after) = .error x := by unfold copied; rw [hd]; rfl
  obtain ⟨v, h1, h2⟩ := C96_value hc a ok (slicesRead before) (by rw [slicesRead_flatten]; exact hbits)
    (by rw [slicesRead_flatten]; exact hbytes)
  refine ⟨v, ?_, by rw [slicesRead_flatten] at h2; exact h2⟩
  rw [hashReader_eq hw, hsl, hcp, h1]
  rfl

example : Cfg.debug64.Valid ∧ Alg.sha256.Ok .debug64 ∧
    IsWriter .debug64 .sha256 (Source.engineOf .debug64 .sha256).writer ∧
    (∀ x, .error x ∈ someReads.take 3 → x = IoError.interrupted) ∧
    (∀ r ∈ someReads.take 3, goesOn r = true) ∧
    8 * (Alg.sha256.base + (bytesRead someReads).length + Alg.sha256.slack) < 2 ^ 64 ∧
    Alg.sha256.base + (bytesRead someReads).length + Alg.sha256.slack + 144 < 2 ^ Cfg.debug64.usizeBits := by
  refine ⟨by decide, trivial, .inl ?_, ?_, by decide, by decide, by decide⟩
  · cases hw : Source.writer .debug64 .sha256 with
    | none => cases hw
    | some w => rw [textWriter_eq hw]
  · intro x hx
    simpa [someReads] using hx

set_option maxRecDepth 10000 in
/-- SHA-1 of what these reads give, from the text: the digits of `sha1 [1, 2, 3]`. -/
example : (do
    let (r, v) ← Source.hashReader .debug64 .sha1 (Source.engineOf .debug64 .sha1).writer (someReads.take 3)
    let s ← (Source.typeOf .debug64 .sha1).display v ⟨false⟩
    pure (r, s)) = .ok (.ok 3, ascii "7037807198c22a7d2b0807371d763779a84fdfcf") := by
  decide +kernel

end Chf.Props
