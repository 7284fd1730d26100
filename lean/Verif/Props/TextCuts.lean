import Verif.Proofs.Cuts
import Verif.Props.TextDecides
import Verif.Props.TextCopy

/-!
# C114: how a message is cut leaves no trace in an engine of the translated text
-/

namespace Chf.Props
open Chf Chf.Spec Chf.Rs

/-- C114: two ways to cut the same bytes leave the very same engine, with every byte of its buffers, or both
panic in the same way. -/
theorem C114_cuts {c : Cfg} (hc : c.Valid) (a : Alg) (ok : a.Ok c) {e} (he : Source.Reach c a e)
    (ds ds' : List (List Byte)) (hf : ds.flatten = ds'.flatten)
    (h : ∀ d ∈ ds, d.length < c.usizeMod) (h' : ∀ d ∈ ds', d.length < c.usizeMod) :
    (Source.engineOf c a).inputs e ds = (Source.engineOf c a).inputs e ds' := by
  obtain ⟨m, ⟨k, hm⟩, rfl⟩ := Source.Reach.model hc (fits_of_ok a ok) he
  obtain ⟨s, l, R, -⟩ := hm.rel hc ok
  rw [(Source.algSim hc a _).inputs m ds h, (Source.algSim hc a _).inputs m ds' h',
    a.cuts hc ok R hf h h']

/-- C114: an empty slice changes nothing at all. -/
theorem C114_empty {c : Cfg} (hc : c.Valid) (a : Alg) (ok : a.Ok c) {e} (he : Source.Reach c a e) :
    (Source.engineOf c a).input e [] = .ok e := by
  have h := C114_cuts hc a ok he [[]] [] rfl
    (fun d hd => by rw [List.mem_singleton.1 hd]; have := usizeMod_ge hc; simp only [List.length_nil]; omega)
    (fun d hd => absurd hd List.not_mem_nil)
  refine Eq.trans ?_ h
  show _ = ((Source.engineOf c a).input e [] >>= fun e => Except.ok e)
  cases (Source.engineOf c a).input e [] <;> rfl

/-- C114: inputs of slices are the input of their concatenation, if that is a slice. -/
theorem C114_once {c : Cfg} (hc : c.Valid) (a : Alg) (ok : a.Ok c) {e} (he : Source.Reach c a e)
    (ds : List (List Byte)) (h : ds.flatten.length < c.usizeMod) :
    (Source.engineOf c a).inputs e ds = (Source.engineOf c a).input e ds.flatten := by
  have h1 := C114_cuts hc a ok he ds [ds.flatten] (by simp)
    (fun d hd => Nat.lt_of_le_of_lt (length_le_flatten hd) h)
    (fun d hd => by rw [List.mem_singleton.1 hd]; exact h)
  refine h1.trans ?_
  show ((Source.engineOf c a).input e ds.flatten >>= fun e => Except.ok e) = _
  cases (Source.engineOf c a).input e ds.flatten <;> rfl

/-- C114: so `io::copy` from a reader leaves the very engine that one `input` of the bytes read leaves, however
the reader cuts them and however often it is interrupted. -/
theorem C114_copy {c : Cfg} (hc : c.Valid) (a : Alg) (ok : a.Ok c) {w : Writer (Source.engineOf c a).State}
    (hw : IsWriter c a w) {e} (he : Source.Reach c a e) (reads : List Writer.ReadResult)
    (hs : (bytesRead reads).length < c.usizeMod) :
    w.copy e 0 reads = ((Source.engineOf c a).input e (bytesRead reads)).map fun e => (e, copied 0 reads) := by
  rw [hw.eq, copy_inputs _ _ _ _ (by decide),
    C114_once hc a ok he (slicesRead reads) (by rw [slicesRead_flatten]; exact hs), slicesRead_flatten]

/-- There are such engines, and such ways to cut 70 bytes. -/
example :
    (∃ e, Source.make Cfg.debug64 .sha1 .new = some (.ok e) ∧ Source.Reach Cfg.debug64 .sha1 e) ∧
    (Alg.hmac .sha512).Ok .debug64 ∧
    ([List.replicate 60 7, List.replicate 10 7] : List (List Byte)).flatten =
      [List.replicate 3 7, [], List.replicate 67 7].flatten :=
  ⟨⟨_, rfl, .made .new trivial rfl⟩, ⟨trivial, by decide⟩, by decide +kernel⟩

end Chf.Props
