import Verif.Props.Contract
import Verif.Props.Hmac
import Verif.Proofs.Source.Hmac
import Verif.Source.Lib

/-!
# Property C86: the text of `hmac.rs` and of `HashEngine` over engines written by others

The translation of `hmac.rs` takes the engine `E` as a dictionary, as the Rust text takes it as a type
parameter.  Here `E` is any such dictionary, not only one of the crate's.
-/

namespace Chf.Props
open Spec Chf.Rs

/-- The translated `hmac::Engine` and the model's have the same two fields. -/
def hmacEngine {E : HashEngine} (e : Hmac.Engine E) : Source.Hmac.Engine E :=
  { iengine := e.iengine, oengine := e.oengine }

theorem hmac_new_text (c : Cfg) (E : HashEngine) (key : List Byte) :
    Source.Hmac.Engine.new c E key = (Hmac.new c E key).map hmacEngine := by
  unfold Source.Hmac.Engine.new Hmac.new
  simp only [Source.Hmac.zipMut_eq_xorZip, ok_bind, Rs.map_bind, decide_eq_true_eq]
  refine bind_congr' fun _ _ => bind_congr' fun i _ => bind_congr' fun o _ => ?_
  split
  · simp only [Rs.map_bind]
    exact bind_congr' fun d _ => rfl
  · simp only [pure_eq, ok_bind, Rs.map_bind]
    rfl

theorem hmac_inputs_text (c : Cfg) (E : HashEngine) : ∀ (ds : List (List Byte)) (e : Hmac.Engine E),
    (Source.Hmac.engine c E).inputs (hmacEngine e) ds = ((Hmac.engine c E).inputs e ds).map hmacEngine
  | [], _ => rfl
  | d :: ds, e => by
      show (do
        let x ← Source.Hmac.Engine.input c E (hmacEngine e) d
        (Source.Hmac.engine c E).inputs x ds) = (do
        let x ← (Hmac.engine c E).input e d
        (Hmac.engine c E).inputs x ds).map hmacEngine
      have h : Source.Hmac.Engine.input c E (hmacEngine e) d =
          ((Hmac.engine c E).input e d).map hmacEngine := by
        show (do
          let x ← E.input e.iengine d
          pure ({ iengine := x, oengine := e.oengine } : Source.Hmac.Engine E)) =
          (do
            let x ← E.input e.iengine d
            pure ({ iengine := x, oengine := e.oengine } : Hmac.Engine E)).map hmacEngine
        rw [Rs.map_bind]
        rfl
      rw [h]
      refine (map_bind_left ..).trans (Eq.trans ?_ (Rs.map_bind ..).symm)
      exact bind_congr' fun e' _ => hmac_inputs_text c E ds e'

/-- A keyed computation with the text is one with the model. -/
theorem hmac_run_text (c : Cfg) (E : HashEngine) (key : List Byte) (ds : List (List Byte)) :
    (do let e ← Source.Hmac.Engine.new c E key
        let e ← (Source.Hmac.engine c E).inputs e ds
        (Source.Hmac.engine c E).finalize e) =
    (do let e ← Hmac.new c E key
        let e ← (Hmac.engine c E).inputs e ds
        (Hmac.engine c E).finalize e) := by
  rw [hmac_new_text, map_bind_left]
  refine bind_congr' fun e _ => ?_
  refine (congrArg (· >>= _) (hmac_inputs_text c E ds e)).trans ((map_bind_left ..).trans ?_)
  exact bind_congr' fun e _ => rfl

/-- C86: the text of `hmac.rs` over any engine that computes a function `H` with digests of at most
`D` bytes, with blocks of `B ≤ 128` bytes, computes RFC 2104 of `H` for every key and every split of
the message, as long as the key, the padded message and the padded inner digest are within what the
engine handles.  If digests are longer than blocks, hashed keys are cut to the block size. -/
theorem C86_contract (c : Cfg) {E : HashEngine} {H : List Byte → List Byte} {N D : Nat}
    (C : Computes E H N) (hB : E.blockSize ≤ 128) (hD : ∀ m, (H m).length ≤ D)
    (hN : E.blockSize + D ≤ N) (key : List Byte) (hkey : key.length ≤ N) (ds : List (List Byte))
    (hds : E.blockSize + ds.flatten.length ≤ N) :
    (do let e ← Source.Hmac.Engine.new c E key
        let e ← (Source.Hmac.engine c E).inputs e ds
        (Source.Hmac.engine c E).finalize e) =
      .ok (H ((blockKey H E.blockSize key).map (· ^^^ 0x5c) ++
        H ((blockKey H E.blockSize key).map (· ^^^ 0x36) ++ ds.flatten))) :=
  (hmac_run_text c E key ds).trans (C63_contract c C hB hD hN key hkey ds hds)

/-- C86: if no digest is longer than a block, as RFC 2104 requires, that is the RFC's function. -/
theorem C86_rfc {c : Cfg} {E : HashEngine} {H : List Byte → List Byte} {N : Nat}
    (C : Computes E H N) (hB : E.blockSize ≤ 128) (hD : ∀ m, (H m).length ≤ E.blockSize)
    (hN : 2 * E.blockSize ≤ N) (key : List Byte) (hkey : key.length ≤ N) (ds : List (List Byte))
    (hds : E.blockSize + ds.flatten.length ≤ N) :
    (do let e ← Source.Hmac.Engine.new c E key
        let e ← (Source.Hmac.engine c E).inputs e ds
        (Source.Hmac.engine c E).finalize e) = .ok (hmac H E.blockSize key ds.flatten) :=
  (hmac_run_text c E key ds).trans (C63_rfc C hB hD hN key hkey ds hds)

/-- C86: so the text over such an engine is again such an engine, and can be nested. -/
theorem C86_nests {c : Cfg} {E : HashEngine} {H : List Byte → List Byte} {N : Nat}
    (C : Computes E H N) (hB : E.blockSize ≤ 128) (hD : ∀ m, (H m).length ≤ E.blockSize)
    (hN : 2 * E.blockSize ≤ N) :
    Computes (Source.Hmac.engine c E) (hmac H E.blockSize []) (N - E.blockSize) ∧
      (Source.Hmac.engine c E).blockSize = E.blockSize ∧
      ∀ m, (hmac H E.blockSize [] m).length ≤ E.blockSize := by
  have hn : (Source.Hmac.engine c E).new = Source.Hmac.Engine.new c E [] := rfl
  have hd : (Source.Hmac.engine c E).default = Source.Hmac.Engine.new c E [] := hn
  refine ⟨⟨fun ds hds => ?_, fun ds hds => ?_⟩, rfl, fun _ => hD _⟩
  · rw [hn]; exact C86_rfc C hB hD hN [] (by simp) ds (by omega)
  · rw [hd]; exact C86_rfc C hB hD hN [] (by simp) ds (by omega)

/-- C86: with blocks of more than 128 bytes every construction by the text panics, in every build, also
where the debug assertion is compiled out. -/
theorem C86_large_block (c : Cfg) {E : HashEngine} (h : 128 < E.blockSize) (key : List Byte) :
    ∃ f, Source.Hmac.Engine.new c E key = .error f := by
  obtain ⟨f, hf⟩ := C63_large_block (c := c) h key
  exact ⟨f, by rw [hmac_new_text, hf]; rfl⟩

/-- C86: with blocks of up to 128 bytes every panic of construction is one of the engine. -/
theorem C86_only_engine_panics (c : Cfg) {E : HashEngine} (hB : E.blockSize ≤ 128) {key : List Byte}
    {f : Fault} (h : Source.Hmac.Engine.new c E key = .error f) :
    E.default = .error f ∨ E.hash key = .error f ∨
      ∃ i block, E.default = .ok i ∧ block.length = E.blockSize ∧ E.input i block = .error f := by
  rw [hmac_new_text] at h
  cases hn : Hmac.new c E key with
  | ok e => rw [hn] at h; cases h
  | error g =>
    rw [hn] at h
    cases h
    exact C46_only_engine_panics c E hB hn

theorem foldlM_inputs (E : HashEngine) : ∀ (ds : List (List Byte)) (e : E.State),
    ds.foldlM (init := e) (fun e d => do let e ← E.input e d; pure e) = E.inputs e ds
  | [], _ => rfl
  | d :: ds, e => by
      rw [List.foldlM_cons]
      exact bind_congr' fun e' _ => foldlM_inputs E ds e'

/-- C86: the provided methods `hash` and `hash_byte_chunks` of `lib.rs`, for an engine that leaves them
as they are, compute `H`. -/
theorem C86_provided (c : Cfg) {E : HashEngine} {H : List Byte → List Byte} {N : Nat}
    (C : Computes E H N) :
    (∀ m, m.length ≤ N → Source.Lib.HashEngine.hash c E m = .ok (H m)) ∧
    ∀ ds : List (List Byte), ds.flatten.length ≤ N →
      Source.Lib.HashEngine.hash_byte_chunks c E ds = .ok (H ds.flatten) := by
  have hh : ∀ ds, Source.Lib.HashEngine.hash_byte_chunks c E ds = E.hashByteChunks ds := by
    intro ds
    unfold Source.Lib.HashEngine.hash_byte_chunks HashEngine.hashByteChunks
    refine bind_congr' fun e _ => ?_
    rw [foldlM_inputs]
  exact ⟨fun m hm => C.hash hm, fun ds hds => (hh ds).trans (C.new ds hds)⟩

/-- A key of five bytes is hashed; the five bytes of its digest are cut to four. -/
example : (do
    let e ← Source.Hmac.Engine.new .debug64 (toy 4 5) [1, 2, 4, 8, 16]
    let e ← (Source.Hmac.engine .debug64 (toy 4 5)).inputs e [[7], [9]]
    (Source.Hmac.engine .debug64 (toy 4 5)).finalize e) = .ok (List.replicate 5 14) := by
  decide +kernel

/-- Blocks of 129 bytes: the assertion stops a build with debug assertions, the slice any other. -/
example : (Source.Hmac.Engine.new .debug64 (toy 129 5) [1]).map (fun _ => ()) = .error .debugAssertion ∧
    (Source.Hmac.Engine.new .release64 (toy 129 5) [1]).map (fun _ => ()) = .error .sliceIndex := by
  decide +kernel

end Chf.Props
