import Verif.Props.Conformance

/-!
# Property C63: HMAC over engines written by others

`hmac::Engine<E>` is generic: `E` may be any implementation of `HashEngine`, also one outside the crate.
-/

namespace Chf.Props
open Spec

/-- `E` computes the function `H` on messages of at most `N` bytes, however they are split up and
whether the engine comes from `new` or from `default`, and does not panic. -/
structure Computes (E : HashEngine) (H : List Byte → List Byte) (N : Nat) : Prop where
  new : ∀ ds : List (List Byte), ds.flatten.length ≤ N →
    (do let e ← E.new; let e ← E.inputs e ds; E.finalize e) = .ok (H ds.flatten)
  default : ∀ ds : List (List Byte), ds.flatten.length ≤ N →
    (do let e ← E.default; let e ← E.inputs e ds; E.finalize e) = .ok (H ds.flatten)

/-- The key as a block: RFC 2104's, cut to the block size if the digest is longer than a block. -/
def blockKey (H : List Byte → List Byte) (B : Nat) (key : List Byte) : List Byte :=
  (hmacKey H B key).take B

theorem blockKey_length (H : List Byte → List Byte) (B : Nat) (key : List Byte) :
    (blockKey H B key).length = B := by
  unfold blockKey hmacKey
  simp only [List.length_take, List.length_append, List.length_replicate]
  omega

theorem xorZip_length : ∀ p k : List Byte, (Hmac.xorZip p k).length = p.length
  | [], [] | [], _ :: _ | _ :: _, [] => by simp [Hmac.xorZip]
  | _ :: p, _ :: k => by simp [Hmac.xorZip, xorZip_length p k]

theorem take_xorZip (x : Byte) : ∀ (k : List Byte) (n B : Nat), B ≤ n →
    (Hmac.xorZip (List.replicate n x) k).take B =
      ((k ++ List.replicate (B - k.length) 0).take B).map (· ^^^ x)
  | [], n, B, h => by
      have : Hmac.xorZip (List.replicate n x) [] = List.replicate n x := by
        cases n <;> simp [Hmac.xorZip, List.replicate_succ]
      rw [this, List.take_replicate, Nat.min_eq_left h]
      simp
  | b :: k, 0, B, h => by
      obtain rfl : B = 0 := by omega
      simp
  | b :: k, n + 1, 0, h => by simp
  | b :: k, n + 1, B + 1, h => by
      have := take_xorZip x k n B (by omega)
      simp only [List.replicate_succ, Hmac.xorZip, List.take_succ_cons, this, List.length_cons,
        Nat.add_sub_add_right, List.cons_append, List.map_cons]
      rw [BitVec.xor_comm]

theorem slice_xorZip (x : Byte) (k : List Byte) {B : Nat} (hB : B ≤ 128) :
    sliceTo (Hmac.xorZip (List.replicate 128 x) k) B =
      .ok (((k ++ List.replicate (B - k.length) 0).take B).map (· ^^^ x)) := by
  rw [sliceTo, if_pos (by rw [xorZip_length, List.length_replicate]; exact hB), take_xorZip x k 128 B hB]

/-- What follows from the contract for the states in between. -/
theorem Computes.states {E : HashEngine} {H : List Byte → List Byte} {N : Nat} (C : Computes E H N) :
    ∃ e0, E.default = .ok e0 ∧ ∀ ds : List (List Byte), ds.flatten.length ≤ N →
      ∃ e, E.inputs e0 ds = .ok e ∧ E.finalize e = .ok (H ds.flatten) := by
  have h0 := C.default [] (by simp)
  cases hd : E.default with
  | error f => rw [hd] at h0; cases h0
  | ok e0 =>
    refine ⟨e0, rfl, fun ds hds => ?_⟩
    have h := C.default ds hds
    rw [hd] at h
    simp only [bind, Except.bind] at h
    cases hi : E.inputs e0 ds with
    | error f => rw [hi] at h; cases h
    | ok e => rw [hi] at h; exact ⟨e, rfl, h⟩

theorem inputs_one {E : HashEngine} (e : E.State) (d : List Byte) :
    E.inputs e [d] = E.input e d := by
  simp only [HashEngine.inputs, bind, Except.bind]
  cases E.input e d <;> rfl

theorem Computes.hash {E : HashEngine} {H : List Byte → List Byte} {N : Nat} (C : Computes E H N)
    {m : List Byte} (hm : m.length ≤ N) : E.hash m = .ok (H m) := by
  have h := C.new [m] (by simpa using hm)
  rw [List.flatten_singleton] at h
  rw [← h]
  unfold HashEngine.hash
  simp only [inputs_one]

/-- C63, the provided methods `hash` and `hash_byte_chunks` of any engine that computes `H`. -/
theorem C63_provided {E : HashEngine} {H : List Byte → List Byte} {N : Nat} (C : Computes E H N) :
    (∀ m, m.length ≤ N → E.hash m = .ok (H m)) ∧
    ∀ ds : List (List Byte), ds.flatten.length ≤ N → E.hashByteChunks ds = .ok (H ds.flatten) :=
  ⟨fun _ hm => C.hash hm, fun ds hds => C.new ds hds⟩

theorem hmac_inputs_parts {c : Cfg} {E : HashEngine} (o : E.State) : ∀ (ds : List (List Byte))
    (i j : E.State), E.inputs i ds = .ok j →
    (Hmac.engine c E).inputs { iengine := i, oengine := o } ds = .ok { iengine := j, oengine := o }
  | [], i, j, h => by cases h; rfl
  | d :: ds, i, j, h => by
      simp only [HashEngine.inputs, bind, Except.bind] at h
      cases hi : E.input i d with
      | error f => rw [hi] at h; cases h
      | ok i' =>
        rw [hi] at h
        have ih := hmac_inputs_parts (c := c) o ds i' j h
        have h1 : (Hmac.engine c E).input { iengine := i, oengine := o } d =
            .ok { iengine := i', oengine := o } := by
          show (do let x ← E.input i d; pure ({ iengine := x, oengine := o } : Hmac.Engine E)) = _
          rw [hi]; rfl
        simp only [HashEngine.inputs, bind, Except.bind, h1]
        exact ih

/-- C63: HMAC over any engine that computes a function `H` with digests of at most `D` bytes, with
blocks of `B ≤ 128` bytes, computes RFC 2104 of `H` for every key and every split of the message, as
long as the key, the padded message and the padded inner digest are within what the engine handles.
If digests are longer than blocks, hashed keys are cut to the block size. -/
theorem C63_contract (c : Cfg) {E : HashEngine} {H : List Byte → List Byte} {N D : Nat}
    (C : Computes E H N) (hB : E.blockSize ≤ 128) (hD : ∀ m, (H m).length ≤ D)
    (hN : E.blockSize + D ≤ N) (key : List Byte) (hkey : key.length ≤ N) (ds : List (List Byte))
    (hds : E.blockSize + ds.flatten.length ≤ N) :
    (do let e ← Hmac.new c E key
        let e ← (Hmac.engine c E).inputs e ds
        (Hmac.engine c E).finalize e) =
      .ok (H ((blockKey H E.blockSize key).map (· ^^^ 0x5c) ++
        H ((blockKey H E.blockSize key).map (· ^^^ 0x36) ++ ds.flatten))) := by
  obtain ⟨e0, hdef, hst⟩ := C.states
  have hkl := blockKey_length H E.blockSize key
  generalize hk : blockKey H E.blockSize key = k at hkl
  have hpl : ∀ x : Byte, (k.map (· ^^^ x)).length = E.blockSize := by
    intro x; rw [List.length_map, hkl]
  obtain ⟨j, hj, hfj⟩ := hst (k.map (· ^^^ 0x36) :: ds) (by
    rw [List.flatten_cons, List.length_append, hpl]; exact hds)
  simp only [HashEngine.inputs, bind, Except.bind] at hj
  cases hi : E.input e0 (k.map (· ^^^ 0x36)) with
  | error f => rw [hi] at hj; cases hj
  | ok i =>
  rw [hi] at hj
  rw [List.flatten_cons] at hfj
  obtain ⟨q, hq, hfq⟩ := hst [k.map (· ^^^ 0x5c), H (k.map (· ^^^ 0x36) ++ ds.flatten)] (by
    simp only [List.flatten_cons, List.flatten_nil, List.append_nil, List.length_append, hpl]
    have := hD (k.map (· ^^^ 0x36) ++ ds.flatten)
    omega)
  simp only [HashEngine.inputs, bind, Except.bind] at hq
  cases ho : E.input e0 (k.map (· ^^^ 0x5c)) with
  | error f => rw [ho] at hq; cases hq
  | ok o =>
  rw [ho] at hq
  have ho' : E.input o (H (k.map (· ^^^ 0x36) ++ ds.flatten)) = .ok q := by
    dsimp only at hq
    cases h : E.input o (H (k.map (· ^^^ 0x36) ++ ds.flatten)) with
    | error f => rw [h] at hq; cases hq
    | ok q' => rw [h] at hq; cases hq; rfl
  have hda : debugAssert c (decide (E.blockSize ≤ 128)) = .ok () := by simp [debugAssert, hB]
  have hnew : Hmac.new c E key = .ok { iengine := i, oengine := o } := by
    unfold Hmac.new
    unfold blockKey hmacKey at hk
    dsimp only at hk
    simp only [hda, hdef, bind, Except.bind]
    by_cases hgt : key.length > E.blockSize
    · rw [if_pos hgt] at hk
      simp only [if_pos hgt, C.hash hkey, pure, Except.pure, slice_xorZip _ _ hB, hk, hi, ho]
    · rw [if_neg hgt] at hk
      simp only [if_neg hgt, pure, Except.pure, slice_xorZip _ _ hB, hk, hi, ho]
  rw [hnew]
  simp only [bind, Except.bind, hmac_inputs_parts (c := c) o ds i j hj]
  show Hmac.finalize E { iengine := j, oengine := o } = _
  unfold Hmac.finalize
  simp only [bind, Except.bind, hfj, ho']
  rw [hfq]
  simp

/-- C63: if no digest is longer than a block, as RFC 2104 requires, that is the RFC's function. -/
theorem C63_rfc {c : Cfg} {E : HashEngine} {H : List Byte → List Byte} {N : Nat}
    (C : Computes E H N) (hB : E.blockSize ≤ 128) (hD : ∀ m, (H m).length ≤ E.blockSize)
    (hN : 2 * E.blockSize ≤ N) (key : List Byte) (hkey : key.length ≤ N) (ds : List (List Byte))
    (hds : E.blockSize + ds.flatten.length ≤ N) :
    (do let e ← Hmac.new c E key
        let e ← (Hmac.engine c E).inputs e ds
        (Hmac.engine c E).finalize e) = .ok (hmac H E.blockSize key ds.flatten) := by
  rw [C63_contract c C hB hD (by omega) key hkey ds hds]
  have : blockKey H E.blockSize key = hmacKey H E.blockSize key := by
    unfold blockKey
    apply List.take_of_length_le
    unfold hmacKey
    dsimp only
    rw [List.length_append, List.length_replicate]
    split
    · have := hD key; omega
    · omega
  rw [this]
  rfl

/-- C63: so HMAC over such an engine is again such an engine, and can be nested. -/
theorem C63_nests {c : Cfg} {E : HashEngine} {H : List Byte → List Byte} {N : Nat}
    (C : Computes E H N) (hB : E.blockSize ≤ 128) (hD : ∀ m, (H m).length ≤ E.blockSize)
    (hN : 2 * E.blockSize ≤ N) :
    Computes (Hmac.engine c E) (hmac H E.blockSize []) (N - E.blockSize) ∧
      (Hmac.engine c E).blockSize = E.blockSize ∧
      ∀ m, (hmac H E.blockSize [] m).length ≤ E.blockSize :=
  ⟨⟨fun ds hds => C63_rfc C hB hD hN [] (by simp) ds (by omega),
    fun ds hds => C63_rfc C hB hD hN [] (by simp) ds (by omega)⟩, rfl, fun _ => hD _⟩

/-- C63: an engine with blocks of more than 128 bytes cannot be used: every construction panics, in
every build, also where the debug assertion is compiled out. -/
theorem C63_large_block {c : Cfg} {E : HashEngine} (h : 128 < E.blockSize) (key : List Byte) :
    ∃ f, Hmac.new c E key = .error f := by
  have hs : ∀ (x : Byte) k, sliceTo (Hmac.xorZip (List.replicate 128 x) k) E.blockSize =
      .error .sliceIndex := by
    intro x k
    rw [sliceTo, if_neg (by rw [xorZip_length, List.length_replicate]; omega)]
  unfold Hmac.new
  simp only [bind, Except.bind]
  cases debugAssert c (decide (E.blockSize ≤ 128)) with
  | error f => exact ⟨f, rfl⟩
  | ok _ =>
  cases E.default with
  | error f => exact ⟨f, rfl⟩
  | ok e0 =>
  dsimp only
  split
  · cases E.hash key with
    | error f => exact ⟨f, rfl⟩
    | ok k => exact ⟨.sliceIndex, by simp only [pure, Except.pure, hs]⟩
  · exact ⟨.sliceIndex, by simp only [pure, Except.pure, hs]⟩

/-- C63: the crate's own hash engines meet the contract on 64-bit targets. -/
theorem C63_crate {c : Cfg} (h64 : c.usizeBits = 64) (a : Alg) (ha : plain a = true) :
    Computes (a.engine c) a.hashSpec (2 ^ 61 - 1) := by
  have h : a.Ok c ∧ (a.engine c).default = (a.engine c).new ∧ a.slack = 0 ∧ a.base = 0 := by
    cases a <;> first
      | (cases ha; done)
      | exact ⟨trivial, rfl, rfl, rfl⟩
  obtain ⟨ok, hd, hs, hb⟩ := h
  have h : ∀ ds : List (List Byte), ds.flatten.length ≤ 2 ^ 61 - 1 →
      (a.engine c).hashByteChunks ds = .ok (a.hashSpec ds.flatten) :=
    fun ds hds => (on64 h64 a ok hs hb ds (by omega)).1
  exact ⟨h, by rw [hd]; exact h⟩

/-- An engine from outside the crate: it keeps its message and returns the bytes xored together,
`D` times. -/
def toy (B D : Nat) : HashEngine where
  State := List Byte
  Midstate := Unit
  blockSize := B
  default := .ok []
  new := .ok []
  input e d := .ok (e ++ d)
  nBytesHashed e := e.length
  finalize e := .ok (List.replicate D (e.foldl (· ^^^ ·) 0))
  midstate _ := .ok ()
  fromMidstate _ _ := .ok []

theorem toy_inputs (B D : Nat) : ∀ (ds : List (List Byte)) (e : List Byte),
    (toy B D).inputs e ds = .ok (e ++ ds.flatten)
  | [], e => by simp [HashEngine.inputs]
  | d :: ds, e => by
      have : (toy B D).inputs (e ++ d) ds = .ok (e ++ d ++ ds.flatten) := toy_inputs B D ds (e ++ d)
      rw [List.flatten_cons, ← List.append_assoc, ← this]
      rfl

/-- It meets the contract, whatever the size of its digests. -/
example (D N : Nat) : Computes (toy 4 D) (fun m => List.replicate D (m.foldl (· ^^^ ·) 0)) N := by
  constructor <;> intro ds _
  all_goals
    show ((toy 4 D).inputs [] ds >>= (toy 4 D).finalize) = _
    rw [toy_inputs]
    rfl

/-- A key of five bytes is hashed; the five bytes of its digest are cut to four. -/
example : (do
    let e ← Hmac.new .debug64 (toy 4 5) [1, 2, 4, 8, 16]
    let e ← (Hmac.engine .debug64 (toy 4 5)).inputs e [[7], [9]]
    (Hmac.engine .debug64 (toy 4 5)).finalize e) = .ok (List.replicate 5 14) ∧
    blockKey (fun m => List.replicate 5 (m.foldl (· ^^^ ·) 0)) 4 [1, 2, 4, 8, 16] =
      [31, 31, 31, 31] := by
  decide +kernel

end Chf.Props
