import Verif.Model.TextKept
import Verif.Proofs.Kept
import Verif.Proofs.Source.Reach
import Verif.Props.TextVerify

/-!
# C106: what an engine of the translated text keeps of the message and of the key

Nothing in the crate wipes a buffer: bytes that have been hashed stay in the engine until they are
overwritten, and an HMAC engine holds its key.
-/

namespace Chf.Props
open Chf Chf.Spec Chf.Rs

/-- The engine types with a buffer of their own. -/
def hasBuffer : Alg → Bool
  | .siphash24 | .hmac _ => false
  | _ => true

theorem hasBlocks_buffer {a : Alg} (h : hasBlocks a = true) : hasBuffer a = true := by
  cases a <;> first | rfl | cases h

theorem dvd_usizeMod {c : Cfg} (hc : c.Valid) : 64 ∣ c.usizeMod ∧ 128 ∣ c.usizeMod ∧ 128 < c.usizeMod := by
  unfold Cfg.usizeMod
  rcases hc with h | h | h <;> rw [h] <;> decide

theorem kept_input {c : Cfg} (hc : c.Valid) {a : Alg} (hf : Source.Fits c a) (ha : hasBuffer a = true) {e e'}
    (r : Source.Reach c a e) {d : List Byte} (hd : d.length < c.usizeMod)
    (hi : (Source.engineOf c a).input e d = .ok e') :
    Kept a.blockSize ((Source.engineOf c a).nBytesHashed e) (Source.bufferOf c a e) d
      (Source.bufferOf c a e') ∧
    (Source.engineOf c a).nBytesHashed e' % a.blockSize =
      ((Source.engineOf c a).nBytesHashed e + d.length) % a.blockSize := by
  obtain ⟨m, -, rfl⟩ := Source.Reach.model hc hf r
  rw [(Source.algSim hc a hf).input m d hd] at hi
  cases hm : (a.engine c).input m d with
  | error f => rw [hm] at hi; cases hi
  | ok m' =>
    rw [hm] at hi
    cases hi
    obtain ⟨d64, d128, lt⟩ := dvd_usizeMod hc
    have l64 : 64 < c.usizeMod := by omega
    cases a with
    | sha1 => exact BlockEngine.inputLoop_kept (show 0 < _ from Nat.zero_lt_succ _) d64 l64 _ _ _ hm
    | sha256 => exact BlockEngine.inputLoop_kept (show 0 < _ from Nat.zero_lt_succ _) d64 l64 _ _ _ hm
    | sha384 => exact BlockEngine.inputLoop_kept (show 0 < _ from Nat.zero_lt_succ _) d128 lt _ _ _ hm
    | sha512 => exact BlockEngine.inputLoop_kept (show 0 < _ from Nat.zero_lt_succ _) d128 lt _ _ _ hm
    | sha512_256 => exact BlockEngine.inputLoop_kept (show 0 < _ from Nat.zero_lt_succ _) d128 lt _ _ _ hm
    | ripemd160 => exact BlockEngine.inputLoop_kept (show 0 < _ from Nat.zero_lt_succ _) d64 l64 _ _ _ hm
    | sha256t _ _ _ => exact BlockEngine.inputLoop_kept (show 0 < _ from Nat.zero_lt_succ _) d64 l64 _ _ _ hm
    | siphash24 => cases ha
    | hmac _ => cases ha

/-- C106: after any inputs the buffer of an engine holds the last block of what was given to it, each byte
in its place, and what it held before elsewhere: nothing is wiped, also not when a block has been
compressed. In every build, on every target, for every engine a caller can obtain. -/
theorem C106_kept {c : Cfg} (hc : c.Valid) {a : Alg} (hf : Source.Fits c a) (ha : hasBuffer a = true) {e}
    (r : Source.Reach c a e) (ds : List (List Byte)) (hd : ∀ d ∈ ds, d.length < c.usizeMod) {e'}
    (hi : (Source.engineOf c a).inputs e ds = .ok e') :
    Kept a.blockSize ((Source.engineOf c a).nBytesHashed e) (Source.bufferOf c a e) ds.flatten
      (Source.bufferOf c a e') := by
  induction ds generalizing e with
  | nil => cases hi; exact Kept.nil _ _ _
  | cons d ds ih =>
    obtain ⟨e1, h1, h2⟩ := Source.bind_ok_of hi
    obtain ⟨k, l⟩ := kept_input hc hf ha r (hd d (List.mem_cons_self ..)) h1
    have k' := ih (.input d r (hd d (List.mem_cons_self ..)) h1) (fun x hx => hd x (List.mem_cons_of_mem _ hx)) h2
    rw [List.flatten_cons]
    exact k.append (k'.mod l)

theorem assertR_ok {b : Bool} (h : assertR b = .ok ()) : b = true := by
  cases b with
  | true => rfl
  | false => cases h

theorem clean_sha1 {c : Cfg} {μ : List Byte} {n : Nat} {e} (h : Source.Sha1.Engine.from_midstate c μ n = .ok e) :
    e.buffer = List.replicate 64 0 ∧ e.length % 64 = 0 := by
  obtain ⟨_, h0, h⟩ := Source.bind_ok_of h
  obtain ⟨_, _, h⟩ := Source.bind_ok_of h
  cases h
  exact ⟨rfl, eq_of_beq (assertR_ok h0)⟩

theorem clean_sha256 {c : Cfg} {μ : Source.Sha256.Midstate} {n : Nat} {e}
    (h : Source.Sha256.Engine.from_midstate c μ n = .ok e) :
    e.buffer = List.replicate 64 0 ∧ e.length % 64 = 0 := by
  obtain ⟨_, h0, h⟩ := Source.bind_ok_of h
  obtain ⟨_, _, h⟩ := Source.bind_ok_of h
  cases h
  exact ⟨rfl, eq_of_beq (assertR_ok h0)⟩

theorem clean_sha512 {c : Cfg} {μ : List Byte} {n : Nat} {e}
    (h : Source.Sha512.Engine.from_midstate c μ n = .ok e) :
    e.buffer = List.replicate 128 0 ∧ e.length % 128 = 0 := by
  obtain ⟨_, h0, h⟩ := Source.bind_ok_of h
  obtain ⟨_, _, h⟩ := Source.bind_ok_of h
  cases h
  exact ⟨rfl, eq_of_beq (assertR_ok h0)⟩

theorem clean_ripemd160 {c : Cfg} {μ : List Byte} {n : Nat} {e}
    (h : Source.Ripemd160.Engine.from_midstate c μ n = .ok e) :
    e.buffer = List.replicate 64 0 ∧ e.length % 64 = 0 := by
  obtain ⟨_, h0, h⟩ := Source.bind_ok_of h
  obtain ⟨_, _, h⟩ := Source.bind_ok_of h
  cases h
  exact ⟨rfl, eq_of_beq (assertR_ok h0)⟩

/-- C106: a new engine, and one made from a midstate, keeps nothing: its buffer is all zero, and it starts
at a block boundary. -/
theorem C106_clean {c : Cfg} {a : Alg} (ha : hasBlocks a = true) (how : Make) {e}
    (hm : Source.make c a how = some (.ok e)) :
    Source.bufferOf c a e = List.replicate a.blockSize 0 ∧
    (Source.engineOf c a).nBytesHashed e % a.blockSize = 0 := by
  cases how with
  | new => cases a <;> first | cases ha; done | (cases hm; exact ⟨rfl, rfl⟩)
  | default => cases a <;> first | cases ha; done | (cases hm; exact ⟨rfl, rfl⟩)
  | sipKeys k0 k1 => cases a <;> first | cases ha; done | cases hm
  | hmacKey k => cases a <;> first | cases ha; done | cases hm
  | resume μ n =>
    have hm' : (Source.readMid c a μ).map (fun μ => (Source.engineOf c a).fromMidstate μ n) = some (.ok e) := by
      cases a <;> exact hm
    cases hr : Source.readMid c a μ with
    | none => rw [hr] at hm'; cases hm'
    | some μ' =>
      rw [hr] at hm'
      have h := Option.some.inj hm'
      cases a with
      | sha1 => exact clean_sha1 (c := c) h
      | sha256 => exact clean_sha256 (c := c) h
      | sha512 => exact clean_sha512 (c := c) h
      | ripemd160 => exact clean_ripemd160 (c := c) h
      | sha384 => obtain ⟨x, hs, hx⟩ := Source.bind_ok_of h; cases hx; exact clean_sha512 hs
      | sha512_256 => obtain ⟨x, hs, hx⟩ := Source.bind_ok_of h; cases hx; exact clean_sha512 hs
      | _ => cases ha

/-- The last block of a message is what the buffer holds from the place after the last byte, and round. -/
theorem kept_last {B p : Nat} {old m buf : List Byte} (h0 : 0 < B) (hp : p % B = 0) (hl : old.length = B)
    (k : Kept B p old m buf) (hm : B ≤ m.length) :
    m.drop (m.length - B) = buf.drop (m.length % B) ++ buf.take (m.length % B) := by
  have hr := Nat.mod_lt m.length h0
  have hb : buf.length = B := k.1.trans hl
  have hq := Nat.div_add_mod m.length B
  refine List.ext_getElem (by simp; omega) fun i h1 h2 => ?_
  have hi : i < B := by rw [List.length_drop] at h1; omega
  have g := k.2.1 (m.length - B + i) (by omega) (by omega)
  have e : (p + (m.length - B + i)) % B = (m.length % B + i) % B := by
    rw [Nat.add_mod, hp, Nat.zero_add, Nat.mod_mod, ← Nat.add_mod_right (m.length - B + i) B,
      show m.length - B + i + B = m.length + i by omega, Nat.mod_add_mod]
  rw [e] at g
  rw [List.getElem_drop, List.getElem_append]
  split
  · next h =>
    rw [List.length_drop] at h
    rw [Nat.mod_eq_of_lt (by omega), List.getElem?_eq_getElem (by omega)] at g
    rw [List.getElem_drop]
    exact (Option.some.inj g).symm
  · next h =>
    rw [List.length_drop] at h
    rw [Nat.mod_eq_sub_mod (by omega), Nat.mod_eq_of_lt (by omega), List.getElem?_eq_getElem (by omega)] at g
    rw [List.getElem_take]
    refine Eq.trans (Option.some.inj g).symm ?_
    congr 1
    rw [List.length_drop]
    omega

/-- A message shorter than a block is at the start of the buffer, before what was there. -/
theorem kept_short {B p : Nat} {old m buf : List Byte} (hp : p % B = 0) (hl : old.length = B)
    (k : Kept B p old m buf) (hm : m.length ≤ B) : buf = m ++ old.drop m.length := by
  have hb : buf.length = B := k.1.trans hl
  have e : ∀ j < B, (p + j) % B = j := fun j hj => by
    rw [Nat.add_mod, hp, Nat.zero_add, Nat.mod_mod, Nat.mod_eq_of_lt hj]
  refine List.ext_getElem? fun i => ?_
  by_cases h : i < m.length
  · rw [List.getElem?_append_left h, List.getElem?_eq_getElem h, ← k.2.1 i h (by omega), e i (by omega)]
  · rw [List.getElem?_append_right (by omega), List.getElem?_drop, show m.length + (i - m.length) = i by omega]
    by_cases hi : i < B
    · exact k.2.2 i hi fun j hj => by rw [e j (by omega)]; omega
    · rw [List.getElem?_eq_none (by omega), List.getElem?_eq_none (by omega)]

/-- C106: the end of the message can be read from the engine in memory. After a message of at least a block
the buffer is its last block, turned by the number of bytes of the unfinished block; a shorter message is
there from the start. The blocks that were compressed are still there. -/
theorem C106_last {c : Cfg} (hc : c.Valid) {a : Alg} (ha : hasBlocks a = true) (how : Make)
    (ht : how.Typed c) {e e'} (hm : Source.make c a how = some (.ok e)) (ds : List (List Byte))
    (hd : ∀ d ∈ ds, d.length < c.usizeMod) (hi : (Source.engineOf c a).inputs e ds = .ok e') :
    (a.blockSize ≤ ds.flatten.length →
      ds.flatten.drop (ds.flatten.length - a.blockSize) =
        (Source.bufferOf c a e').drop (ds.flatten.length % a.blockSize) ++
          (Source.bufferOf c a e').take (ds.flatten.length % a.blockSize)) ∧
    (ds.flatten.length ≤ a.blockSize →
      Source.bufferOf c a e' = ds.flatten ++ List.replicate (a.blockSize - ds.flatten.length) 0) := by
  obtain ⟨hz, hn⟩ := C106_clean ha how hm
  have k := C106_kept hc (fits_of_ok a (hasBlocks_ok ha c).1) (hasBlocks_buffer ha) (.made how ht hm) ds hd hi
  have hl : (Source.bufferOf c a e).length = a.blockSize := by rw [hz, List.length_replicate]
  refine ⟨fun h => kept_last ?_ hn hl k h, fun h => (kept_short hn hl k h).trans ?_⟩
  · cases a <;> first | cases ha; done | exact Nat.zero_lt_succ _
  · rw [hz, List.drop_replicate]

theorem hmac_kept_new {c : Cfg} (hc : c.Valid) {a : Alg} (ha : hasBlocks a = true) {k : List Byte}
    (hk : k.length ≤ a.blockSize) {e} (h : withBlockKey c (Source.engineOf c a) k = .ok e) :
    (Source.Reach c a e.iengine ∧ (Source.engineOf c a).nBytesHashed e.iengine % a.blockSize = 0) ∧
    Source.bufferOf c a e.iengine =
      (k ++ List.replicate (a.blockSize - k.length) 0).map (· ^^^ 0x36) ∧
    Source.bufferOf c a e.oengine =
      (k ++ List.replicate (a.blockSize - k.length) 0).map (· ^^^ 0x5c) := by
  have hB : (Source.engineOf c a).blockSize = a.blockSize := by cases a <;> first | cases ha; done | rfl
  have hB' : a.blockSize ≤ 128 := by cases a <;> first | cases ha; done | decide
  have hmod := (dvd_usizeMod hc).2.2
  obtain ⟨_, -, h⟩ := Source.bind_ok_of h
  obtain ⟨i, h1, h⟩ := Source.bind_ok_of h
  rw [hB, Hmac.xorZip_take _ hk hB', Rs.ok_bind] at h
  obtain ⟨ie, h2, h⟩ := Source.bind_ok_of h
  rw [Hmac.xorZip_take _ hk hB', Rs.ok_bind] at h
  obtain ⟨oe, h3, h⟩ := Source.bind_ok_of h
  cases h
  have hm : Source.make c a .default = some (.ok i) := by
    have : Source.make c a .default = some (Source.engineOf c a).default := by cases a <;> rfl
    rw [this, h1]
  have r : Source.Reach c a i := .made .default trivial hm
  obtain ⟨hz, hn⟩ := C106_clean ha .default hm
  have hl : (Source.bufferOf c a i).length = a.blockSize := by rw [hz, List.length_replicate]
  have hf := fits_of_ok a (hasBlocks_ok ha c).1
  have lp : ∀ x : Byte, ((k ++ List.replicate (a.blockSize - k.length) 0).map (· ^^^ x)).length = a.blockSize :=
    fun x => by simp; omega
  have step : ∀ {x : Byte} {e'}, (Source.engineOf c a).input i
      ((k ++ List.replicate (a.blockSize - k.length) 0).map (· ^^^ x)) = .ok e' →
      Source.bufferOf c a e' = (k ++ List.replicate (a.blockSize - k.length) 0).map (· ^^^ x) := by
    intro x e' h
    have := kept_short hn hl (kept_input hc hf (hasBlocks_buffer ha) r (by rw [lp]; omega) h).1 (by rw [lp]; omega)
    rw [this, lp, List.drop_of_length_le (by omega), List.append_nil]
  refine ⟨⟨.input _ r (by rw [lp]; omega) h2, ?_⟩, step h2, step h3⟩
  rw [(kept_input hc hf (hasBlocks_buffer ha) r (by rw [lp]; omega) h2).2, lp, Nat.add_mod_right, hn]

theorem hmac_inputs_split {c : Cfg} {a : Alg} : ∀ (ds : List (List Byte))
    {e e' : Source.Hmac.Engine (Source.engineOf c a)}, (Source.engineOf c (.hmac a)).inputs e ds = .ok e' →
    e'.oengine = e.oengine ∧ (Source.engineOf c a).inputs e.iengine ds = .ok e'.iengine
  | [], e, e', h => by cases h; exact ⟨rfl, rfl⟩
  | d :: ds, e, e', h => by
    obtain ⟨e1, h1, h⟩ := Source.bind_ok_of h
    obtain ⟨i, h3, h2⟩ := Source.bind_ok_of h1
    cases h2
    obtain ⟨ho, hi⟩ := hmac_inputs_split ds h
    refine ⟨ho, ?_⟩
    show (do let x ← (Source.engineOf c a).input e.iengine d; (Source.engineOf c a).inputs x ds) = _
    rw [h3]
    exact hi

/-- C106: the key of an HMAC engine can be read from it in memory, whatever has been input since: the
buffer of the outer engine is the key, padded, with every byte xored with `0x5c`. That of the inner engine
is the key xored with `0x36` until the message overwrites it. `k` is the key, or its digest if the key is
longer than a block. -/
theorem C106_hmac {c : Cfg} (hc : c.Valid) {a : Alg} (ha : hasBlocks a = true) (key k : List Byte)
    (hk : (key.length ≤ a.blockSize ∧ k = key) ∨
      (key.length > a.blockSize ∧ k.length ≤ a.blockSize ∧ (Source.engineOf c a).hash key = .ok k))
    {e e'} (hn : Source.Hmac.Engine.new c (Source.engineOf c a) key = .ok e) (ds : List (List Byte))
    (hd : ∀ d ∈ ds, d.length < c.usizeMod)
    (hi : (Source.engineOf c (.hmac a)).inputs e ds = .ok e') :
    (Source.hmacBuffers c a e').2 = (k ++ List.replicate (a.blockSize - k.length) 0).map (· ^^^ 0x5c) ∧
    Kept a.blockSize 0 ((k ++ List.replicate (a.blockSize - k.length) 0).map (· ^^^ 0x36)) ds.flatten
      (Source.hmacBuffers c a e').1 := by
  have hB : (Source.engineOf c a).blockSize = a.blockSize := by cases a <;> first | cases ha; done | rfl
  rw [hmac_new_text] at hn
  have hw : k.length ≤ a.blockSize ∧ Hmac.new c (Source.engineOf c a) key = withBlockKey c (Source.engineOf c a) k := by
    rcases hk with ⟨h, rfl⟩ | ⟨h, h', hh⟩
    · exact ⟨h, new_short c _ (by rw [hB]; exact h)⟩
    · exact ⟨h', new_long c _ (by rw [hB]; exact h) hh⟩
  rw [hw.2] at hn
  cases hx : withBlockKey c (Source.engineOf c a) k with
  | error f => rw [hx] at hn; cases hn
  | ok m =>
    rw [hx] at hn
    cases hn
    obtain ⟨⟨r, h0⟩, h1, h2⟩ := hmac_kept_new hc ha hw.1 hx
    obtain ⟨ho, hin⟩ := hmac_inputs_split ds hi
    refine ⟨(congrArg (Source.bufferOf c a) ho).trans h2, ?_⟩
    have k' := C106_kept hc (fits_of_ok a (hasBlocks_ok ha c).1) (hasBlocks_buffer ha) r ds hd hin
    rw [h1] at k'
    exact k'.mod (by rw [h0, Nat.zero_mod])

/-- C106: so a key of at most a block is read off the engine by xoring. -/
theorem C106_key {c : Cfg} (hc : c.Valid) {a : Alg} (ha : hasBlocks a = true) (key : List Byte)
    (hk : key.length ≤ a.blockSize) {e e'} (hn : Source.Hmac.Engine.new c (Source.engineOf c a) key = .ok e)
    (ds : List (List Byte)) (hd : ∀ d ∈ ds, d.length < c.usizeMod)
    (hi : (Source.engineOf c (.hmac a)).inputs e ds = .ok e') :
    ((Source.hmacBuffers c a e').2.take key.length).map (· ^^^ 0x5c) = key := by
  rw [(C106_hmac hc ha key key (.inl ⟨hk, rfl⟩) hn ds hd hi).1, ← List.map_take, List.map_map,
    List.take_left' rfl]
  have : ((· ^^^ (0x5c : Byte)) ∘ (· ^^^ 0x5c)) = id := by
    funext b
    show b ^^^ 0x5c ^^^ 0x5c = b
    rw [BitVec.xor_assoc, BitVec.xor_self, BitVec.xor_zero]
  rw [this, List.map_id]

/-! ## The theorems are about something -/

example : ((do
      let e ← Source.Hmac.Engine.new Cfg.debug64 (Source.engineOf .debug64 .sha256) [1, 2, 3]
      let e ← (Source.engineOf .debug64 (.hmac .sha256)).inputs e [[7], [8, 9]]
      pure (Source.hmacBuffers .debug64 .sha256 e)).map fun p : List Byte × List Byte => (p.1.take 5, p.2.take 4)) =
    .ok ([7, 8, 9, 0x36, 0x36], [0x5d, 0x5e, 0x5f, 0x5c]) := by
  decide +kernel

example : Kept 4 2 [0, 0, 0, 0] [1, 2, 3] [3, 0, 1, 2] ∧ ¬ Kept 4 2 [0, 0, 0, 0] [1, 2, 3] [0, 0, 1, 2] := by
  unfold Kept
  decide +kernel

end Chf.Props
