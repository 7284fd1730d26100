import Verif.Proofs.Trace
import Verif.Props.Limits

/-!
# Properties C40, C41, C49: what the block functions are given
-/

namespace Chf.Props
open Spec

attribute [local irreducible] iv512_256

/-! ## C40 -/

/-- Two engines that agree on the chaining value, the length and the pending bytes, which are the
first `length % B` bytes of the buffer.  The rest of the buffers is arbitrary. -/
def SamePendingMd {H : Type} (c : Cfg) (B : Nat) (e e' : BlockEngine H) : Prop :=
  e.h = e'.h ∧ e.length = e'.length ∧ e.length < c.usizeMod ∧
  e.buffer.length = B ∧ e'.buffer.length = B ∧
  e.buffer.take (e.length % B) = e'.buffer.take (e.length % B)

/-- The same for every engine with a block buffer; an HMAC engine has two. -/
def SamePending (c : Cfg) : (a : Alg) → (a.engine c).State → (a.engine c).State → Prop
  | .sha1, e, e' => SamePendingMd (H := Arr5 (BitVec 32)) c 64 e e'
  | .sha256, e, e' => SamePendingMd (H := Arr8 (BitVec 32)) c 64 e e'
  | .sha384, e, e' => SamePendingMd (H := Arr8 (BitVec 64)) c 128 e e'
  | .sha512, e, e' => SamePendingMd (H := Arr8 (BitVec 64)) c 128 e e'
  | .sha512_256, e, e' => SamePendingMd (H := Arr8 (BitVec 64)) c 128 e e'
  | .ripemd160, e, e' => SamePendingMd (H := Arr5 (BitVec 32)) c 64 e e'
  | .sha256t _ _ _, e, e' => SamePendingMd (H := Arr8 (BitVec 32)) c 64 e e'
  | .siphash24, _, _ => False
  | .hmac a, e, e' =>
      SamePending c a (Hmac.Engine.iengine (E := a.engine c) e)
        (Hmac.Engine.iengine (E := a.engine c) e') ∧
      SamePending c a (Hmac.Engine.oengine (E := a.engine c) e)
        (Hmac.Engine.oengine (E := a.engine c) e')

theorem samePendingMd_rel {H : Type} {c : Cfg} {P : Md H} (S : Sized c P.B) {e e' : BlockEngine H}
    (h : SamePendingMd c P.B e e') :
    ∃ s m, MdRel c P e s m ∧ MdRel c P e' s m := by
  obtain ⟨h1, h2, h3, h4, h5, h6⟩ := h
  refine ⟨_, _, MdRel.any S h4 h3, ?_⟩
  rw [h1, h2, ← h2, h6, h2]
  exact MdRel.any S h5 (h2 ▸ h3)

theorem samePending_rel {c : Cfg} (hc : c.Valid) : (a : Alg) → (ok : a.Ok c) →
    ∀ {e e' : (a.engine c).State}, SamePending c a e e' →
      ∃ s m, (a.lawful hc ok).Rel e s m ∧ (a.lawful hc ok).Rel e' s m
  | .sha1, _, _, _, h => samePendingMd_rel (P := md1) (sized_64 hc) h
  | .sha256, _, _, _, h => samePendingMd_rel (P := md256) (sized_64 hc) h
  | .sha384, _, _, _, h => samePendingMd_rel (P := md384) (sized_128 hc) h
  | .sha512, _, _, _, h => samePendingMd_rel (P := md512) (sized_128 hc) h
  | .sha512_256, _, _, _, h => samePendingMd_rel (P := md512_256) (sized_128 hc) h
  | .ripemd160, _, _, _, h => samePendingMd_rel (P := mdRmd) (sized_64 hc) h
  | .sha256t _ _ _, _, _, _, h => samePendingMd_rel (P := md256) (sized_64 hc) h
  | .siphash24, _, _, _, h => h.elim
  | .hmac a, ok, e, e', h => by
      obtain ⟨si, mi, hi, hi'⟩ := samePending_rel hc a ok.1 h.1
      obtain ⟨so, mo, ho, ho'⟩ := samePending_rel hc a ok.1 h.2
      refine ⟨(⟨si, mi, so, mo⟩ : HmacStart _), [], ⟨?_, ho⟩, ⟨?_, ho'⟩⟩
      · show (a.lawful hc ok.1).Rel _ si (mi ++ [])
        rw [List.append_nil]; exact hi
      · show (a.lawful hc ok.1).Rel _ si (mi ++ [])
        rw [List.append_nil]; exact hi'

/-- C40: engines that agree on chaining value, length and pending bytes cannot be told apart, whatever
the rest of their buffers holds.  The engines need not be reachable. -/
theorem C40_stale_buffer {c : Cfg} (hc : c.Valid) (a : Alg) (ok : a.Ok c)
    (e e' : (a.engine c).State) (h : SamePending c a e e') : ObsEq c (a.engine c) e e' := by
  obtain ⟨s, m, R, R'⟩ := samePending_rel hc a ok h
  exact obsEq_of hc ok R R' fun _ => rfl

/-- Two sha256 engines with three pending bytes and different rests. -/
example : SamePending .debug64 .sha256
    (⟨[1, 2, 3] ++ List.replicate 61 0, iv256, 67⟩ : Sha256.Engine)
    (⟨[1, 2, 3] ++ List.replicate 61 0xff, iv256, 67⟩ : Sha256.Engine) := by
  refine ⟨rfl, rfl, ?_, rfl, rfl, rfl⟩
  show 67 < 2 ^ 64
  decide

/-! ## C41 -/

/-- The traced run is the run of the engine: same panics, and the digest is the serialization of its
chaining value. -/
theorem C41_trace {c : Cfg} (hc : c.Valid) (a : Alg) (X : BlockHash) (hX : a.blockHash c = some X)
    (ds : List (List Byte)) :
    (a.engine c).hashByteChunks ds = (X.trace c ds >>= fun r => X.out ⟨[], r.1, 0⟩) := by
  obtain ⟨P, T⟩ := a.traceFacts hc hX
  rw [T.hash, T.trace]
  split
  · rfl
  · show _ = X.out _
    rw [T.out_eq]
    rfl

/-- The blocks written down are the ones the chaining value is computed from, by successive calls of
`process_block` starting from that of `new()`. -/
theorem C41_trace_chain {c : Cfg} (hc : c.Valid) (a : Alg) (X : BlockHash)
    (hX : a.blockHash c = some X) (ds : List (List Byte)) {h : X.H} {bs : List (List Byte)}
    (hr : X.trace c ds = .ok (h, bs)) :
    bs.foldlM (fun h b => X.ops.process b h) X.start.h = .ok h := by
  obtain ⟨P, T⟩ := a.traceFacts hc hX
  rw [T.trace] at hr
  split at hr
  · cases hr
  · cases hr
    rw [T.start_eq, chain]
    have hl : ∀ b ∈ blocks P.B (P.padWith ds.flatten (8 * (ds.flatten.length % 2 ^ c.usizeBits) % 2 ^ 64)),
        b.length = X.ops.B := fun b hb => by rw [T.B_eq]; exact mem_blocks_length hb
    generalize blocks P.B _ = bs at hl
    generalize P.iv = h
    induction bs generalizing h with
    | nil => rfl
    | cons b bs ih =>
      rw [List.foldlM_cons, T.process b h (hl b (by simp)), List.foldl_cons]
      exact ih (fun x hx => hl x (by simp [hx])) _

/-- A case of the three theorems: sha256 of three bytes in two slices compresses one block. -/
example : ∃ X, Alg.sha256.blockHash .debug64 = some X ∧ ∃ h b, X.trace .debug64 [[1], [2, 3]] = .ok (h, [b]) :=
  ⟨_, rfl, _, _, by rw [(Sha256.traceFacts (c := .debug64) (by decide)).trace]; rfl⟩

/-- C41: within the limits of the counters the blocks compressed are those of the standard. -/
theorem C41_blocks {c : Cfg} (hc : c.Valid) (a : Alg) (X : BlockHash) (hX : a.blockHash c = some X)
    (ds : List (List Byte)) (hbits : 8 * ds.flatten.length < 2 ^ 64)
    (hbytes : ds.flatten.length + 144 < 2 ^ c.usizeBits) :
    ∃ h, X.trace c ds = .ok (h, standardBlocks a ds.flatten) := by
  have hmod : 8 * (ds.flatten.length % 2 ^ c.usizeBits) % 2 ^ 64 = 8 * ds.flatten.length := by
    rw [Nat.mod_eq_of_lt (a := ds.flatten.length) (by omega), Nat.mod_eq_of_lt hbits]
  have key : ∀ {P : Md X.H}, TraceFacts c a X P → 8 ≤ P.L → 8 * P.L ≤ P.B →
      ∃ h, X.trace c ds = .ok (h, blocks P.B (pad P.B P.L P.enc ds.flatten)) := by
    intro P T h8 h8'
    have hp := paddedLen_le (P := P) T.B_ok h8 h8' ds.flatten.length
    rw [T.trace, if_neg (fun h => h.2 ⟨by omega, hbits⟩), hmod]
    exact ⟨_, rfl⟩
  cases a with
  | sha1 => cases hX; exact key (Sha1.traceFacts hc) (Nat.le_refl 8) (Nat.le_refl 64)
  | sha256 => cases hX; exact key (Sha256.traceFacts hc) (Nat.le_refl 8) (Nat.le_refl 64)
  | sha384 => cases hX; exact key (Sha384.traceFacts hc) (show 8 ≤ 16 by decide) (Nat.le_refl 128)
  | sha512 => cases hX; exact key (Sha512.traceFacts hc) (show 8 ≤ 16 by decide) (Nat.le_refl 128)
  | sha512_256 =>
    cases hX; exact key (Sha512_256.traceFacts hc) (show 8 ≤ 16 by decide) (Nat.le_refl 128)
  | ripemd160 => cases hX; exact key (Ripemd160.traceFacts hc) (Nat.le_refl 8) (Nat.le_refl 64)
  | siphash24 => cases hX
  | sha256t _ _ _ => cases hX
  | hmac _ => cases hX

example : Cfg.debug64.Valid ∧ (Alg.sha384.blockHash .debug64).isSome = true ∧
    8 * ([[1, 2, 3]] : List (List Byte)).flatten.length < 2 ^ 64 ∧
    ([[1, 2, 3]] : List (List Byte)).flatten.length + 144 < 2 ^ Cfg.debug64.usizeBits := by decide

/-- C41: the blocks compressed determine the message, for messages of any length, even where the
counters wrap. -/
theorem C41_injective {c : Cfg} (hc : c.Valid) (a : Alg) (X : BlockHash) (hX : a.blockHash c = some X)
    (ds ds' : List (List Byte)) {h h' : X.H} {bs : List (List Byte)}
    (hr : X.trace c ds = .ok (h, bs)) (hr' : X.trace c ds' = .ok (h', bs)) :
    ds.flatten = ds'.flatten := by
  obtain ⟨P, T⟩ := a.traceFacts hc hX
  have hpos : 0 < P.B := by have := T.B_ok; omega
  have key : ∀ {ds h}, X.trace c ds = .ok (h, bs) →
      bs = blocks P.B (P.padWith ds.flatten (8 * (ds.flatten.length % 2 ^ c.usizeBits) % 2 ^ 64)) := by
    intro ds h hr
    rw [T.trace] at hr
    split at hr
    · cases hr
    · cases hr; rfl
  exact Md.padWith_inj hc T.B_ok T.enc
    (blocks_inj hpos (Md.padWith_dvd hpos T.enc _ _) (Md.padWith_dvd hpos T.enc _ _)
      ((key hr).symm.trans (key hr')))

/-- Two splits of a message do compress the same blocks. -/
example : ∃ X, Alg.sha256.blockHash .debug64 = some X ∧ ∃ h bs,
    X.trace .debug64 [[1], [2, 3]] = .ok (h, bs) ∧ X.trace .debug64 [[1, 2], [3]] = .ok (h, bs) :=
  ⟨_, rfl, _, _, by rw [(Sha256.traceFacts (c := .debug64) (by decide)).trace]; rfl,
    by rw [(Sha256.traceFacts (c := .debug64) (by decide)).trace]; rfl⟩

/-! ## C49 -/

/-- The hash functions whose digest is the whole final chaining value. -/
def untruncated : Alg → Bool
  | .sha1 | .sha256 | .sha512 | .ripemd160 => true
  | _ => false

theorem flatMap_inj {α β : Type} {f : α → List β} {k : Nat} (hl : ∀ x, (f x).length = k)
    (hi : ∀ x y, f x = f y → x = y) : ∀ {l l' : List α}, l.length = l'.length →
      l.flatMap f = l'.flatMap f → l = l'
  | [], [], _, _ => rfl
  | [], _ :: _, h, _ => by cases h
  | _ :: _, [], h, _ => by cases h
  | x :: l, y :: l', h, he => by
      rw [List.flatMap_cons, List.flatMap_cons] at he
      obtain ⟨h1, h2⟩ := List.append_inj he (by rw [hl, hl])
      rw [hi x y h1, flatMap_inj hl hi (by simpa using h) h2]

theorem toNat_be_inj {w k : Nat} (hw : 2 ^ w = 256 ^ k) (x y : BitVec w)
    (h : beBytes k x.toNat = beBytes k y.toNat) : x = y :=
  BitVec.eq_of_toNat_eq (beBytes_inj (hw ▸ x.isLt) (hw ▸ y.isLt) h)

theorem toNat_le_inj {w k : Nat} (hw : 2 ^ w = 256 ^ k) (x y : BitVec w)
    (h : leBytes k x.toNat = leBytes k y.toNat) : x = y :=
  BitVec.eq_of_toNat_eq (leBytes_inj (hw ▸ x.isLt) (hw ▸ y.isLt) h)

theorem Arr8.toList_inj {α} {h h' : Arr8 α} (e : h.toList = h'.toList) : h = h' := by
  cases h; cases h'
  simp only [Arr8.toList, List.cons.injEq, and_true] at e
  obtain ⟨h0, h1, h2, h3, h4, h5, h6, h7⟩ := e
  rw [h0, h1, h2, h3, h4, h5, h6, h7]

theorem Arr5.toList_inj {α} {h h' : Arr5 α} (e : h.toList = h'.toList) : h = h' := by
  cases h; cases h'
  simp only [Arr5.toList, List.cons.injEq, and_true] at e
  obtain ⟨h0, h1, h2, h3, h4⟩ := e
  rw [h0, h1, h2, h3, h4]

theorem words1_inj {h h' : Arr5 (BitVec 32)} (e : serialize5 h = serialize5 h') : h = h' :=
  Arr5.toList_inj (flatMap_inj (fun _ => length_beBytes 4 _) (toNat_be_inj (by decide)) rfl e)

theorem wordsRmd_inj {h h' : Arr5 (BitVec 32)} (e : serializeRmd h = serializeRmd h') : h = h' :=
  Arr5.toList_inj (flatMap_inj (fun _ => length_leBytes 4 _) (toNat_le_inj (by decide)) rfl e)

theorem words256_inj {h h' : Arr8 (BitVec 32)} (e : serialize8 h = serialize8 h') : h = h' :=
  Arr8.toList_inj (flatMap_inj (fun _ => length_beBytes 4 _) (toNat_be_inj (by decide)) rfl e)

theorem words512_inj {h h' : Arr8 (BitVec 64)} (e : serialize8 h = serialize8 h') : h = h' :=
  Arr8.toList_inj (flatMap_inj (fun _ => length_beBytes 8 _) (toNat_be_inj (by decide)) rfl e)

/-- Hashing `ds` and hashing `ds'` make two different calls of `process_block` with the same result. -/
def RunsCollide (c : Cfg) (X : BlockHash) (ds ds' : List (List Byte)) : Prop :=
  ∃ r r', X.calls c ds = .ok r ∧ X.calls c ds' = .ok r' ∧ ∃ x ∈ r.2, ∃ x' ∈ r'.2, x ≠ x' ∧
    ∃ h, X.ops.process x.2 x.1 = .ok h ∧ X.ops.process x'.2 x'.1 = .ok h

/-- C49: hashing two different messages with the same digest makes two different calls of
`process_block` with the same result, for messages within the limits of the counters and cut in any
way.  So no weakness is added by buffering and padding. -/
theorem C49_collision {c : Cfg} (hc : c.Valid) (a : Alg) (ha : untruncated a = true) (X : BlockHash)
    (hX : a.blockHash c = some X) (ds ds' : List (List Byte)) (d : List Byte)
    (hm : 8 * ds.flatten.length < 2 ^ 64) (hm' : 8 * ds'.flatten.length < 2 ^ 64)
    (hw : ds.flatten.length < 2 ^ c.usizeBits) (hw' : ds'.flatten.length < 2 ^ c.usizeBits)
    (hd : (a.engine c).hashByteChunks ds = .ok d) (hd' : (a.engine c).hashByteChunks ds' = .ok d)
    (hne : ds.flatten ≠ ds'.flatten) : RunsCollide c X ds ds' := by
  have key : ∀ {P : Md X.H}, TraceFacts c a X P → (∀ h h', P.words h = P.words h' → h = h') →
      (∀ h, (P.words h).length = P.out) → RunsCollide c X ds ds' := by
    intro P T inj hlen
    have hpos : 0 < P.B := by have := T.B_ok; omega
    have dig : ∀ ds : List (List Byte), 8 * ds.flatten.length < 2 ^ 64 →
        ds.flatten.length < 2 ^ c.usizeBits → (a.engine c).hashByteChunks ds = .ok d →
        d = P.words (chain P.B P.compress P.iv (pad P.B P.L P.enc ds.flatten)) ∧
        X.calls c ds = .ok (chain P.B P.compress P.iv (pad P.B P.L P.enc ds.flatten),
          steps P.compress P.iv (blocks P.B (pad P.B P.L P.enc ds.flatten))) := by
      intro ds hx hx' h
      rw [T.hash] at h
      rw [T.calls]
      split at h
      · cases h
      · next hn =>
        rw [if_neg hn]
        cases h
        rw [Nat.mod_eq_of_lt hx', Nat.mod_eq_of_lt hx, Md.digestWith,
          List.take_of_length_le (Nat.le_of_eq (hlen _))]
        exact ⟨rfl, rfl⟩
    obtain ⟨e1, c1⟩ := dig ds hm hw hd
    obtain ⟨e2, c2⟩ := dig ds' hm' hw' hd'
    obtain ⟨x, hx, x', hx', hxne, hxe⟩ :=
      collide_of_pad hpos T.L_le T.enc hm hm' hne P.iv (inj _ _ (e1.symm.trans e2))
    have lb : ∀ {m : List Byte} {x}, x ∈ steps P.compress P.iv (blocks P.B m) → x.2.length = X.ops.B := by
      intro m x hx
      have := List.mem_map_of_mem (f := Prod.snd) hx
      rw [map_snd_steps] at this
      rw [T.B_eq]
      exact mem_blocks_length this
    exact ⟨_, _, c1, c2, x, hx, x', hx', hxne, _, T.process _ _ (lb hx), by
      rw [T.process _ _ (lb hx'), hxe]⟩
  cases a with
  | sha1 =>
    cases hX
    exact key (Sha1.traceFacts hc) (fun _ _ => words1_inj) length_serialize5
  | sha256 =>
    cases hX
    exact key (Sha256.traceFacts hc) (fun _ _ => words256_inj) length_serialize8_32
  | sha512 =>
    cases hX
    exact key (Sha512.traceFacts hc) (fun _ _ => words512_inj) length_serialize8_64
  | ripemd160 =>
    cases hX
    exact key (Ripemd160.traceFacts hc) (fun _ _ => wordsRmd_inj) length_serializeRmd
  | sha384 | sha512_256 | siphash24 | sha256t _ _ _ | hmac _ => cases ha

end Chf.Props
