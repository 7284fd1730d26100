import Verif.Spec.TextMulti
import Verif.Props.TextShattered

/-!
# C107: many messages with one digest from a few collisions, in the translated text
-/

namespace Chf.Props
open Chf Chf.Rs Chf.Spec

theorem midAfter_append {c : Cfg} {a : Alg} {H : Type} {P : Md H} (t : Source.MdText c a P) {x y z : List Byte}
    (hx : P.B ∣ x.length) (hl : x.length = y.length) (hb : (x ++ z).length < 2 ^ c.usizeBits)
    (h : midAfter c a x = midAfter c a y) : midAfter c a (x ++ z) = midAfter c a (y ++ z) := by
  rw [List.length_append] at hb
  rw [t.mid x (by omega), t.mid y (by omega)] at h
  have h' := t.inj _ _ (MidVal.bytes.inj (Except.ok.inj h))
  rw [t.mid _ (by rw [List.length_append]; omega), t.mid _ (by rw [List.length_append]; omega),
    chain_append t.pos _ _ _ _ hx, chain_append t.pos _ _ _ _ (hl ▸ hx), h']

theorem choices_length : ∀ {ps : List (List Byte × List Byte)}, (∀ p ∈ ps, p.1.length = p.2.length) →
    ∀ m ∈ choices ps, m.length = (ps.map fun p => p.1.length).sum
  | [], _, m, h => by rw [List.mem_singleton.1 h]; rfl
  | (x, y) :: ps, hl, m, h => by
    have ih := choices_length (ps := ps) fun p hp => hl p (List.mem_cons_of_mem _ hp)
    have hxy : x.length = y.length := hl (x, y) (List.mem_cons_self ..)
    rw [List.map_cons, List.sum_cons]
    rcases List.mem_append.1 h with h | h <;> obtain ⟨n, hn, rfl⟩ := List.mem_map.1 h <;>
      rw [List.length_append, ih n hn]
    rw [hxy]

theorem collideInTurn_lengths {c : Cfg} {a : Alg} : ∀ {ps : List (List Byte × List Byte)} {pre : List Byte},
    CollideInTurn c a pre ps → ∀ p ∈ ps, p.1.length = p.2.length ∧ a.blockSize ∣ p.1.length
  | (x, y) :: ps, pre, h, p, hp => by
    rcases List.mem_cons.1 hp with rfl | hp
    · exact ⟨h.1, h.2.1⟩
    · exact collideInTurn_lengths h.2.2.2 p hp

theorem multi_mid {c : Cfg} {a : Alg} {H : Type} {P : Md H} (t : Source.MdText c a P) (hB : a.blockSize = P.B) :
    ∀ {ps : List (List Byte × List Byte)} {pre : List Byte}, CollideInTurn c a pre ps →
    P.B ∣ pre.length → pre.length + (ps.map fun p => p.1.length).sum < 2 ^ c.usizeBits →
    ∀ m ∈ choices ps, ∀ m' ∈ choices ps, midAfter c a (pre ++ m) = midAfter c a (pre ++ m')
  | [], pre, _, _, _, m, hm, m', hm' => by rw [List.mem_singleton.1 hm, List.mem_singleton.1 hm']
  | (x, y) :: ps, pre, ⟨hl, hd, he, hr⟩, hp, hb, m, hm, m', hm' => by
    rw [List.map_cons, List.sum_cons] at hb
    rw [hB] at hd
    have ih := multi_mid t hB hr (by rw [List.length_append]; exact Nat.dvd_add hp hd)
      (by rw [List.length_append]; dsimp only at hb; omega)
    have len := choices_length fun p hp => (collideInTurn_lengths hr p hp).1
    -- every choice is as one with the first part
    have first : ∀ m ∈ choices ((x, y) :: ps), ∃ n ∈ choices ps,
        midAfter c a (pre ++ m) = midAfter c a (pre ++ x ++ n) := by
      intro m hm
      rcases List.mem_append.1 hm with h | h <;> obtain ⟨n, hn, rfl⟩ := List.mem_map.1 h
      · exact ⟨n, hn, by rw [List.append_assoc]⟩
      · refine ⟨n, hn, ?_⟩
        rw [← List.append_assoc]
        refine (midAfter_append t ?_ ?_ ?_ he).symm
        · rw [List.length_append]; exact Nat.dvd_add hp hd
        · rw [List.length_append, List.length_append, hl]
        · rw [List.length_append, List.length_append, len n hn]; dsimp only at hb; omega
    obtain ⟨n, hn, h1⟩ := first m hm
    obtain ⟨n', hn', h2⟩ := first m' hm'
    rw [h1, h2]
    exact ih n hn n' hn'

/-- C107: if for each of `k` places two parts are known after which the midstates are equal, each found
after the parts before it, then all the messages that can be made by choosing parts give engines with one
midstate and one count, and have one digest, with every continuation. -/
theorem C107_multi {c : Cfg} (hc : c.Valid) (a : Alg) (ha : hasBlocks a = true)
    (ps : List (List Byte × List Byte)) (h : CollideInTurn c a [] ps)
    (hb : (ps.map fun p => p.1.length).sum < 2 ^ c.usizeBits) :
    ∀ m ∈ choices ps, ∀ m' ∈ choices ps, midAfter c a m = midAfter c a m' ∧
      ∀ ds : List (List Byte), (∀ d ∈ ds, d.length < 2 ^ c.usizeBits) →
        (Source.engineOf c a).hashByteChunks (m :: ds) = (Source.engineOf c a).hashByteChunks (m' :: ds) := by
  intro m hm m' hm'
  have l := collideInTurn_lengths h
  have len := choices_length fun p hp => (l p hp).1
  have hmid : midAfter c a m = midAfter c a m' := by
    cases a with
    | sha1 => exact multi_mid (Source.Sha1.mdText hc) rfl h ⟨0, rfl⟩ (by simpa using hb) m hm m' hm'
    | sha256 => exact multi_mid (Source.Sha256.mdText hc) rfl h ⟨0, rfl⟩ (by simpa using hb) m hm m' hm'
    | sha384 => exact multi_mid (Source.Sha384.mdText hc) rfl h ⟨0, rfl⟩ (by simpa using hb) m hm m' hm'
    | sha512 => exact multi_mid (Source.Sha512.mdText hc) rfl h ⟨0, rfl⟩ (by simpa using hb) m hm m' hm'
    | sha512_256 => exact multi_mid (Source.Sha512_256.mdText hc) rfl h ⟨0, rfl⟩ (by simpa using hb) m hm m' hm'
    | ripemd160 => exact multi_mid (Source.Ripemd160.mdText hc) rfl h ⟨0, rfl⟩ (by simpa using hb) m hm m' hm'
    | _ => cases ha
  have hdvd : a.blockSize ∣ m.length := by
    rw [len m hm]
    clear hb hm hm' hmid h len
    induction ps with
    | nil => exact ⟨0, rfl⟩
    | cons p ps ih =>
      rw [List.map_cons, List.sum_cons]
      exact Nat.dvd_add (l p (List.mem_cons_self ..)).2 (ih fun q hq => l q (List.mem_cons_of_mem _ hq))
  obtain ⟨_, _, _, _, _, h5⟩ := C90_continue hc a ha m m' ((len m hm).trans (len m' hm').symm) hdvd
    (by rw [len m hm]; exact hb) hmid
  exact ⟨hmid, h5⟩

/-- C107: there are `2 ^ k` such messages, and if the two parts of each place differ they are all
different. -/
theorem C107_count : ∀ (ps : List (List Byte × List Byte)), (∀ p ∈ ps, p.1.length = p.2.length ∧ p.1 ≠ p.2) →
    (choices ps).length = 2 ^ ps.length ∧ (choices ps).Nodup
  | [], _ => ⟨rfl, by unfold choices; exact List.nodup_cons.2 ⟨List.not_mem_nil, List.nodup_nil⟩⟩
  | (x, y) :: ps, h => by
    obtain ⟨n, d⟩ := C107_count ps fun p hp => h p (List.mem_cons_of_mem _ hp)
    obtain ⟨hl, hne⟩ := h (x, y) (List.mem_cons_self ..)
    unfold choices
    refine ⟨?_, List.nodup_append.2 ⟨?_, ?_, ?_⟩⟩
    · rw [List.length_append, List.length_map, List.length_map, n, List.length_cons, Nat.pow_succ]
      omega
    · exact List.pairwise_map.2 (d.imp fun hab e => hab (List.append_cancel_left e))
    · exact List.pairwise_map.2 (d.imp fun hab e => hab (List.append_cancel_left e))
    · intro u hu v hv e
      obtain ⟨u', _, rfl⟩ := List.mem_map.1 hu
      obtain ⟨v', _, rfl⟩ := List.mem_map.1 hv
      exact hne (List.append_inj e hl).1

/-- C107: the published collision of SHA-1 gives the first place: whatever follows it that collides in turn
doubles the number of messages again. -/
theorem C107_sha1 {c : Cfg} (hc : c.Valid) (ps : List (List Byte × List Byte))
    (h : CollideInTurn c .sha1 shattered1 ps)
    (hb : 320 + (ps.map fun p => p.1.length).sum < 2 ^ c.usizeBits) :
    ∀ m ∈ choices ((shattered1, shattered2) :: ps), ∀ m' ∈ choices ((shattered1, shattered2) :: ps),
      ∀ ds : List (List Byte), (∀ d ∈ ds, d.length < 2 ^ c.usizeBits) →
        (Source.engineOf c .sha1).hashByteChunks (m :: ds) = (Source.engineOf c .sha1).hashByteChunks (m' :: ds) := by
  have h' : CollideInTurn c .sha1 [] ((shattered1, shattered2) :: ps) :=
    ⟨length_shattered1.trans length_shattered2.symm, by rw [length_shattered1]; exact ⟨5, rfl⟩,
      shattered_mid hc, h⟩
  have hb' : (((shattered1, shattered2) :: ps).map fun p => p.1.length).sum < 2 ^ c.usizeBits := by
    rw [List.map_cons, List.sum_cons, length_shattered1]
    exact hb
  exact fun m hm m' hm' => (C107_multi hc .sha1 rfl _ h' hb' m hm m' hm').2

end Chf.Props
